import Verif.Model.Num
import Mathlib.Algebra.Notation.Defs

/-! # Model of `pr2_mechanism_model/src/joint.cpp` and `joint.h` -/

namespace Pr2

/-- `urdf::Joint` types (external library). (used at joint.cpp:77-122 and chain.cpp:69) -/
inductive JType where
  | unknown | revolute | continuous | prismatic | floating | planar | fixed
deriving DecidableEq, Repr

/-- `urdf::JointLimits` (the fields used). (external; used at joint.cpp:88-122) -/
structure JLimits (F : Type) where
  lower : F
  upper : F
  effort : F
  velocity : F

/-- `urdf::JointSafety`. (external; used at joint.cpp:88-122) -/
structure JSafety (F : Type) where
  softLower : F
  softUpper : F
  kPosition : F
  kVelocity : F

/-- `urdf::JointCalibration`; `none`: the pointer is null. (external; used at joint_calibration_simulator.cpp:48-89) -/
structure JCalib (F : Type) where
  rising : Option F
  falling : Option F

/-- `urdf::Joint` (the fields used); `none`: the pointer is null. (external; joint.h:80-85) -/
structure UJoint (F : Type) where
  name : String
  type : JType
  limits : Option (JLimits F)
  safety : Option (JSafety F)
  calibration : Option (JCalib F) := none

/-- `JointStatistics` (joint.h:48-67). -/
structure JStats (F : Type) where
  odometer : F
  minPos : F
  maxPos : F
  maxVel : F
  maxEff : F
  violated : Bool
  initialized : Bool
  oldPos : F

/-- `JointState` (joint.h:71-111). -/
structure JState (F : Type) where
  joint : UJoint F
  position : F
  velocity : F
  measured : F
  stats : JStats F
  commanded : F
  calibrated : Bool
  reference : F

section
variable {F : Type} [FCmp F] [Zero F] [Neg F] [Sub F] [Mul F] [Add F]

/-- Constructor of `JointStatistics` (joint.h:51-53).  `old_position_` is not initialised there; `old` is its arbitrary value. -/
def JStats.fresh (old : F) : JStats F := ⟨0, 0, 0, 0, 0, false, false, old⟩

/-- Constructor of `JointState` (joint.h:109-110). -/
def JState.fresh (j : UJoint F) (old : F) : JState F := ⟨j, 0, 0, 0, .fresh old, 0, false, 0⟩

/-- What `JointStatistics::update` reads of the joint (joint.cpp:46-63). -/
structure JSample (F : Type) where
  guarded : Bool       -- `joint_->safety && joint_->limits`
  position : F
  velocity : F
  measured : F
  commanded : F

/-- What `JointStatistics::update` reads of the joint state (joint.cpp:46-63). -/
def JState.sample (s : JState F) : JSample F :=
  ⟨s.joint.safety.isSome && s.joint.limits.isSome, s.position, s.velocity, s.measured, s.commanded⟩

/-- `JointStatistics::update` (joint.cpp:46-63). -/
def JStats.update (st : JStats F) (x : JSample F) : JStats F :=
  if st.initialized then
    { st with
      odometer := st.odometer + fabs (st.oldPos - x.position)                                                   -- 49
      violated := st.violated || (x.guarded && FCmp.lt (fabs x.measured) (fabs x.commanded))                     -- 50-51
      minPos := fmin x.position st.minPos                                                                       -- 52
      maxPos := fmax x.position st.maxPos                                                                       -- 53
      maxVel := fmax (fabs x.velocity) st.maxVel                                                                -- 54
      maxEff := fmax (fabs x.measured) st.maxEff                                                                -- 55
      oldPos := x.position }                                                                                    -- 62
  else { st with minPos := x.position, maxPos := x.position, initialized := true, oldPos := x.position }         -- 58-62

/-- `JointStatistics::reset` (joint.cpp:66-74). -/
def JStats.reset (st : JStats F) : JStats F :=
  { st with minPos := st.maxPos, maxPos := st.minPos, maxVel := 0, maxEff := 0, violated := false }

/-- Velocity bounds (joint.cpp:97-98, 103-113): `(vel_low, vel_high)`. -/
def JState.velBounds (s : JState F) (lim : JLimits F) (saf : JSafety F) : F × F :=
  if s.calibrated && (s.joint.type == .revolute || s.joint.type == .prismatic) then
    (cmin lim.velocity (cmax (-lim.velocity) (-saf.kPosition * (s.position - saf.softLower))),
     cmax (-lim.velocity) (cmin lim.velocity (-saf.kPosition * (s.position - saf.softUpper))))
  else (-lim.velocity, lim.velocity)

/-- `getLimits` (joint.cpp:88-122): `(effort_low, effort_high)`.  `big` is `std::numeric_limits<double>::max()`. -/
def JState.getLimits (big : F) (s : JState F) : F × F :=
  match s.joint.safety, s.joint.limits with
  | some saf, some lim =>
    let v := s.velBounds lim saf
    (cmin lim.effort (cmax (-lim.effort) (-saf.kVelocity * (s.velocity - v.1))),
     cmax (-lim.effort) (cmin lim.effort (-saf.kVelocity * (s.velocity - v.2))))
  | _, _ => (-big, big)

/-- `enforceLimits` (joint.cpp:77-86). -/
def JState.enforceLimits (big : F) (s : JState F) : JState F :=
  let l := s.getLimits big
  { s with commanded := cmin (cmax s.commanded l.1) l.2 }

end

end Pr2
