import Verif.Model.Cycle

/-!
# Model of `pr2_mechanism_diagnostics`

`JointStats`, `ControllerStats` and `CtrlJntDiagnosticPublisher`.  Times and durations are integers (nanoseconds); as elsewhere `ros::Time` and
`ros::Duration` do not overflow.  `ros::Time::now()` is a parameter of everything that calls it.
-/

namespace Pr2

/-- `boost::math::isnormal` (external): the number is neither zero, subnormal, infinite nor NaN. (used at joint_diagnostics.h:60-67) -/
class FNormal (F : Type) where
  normal : F → Bool

/-- `diagnostic_msgs::DiagnosticStatus` levels. (external; used at joint_diagnostics.cpp:92-102, controller_diagnostics.cpp:80-89) -/
inductive Level where
  | ok | warn | error
deriving DecidableEq, Repr

/-- The value of a key-value pair before it is printed (printing is not modelled). (joint_diagnostics.cpp:105-129, controller_diagnostics.cpp:92-97) -/
inductive DVal (F : Type) where
  | num (x : F)
  | int (n : Int)
  | bool (b : Bool)
  | text (s : String)
  | time (ns : Int)

/-- `diagnostic_updater::DiagnosticStatusWrapper` (external), the fields used. (used at joint_diagnostics.cpp:87, controller_diagnostics.cpp:75) -/
structure DStatus (F : Type) where
  level : Level
  message : String
  name : String
  values : List (String × DVal F)

/-- A new status: level 0, no message. (joint_diagnostics.cpp:87, controller_diagnostics.cpp:75, pr2_mechanism_diagnostics.cpp:112) -/
def DStatus.fresh (F : Type) : DStatus F := ⟨.ok, "", "", []⟩

/-- `summary(level, message)` overwrites both. (external; used at joint_diagnostics.cpp:92-102) -/
def DStatus.summary {F : Type} (d : DStatus F) (l : Level) (m : String) : DStatus F := { d with level := l, message := m }

/-- `add(key, value)`. (external; used at joint_diagnostics.cpp:105-129) -/
def DStatus.add {F : Type} (d : DStatus F) (k : String) (v : DVal F) : DStatus F := { d with values := d.values ++ [(k, v)] }

/-! ## Joints -/

/-- `JointStats` (joint_diagnostics.h:76-97). -/
structure DJoint (F : Type) where
  updateTime : Int
  needsReset : Bool
  name : String
  position : F
  velocity : F
  measured : F
  commanded : F
  calibrated : Bool
  violated : Bool
  odometer : F
  maxPos : F
  minPos : F
  maxVel : F
  maxEff : F

section
variable {F : Type} [FCmp F] [Zero F] [Neg F] [FNormal F]

/-- `is_valid` (joint_diagnostics.h:60-67). -/
def isValid (t : F) : Bool := if FCmp.eq t 0 then true else FNormal.normal t

/-- Constructor (joint_diagnostics.cpp:58-72); `big` is `numeric_limits<double>::max()` and `-1 * big` is written `-big`.
`updateTime` is default constructed (zero). -/
def DJoint.fresh (big : F) (name : String) : DJoint F :=
  ⟨0, true, name, 0, 0, 0, 0, false, false, 0, -big, big, -big, -big⟩

/-- `reset_vals` (joint_diagnostics.cpp:74-82). -/
def DJoint.resetVals (big : F) (d : DJoint F) : DJoint F :=
  { d with needsReset := false, maxPos := -big, minPos := big, maxVel := -big, maxEff := -big }

/-- joint_diagnostics.cpp:147-153.  Note the first argument of `min`. -/
def DJoint.extremes (d : DJoint F) (js : SRow F) : DJoint F :=
  let maxPos := cmax d.maxPos js.maxPos                        -- 149
  { d with
    maxPos := maxPos
    minPos := cmin maxPos js.minPos                            -- 150
    maxVel := cmax d.maxVel js.maxVel                          -- 151
    maxEff := cmax d.maxEff js.maxEff }                        -- 152

/-- `update` (joint_diagnostics.cpp:136-166); `now` is `ros::Time::now()` at line 163. -/
def DJoint.update (big : F) (d : DJoint F) (js : SRow F) (now : Int) : DJoint F × Bool :=
  if d.name ≠ js.name then (d, false)                          -- 138-142
  else
    let d := if d.needsReset then d.resetVals big else d       -- 144-145
    let d := if js.calibrated then d.extremes js else d        -- 147-153
    ({ d with position := js.position, velocity := js.velocity, measured := js.measured, commanded := js.commanded,
              calibrated := js.calibrated, violated := js.violated, odometer := js.odometer, updateTime := now }, true)  -- 155-165

/-- The summary part of `toDiagStat` (joint_diagnostics.cpp:87-103). -/
def DJoint.summaries (d : DJoint F) (now : Int) : DStatus F :=
  let st := { DStatus.fresh F with name := "Joint (" ++ d.name ++ ")" }                                  -- 89
  let st := if d.calibrated then st.summary .ok "OK" else st.summary .warn "Uncalibrated"                 -- 91-94
  let st := if now - d.updateTime > 3000000000 then st.summary .error "No updates" else st                -- 96-97
  if !isValid d.position || !isValid d.velocity || !isValid d.measured || !isValid d.commanded then       -- 99-103
    st.summary .error "NaN Values in Joint State" else st

/-- `toDiagStat` (joint_diagnostics.cpp:85-134): the status, and the object (whose `needs_reset` is mutable). -/
def DJoint.toDiag (d : DJoint F) (now : Int) : DStatus F × DJoint F :=
  let st := d.summaries now
  let st := st.add "Position" (.num d.position)                -- 105-108
  let st := st.add "Velocity" (.num d.velocity)
  let st := st.add "Measured Effort" (.num d.measured)
  let st := st.add "Commanded Effort" (.num d.commanded)
  let st := st.add "Calibrated" (.bool d.calibrated)           -- 110
  let st := st.add "Odometer" (.num d.odometer)                -- 112
  let st := if d.calibrated then                               -- 114-127
      (((st.add "Max Position" (.num d.maxPos)).add "Min Position" (.num d.minPos)).add "Max Abs. Velocity" (.num d.maxVel)).add
        "Max Abs. Effort" (.num d.maxEff)
    else (((st.add "Max Position" (.text "N/A")).add "Min Position" (.text "N/A")).add "Max Abs. Velocity" (.text "N/A")).add
        "Max Abs. Effort" (.text "N/A")
  let st := st.add "Limits Hit" (.bool d.violated)             -- 129
  (st, { d with needsReset := true })                          -- 131-133

end

/-! ## Controllers -/

/-- `pr2_mechanism_msgs::ControllerStatistics`, the fields used (durations in ns). (external; used at controller_diagnostics.cpp:52-71) -/
structure CRow where
  name : String
  timestamp : Int
  running : Bool
  maxTime : Int
  meanTime : Int
  varTime : Int
  overruns : UInt32
  lastOverrun : Int

/-- `ControllerStats` (controller_diagnostics.h:58-74); `overruns` is an `int`. -/
structure DCtrl where
  updateTime : Int
  name : String
  timestamp : Int
  running : Bool
  maxTime : Int
  meanTime : Int
  varTime : Int
  overruns : Int
  lastOverrun : Int
  disableWarnings : Bool

/-- Constructor (controller_diagnostics.cpp:43-50). -/
def DCtrl.fresh (name : String) (disable : Bool) : DCtrl := ⟨0, name, 0, false, 0, 0, 0, 0, 0, disable⟩

/-- Conversion of an `uint32_t` to `int` (modulo 2³², the behaviour of the supported compilers). (controller_diagnostics.h:69 and the assignment in controller_diagnostics.cpp:52-71) -/
def toInt32 (n : UInt32) : Int := if n.toNat < 2 ^ 31 then n.toNat else (n.toNat : Int) - 2 ^ 32

/-- `update` (controller_diagnostics.cpp:52-71). -/
def DCtrl.update (d : DCtrl) (cs : CRow) (now : Int) : DCtrl × Bool :=
  if d.name ≠ cs.name then (d, false)
  else ({ d with timestamp := cs.timestamp, running := cs.running, maxTime := cs.maxTime, meanTime := cs.meanTime, varTime := cs.varTime,
                 overruns := toInt32 cs.overruns, lastOverrun := cs.lastOverrun, updateTime := now }, true)

/-- `shouldDiscard` (controller_diagnostics.h:82). -/
def DCtrl.shouldDiscard (d : DCtrl) (now : Int) : Bool := decide (now - d.updateTime > 3000000000)

/-- `toDiagStat` (controller_diagnostics.cpp:73-100).  Simplification: the conversions to whole microseconds and to percent are exact (towards zero),
not through doubles. -/
def DCtrl.toDiag (F : Type) (d : DCtrl) (now : Int) : DStatus F :=
  let broke := "!!! Broke Realtime, used more than 1000 micro seconds in update loop"
  let st := { DStatus.fresh F with name := "Controller (" ++ d.name ++ ")" }                             -- 77
  let st := if d.running then st.summary .ok "Running" else st.summary .ok "Stopped"                      -- 79-82
  let st := if !d.disableWarnings && decide (d.overruns > 0) then                                         -- 84-90
      (if now - d.lastOverrun < 30000000000 then st.summary .warn broke else st.summary .ok broke)
    else st
  let st := st.add "Avg Update Time (usec)" (.int (d.meanTime.tdiv 1000))                                 -- 92-97
  let st := st.add "Max Update Time (usec)" (.int (d.maxTime.tdiv 1000))
  let st := st.add "Variance Update Time (usec)" (.int (d.varTime.tdiv 1000))
  let st := st.add "Percent of Cycle Time Used" (.int (d.meanTime.tdiv 10000))
  let st := st.add "Number of Control Loop Overruns" (.int d.overruns)
  st.add "Timestamp of Last Overrun (sec)" (.time d.lastOverrun)

/-! ## The node -/

/-- `std::map<std::string, V>` as its in-order traversal.  Simplification: strings are ordered by code points (which for UTF-8 is the bytewise order
of `std::string`). (pr2_mechanism_diagnostics.h:65-66) -/
abbrev SMap (V : Type) := List (String × V)

/-- Lookup. (pr2_mechanism_diagnostics.cpp:68-81) -/
def SMap.find {V : Type} (m : SMap V) (k : String) : Option V := (List.find? (fun p => p.1 == k) m).map (·.2)

/-- `m[k] = v`: replaces the value or inserts the key at its place in the order. (pr2_mechanism_diagnostics.cpp:68-81) -/
def SMap.put {V : Type} (m : SMap V) (k : String) (v : V) : SMap V :=
  match m with
  | [] => [(k, v)]
  | p :: m => if p.1 = k then (k, v) :: m else if p.1 < k then p :: SMap.put m k v else (k, v) :: p :: m

/-- `m.erase(k)`. (pr2_mechanism_diagnostics.cpp:107) -/
def SMap.erase {V : Type} (m : SMap V) (k : String) : SMap V := List.filter (fun p => !(p.1 == k)) m

/-- `CtrlJntDiagnosticPublisher` (pr2_mechanism_diagnostics.h:62-85). -/
structure DiagNode (F : Type) where
  joints : SMap (DJoint F)
  ctrls : SMap DCtrl
  useSimTime : Bool
  disableWarnings : Bool

/-- A new node with the two parameters (pr2_mechanism_diagnostics.cpp:45-56). -/
def DiagNode.fresh (F : Type) (useSimTime disableWarnings : Bool) : DiagNode F := ⟨[], [], useSimTime, disableWarnings⟩

/-- A `MechanismStatistics` message; each entry with the time at which it will be processed. (external; used at pr2_mechanism_diagnostics.cpp:62-83) -/
structure MechMsg (F : Type) where
  joints : List (SRow F × Int)
  ctrls : List (CRow × Int)

/-- Clock readings during `publishDiag`, by the name of the joint or controller being visited: `toDiagStat` of a joint, `shouldDiscard` and `toDiagStat`
of a controller. (joint_diagnostics.cpp:96, controller_diagnostics.h:82, controller_diagnostics.cpp:86) -/
structure PubClock where
  joint : String → Int
  discard : String → Int
  ctrl : String → Int

section
variable {F : Type} [FCmp F] [Zero F] [Neg F] [FNormal F]

/-- Body of the first loop of `mechCallback` (pr2_mechanism_diagnostics.cpp:66-72). -/
def DiagNode.onJoint (big : F) (n : DiagNode F) (e : SRow F × Int) : DiagNode F :=
  let d := (n.joints.find e.1.name).getD (DJoint.fresh big e.1.name)
  { n with joints := n.joints.put e.1.name (d.update big e.1 e.2).1 }

/-- Body of the second loop of `mechCallback` (pr2_mechanism_diagnostics.cpp:76-82). -/
def DiagNode.onCtrl (n : DiagNode F) (e : CRow × Int) : DiagNode F :=
  let d := (n.ctrls.find e.1.name).getD (DCtrl.fresh e.1.name (n.useSimTime || n.disableWarnings))
  { n with ctrls := n.ctrls.put e.1.name (d.update e.1 e.2).1 }

/-- `mechCallback` (pr2_mechanism_diagnostics.cpp:62-83). -/
def DiagNode.mechCallback (big : F) (n : DiagNode F) (m : MechMsg F) : DiagNode F :=
  m.ctrls.foldl DiagNode.onCtrl (m.joints.foldl (DiagNode.onJoint big) n)

/-- The status of a manager without controllers (pr2_mechanism_diagnostics.cpp:110-115). -/
def noControllers (F : Type) : DStatus F := { DStatus.fresh F with name := "Controller: No controllers loaded in controller manager" }

/-- `publishDiag` (pr2_mechanism_diagnostics.cpp:85-119): the published statuses and the node afterwards. -/
def DiagNode.publishDiag (n : DiagNode F) (c : PubClock) : List (DStatus F) × DiagNode F :=
  let js := n.joints.map (fun p => (p.1, p.2.toDiag (c.joint p.1)))                                        -- 90-92
  let cs := n.ctrls.map (fun p => p.2.toDiag F (c.ctrl p.1))                                               -- 98-105
  let gone := (List.filter (fun p => p.2.shouldDiscard (c.discard p.1)) n.ctrls).map (·.1)                 -- 100-101
  (js.map (·.2.1) ++ cs ++ (if n.ctrls.length = 0 then [noControllers F] else []),                         -- 110-115
   { n with joints := js.map (fun p => (p.1, p.2.2)), ctrls := gone.foldl SMap.erase n.ctrls })            -- 106-107

end

end Pr2
