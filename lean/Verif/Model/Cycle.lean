import Verif.Model.Robot
import Mathlib.Algebra.Order.Floor.Defs
import Mathlib.Data.Rat.Floor

/-!
# Model of the data flow of a control cycle

`ControllerManager::initXml`, `update`, `publishJointState`, `publishMechanismStatistics` (controller_manager.cpp:70-189, 553-678) as far as the
robot state, the statistics and the publishing clocks are concerned.  Which controllers are called, in which order and how that interleaves with
the services is in `Verif.Model.Concurrent`; here the controllers are arbitrary functions of the robot state.
Times and durations are integers (nanoseconds).
-/

namespace Pr2

/-! ## Publishing clocks -/

/-- `while (last + period < now) last = last + period;` (controller_manager.cpp:560-561, 596-597); `none`: it never ends.
Simplification: `ros::Time` does not overflow. -/
def catchUp (period now : Int) (last : Int) : Option Int :=
  if last + period < now then
    if 0 < period then catchUp period now (last + period) else none
  else some last
termination_by (now - last).toNat

/-- The clock part of `publishJointState` (controller_manager.cpp:555-561) and `publishMechanismStatistics` (591-597) at time `now`, where `free` is
the result of `trylock()`: new `last_published_…` and whether the message is published. -/
def pubTick (period now : Int) (free : Bool) (last : Int) : Option (Int × Bool) :=
  if now > last + period then
    if free then (catchUp period now last).map (fun l => (l, true)) else some (last, false)
  else some (last, false)

/-- Successive calls, each with its time and the result of `trylock`. (no counterpart in the code; successive calls of controller_manager.cpp:553-586, 589-678) -/
def pubRun (period : Int) : Int → List (Int × Bool) → Option (Int × List Bool)
  | last, [] => some (last, [])
  | last, c :: cs => do
    let r ← pubTick period c.1 c.2 last
    let rs ← pubRun period r.1 cs
    some (rs.1, r.2 :: rs.2)

/-- `Duration(1.0/fmax(0.000001, rate))` in nanoseconds (controller_manager.cpp:104-105), in exact arithmetic; `ros::Duration` rounds to the
nearest nanosecond. -/
def publishPeriod (rate : ℚ) : Int := ⌊1 / (if rate < 1 / 1000000 then 1 / 1000000 else rate) * 1000000000 + 1 / 2⌋

/-! ## Overruns -/

/-- `Statistics` of a controller (controller_spec.h:54-61); the accumulator is the list of samples (ns). -/
structure CStat where
  samples : List Int
  overruns : UInt32       -- `num_control_loop_overruns`
  lastOverrun : Int       -- `time_last_control_loop_overrun`

/-- A new `Statistics` (controller_spec.h:60); `ros::Time()` is zero. -/
def CStat.fresh : CStat := ⟨[], 0, 0⟩

/-- After the update of a controller (controller_manager.cpp:151-158). -/
def CStat.record (st : CStat) (start fin : Int) : CStat :=
  let st := { st with samples := st.samples ++ [fin - start] }
  if fin - start > 1000000 then { st with overruns := st.overruns + 1, lastOverrun := fin } else st

/-! ## The cycle -/

section
variable {F : Type}

/-- One controller in the update loop: the object's address, its `updateRequest` (including what its plugin does to the robot state) and the two
clock readings. (controller_manager.cpp:150-159) -/
structure CUpdate (F : Type) where
  id : Nat
  act : RState F → RState F
  start : Int
  fin : Int

/-- The update loop (controller_manager.cpp:150-159), in scheduling order. -/
def updateLoop : List (CUpdate F) → RState F × (Nat → CStat) → RState F × (Nat → CStat)
  | [], s => s
  | c :: cs, (s, st) => updateLoop cs (c.act s, fun i => if i = c.id then (st i).record c.start c.fin else st i)

section
variable [FCmp F] [Zero F] [Add F] [Sub F] [Mul F] [iDiv : Div F] [Neg F] [FLit F] [iTrig : FTrig F]

/-- `update` up to the publishing (controller_manager.cpp:133-164): sweep, zero the commands, restart controllers (`restart`, arbitrary), update them,
limit the commands, propagate them.  `none`: an assertion fails. -/
def RState.cycle (big : F) (restart : RState F → RState F) (cs : List (CUpdate F)) (s : RState F) (st : Nat → CStat) :
    Option (RState F × (Nat → CStat)) := do
  let s ← s.propagatePosition                       -- 133
  let s := s.zeroCommands                           -- 134
  let r := updateLoop cs (restart s, st)            -- 138-159
  let s := r.1.enforceSafety big                    -- 163
  let s ← s.propagateEffort                         -- 164
  some (s, r.2)

end

/-! ## Messages -/

/-- Joint types that are published (controller_manager.cpp:568, 604). -/
def JType.published (t : JType) : Bool := t == .revolute || t == .continuous || t == .prismatic

/-- An entry of `sensor_msgs::JointState` (controller_manager.cpp:575-578).  Simplification: the four arrays as one array of records. -/
structure JRow (F : Type) where
  name : String
  position : F
  velocity : F
  effort : F

/-- `pr2_mechanism_msgs::JointStatistics` (controller_manager.cpp:609-621). -/
structure SRow (F : Type) where
  timestamp : Int
  name : String
  position : F
  velocity : F
  measured : F
  commanded : F
  calibrated : Bool
  violated : Bool
  odometer : F
  minPos : F
  maxPos : F
  maxVel : F
  maxEff : F

/-- controller_manager.cpp:574-578 -/
def JState.jrow (j : JState F) : JRow F := ⟨j.joint.name, j.position, j.velocity, j.measured⟩

/-- controller_manager.cpp:607-621 -/
def JState.srow (now : Int) (j : JState F) : SRow F :=
  ⟨now, j.joint.name, j.position, j.velocity, j.measured, j.commanded, j.calibrated, j.stats.violated, j.stats.odometer,
    j.stats.minPos, j.stats.maxPos, j.stats.maxVel, j.stats.maxEff⟩

/-- The loop over the joints (controller_manager.cpp:563-581, 600-625): the `k`-th entry of the preallocated message is overwritten by the `k`-th
published joint; `none`: an assertion fails. -/
def fillRows {ρ : Type} (row : JState F → ρ) : List (JState F) → Nat → List ρ → Option (List ρ)
  | [], _, msg => some msg
  | j :: js, k, msg =>
    if j.joint.type.published then
      if k < msg.length then fillRows row js (k + 1) (msg.set k (row j)) else none
    else fillRows row js k msg

/-- `ControllerManager::initXml` after the robot state is made (controller_manager.cpp:79-98): the number of preallocated entries of the messages;
`none`: returns false because a joint has another type. -/
def messageSize : List (JState F) → Option Nat
  | [] => some 0
  | j :: js => if j.joint.type.published then (messageSize js).map (· + 1) else none

section
variable [FCmp F] [Zero F] [Neg F] [Sub F] [Mul F] [Add F]
/-- `joint_statistics_.reset()` of the published joints (controller_manager.cpp:622). -/
def RState.resetStats (s : RState F) : RState F :=
  { s with joints := s.joints.map (fun j => if j.joint.type.published then { j with stats := j.stats.reset } else j) }

/-- `pr2_mechanism_msgs::ActuatorStatistics` (controller_manager.cpp:630-656); `timestamp` is that of the actuator
(line 638 overwrites 633). -/
structure ARow (F : Type) where
  timestamp : F
  name : String
  position : F
  velocity : F
  calReading : Bool
  risingValid : Bool
  fallingValid : Bool
  risingEdge : F
  fallingEdge : F
  halted : Bool
  measured : F
  deviceId : Int
  encoderCount : Int
  encoderOffset : F
  encoderVelocity : F
  isEnabled : Bool
  commandedCurrent : F
  executedCurrent : F
  measuredCurrent : F
  commandedEffort : F
  executedEffort : F
  motorVoltage : F
  encoderErrors : Int

/-- controller_manager.cpp:630-656 -/
def Actuator.arow (a : Actuator F) : ARow F :=
  ⟨a.ts, a.name, a.position, a.velocity, a.calReading, a.risingValid, a.fallingValid, a.risingEdge, a.fallingEdge, a.halted, a.measured,
    a.info.deviceId, a.info.encoderCount, a.info.zeroOffset, a.info.encoderVelocity, a.info.isEnabled, a.info.commandedCurrent, a.info.executedCurrent,
    a.info.measuredCurrent, a.info.commandedEffort, a.info.executedEffort, a.info.motorVoltage, a.info.encoderErrors⟩

/-- The loop over the actuators (controller_manager.cpp:628-657), `k` being `i`; `none`: undefined behaviour, `actuator_statistics[i]` is out of range. -/
def fillActs : List (Actuator F) → Nat → List (ARow F) → Option (List (ARow F))
  | [], _, msg => some msg
  | a :: as, k, msg => if k < msg.length then fillActs as (k + 1) (msg.set k a.arow) else none

/-- A publisher of the manager: `last_published_…`, period, and the message (reused). (controller_manager.h:110-113) -/
structure Pub (ρ : Type) where
  last : Int
  period : Int
  msg : ρ

/-- `publishMechanismStatistics` (controller_manager.cpp:589-678), without the controllers; `none`: hangs, aborts or is undefined. -/
def publishStats (now : Int) (free : Bool) (p : Pub (List (SRow F) × List (ARow F))) (s : RState F) :
    Option (Pub (List (SRow F) × List (ARow F)) × RState F × Bool) := do
  let t ← pubTick p.period now free p.last
  if t.2 then
    let rows ← fillRows (JState.srow now) s.joints 0 p.msg.1
    let acts ← fillActs s.acts 0 p.msg.2
    some ({ p with last := t.1, msg := (rows, acts) }, s.resetStats, true)
  else some ({ p with last := t.1 }, s, false)

/-- `publishJointState` (controller_manager.cpp:553-586). -/
def publishJoints (now : Int) (free : Bool) (p : Pub (List (JRow F))) (s : RState F) : Option (Pub (List (JRow F)) × Bool) := do
  let t ← pubTick p.period now free p.last
  if t.2 then
    let msg ← fillRows JState.jrow s.joints 0 p.msg
    some ({ p with last := t.1, msg := msg }, true)
  else some ({ p with last := t.1 }, false)

end

/-- The manager's realtime data. (controller_manager.h:81-82, 102-113, 131) -/
structure RtData (F : Type) where
  robot : RState F
  stats : Nat → CStat
  statPub : Pub (List (SRow F) × List (ARow F))
  jointPub : Pub (List (JRow F))

/-- What a cycle meets: controllers, clock readings and the publishers' locks.  `switched` is what the plugins' `starting` and `stopping` do to the
robot state at the end of the cycle (controller_manager.cpp:173-188). -/
structure CycleIn (F : Type) where
  restart : RState F → RState F
  controllers : List (CUpdate F)
  statNow : Int
  statFree : Bool
  jointNow : Int
  jointFree : Bool
  switched : RState F → RState F

section
variable [FCmp F] [Zero F] [Add F] [Sub F] [Mul F] [iDiv : Div F] [Neg F] [FLit F] [iTrig : FTrig F]

/-- The state right after the efforts are propagated, i.e. what the hardware is sent after this cycle, and the data at the end of `update`
(controller_manager.cpp:126-189); `none`: aborts or hangs. -/
def RtData.update (big : F) (d : RtData F) (i : CycleIn F) : Option (RState F × RtData F) := do
  let r ← d.robot.cycle big i.restart i.controllers d.stats                     -- 133-164
  let p ← publishStats i.statNow i.statFree d.statPub r.1                       -- 169
  let q ← publishJoints i.jointNow i.jointFree d.jointPub p.2.1                 -- 170
  some (r.1, { robot := i.switched p.2.1, stats := r.2, statPub := p.1, jointPub := q.1 })

/-- Several cycles: the state sent to the hardware after each, and the final data. (no counterpart in the code; successive calls of controller_manager.cpp:126-189) -/
def RtData.run (big : F) : RtData F → List (CycleIn F) → Option (List (RState F) × RtData F)
  | d, [] => some ([], d)
  | d, i :: is => do
    let r ← d.update big i
    let rs ← RtData.run big r.2 is
    some (r.1 :: rs.1, rs.2)

end

end

end Pr2
