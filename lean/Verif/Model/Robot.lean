import Verif.Model.Xml

/-!
# Model of `pr2_mechanism_model/src/robot.cpp`

`Robot::initXml` (loading of the transmissions) and `RobotState` (wiring and propagation).  Pointers to actuators and joint states are
indices into the lists of all actuators and all joint states.
-/

namespace Pr2

/-- `pluginlib::ClassLoader<Transmission>` (external).  `create k type` is the object made for the `k`-th element; `none`: `createInstance`
throws a `runtime_error`.  Simplification: the plugins are the four transmissions of this package. (robot.h:112, robot.cpp:66-107) -/
structure TransLoader (F : Type) where
  available : String → Bool
  classes : List String
  getName : String → String
  create : Nat → String → Option (Body F)

/-- Backwards compatible class name (robot.cpp:86-101). -/
def TransLoader.resolve {F : Type} (l : TransLoader F) (type : String) : String :=
  if l.available type then type else (l.classes.find? (fun c => l.getName c == type)).getD type

/-- `if (!t->initXml(xit, this)) ROS_ERROR(...)`: carry on after a failure (robot.cpp:111-113). -/
def Init.attempt {F α : Type} (m : Init F α) : Init F (Option α) := fun s =>
  match m s with
  | (s', .ok a) => (s', .ok (some a))
  | (s', .fail) => (s', .ok none)
  | (s', .crash) => (s', .crash)

section
variable {F : Type} [FCmp F] [Zero F] [Add F] [Sub F] [Mul F] [iDiv : Div F] [Neg F] [FLit F] [iTrig : FTrig F] [Parse F]
open Init

/-- Type of a transmission element (robot.cpp:75-82).  `std::string type = NULL` throws a `logic_error`, which nobody catches. -/
def Xml.transType (x : Xml) : Init F (Option String) :=
  match x.attr "type" with
  | some t => pure (some t)
  | none =>
    match x.first "type" with
    | none => pure none
    | some e => do let t ← deref e.text; pure (some t)

/-- Body of the loop over the transmission elements (robot.cpp:74-117); `none`: nothing is added. -/
def robotElement (l : TransLoader F) (joint : String → Option (UJoint F)) (k : Nat) (x : Xml) : Init F (Option (Trans F)) := do
  let ty ← x.transType
  match ty with
  | none => pure none                                                        -- 79
  | some ty =>
    if ty.toList.take 3 = "pr2".toList then                                  -- 83
      match l.create k (l.resolve ty) with                                   -- 84-107
      | none => pure none                                                    -- 109-110
      | some b => attempt (b.initXml x joint)                                -- 111-116
    else pure none

/-- The loop (robot.cpp:70-117). -/
def robotLoop (l : TransLoader F) (joint : String → Option (UJoint F)) : Nat → List Xml → Init F (List (Trans F))
  | _, [] => pure []
  | k, x :: xs => do
    let r ← robotElement l joint k x
    let rs ← robotLoop l joint (k + 1) xs
    pure (r.toList ++ rs)

/-- `Robot::initXml` (robot.cpp:51-119) of a new `Robot`: `transmissions_`.  `hw`: the hardware interface is not NULL.
`urdf` is `urdf::Model::initXml` followed by `getJoint`; `none`: it cannot parse the document. -/
def Robot.initXml (hw : Bool) (urdf : Xml → Option (String → Option (UJoint F))) (l : TransLoader F) (root : Xml) : Init F (List (Trans F)) := do
  let _ ← need (if hw then some () else none)
  let joint ← need (urdf root)
  robotLoop l joint 0 (root.all "transmission")

end

/-- `Robot::getTransmissionIndex` (robot.cpp:126-141); `none`: -1. -/
def Robot.getTransmissionIndex {F : Type} (ts : List (Trans F)) (name : String) : Option Nat := ts.findIdx? (fun t => t.name == name)
/-- `Robot::getTransmission` (robot.cpp:148-152); `none`: null pointer. -/
def Robot.getTransmission {F : Type} (ts : List (Trans F)) (name : String) : Option (Trans F) :=
  (Robot.getTransmissionIndex ts name).bind (ts[·]?)

/-- A transmission with its `transmissions_in_` and `transmissions_out_` (robot.h:152-159). -/
structure Conn (F : Type) where
  trans : Trans F
  ins : List Nat
  outs : List Nat

/-- `RobotState` (robot.h:126-183) together with the actuators. -/
structure RState (F : Type) where
  conns : List (Conn F)
  joints : List (JState F)            -- `joint_states_`
  jmap : List (String × Nat)          -- `joint_states_map_`
  acts : List (Actuator F)

section
variable {F : Type}

/-- `joint_states_map_[name] = &joint_states_[id]`. (robot.cpp:158-200) -/
def mapSet (m : List (String × Nat)) (name : String) (id : Nat) : List (String × Nat) := (name, id) :: m.filter (fun p => p.1 != name)

/-- `map::find`. (robot.cpp:203-219) -/
def mapFind (m : List (String × Nat)) (name : String) : Option Nat := (m.find? (fun p => p.1 == name)).map (·.2)

/-- Pointers to the actuators of a transmission (robot.cpp:171-176); `none`: the assertion fails. -/
def wireIns (acts : List (Actuator F)) (t : Trans F) : Option (List Nat) :=
  t.actNames.mapM (fun n => acts.findIdx? (fun a => a.name == n))

/-- First loop of the constructor (robot.cpp:168-178) and second loop (robot.cpp:183-193): connections, from joint state number `id` on. -/
def wire (acts : List (Actuator F)) : Nat → List (Trans F) → Option (List (Conn F))
  | _, [] => some []
  | id, t :: ts => do
    let ins ← wireIns acts t
    let rest ← wire acts (id + t.jointNames.length) ts
    some (⟨t, ins, List.range' id t.jointNames.length⟩ :: rest)

/-- `joint_states_map_` (robot.cpp:190): names in order. -/
def wireMap : Nat → List String → List (String × Nat) → List (String × Nat)
  | _, [], m => m
  | id, n :: ns, m => wireMap (id + 1) ns (mapSet m n id)

/-- Names of the joint states, in order. (robot.cpp:158-200) -/
def allJointNames (ts : List (Trans F)) : List String := ts.flatMap (·.jointNames)

/-- The constructor `RobotState(Robot*)` (robot.cpp:158-200); `none`: the assertion at 174 fails, or a joint state would get a null `joint_`
pointer (which is dereferenced in the second propagation).  `old i` is the uninitialised `old_position_` of the `i`-th joint's statistics. -/
def RState.mk' [Zero F] (ts : List (Trans F)) (joint : String → Option (UJoint F)) (acts : List (Actuator F)) (old : Nat → F) : Option (RState F) := do
  let conns ← wire acts 0 ts
  let js ← (allJointNames ts).mapM joint
  some { conns := conns
         joints := js.mapIdx (fun i j => JState.fresh j (old i))
         jmap := wireMap 0 (allJointNames ts) []
         acts := acts }

/-- `RobotState::getJointState` (robot.cpp:203-219); `none`: NULL. -/
def RState.getJointState (s : RState F) (name : String) : Option Nat := mapFind s.jmap name

/-- The values pointed to. (robot.h:152-159, robot.cpp:221-286) -/
def gather {α : Type} (l : List α) (is : List Nat) : List α := is.filterMap (l[·]?)

/-- Writing through the pointers, in order. (robot.h:152-159, robot.cpp:221-286) -/
def scatter {α : Type} : List Nat → List α → List α → List α
  | i :: is, a :: as, l => scatter is as (l.set i a)
  | _, _, l => l

/-- One of the loops `for i: transmissions_[i]->propagateX(transmissions_in_[i], transmissions_out_[i])`; `none`: an assertion fails. (robot.cpp:221-233, 235-242, 270-286) -/
def sweep (f : Body F → List (Actuator F) → List (JState F) → Option (Body F × List (Actuator F) × List (JState F))) :
    List (Conn F) → List (Actuator F) → List (JState F) → Option (List (Conn F) × List (Actuator F) × List (JState F))
  | [], as, js => some ([], as, js)
  | c :: cs, as, js => do
    let r ← f c.trans.body (gather as c.ins) (gather js c.outs)
    let rest ← sweep f cs (scatter c.ins r.2.1 as) (scatter c.outs r.2.2 js)
    some ({ c with trans := { c.trans with body := r.1 } } :: rest.1, rest.2)

/-- A sweep over the whole robot state. (robot.cpp:221-233, 235-242, 270-286) -/
def RState.sweep (s : RState F) (f : Body F → List (Actuator F) → List (JState F) → Option (Body F × List (Actuator F) × List (JState F))) :
    Option (RState F) := do
  let r ← Pr2.sweep f s.conns s.acts s.joints
  some { s with conns := r.1, acts := r.2.1, joints := r.2.2 }

section
variable [FCmp F] [Zero F] [Add F] [Sub F] [Mul F] [iDiv : Div F] [Neg F] [FLit F] [iTrig : FTrig F]

/-- The virtual `propagatePosition`. (transmission.h:48-77, called at robot.cpp:221-233) -/
def Body.propagatePosition (b : Body F) (as : List (Actuator F)) (js : List (JState F)) : Option (Body F × List (Actuator F) × List (JState F)) :=
  match b with
  | .simple t => (t.propagatePosition as js).map (fun js' => (b, as, js'))
  | .wrist t => (t.propagatePosition as js).map (fun js' => (b, as, js'))
  | .gripper t => (t.propagatePosition as js).map (fun js' => (b, as, js'))
  | .belt t => (t.propagatePosition as js).map (fun r => (.belt r.1, as, r.2))

/-- The virtual `propagateEffort`. (transmission.h:48-77, called at robot.cpp:235-242) -/
def Body.propagateEffort (b : Body F) (as : List (Actuator F)) (js : List (JState F)) : Option (Body F × List (Actuator F) × List (JState F)) :=
  match b with
  | .simple t => (t.propagateEffort js as).map (fun as' => (b, as', js))
  | .wrist t => (t.propagateEffort js as).map (fun as' => (b, as', js))
  | .gripper t => (t.propagateEffort js as).map (fun as' => (b, as', js))
  | .belt t => (t.propagateEffort js as).map (fun r => (.belt r.1, r.2, js))

/-- The virtual `propagatePositionBackwards`. (transmission.h:48-77, called at robot.cpp:270-277) -/
def Body.propagatePositionBackwards (e : SimEnv) (b : Body F) (as : List (Actuator F)) (js : List (JState F)) :
    Option (Body F × List (Actuator F) × List (JState F)) :=
  match b with
  | .simple t => (t.propagatePositionBackwards e js as).map (fun r => (.simple r.1, r.2, js))
  | .wrist t => (t.propagatePositionBackwards e js as).map (fun r => (.wrist r.1, r.2, js))
  | .gripper t => (t.propagatePositionBackwards e js as).map (fun r => (.gripper r.1, r.2, js))
  | .belt t => (t.propagatePositionBackwards e js as).map (fun r => (.belt r.1, r.2, js))

/-- The virtual `propagateEffortBackwards`. (transmission.h:48-77, called at robot.cpp:279-286) -/
def Body.propagateEffortBackwards (b : Body F) (as : List (Actuator F)) (js : List (JState F)) : Option (Body F × List (Actuator F) × List (JState F)) :=
  match b with
  | .simple t => (t.propagateEffortBackwards as js).map (fun js' => (b, as, js'))
  | .wrist t => (t.propagateEffortBackwards as js).map (fun js' => (b, as, js'))
  | .gripper t => (t.propagateEffortBackwards as js).map (fun js' => (b, as, js'))
  | .belt t => (t.propagateEffortBackwards as js).map (fun r => (.belt r.1, as, r.2))

/-- `propagateActuatorPositionToJointPosition` (robot.cpp:221-233). -/
def RState.propagatePosition (s : RState F) : Option (RState F) := do
  let s ← s.sweep Body.propagatePosition
  some { s with joints := s.joints.map (fun j => { j with stats := j.stats.update j.sample }) }

/-- `propagateJointEffortToActuatorEffort` (robot.cpp:235-242). -/
def RState.propagateEffort (s : RState F) : Option (RState F) := s.sweep Body.propagateEffort

/-- `propagateJointPositionToActuatorPosition` (robot.cpp:270-277).  Simplification: every transmission reads the same clock values. -/
def RState.propagatePositionBackwards (e : SimEnv) (s : RState F) : Option (RState F) := s.sweep (Body.propagatePositionBackwards e)

/-- `propagateActuatorEffortToJointEffort` (robot.cpp:279-286). -/
def RState.propagateEffortBackwards (s : RState F) : Option (RState F) := s.sweep Body.propagateEffortBackwards

/-- `enforceSafety` (robot.cpp:256-262). -/
def RState.enforceSafety (big : F) (s : RState F) : RState F := { s with joints := s.joints.map (·.enforceLimits big) }

/-- `zeroCommands` (robot.cpp:264-268). -/
def RState.zeroCommands (s : RState F) : RState F := { s with joints := s.joints.map (fun j => { j with commanded := 0 }) }

end

/-- `isHalted` (robot.cpp:244-254). -/
def RState.isHalted (s : RState F) : Bool := s.conns.any (fun c => (gather s.acts c.ins).any (·.halted))

end

end Pr2
