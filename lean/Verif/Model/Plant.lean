import Verif.Model.Cycle
import Verif.Model.Concurrent

/-!
# The whole realtime side: manager, controllers, robot and hardware together

`Verif.Model.Concurrent` says which controllers the realtime loop calls when, interleaved with service calls; `Verif.Model.Cycle` says what happens to the robot
state in a cycle in which some controllers do something.  Here both run together: `ControllerManager::update()` (controller_manager.cpp:126-189) step by step with
the robot state, the statistics and the publishers, while services load, unload and switch.  What a plugin does to the robot state when it is called is an input of
the step in which it is called, hence arbitrary and different every time; so are the actuators' readings at the beginning of a cycle and the clock readings.

Simplifications: plugins touch the robot state only when the realtime loop calls them (not in `init`); the readings of the actuators do not change during a cycle;
the statistics of a controller, which its `ControllerSpec` holds by a `shared_ptr` made with the specification (controller_manager.cpp:333) and copied along with it
(240, 419), are looked up by the controller object's number;
`publishJointState` runs before the controllers' part of `publishMechanismStatistics` (it does not touch what that reads).
-/

namespace Pr2

/-- A call of a plugin by the realtime loop, and what it did to the robot state (ghost). (controller_manager.cpp:142-143, 152, 177, 182) -/
structure PlugCall (F : Type) where
  ev : Ev
  eff : RState F → RState F

/-- The effect of successive calls. (no counterpart in the code) -/
def applyCalls {F : Type} (cs : List (PlugCall F)) (s : RState F) : RState F := cs.foldl (fun s c => c.eff s) s

/-- Ghost record of a cycle up to the point where the efforts have been propagated. (controller_manager.cpp:128-166; no counterpart in the code) -/
structure CycleRec (F : Type) where
  begun : List Ev            -- the manager's history when the cycle began
  entry : RState F           -- the robot at the beginning, with the hardware's readings
  calls : List (PlugCall F)  -- plugin calls of this cycle
  timed : List (Nat × Int × Int)  -- timed updates: controller, clock before, clock after
  sent : RState F            -- what the hardware is sent

/-- Manager, realtime data, and ghosts. (controller_manager.h:81-131) -/
structure Plant (F : Type) where
  mgr : State
  data : RtData F
  dead : Bool                -- an assertion failed, a loop hangs, or an index was out of range
  begun : List Ev            -- ghosts about the current cycle, see `CycleRec`
  entry : RState F
  calls : List (PlugCall F)
  timed : List (Nat × Int × Int)
  cycles : List (CycleRec F) -- ghost

/-- Inputs of a realtime step; each step uses those it needs. (the clock readings, hardware readings and plugin effects of controller_manager.cpp:126-189) -/
structure PlantIn (F : Type) where
  hw : List (Actuator F) → List (Actuator F)   -- the hardware's readings at the beginning of a cycle
  plug : RState F → RState F                   -- what the plugin called in this step does
  start : Int                                  -- 151
  fin : Int                                    -- 153
  statNow : Int                                -- 591
  turn : Bool                                  -- the statistics publisher's thread is done with the previous message
  jointNow : Int                               -- 555
  jointFree : Bool                             -- 558

/-- Is it a call of a plugin? (no counterpart in the code; controller.h:117-139) -/
def Ev.isCall : Ev → Bool
  | .starting _ | .stopping _ | .update _ => true
  | _ => false

/-- The object a plugin call is made on. (no counterpart in the code) -/
def Ev.target : Ev → Option Nat
  | .starting i | .stopping i | .update i => some i
  | _ => none

section
variable {F : Type}

/-- The manager goes on to `m`; plugins called on the way act on the robot. (controller_manager.cpp:142-143, 152, 177, 182) -/
def Plant.advance (p : Plant F) (m : State) (plug : RState F → RState F) : Plant F :=
  let new := ((m.log.drop p.mgr.log.length).filter Ev.isCall).map (fun e => PlugCall.mk e plug)
  { p with mgr := m, data := { p.data with robot := applyCalls new p.data.robot }, calls := p.calls ++ new }

/-- The controller updated and timed in this step (controller_manager.cpp:150-153). -/
def Plant.updated (p : Plant F) (k : Nat) : Option Nat :=
  match p.mgr.used with
  | none => none
  | some u => if k < (p.mgr.lists u).length then (p.mgr.rtEntry u k).map (·.id) else none

/-- The clock readings and statistics of one round of the update loop, for controller `id`. (controller_manager.cpp:151-158) -/
def Plant.time (p : Plant F) (id : Nat) (start fin : Int) : Plant F :=
  { p with data := { p.data with stats := fun j => if j = id then (p.data.stats j).record start fin else p.data.stats j }
           timed := p.timed ++ [(id, start, fin)] }

section
variable [FCmp F] [Zero F] [Add F] [Sub F] [Mul F] [iDiv : Div F] [Neg F] [FLit F] [iTrig : FTrig F]

/-- One step of the realtime thread. (controller_manager.cpp:126-189) -/
def Plant.rtStep (big : F) (p : Plant F) (i : PlantIn F) : Plant F :=
  match p.mgr.rt with
  | .pre =>                                                                               -- 133-148
    let r := { p.data.robot with acts := i.hw p.data.robot.acts }
    match r.propagatePosition with
    | none => { p with dead := true }
    | some moved =>
      let z := moved.zeroCommands
      { p with
        mgr := p.mgr.step (.rt ⟨z.isHalted, false, false⟩)
        data := { p.data with robot := z }
        begun := p.mgr.log, entry := r, calls := [], timed := [] }
  | .sweep k =>                                                                           -- 150-165
    let m := p.mgr.step (.rt ⟨false, false, false⟩)
    match m.rt with
    | .publish =>                                                                         -- 163-164
      match (p.data.robot.enforceSafety big).propagateEffort with
      | none => { p with dead := true }
      | some sent =>
        { p with
          mgr := m
          data := { p.data with robot := sent }
          cycles := p.cycles ++ [⟨p.begun, p.entry, p.calls, p.timed, sent⟩] }
    | _ =>
      match p.updated k with
      | none => p.advance m i.plug
      | some id => (p.advance m i.plug).time id i.start i.fin
  | .publish =>                                                                           -- 169-170
    let free := i.turn && p.mgr.pubLock == none
    match publishStats i.statNow free p.data.statPub p.data.robot with
    | none => { p with dead := true }
    | some (sp, robot, _) =>
      match publishJoints i.jointNow i.jointFree p.data.jointPub robot with
      | none => { p with dead := true }
      | some (jp, _) =>
        { p with
          mgr := p.mgr.step (.rt ⟨false, decide (i.statNow > p.data.statPub.last + p.data.statPub.period), i.turn⟩)
          data := { p.data with robot := robot, statPub := sp, jointPub := jp } }
  | _ => p.advance (p.mgr.step (.rt ⟨false, false, false⟩)) i.plug

/-- A step of either thread, or a new service call. (controller_manager.cpp:126-189, 219-785) -/
inductive PAct (F : Type) where
  | rt (i : PlantIn F)
  | nrt
  | call (op : Op)

/-- One step of the whole system. (controller_manager.cpp:126-189, 219-785) -/
def Plant.step (big : F) (p : Plant F) (a : PAct F) : Plant F :=
  if p.dead then p else
  match a with
  | .rt i => p.rtStep big i
  | .nrt => { p with mgr := p.mgr.step .nrt }
  | .call op => { p with mgr := p.mgr.step (.call op) }

/-- After initialisation. (controller_manager.cpp:47-118) -/
def Plant.init (m : Bool) (d : RtData F) : Plant F := ⟨State.init m, d, false, [], d.robot, [], [], []⟩

/-- Executions: as for the manager alone, services are used once the realtime loop has begun its first cycle. (no counterpart in the code) -/
inductive Plant.Reach (big : F) (m : Bool) (d : RtData F) (ok : PlantIn F → Prop) : Plant F → Prop
  | init : Plant.Reach big m d ok (Plant.init m d)
  | rt {p : Plant F} (h : Plant.Reach big m d ok p) (i : PlantIn F) (hi : ok i) : Plant.Reach big m d ok (p.step big (.rt i))
  | nrt {p : Plant F} (h : Plant.Reach big m d ok p) (hu : p.mgr.used ≠ none) : Plant.Reach big m d ok (p.step big .nrt)
  | call {p : Plant F} (h : Plant.Reach big m d ok p) (hu : p.mgr.used ≠ none) (op : Op) : Plant.Reach big m d ok (p.step big (.call op))

end

end

end Pr2
