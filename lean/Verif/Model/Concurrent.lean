import Verif.Model.Manager

/-!
# Interleaving model of the controller manager

Two threads share the manager: the realtime thread, which calls `update()` again and again, and one service thread
at a time (`services_lock_`, controller_manager.cpp:688, 741, 760, 794, 810, 826 and `controllers_lock_`, 224, 373, 485,
serialise the service calls).  Every access to shared data is a separate step; the two threads' steps interleave
arbitrarily.  Memory is sequentially consistent (assumption; the C++ uses plain variables).

`bad` is a ghost flag, set when undefined behaviour would occur: a list or request vector written by one thread while the
other is using it, an index outside a vector, or a call through a pointer to a destroyed controller.
`log` and `nlog` are ghost histories of the calls made by the realtime loop and of the service calls completed.
-/

namespace Pr2

/-- A service call. (controller_manager.h:71-76, 116-127) -/
inductive Op where
  | load (r : LoadReq)
  | unload (name : String)
  | switch (start stop : List String) (strictness : Int)
  | list

/-- What a service call returns. (controller_manager.cpp:219, 368, 466 (the returned boolean), 751-785 (the listing)) -/
inductive Res where
  | flag (ok : Bool)
  | listing (l : List (String × Bool))
deriving DecidableEq, Repr

/-- Observable state of one loaded controller (ghost snapshot). (no counterpart in the code; built from controller_spec.h:63-71 and controller.h:164-166) -/
structure CtrlView where
  name : String
  id : Nat
  before : List String
  after : List String
  running : Bool
deriving DecidableEq, Repr

/-- Observable state of the manager (ghost snapshot): loaded controllers in load order and execution order. (no counterpart in the code; built from controller_manager.h:98-100) -/
structure View where
  ctrls : List CtrlView
  order : List Nat
deriving DecidableEq, Repr

/-- A completed service call: request, result, snapshots when it was called and when it returned, and whether some
`isRunning()` it evaluated was read exactly while the realtime loop was between `stopRequest` and `startRequest` of that
very controller (lines 142-143). -/
structure CallRec where
  op : Op
  res : Res
  pre : View
  post : View
  raced : Bool

/-- Calls made by the realtime thread and ghost markers: `cycleBegin order halted` is the start of a cycle on a list
whose controllers, in execution order, are `order` (object, running?), and whether the motors are halted;
`switchBegin` is the start of a switch; `published` a published statistics message. (controller_manager.cpp:126-189; the markers have no counterpart in the code) -/
inductive Ev where
  | cycleBegin (order : List (Nat × Bool)) (halted : Bool)
  | starting (id : Nat)
  | stopping (id : Nat)
  | update (id : Nat)
  | published (entries : List (Entry × Bool)) (msg : List (String × Bool))
  | switchBegin (stop start : List Nat)
  | switchEnd
  | cycleEnd
deriving DecidableEq, Repr

/-- Position of the realtime thread inside `update()` (controller_manager.cpp:126-189). -/
inductive RtPc where
  | idle
  | gotCurrent (r : Bool)              -- 128: current_controllers_list_ read, used_by_realtime_ not yet written
  | pre                                -- 133-139
  | restart (k : Nat)                  -- 140-145, about to look at position k
  | restartMid (k : Nat) (id : Nat)    -- between 142 and 143
  | sweep (k : Nat)                    -- 150-159, about to update position k
  | publish                            -- 169
  | pubFill (k : Nat) (msg : List (String × Bool))  -- 660-672, trylock succeeded
  | switchCheck                        -- 173
  | switchStop (k : Nat)               -- 176-178
  | switchStart (k : Nat)              -- 181-183
  | switchClear                        -- 185-186
  | switchFlag                         -- 187
  | done                               -- 189
deriving DecidableEq, Repr

/-- Position of the service thread.  Load and unload share the structure wait / build / swap / wait / clear. (controller_manager.cpp:219-363, 368-462, 466-550, 751-785) -/
inductive NrtPc where
  | idle
  | wait1 (op : Op)        -- 228, 377: loop condition
  | wait1Inner (op : Op)   -- 229, 378: `if (!ros::ok()) return false`
  | build (op : Op)        -- about to write the free list (236, 385)
  | build2 (op : Op)       -- writing the free list (236-342, 385-436)
  | pubLock (op : Op)      -- 345, 441
  | pubResize (op : Op)    -- 346-348, 442-444
  | swap (op : Op)         -- 352, 449
  | wait2 (op : Op) (former : Bool)        -- 353, 450
  | wait2Inner (op : Op) (former : Bool)   -- 354, 451
  | clear (op : Op) (former : Bool)        -- about to clear the old list (358, 456)
  | clear2 (op : Op) (former : Bool)       -- clearing the old list
  | unlock (op : Op)                       -- 359, 458
  | resolve (op : Op)      -- about to write the request vectors (488-531)
  | resolve2 (op : Op)     -- writing them
  | setFlag (op : Op)      -- 538-539
  | waitSwitch (op : Op)        -- 543
  | waitSwitchInner (op : Op)   -- 544
  | listing (k : Nat) (acc : List (String × Bool))  -- 772-781

/-- Which thread holds the statistics publisher's lock. (realtime_tools, external; controller_manager.cpp:345-359, 441-458, 594-675) -/
inductive Owner where
  | rt | nrt
deriving DecidableEq, Repr

/-- State of the manager and both threads (controller_manager.h:79-129). -/
structure State where
  heap : Heap
  next : Nat                       -- ghost: next unused object address
  lists : Bool → List Entry        -- controllers_lists_[2]
  sched : Bool → List Nat          -- controllers_scheduling_[2]
  current : Bool                   -- current_controllers_list_
  used : Option Bool               -- used_by_realtime_; none is -1
  stopReq : List Nat               -- stop_request_
  startReq : List Nat              -- start_request_
  pleaseSwitch : Bool              -- please_switch_
  pubNames : List String           -- names in pub_mech_stats_.msg_.controller_statistics
  pubLock : Option Owner           -- lock of pub_mech_stats_
  motorsPrev : Bool                -- motors_previously_halted_
  rosOk : Bool                     -- ros::ok()
  rt : RtPc
  nrt : NrtPc
  bad : Bool                       -- ghost
  raced : Bool                     -- ghost
  snap : View                      -- ghost: snapshot at the start of the current service call
  log : List Ev                    -- ghost
  nlog : List CallRec              -- ghost

/-- Constructor and `initXml` (controller_manager.cpp:47-61, 70-119); `m` is the initial `motors_previously_halted_`. -/
def State.init (m : Bool) : State where
  heap := fun _ => Ctrl.fresh
  next := 0
  lists := fun _ => []
  sched := fun _ => []
  current := false
  used := none
  stopReq := []
  startReq := []
  pleaseSwitch := false
  pubNames := []
  pubLock := none
  motorsPrev := m
  rosOk := true
  rt := .idle
  nrt := .idle
  bad := false
  raced := false
  snap := ⟨[], []⟩
  log := []
  nlog := []

/-- Is the realtime thread between `stopRequest` and `startRequest` of restarting `id` (lines 142-143)? -/
def State.midRestart (s : State) (id : Nat) : Bool :=
  match s.rt with
  | .restartMid _ i => i == id
  | _ => false

/-- `isRunning()` as read from memory. (controller.h:110-113) -/
def State.isRunning (s : State) (id : Nat) : Bool := (s.heap id).isRunning

/-- Is controller `id` running, not counting the instant inside a restart? (ghost, no counterpart in the code; cf. controller.h:110-113) -/
def State.runs (s : State) (id : Nat) : Bool := s.isRunning id || s.midRestart id

/-- Ghost snapshot of the observable state. (no counterpart in the code) -/
def State.view (s : State) : View where
  ctrls := (s.lists s.current).map (fun e => ⟨e.name, e.id, (s.heap e.id).before, (s.heap e.id).after, s.runs e.id⟩)
  order := s.sched s.current

/-- The list the service thread is writing right now. (ghost; controller_manager.cpp:236-341, 358, 385-436, 456) -/
def State.writing (s : State) : Option Bool :=
  match s.nrt with
  | .build2 _ => some (!s.current)
  | .clear2 _ f => some f
  | _ => none

/-- Is the realtime thread inside the part of `update()` that uses list `b` (lines 129-172)? -/
def State.rtUses (s : State) (b : Bool) : Bool :=
  (s.used == some b) &&
  match s.rt with
  | .pre | .restart _ | .restartMid _ _ | .sweep _ | .publish | .pubFill _ _ => true
  | _ => false

/-- Is the realtime thread inside the part of `update()` that uses the request vectors (lines 175-186)? -/
def State.rtUsesReq (s : State) : Bool :=
  match s.rt with
  | .switchStop _ | .switchStart _ | .switchClear => true
  | _ => false

/-- Is the service thread writing the request vectors? (ghost; controller_manager.cpp:489-534) -/
def State.writingReq (s : State) : Bool :=
  match s.nrt with
  | .resolve2 _ => true
  | _ => false

/-- Is the object certainly not destroyed: does a list that is not being rewritten still own it? (ghost; the shared_ptr of controller_spec.h:65) -/
def State.alive (s : State) (id : Nat) : Bool :=
  [false, true].any (fun b => (s.writing != some b) && (s.lists b).any (fun e => e.id == id))

/-- The controller at position `k` of the execution order of the list the realtime loop uses
(`controllers[scheduling[k]]`); `none` if this access is undefined behaviour. (controller_manager.cpp:141, 152) -/
def State.rtEntry (s : State) (u : Bool) (k : Nat) : Option Entry :=
  if s.writing = some u then none else
  match (s.sched u)[k]? with
  | none => none
  | some i => match (s.lists u)[i]? with
    | none => none
    | some e => if s.alive e.id then some e else none

/-- Inputs of one realtime step: `state_->isHalted()`, whether it is time to publish, and whether the publisher
thread is done with the previous message (`trylock` fails otherwise). (controller_manager.cpp:139, 592-594) -/
structure RtIn where
  halted : Bool
  wantPublish : Bool
  turn : Bool

/-- Undefined behaviour. (no counterpart in the code) -/
def State.fail (s : State) : State := { s with bad := true }

/-- Replace the object `id`. (no counterpart in the code; an assignment to the members of the object, controller.h:117-160) -/
def State.setCtrl (s : State) (id : Nat) (c : Ctrl) : State :=
  { s with heap := fun i => if i = id then c else s.heap i }

/-- Events of a plugin call, tagged with the object. (no counterpart in the code) -/
def tagEv (id : Nat) : List CEvent → List Ev
  | [] => []
  | .starting :: l => .starting id :: tagEv id l
  | .stopping :: l => .stopping id :: tagEv id l
  | .update :: l => .update id :: tagEv id l
  | .init _ :: l => tagEv id l

/-- One step of the realtime thread (`update()`, controller_manager.cpp:126-189, and the controller part of
`publishMechanismStatistics`, 589-678).  Hardware propagation, safety limits and timing statistics are modelled separately. -/
def State.rtStep (s : State) (i : RtIn) : State :=
  match s.rt with
  | .idle => { s with rt := .gotCurrent s.current }                       -- 128 (read)
  | .gotCurrent r =>                                                      -- 128 (write)
    { s with
      used := some r, rt := .pre }
  | .pre =>                                                               -- 139, 147
    match s.used with
    | none => s.fail
    | some u =>
      if s.writing = some u then s.fail else
      let re := !i.halted && s.motorsPrev
      let order := (s.sched u).filterMap (fun j => (s.lists u)[j]?.map (fun e => (e.id, s.isRunning e.id)))
      { s with
        rt := if re then .restart 0 else .sweep 0
        motorsPrev := i.halted
        log := s.log ++ [.cycleBegin order i.halted] }
  | .restart k =>                                                         -- 140-142
    match s.used with
    | none => s.fail
    | some u =>
      if s.writing = some u then s.fail
      else if k < (s.lists u).length then
        match s.rtEntry u k with
        | none => s.fail
        | some e =>
          if s.isRunning e.id then
            let (c, ev, _) := (s.heap e.id).stopRequest
            { s.setCtrl e.id c with rt := .restartMid k e.id, log := s.log ++ tagEv e.id ev }
          else { s with rt := .restart (k+1) }
      else { s with rt := .sweep 0 }
  | .restartMid k id =>                                                   -- 143
    if s.alive id then
      let (c, ev, _) := (s.heap id).startRequest
      { s.setCtrl id c with rt := .restart (k+1), log := s.log ++ tagEv id ev }
    else s.fail
  | .sweep k =>                                                           -- 151-153
    match s.used with
    | none => s.fail
    | some u =>
      if s.writing = some u then s.fail
      else if k < (s.lists u).length then
        match s.rtEntry u k with
        | none => s.fail
        | some e =>
          let (c, ev) := (s.heap e.id).updateRequest
          { s.setCtrl e.id c with rt := .sweep (k+1), log := s.log ++ tagEv e.id ev }
      else { s with rt := .publish }
  | .publish =>                                                           -- 592-594
    if i.wantPublish && i.turn && s.pubLock == none then
      { s with pubLock := some .rt, rt := .pubFill 0 [] }
    else { s with rt := .switchCheck }
  | .pubFill k msg =>                                                     -- 660-677
    match s.used with
    | none => s.fail
    | some u =>
      if s.writing = some u then s.fail
      else
        match (s.lists u)[k]? with
        | some e =>
          match s.pubNames[k]? with
          | none => s.fail
          | some n => if s.alive e.id then { s with rt := .pubFill (k+1) (msg ++ [(n, s.isRunning e.id)]) } else s.fail
        | none =>
          { s with
            pubLock := none, rt := .switchCheck,
            -- entries of the message beyond the list keep old values; they are listed with flag false
            log := s.log ++ [.published ((s.lists u).map (fun e => (e, s.isRunning e.id)))
                                        (msg ++ (s.pubNames.drop k).map (fun n => (n, false)))] }
  | .switchCheck =>                                                       -- 173
    if s.pleaseSwitch then { s with rt := .switchStop 0, log := s.log ++ [.switchBegin s.stopReq s.startReq] }
    else { s with rt := .done }
  | .switchStop k =>                                                      -- 176-178
    if s.writingReq then s.fail else
    match s.stopReq[k]? with
    | none => { s with rt := .switchStart 0 }
    | some id =>
      if s.alive id then
        let (c, ev, _) := (s.heap id).stopRequest
        { s.setCtrl id c with rt := .switchStop (k+1), log := s.log ++ tagEv id ev }
      else s.fail
  | .switchStart k =>                                                     -- 181-183
    if s.writingReq then s.fail else
    match s.startReq[k]? with
    | none => { s with rt := .switchClear }
    | some id =>
      if s.alive id then
        let (c, ev, _) := (s.heap id).startRequest
        { s.setCtrl id c with rt := .switchStart (k+1), log := s.log ++ tagEv id ev }
      else s.fail
  | .switchClear =>                                                       -- 185-186
    if s.writingReq then s.fail else
    { s with stopReq := [], startReq := [], rt := .switchFlag, log := s.log ++ [.switchEnd] }
  | .switchFlag => { s with pleaseSwitch := false, rt := .done }          -- 187
  | .done => { s with rt := .idle, log := s.log ++ [.cycleEnd] }          -- 189

/-- Return from a service call. (the return statements of controller_manager.cpp:219-550 with the release of controllers_lock_) -/
def State.ret (s : State) (op : Op) (r : Res) : State :=
  { s with nrt := .idle, nlog := s.nlog ++ [⟨op, r, s.snap, s.view, s.raced⟩] }

/-- The list building part of load/unload on the current state. (controller_manager.cpp:236-341, 385-436) -/
def State.body (s : State) (op : Op) : BuildOut :=
  match op with
  | .load r => loadBody s.heap s.next (s.lists s.current) (s.sched (!s.current)) r
  | .unload n => unloadBody s.heap s.isRunning (s.lists s.current) (s.sched (!s.current)) n
  | _ => ⟨false, [], [], none, [], false⟩

/-- Update one of the two lists. (controller_manager.h:98-99) -/
def setAt {α : Type} (f : Bool → α) (b : Bool) (x : α) : Bool → α := fun i => if i = b then x else f i

/-- Does the operation evaluate `isRunning()` of a controller that is in the middle of a restart (unload only)? (ghost; controller_manager.cpp:407-420) -/
def State.bodyRaces (s : State) (op : Op) : Bool :=
  match op with
  | .unload n => (s.lists s.current).any (fun e => e.name == n && s.midRestart e.id)
  | _ => false

/-- One step of the service thread (`loadController` 219-363, `unloadController` 368-462, `switchController` 466-550,
`listControllersSrv` controller_manager.cpp:751-785). -/
def State.nrtStep (s : State) : State :=
  match s.nrt with
  | .idle => s
  | .wait1 op =>                                                          -- 228, 377
    if s.rosOk && s.used == some (!s.current) then { s with nrt := .wait1Inner op } else { s with nrt := .build op }
  | .wait1Inner op =>                                                     -- 229-231
    if s.rosOk then { s with nrt := .wait1 op } else s.ret op (.flag false)
  | .build op =>
    if s.rtUses (!s.current) then s.fail else { s with nrt := .build2 op }
  | .build2 op =>                                                         -- 236-342, 385-436
    let out := s.body op
    let s := { s with
      lists := setAt s.lists (!s.current) out.dst
      sched := setAt s.sched (!s.current) out.sched
      raced := s.raced || s.bodyRaces op
      bad := s.bad || out.ub }
    let s := match out.ctrl with
      | some c => { s.setCtrl s.next c with next := s.next + 1 }
      | none => s
    if out.ok then { s with nrt := .pubLock op } else s.ret op (.flag false)
  | .pubLock op =>                                                        -- 345, 441
    if s.pubLock == none then { s with pubLock := some .nrt, nrt := .pubResize op } else s
  | .pubResize op => { s with pubNames := names (s.lists (!s.current)), nrt := .swap op }   -- 346-348, 442-444
  | .swap op => { s with current := !s.current, nrt := .wait2 op s.current }                -- 351-352, 448-449
  | .wait2 op f =>                                                        -- 353, 450
    if s.rosOk && s.used == some f then { s with nrt := .wait2Inner op f } else { s with nrt := .clear op f }
  | .wait2Inner op f =>                                                   -- 354-356: note that the lock stays taken
    if s.rosOk then { s with nrt := .wait2 op f } else s.ret op (.flag false)
  | .clear op f =>                                                        -- 358, 456
    if s.rtUses f then s.fail else { s with nrt := .clear2 op f }
  | .clear2 op f => { s with lists := setAt s.lists f [], nrt := .unlock op }
  | .unlock op => { s with pubLock := none }.ret op (.flag true)          -- 359-362, 458-461
  | .resolve op => if s.rtUsesReq then s.fail else { s with nrt := .resolve2 op }
  | .resolve2 op =>                                                       -- 466-534
    match op with
    | .switch start stop k =>
      let (ok, a, b) := resolveSwitch (s.lists s.current) s.stopReq s.startReq start stop k
      let s := { s with stopReq := a, startReq := b }
      if ok then { s with nrt := .setFlag op } else s.ret op (.flag false)
    | _ => s.fail
  | .setFlag op => { s with pleaseSwitch := true, nrt := .waitSwitch op } -- 538-539
  | .waitSwitch op =>                                                     -- 543
    if s.rosOk && s.pleaseSwitch then { s with nrt := .waitSwitchInner op } else s.ret op (.flag true)
  | .waitSwitchInner op =>                                                -- 544-546
    if s.rosOk then { s with nrt := .waitSwitch op } else s.ret op (.flag false)
  | .listing k acc =>                                                     -- 768-785, assertion of 772
    if (s.sched s.current).length ≠ (s.lists s.current).length then s.fail else
    match (s.sched s.current)[k]? with
    | none => s.ret .list (.listing acc)
    | some j => match (names (s.lists s.current))[j]? with
      | none => s.fail
      | some n => match findByName (s.lists s.current) n with
        | none => s.fail
        | some id => { s with nrt := .listing (k+1) (acc ++ [(n, s.isRunning id)]), raced := s.raced || s.midRestart id }

/-- A service call begins (only one at a time; further calls wait for `services_lock_`). (controller_manager.cpp:224, 373, 485, 760) -/
def State.call (s : State) (op : Op) : State :=
  match s.nrt with
  | .idle =>
    { s with
      snap := s.view
      raced := false
      nrt := match op with
        | .load _ => .wait1 op
        | .unload _ => .wait1 op
        | .switch _ _ _ => .resolve op
        | .list => .listing 0 [] }
  | _ => s

/-- One step of the system: a step of either thread, a new service call, or ROS shutting down. (controller_manager.cpp:126-189 and 219-785) -/
inductive Act where
  | rt (i : RtIn)
  | nrt
  | call (op : Op)
  | shutdown

/-- One step of the system; after undefined behaviour nothing more is said. (controller_manager.cpp:126-189 and 219-785) -/
def State.step (s : State) (a : Act) : State :=
  if s.bad then s else
  match a with
  | .rt i => s.rtStep i
  | .nrt => s.nrtStep
  | .call op => s.call op
  | .shutdown => { s with rosOk := false }

/-- A finite execution. (no counterpart in the code) -/
def State.run (s : State) (acts : List Act) : State := acts.foldl State.step s

end Pr2
