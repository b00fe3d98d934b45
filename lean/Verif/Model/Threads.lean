import Verif.Model.Concurrent

/-!
# Any number of client threads

ROS may run the service handlers of the controller manager in any number of threads, and other threads of the same process may call the public
methods `loadController`, `unloadController` and `switchController` directly.  Handlers serialise on `services_lock_`, the methods on
`controllers_lock_` (controller_manager.h:97, 128).  This model puts any number of such threads on top of the interleaving model of
`Verif.Model.Concurrent`, whose single service thread is whichever thread holds `controllers_lock_`.
-/

namespace Pr2

/-- What a service answers. (controller_manager.cpp:696, 725, 744, 776-780, 797, 813, 829) -/
inductive Ans where
  | flag (ok : Bool)
  | listing (l : List (String × Bool))
  | types (l : List String)
deriving DecidableEq, Repr

/-- A request to one of the six services (controller_manager.cpp:111-116).  `types` carries what the plugin loader (external) declares. -/
inductive Req where
  | load (q : LoadReq)
  | unload (name : String)
  | switch (start stop : List String) (strictness : Int)
  | list
  | types (declared : List String)
  | reload (force : Bool)

/-- A service handler between taking and releasing `services_lock_`: what it accesses next, and how it goes on. (controller_manager.cpp:682-833) -/
inductive HProg where
  /-- return the answer, releasing the lock -/
  | ret (a : Ans)
  /-- a failing assertion or an access through NULL: the process dies -/
  | abort
  /-- `loadController`, `unloadController` or `switchController` -/
  | call (op : Op) (k : Bool → HProg)
  /-- `getControllerNames` (controller_manager.cpp:202-210) -/
  | names (k : List String → HProg)
  /-- `getControllerSchedule` (212-216) -/
  | schedule (k : List Nat → HProg)
  /-- `getControllerByName` (191-200), which takes no lock -/
  | byName (n : String) (k : Option Nat → HProg)
  /-- `isRunning()` through a pointer (783), which takes no lock -/
  | running (id : Nat) (k : Bool → HProg)

/-- Lines 774-785 of `listControllersSrv`. (controller_manager.cpp:772-781) -/
def listLoop (ns : List String) : List Nat → List (String × Bool) → HProg
  | [], acc => .ret (.listing acc)
  | j :: js, acc =>
    match ns[j]? with
    | none => .abort
    | some n => .byName n (fun c =>
      match c with
      | none => .abort                                                     -- 775
      | some id => .running id (fun b => listLoop ns js (acc ++ [(n, b)])))

/-- `listControllersSrv` (controller_manager.cpp:751-785). -/
def listProg : HProg :=
  .names (fun ns => .schedule (fun sc => if ns.length ≠ sc.length then .abort else listLoop ns sc []))

/-- Lines 709-715 of `reloadControllerLibrariesSrv`. (controller_manager.cpp:709-716) -/
def unloadLoop : List String → (Bool → HProg) → HProg
  | [], k => k true
  | n :: ns, k => .call (.unload n) (fun ok => if ok then unloadLoop ns k else k false)

/-- `reloadControllerLibrariesSrv` (controller_manager.cpp:682-729); `ndebug`: assertions compiled out. -/
def reloadProg (ndebug force : Bool) : HProg :=
  .names (fun cs =>
    if cs ≠ [] ∧ force = false then .ret (.flag false)                     -- 694-698
    else if cs ≠ [] then                                                   -- 701
      .call (.switch [] cs BEST_EFFORT) (fun ok =>
        if ok then unloadLoop cs (fun done =>
          if done then .names (fun now =>                                  -- 717
            if cs ++ now ≠ [] ∧ ndebug = false then .abort else .ret (.flag true))
          else .ret (.flag false))
        else .ret (.flag false))
    else .ret (.flag true))

/-- The six handlers (controller_manager.cpp:682-833). -/
def Req.prog (ndebug : Bool) : Req → HProg
  | .load q => .call (.load q) (fun ok => .ret (.flag ok))
  | .unload n => .call (.unload n) (fun ok => .ret (.flag ok))
  | .switch a b k => .call (.switch a b k) (fun ok => .ret (.flag ok))
  | .list => listProg
  | .types l => .ret (.types l)
  | .reload force => reloadProg ndebug force

/-- What a thread is doing. (controller_manager.cpp:682-833) -/
inductive Thr where
  | idle
  /-- in a handler, waiting for `services_lock_` -/
  | wait (r : Req)
  /-- in a handler, holding `services_lock_`; `busy`: inside `loadController` …, holding `controllers_lock_`.  Ghost: the manager's state when the
  lock was taken, and whether some `isRunning()` was read in the middle of a restart. -/
  | run (r : Req) (p : HProg) (busy : Bool) (pre : View) (raced : Bool)
  /-- in a method called directly, waiting for `controllers_lock_` -/
  | dwait (op : Op)
  /-- in a method called directly, holding `controllers_lock_` -/
  | drun (op : Op)

/-- A completed service request (ghost): who, what, the answer, the manager's state when the handler took and released `services_lock_`. (ghost, no counterpart in the code) -/
structure Done where
  thread : Nat
  req : Req
  ans : Ans
  pre : View
  post : View
  raced : Bool

/-- The manager with its client threads. (controller_manager.h:97, 128 (the locks)) -/
structure Sys where
  base : State
  srv : Option Nat         -- owner of services_lock_
  ctl : Option Nat         -- owner of controllers_lock_
  thr : Nat → Thr
  dead : Bool              -- the process has died
  done : List Done         -- ghost

/-- No client threads yet. (no counterpart in the code) -/
def Sys.start (s : State) : Sys := ⟨s, none, none, fun _ => .idle, false, []⟩

/-- Change the state of thread `t`. (no counterpart in the code) -/
def Sys.setThr (s : Sys) (t : Nat) (x : Thr) : Sys := { s with thr := fun u => if u = t then x else s.thr u }

/-- The boolean a method returned. (controller_manager.cpp:219, 368, 466) -/
def Res.ok : Res → Bool
  | .flag b => b
  | .listing _ => false

/-- Thread `t` takes a step inside `loadController` …; `next` tells what it does after the method has returned (`scoped_lock` releases
`controllers_lock_`). (controller_manager.cpp:219-550) -/
def Sys.inside (s : Sys) (t : Nat) (next : CallRec → Thr) : Sys :=
  let b := s.base.step .nrt
  match b.nrt, b.nlog.getLast? with
  | .idle, some r => { s with base := b, ctl := none }.setThr t (next r)
  | _, _ => { s with base := b }

/-- Thread `t` takes a step. (controller_manager.cpp:219-550, 682-833) -/
def Sys.go (ndebug : Bool) (s : Sys) (t : Nat) : Sys :=
  match s.thr t with
  | .idle => s
  | .wait r =>                                                             -- 688, 741, 760, 794, 810, 826
    if s.srv = none then { s with srv := some t }.setThr t (.run r (r.prog ndebug) false s.base.view false) else s
  | .run r (.ret a) false pre raced =>
    ({ s with srv := none, done := s.done ++ [Done.mk t r a pre s.base.view raced] } : Sys).setThr t .idle
  | .run _ .abort false _ _ => { s with dead := true }
  | .run r (.call op k) false pre raced =>                                 -- 224, 373, 485
    if s.ctl = none then { s with base := s.base.step (.call op), ctl := some t }.setThr t (.run r (.call op k) true pre raced) else s
  | .run r (.names k) false pre raced =>
    if s.ctl = none then s.setThr t (.run r (k (names (s.base.lists s.base.current))) false pre raced) else s
  | .run r (.schedule k) false pre raced =>
    if s.ctl = none then s.setThr t (.run r (k (s.base.sched s.base.current)) false pre raced) else s
  | .run r (.byName n k) false pre raced =>
    s.setThr t (.run r (k (findByName (s.base.lists s.base.current) n)) false pre raced)
  | .run r (.running id k) false pre raced =>
    if s.base.alive id then s.setThr t (.run r (k (s.base.isRunning id)) false pre (raced || s.base.midRestart id))
    else { s with dead := true }
  | .run r (.call op k) true pre raced => s.inside t (fun c => .run r (k c.res.ok) false pre (raced || c.raced))
  | .run _ _ true _ _ => s
  | .dwait op =>
    if s.ctl = none then { s with base := s.base.step (.call op), ctl := some t }.setThr t (.drun op) else s
  | .drun _ => s.inside t (fun _ => .idle)

/-- One step of the whole process: the realtime thread, a new service request or direct call in an idle thread, or a step of a client thread. (controller_manager.cpp:126-189, 219-833) -/
inductive SAct where
  | rt (i : RtIn)
  | request (t : Nat) (r : Req)
  | direct (t : Nat) (op : Op)
  | go (t : Nat)

/-- One step of the whole process.  Directly called are only `loadController`, `unloadController` and `switchController`. (controller_manager.cpp:126-189, 219-833) -/
def Sys.step (ndebug : Bool) (s : Sys) (a : SAct) : Sys :=
  if s.dead then s else
  match a with
  | .rt i => { s with base := s.base.step (.rt i) }
  | .request t r =>
    match s.thr t with
    | .idle => s.setThr t (.wait r)
    | _ => s
  | .direct t op =>
    match s.thr t, op with
    | _, .list => s
    | .idle, op => s.setThr t (.dwait op)
    | _, _ => s
  | .go t => s.go ndebug t

/-- A finite execution. (no counterpart in the code) -/
def Sys.run (ndebug : Bool) (s : Sys) (acts : List SAct) : Sys := acts.foldl (Sys.step ndebug) s

end Pr2
