import Verif.Model.Clients

/-!
# The scripts as processes that can be killed at any point

`Verif.Model.Clients` describes the scripts by what they do to a manager that answers correctly.  Here they are programs that issue
service calls, get arbitrary replies and keep a record (`loaded`, `inhibited`) in separate statements, and that may be killed between any two
statements or during a call; then their clean-up runs (`rospy.on_shutdown` in the spawner, `finally` in the unspawner) with the record as it is
at that moment.
-/

namespace Pr2

/-- A script: issue a service call and go on with its reply; extend the record; let time pass (other clients act). (no counterpart in the code; the programs are scripts/spawner:58-159 and scripts/unspawner:46-75) -/
inductive Script (α : Type) where
  | ret (a : α)
  | call (op : Op) (k : Res → Script α)
  | note (names : List String) (k : Script α)
  | wait (k : Script α)

/-- Sequencing. (no counterpart in the code) -/
def Script.bind {α β : Type} : Script α → (α → Script β) → Script β
  | .ret a, f => f a
  | .call op k, f => .call op (fun r => (k r).bind f)
  | .note ns k, f => .note ns (k.bind f)
  | .wait k, f => .wait (k.bind f)

/-- What a script does to a manager that meets its contract; `env` is what other clients do while it waits. (no counterpart in the code) -/
def Script.den {α : Type} (env : Client Unit) : Script α → Client α
  | .ret a => pure a
  | .call op k => do let r ← Pr2.call op; (k r).den env
  | .note _ k => k.den env
  | .wait k => do let _ ← env; k.den env

/-- What an observer of the process sees.  `none` for the reply: killed before it arrived. (no counterpart in the code) -/
inductive SEv where
  | called (op : Op) (reply : Option Res)
  | noted (names : List String)

/-- Executions with arbitrary replies, killed anywhere (result `none`) or complete (result `some`). (no counterpart in the code) -/
inductive Script.Trace {α : Type} : Script α → List SEv → Option α → Prop
  | ret (a : α) : Trace (.ret a) [] (some a)
  | killed (s : Script α) : Trace s [] none
  | lost (op : Op) (k : Res → Script α) : Trace (.call op k) [.called op none] none
  | call (op : Op) (k : Res → Script α) (r : Res) (t : List SEv) (o : Option α) : Trace (k r) t o → Trace (.call op k) (.called op (some r) :: t) o
  | note (ns : List String) (k : Script α) (t : List SEv) (o : Option α) : Trace k t o → Trace (.note ns k) (.noted ns :: t) o
  | wait (k : Script α) (t : List SEv) (o : Option α) : Trace k t o → Trace (.wait k) t o

/-- The record at the end of a trace. (the global `loaded` of scripts/spawner:56 and the set `inhibited` of scripts/unspawner:54) -/
def noted (t : List SEv) : List String := t.flatMap (fun e => match e with | .noted ns => ns | .called _ _ => [])

/-- The spawner loads one controller after the other and appends those that loaded to `loaded` (scripts/spawner:137-144). -/
def loadAllS : List LoadReq → List String → Script (List String)
  | [], loaded => .ret loaded
  | q :: qs, loaded => .call (.load q) (fun r =>                              -- 139
      if r = .flag true then .note [q.name] (loadAllS qs (loaded ++ [q.name])) -- 140-141
      else loadAllS qs loaded)                                                 -- 142-144

/-- The spawner until it waits for its end (scripts/spawner:124-159). -/
def spawnS (autostart : Bool) (qs : List LoadReq) : Script (List String) :=
  (loadAllS qs []).bind (fun loaded =>
    if autostart then .call (.switch loaded [] 2) (fun _ => .ret loaded) else .ret loaded)   -- 152-157

/-- scripts/spawner:62-65 -/
def unloadEachS : List String → Script Unit
  | [] => .ret ()
  | n :: ns => .call (.unload n) (fun _ => unloadEachS ns)

/-- The spawner's shutdown hook (scripts/spawner:58-67). -/
def spawnerShutdownS (loaded : List String) : Script Unit :=
  .call (.switch [] loaded STRICT) (fun _ => unloadEachS loaded.reverse)

/-- A process: the main part, killed anywhere or complete, then the clean-up with the record, possibly killed as well. (scripts/spawner:122 (hook), scripts/unspawner:48, 72 (try, finally)) -/
def Process {α : Type} (main : Script α) (cleanup : List String → Script Unit) (t1 t2 : List SEv) (done : Option α) (cleaned : Option Unit) : Prop :=
  main.Trace t1 done ∧ (cleanup (noted t1)).Trace t2 cleaned

/-- The spawner ended by a signal after which Python goes on (SIGTERM: `rospy`'s handler runs the shutdown hook in the main thread and returns): `t1` is what the main part did before, `t2`
the complete clean-up, `t3` what the main part does afterwards.  Only when loading is over does it look whether it has been shut down (scripts/spawner:148-149).  A call during which the
signal arrives belongs to `t1` or `t3`, according to when the manager executes it. -/
inductive Signalled (autostart : Bool) (qs : List LoadReq) : List SEv → List SEv → List SEv → Prop
  | loading (t1 t2 t3 : List SEv) (o : Option (List String)) : (loadAllS qs []).Trace (t1 ++ t3) o → (spawnerShutdownS (noted t1)).Trace t2 (some ()) →
      Signalled autostart qs t1 t2 t3
  | loaded (ta tb t2 t3 : List SEv) (l : List String) (o : Option (List String)) : (loadAllS qs []).Trace ta (some l) →
      (if autostart then (.call (.switch l [] 2) (fun _ => .ret l) : Script (List String)) else .ret l).Trace (tb ++ t3) o →
      (spawnerShutdownS (noted (ta ++ tb))).Trace t2 (some ()) → Signalled autostart qs (ta ++ tb) t2 t3

/-- One round of the unspawner's loop (scripts/unspawner:57-70). -/
def inhibitRoundS (toInhibit : List String) (k : List String → Script (List String)) (inhibited : List String) : Script (List String) :=
  .call .list (fun r =>
    match r with
    | .listing l =>
      let toStop := (l.filter (fun p => toInhibit.contains p.1 && p.2)).map (·.1)                         -- 60-62
      if toStop = [] then .wait (k inhibited)
      else .call (.switch [] toStop BEST_EFFORT) (fun _ => .note toStop (.wait (k (inhibited ++ toStop))))   -- 64-68
    | .flag _ => .wait (k inhibited))

/-- The unspawner's loop, ended after `n` rounds at the latest (scripts/unspawner:57-70). -/
def inhibitRoundsS (toInhibit : List String) : Nat → List String → Script (List String)
  | 0, inhibited => .ret inhibited
  | n + 1, inhibited => inhibitRoundS toInhibit (inhibitRoundsS toInhibit n) inhibited

/-- The `finally` block (scripts/unspawner:72-75).  The Python set `inhibited` is given as a list, possibly with repetitions. -/
def unspawnerFinallyS (inhibited : List String) : Script Unit := .call (.switch inhibited [] BEST_EFFORT) (fun _ => .ret ())

end Pr2
