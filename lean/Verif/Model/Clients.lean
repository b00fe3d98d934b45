import Verif.Spec.Manager

/-!
# Programs that call the manager's services one after the other

`reload_controller_libraries` (which holds `services_lock_`, so nobody else's calls intervene) and the Python scripts, as
sequences of completed service calls.  A client program relates the manager's observable state before to its result and the
state after; what one call may do is exactly `CallOk`, which every call of every execution of the interleaving model satisfies
(theorem `manager_history`).
-/

namespace Pr2

/-- A program using the manager's services: state before, result, state after. (no counterpart in the code; the programs are scripts/spawner, scripts/unspawner, scripts/pr2_controller_manager, pr2_controller_manager_interface.py:11-118 and controller_manager.cpp:682-729) -/
def Client (α : Type) := View → α → View → Prop

/-- Sequencing (no counterpart in the code). -/
instance : Monad Client where
  pure a := fun v b v' => b = a ∧ v' = v
  bind c f := fun v b v' => ∃ a v1, c v a v1 ∧ f a v1 b v'

/-- One completed service call which did not race with a motor restart (see finding on C12). (the service handlers, controller_manager.cpp:751-833) -/
def call (op : Op) : Client Res := fun v res v' => CallOk ⟨op, res, v, v', false⟩

/-- `getControllerNames` (controller_manager.cpp:202-210). -/
def loadedNames : Client (List String) := fun v ns v' => ns = v.names ∧ v' = v

/-- How a service handler ends: with a reply, or by a failed assertion. (controller_manager.cpp:682-729, the assertion is at 719) -/
inductive Outcome where
  | reply (ok : Bool)
  | aborted
deriving DecidableEq, Repr

/-- `reloadControllerLibrariesSrv` (controller_manager.cpp:709-716): unload one after the other until one fails. -/
def unloadUntilFail : List String → Client Bool
  | [] => pure true
  | n :: ns => do
    let r ← call (.unload n)
    if r = .flag true then unloadUntilFail ns else pure false

/-- `reloadControllerLibrariesSrv` (controller_manager.cpp:682-729).  `getControllerNames` appends to its argument (line 208), so
after line 714 the vector holds the old names followed by the new ones.  `ndebug`: assertions compiled out (not the default). Loading
the plugin libraries anew (719-720) is external. -/
def reload (ndebug force : Bool) : Client Outcome := do
  let controllers ← loadedNames                                              -- 692-693
  if controllers ≠ [] ∧ force = false then pure (.reply false)               -- 694-698
  else if controllers ≠ [] then do                                           -- 701
    let r ← call (.switch [] controllers BEST_EFFORT)                        -- 704
    if r ≠ .flag true then pure (.reply false)                               -- 705-707
    else do
      let done ← unloadUntilFail controllers                                 -- 709-716
      if done = false then pure (.reply false)
      else do
        let now ← loadedNames                                                -- 717
        if (controllers ++ now) ≠ [] ∧ ndebug = false then pure .aborted     -- 719
        else pure (.reply true)
  else pure (.reply true)

/-- The spawner loads one controller after the other and remembers those that loaded (scripts/spawner:137-144). -/
def loadAll : List LoadReq → List String → Client (List String)
  | [], loaded => pure loaded
  | q :: qs, loaded => do
    let r ← call (.load q)
    loadAll qs (if r = .flag true then loaded ++ [q.name] else loaded)

/-- The spawner until it waits (scripts/spawner:124-159); `strictness` 2 in line 153. -/
def spawn (autostart : Bool) (qs : List LoadReq) : Client (List String) := do
  let loaded ← loadAll qs []
  if autostart then do
    let _ ← call (.switch loaded [] 2)
    pure loaded
  else pure loaded

/-- Unload one after the other, ignoring the replies (scripts/spawner:62-65). -/
def unloadEach : List String → Client Unit
  | [] => pure ()
  | n :: ns => do
    let _ ← call (.unload n)
    unloadEach ns

/-- The spawner's shutdown hook (scripts/spawner:58-67). -/
def spawnerShutdown (loaded : List String) : Client Unit := do
  let _ ← call (.switch [] loaded STRICT)
  unloadEach loaded.reverse

/-- One round of the unspawner's loop (scripts/unspawner:57-68): list, stop the unwanted ones that run. -/
def inhibitRound (toInhibit inhibited : List String) : Client (List String) := do
  let r ← call .list
  match r with
  | .listing l =>
    let toStop := (l.filter (fun p => toInhibit.contains p.1 && p.2)).map (·.1)
    if toStop = [] then pure inhibited
    else do
      let _ ← call (.switch [] toStop BEST_EFFORT)
      pure (inhibited ++ toStop)
  | .flag _ => pure inhibited

/-- Any number of rounds, between which `env` happens (calls of others). (scripts/unspawner:57-70) -/
def inhibitRounds (env : Client Unit) (toInhibit : List String) : Nat → List String → Client (List String)
  | 0, inhibited => pure inhibited
  | n+1, inhibited => do
    let i ← inhibitRound toInhibit inhibited
    env
    inhibitRounds env toInhibit n i

/-- The unspawner, killed after `n` rounds (scripts/unspawner:46-75). -/
def unspawner (env : Client Unit) (toInhibit : List String) (n : Nat) : Client (List String) := do
  let i ← inhibitRounds env toInhibit n []
  let _ ← call (.switch i [] BEST_EFFORT)
  pure i

/-- Each of the given service calls, ignoring the replies. (the loops of scripts/pr2_controller_manager:50-71) -/
def callEach : List Op → Client Unit
  | [] => pure ()
  | o :: os => do
    let _ ← call o
    callEach os

/-- The command line tool's `spawn` (scripts/pr2_controller_manager:62-66). -/
def cliSpawn (qs : List LoadReq) : Client Unit := do
  callEach (qs.map Op.load)
  callEach (qs.map (fun q => Op.switch [q.name] [] STRICT))

/-- The command line tool's `kill` (scripts/pr2_controller_manager:67-71). -/
def cliKill (ns : List String) : Client Unit := do
  callEach (ns.map (fun n => Op.switch [] [n] STRICT))
  callEach (ns.map Op.unload)

/-- `reload_libraries(force_kill, restore=True)` (pr2_controller_manager_interface.py:18-49).  `req n` is the load request the parameter server
describes under the name `n`.  If the manager aborts, the service call raises and the function ends. -/
def reloadRestore (ndebug force : Bool) (req : String → LoadReq) : Client Outcome := do
  let originally ← call .list                                                -- 28
  match originally with
  | .listing l => do
    let out ← reload ndebug force                                            -- 30
    if out = .aborted then pure out
    else do
      callEach (l.map (fun p => Op.load (req p.1)))                          -- 39-40
      let _ ← call (.switch ((l.filter (·.2)).map (·.1)) [] BEST_EFFORT)     -- 41-47
      pure out
  | .flag _ => pure .aborted

/-- `start_stop_controllers` (pr2_controller_manager_interface.py:96-118). -/
def pyStartStop (names : List String) (start : Bool) : Client Bool := do
  let r ← call (if start then .switch names [] STRICT else .switch [] names STRICT)
  pure (r = .flag true)

/-- How a Python function ends: it returns, or raises an exception (`NameError`). (pr2_controller_manager_interface.py:84-118) -/
inductive PyR where
  | returned (ok : Bool)
  | raised
deriving DecidableEq, Repr

/-- `start_controllers(names)` (pr2_controller_manager_interface.py:87-88). -/
def pyStartControllers (names : List String) : Client PyR := do
  let b ← pyStartStop names true
  pure (.returned b)

/-- `stop_controllers(names)` (pr2_controller_manager_interface.py:93-94): the body refers to `name`, which does not exist. -/
def pyStopControllers (_names : List String) : Client PyR := pure .raised

end Pr2
