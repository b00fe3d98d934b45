import Verif.Props.Manager

/-!
# Concrete executions of the controller manager

Witnesses that the hypotheses of the theorems in `Verif.Props.Manager` are met by real executions, and executions showing which of
the properties fail outside normal operation (findings).
-/

namespace Pr2

theorem Reachable.run {m : Bool} {s : State} (h : Reachable m s) (acts : List Act) (ha : ∀ a ∈ acts, a ≠ .shutdown) :
    Reachable m (s.run acts) := by
  induction acts using List.reverseRecOn with
  | nil => exact h
  | append_singleton l a ih =>
    have : s.run (l ++ [a]) = (s.run l).step a := by simp [State.run, List.foldl_append]
    rw [this]
    exact Reachable.step (ih (fun b hb => ha b (by simp [hb]))) a (ha a (by simp))

def goodLoader : Loader := ⟨fun _ => true, [], id, fun _ => true⟩
/-- A plugin that initialises, asking for the given controllers before it. -/
def goodLoad (name : String) (before : List String) : Op :=
  .load ⟨name, true, some "T", goodLoader, ⟨before.map (fun n => ⟨n, BEFORE_ME, true⟩), [], [], fun bs => some (bs.all id)⟩⟩
/-- A step of the realtime loop: motors enabled, never publishing. -/
def tick : Act := .rt ⟨false, false, false⟩
/-- A step of the realtime loop: motors halted. -/
def tickH : Act := .rt ⟨true, false, false⟩
/-- A step of the realtime loop, publishing whenever possible. -/
def tickP : Act := .rt ⟨false, true, true⟩

def firstInputs : List RtIn := List.replicate 2 ⟨false, false, false⟩
theorem reachable_first : Reachable false ((State.init false).run (firstInputs.map Act.rt)) :=
  Reachable.start firstInputs (by decide +kernel)

/-- Finish the current cycle and begin another. -/
def cycle (n : Nat) : List Act := List.replicate n tick
def serve (n : Nat) : List Act := List.replicate n .nrt

/-- Load `a`, then `b` which wants `a` before it, start both, list, fail to unload `a`, stop and unload `b`, and try a strict
switch of an unknown controller. -/
def demo : List Act :=
  [.call (goodLoad "a" [])] ++ serve 7 ++ cycle 12 ++ serve 5 ++
  [.call (goodLoad "b" ["a"])] ++ serve 7 ++ cycle 12 ++ serve 5 ++
  [.call (.switch ["a", "b"] [] STRICT)] ++ serve 4 ++ List.replicate 40 tickP ++ serve 4 ++
  [.call .list] ++ serve 4 ++
  [.call (.unload "a")] ++ serve 4 ++
  [.call (.switch [] ["b", "nobody"] BEST_EFFORT)] ++ serve 4 ++ cycle 40 ++ serve 4 ++
  [.call (.unload "b")] ++ serve 7 ++ cycle 16 ++ serve 5 ++
  [.call (.switch ["a", "nobody"] [] STRICT)] ++ serve 4

def demoState : State := ((State.init false).run (firstInputs.map Act.rt)).run demo

example : Reachable false demoState := by
  refine reachable_first.run _ ?_
  intro a ha
  have : (demo.all (fun a => match a with | .shutdown => false | _ => true)) = true := by decide +kernel
  have := List.all_eq_true.1 this a ha
  rintro rfl; simp at this

/-- All the kinds of calls the theorems speak about do occur. -/
example : demoState.nlog.map (·.res) =
    [.flag true, .flag true, .flag true, .listing [("a", true), ("b", true)], .flag false, .flag true, .flag true, .flag false] := by
  decide +kernel
example : demoState.nlog.map (·.raced) = List.replicate 8 false := by decide +kernel
example : demoState.view.names = ["a"] ∧ demoState.nrt matches .idle ∧ demoState.bad = false := by decide +kernel
example : demoState.nlog.map (fun r => r.post.names.length) = [1, 2, 2, 2, 2, 2, 1, 1] := by decide +kernel
/-- updates, switches and published messages do occur -/
example : Ev.update 1 ∈ demoState.log ∧ Ev.switchBegin [] [0, 1] ∈ demoState.log ∧
    Ev.published [(⟨"a", 0⟩, true), (⟨"b", 1⟩, true)] [("a", true), ("b", true)] ∈ demoState.log := by decide +kernel

/-- Motors halted for a cycle and then re-enabled: the running controller is restarted. -/
def restartDemo : List Act :=
  [.call (goodLoad "a" [])] ++ serve 7 ++ cycle 12 ++ serve 5 ++ [.call (.switch ["a"] [] STRICT)] ++ serve 4 ++ cycle 20 ++ serve 4 ++
  List.replicate 20 tickH ++ cycle 20

example : ∃ s, Reachable false s ∧ [Ev.stopping 0, Ev.starting 0, Ev.update 0] <:+: s.log := by
  refine ⟨((State.init false).run (firstInputs.map Act.rt)).run restartDemo, ?_, ?_⟩
  · refine reachable_first.run _ ?_
    intro a ha
    have : (restartDemo.all (fun a => match a with | .shutdown => false | _ => true)) = true := by decide +kernel
    have := List.all_eq_true.1 this a ha
    rintro rfl; simp at this
  · decide +kernel

/-! ## Finding: races with the restart after motors are re-enabled -/

/-- `a` is loaded, started, and the realtime loop stands between its `stopRequest` and its `startRequest`
(lines 142-143). -/
def toRestart : List Act :=
  [.call (goodLoad "a" [])] ++ serve 7 ++ cycle 12 ++ serve 5 ++ [.call (.switch ["a"] [] STRICT)] ++ serve 4 ++ cycle 20 ++ serve 4 ++
  List.replicate 12 tickH ++ cycle 2

/-- Unload during a restart removes (and so destroys) a running controller: the call record shows a running controller
before the call, the call succeeds, and the controller is gone. -/
theorem C12_unload_race_counterexample : ∃ s, Reachable false s ∧ ∃ r ∈ s.nlog, (r.op matches .unload "a") = true ∧
    r.res = .flag true ∧ (∃ c ∈ r.pre.ctrls, c.name = "a" ∧ c.running = true) ∧ "a" ∉ r.post.names := by
  let acts := toRestart ++ [.call (.unload "a")] ++ serve 7 ++ cycle 20 ++ serve 6
  refine ⟨((State.init false).run (firstInputs.map Act.rt)).run acts, ?_, ?_⟩
  · refine reachable_first.run _ ?_
    intro a ha
    have : (acts.all (fun a => match a with | .shutdown => false | _ => true)) = true := by decide +kernel
    have := List.all_eq_true.1 this a ha
    rintro rfl; simp at this
  · decide +kernel

/-- list_controllers during a restart reports a running controller as stopped. -/
theorem C20_list_race_counterexample : ∃ s, Reachable false s ∧ ∃ r ∈ s.nlog, r.res = .listing [("a", false)] ∧
    r.pre = r.post ∧ (∃ c ∈ r.pre.ctrls, c.name = "a" ∧ c.running = true) := by
  let acts := toRestart ++ [.call .list] ++ serve 4
  refine ⟨((State.init false).run (firstInputs.map Act.rt)).run acts, ?_, ?_⟩
  · refine reachable_first.run _ ?_
    intro a ha
    have : (acts.all (fun a => match a with | .shutdown => false | _ => true)) = true := by decide +kernel
    have := List.all_eq_true.1 this a ha
    rintro rfl; simp at this
  · decide +kernel

/-! ## Finding: before the first cycle -/

/-- If two controllers are loaded while the realtime loop is inside its very first execution of line 128 (it has read
`current_controllers_list_` but not yet written `used_by_realtime_`), the list it is about to use is being rewritten. -/
theorem C16_startup_race_counterexample : ∃ acts : List Act, (∀ a ∈ acts, a ≠ .shutdown) ∧ ((State.init false).run acts).bad = true := by
  let acts := [tick] ++ [.call (goodLoad "a" [])] ++ serve 10 ++ [.call (goodLoad "b" [])] ++ serve 2 ++ [tick, tick]
  refine ⟨acts, ?_, by decide +kernel⟩
  intro a ha
  have : (acts.all (fun a => match a with | .shutdown => false | _ => true)) = true := by decide +kernel
  have := List.all_eq_true.1 this a ha
  rintro rfl; simp at this

/-! ## Finding: shutdown -/

/-- When ROS shuts down, a load that waits for the realtime loop to leave the old list clears that list although it is in use
(the waiting loop ends because its condition contains `ros::ok()`). -/
theorem C16_shutdown_counterexample : ∃ s, Reachable false s ∧ ∃ acts : List Act, (s.run acts).bad = true :=
  ⟨_, reachable_first, [.call (goodLoad "a" [])] ++ serve 6 ++ [.shutdown] ++ serve 2, by decide +kernel⟩

/-- When ROS shuts down, a switch may be reported successful although it was never executed. -/
theorem C23_shutdown_counterexample : ∃ s, Reachable false s ∧ ∃ acts : List Act, ∃ r ∈ (s.run acts).nlog,
    (r.op matches .switch ["a"] [] 2) = true ∧ r.res = .flag true ∧ ∃ c ∈ r.post.ctrls, c.name = "a" ∧ c.running = false := by
  refine ⟨_, reachable_first, [.call (goodLoad "a" [])] ++ serve 7 ++ cycle 12 ++ serve 5 ++ [.call (.switch ["a"] [] STRICT)] ++ serve 3 ++
    [.shutdown] ++ serve 1, ?_⟩
  decide +kernel

/-- When ROS shuts down, a failing load may leave the statistics publisher locked for good. -/
theorem C24_shutdown_lock_counterexample : ∃ s, Reachable false s ∧ ∃ acts : List Act, ((s.run acts).nrt matches .idle) = true ∧
    (s.run acts).pubLock = some .nrt :=
  ⟨_, reachable_first, [.call (goodLoad "a" [])] ++ serve 7 ++ [.shutdown] ++ serve 1, by decide +kernel⟩

end Pr2
