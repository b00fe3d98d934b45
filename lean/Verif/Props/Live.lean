import Verif.Lemmas.Live
import Verif.Props.ManagerTraces

/-!
# C24: service calls finish while the realtime loop runs

`FairRun m σ act` (Lemmas/Live.lean): an infinite execution `σ 0, σ 1, …` in normal operation (starting in a reachable state, no
shutdown), in which both threads keep being scheduled and the service thread is not for ever unlucky with the publisher's lock, which
other threads only hold for a short time.
-/

namespace Pr2
set_option linter.unusedVariables false

/-- **C24.** In every fair execution of normal operation, whatever has been requested, the service thread becomes idle again: every
load, unload, switch and list call finishes. -/
theorem C24_calls_finish {m : Bool} {σ : Nat → State} {act : Nat → Act} (F : FairRun m σ act) (n : Nat) :
    ∃ k ≥ n, (σ k).nrt = .idle := by
  generalize hr : nRank (σ n) = r
  induction r using Nat.strong_induction_on generalizing n with
  | _ r ih =>
    by_cases h0 : nRank (σ n) = 0
    · exact ⟨n, le_refl _, nRank_idle.1 h0⟩
    · obtain ⟨k, hk, hlt⟩ := F.progress n h0
      obtain ⟨k', hk', h⟩ := ih _ (hr ▸ hlt) k rfl
      exact ⟨k', by omega, h⟩

/-- **C24, realtime side.** In every fair execution every control cycle ends: no request of the service threads can make the realtime
loop wait or spin. -/
theorem C24_cycles_end {m : Bool} {σ : Nat → State} {act : Nat → Act} (F : FairRun m σ act) (n : Nat) :
    ∃ k ≥ n, (σ k).rt = .idle := F.rtIdle n

/-- **C24, first wait.** The wait at the beginning of load and unload (for the realtime loop to stop using the list that will be
built) never blocks: in every reachable state in which the service thread is there, the realtime loop is using the other list. -/
theorem C24_first_wait_free {m : Bool} {s : State} (h : Reachable m s) {op : Op} (hn : s.nrt = .wait1 op) :
    s.used = some s.current := h.inv.1.usedCurrent (by rw [hn]; rfl)

/-- **C24, how long.** While load or unload waits for the realtime loop to leave the old list, the beginning of the next control
cycle (two realtime steps after the loop is idle: reading the index and storing it) ends the wait. -/
theorem C24_second_wait_one_cycle {m : Bool} {s : State} (h : Reachable m s) {op : Op} {f : Bool} (hn : s.nrt = .wait2 op f)
    (hr : s.rt = .idle) (i j : RtIn) : ((s.rtStep i).rtStep j).nrtStep.nrt = .clear op f := by
  have hf : f = !s.current := (h.inv.1.former f (by rw [hn]; rfl)).1
  have h1 : s.rtStep i = { s with rt := .gotCurrent s.current } := by unfold State.rtStep; rw [hr]
  have h2 : (s.rtStep i).rtStep j = { s with used := some s.current, rt := .pre } := by rw [h1]; unfold State.rtStep; rfl
  rw [h2]; unfold State.nrtStep; simp only [hn]
  rw [if_neg]
  rw [hf]; cases s.current <;> simp

/-! A concrete fair run: one load request, then the two threads alternate. -/

def fairAct (n : Nat) : Act := if n = 0 then .call (goodLoad "a" []) else if n % 2 = 0 then .nrt else tick
def fairStart : State := (State.init false).run (firstInputs.map Act.rt)
def fairRun : Nat → State
  | 0 => fairStart
  | n+1 => (fairRun n).step (fairAct n)

/-- after 60 steps the call has finished, and nothing is requested any more -/
theorem fairRun_quiet (d : Nat) : Reachable false (fairRun (60 + d)) ∧ (fairRun (60 + d)).nrt = .idle := by
  have hr : ∀ n, Reachable false (fairRun n) := by
    intro n
    induction n with
    | zero => exact reachable_first
    | succ n ih =>
      refine Reachable.step ih _ ?_
      unfold fairAct tick; split
      · simp
      · split <;> simp
  refine ⟨hr _, ?_⟩
  induction d with
  | zero =>
    have h : ((fairRun 60).nrt matches .idle) = true := by decide +kernel
    revert h
    cases (fairRun (60 + 0)).nrt <;> simp
  | succ d ih =>
    have hi := (hr (60 + d)).inv.1
    have he : fairRun (60 + (d+1)) = (fairRun (60 + d)).step (fairAct (60 + d)) := rfl
    rw [he]
    unfold State.step
    rw [if_neg (by rw [hi.notbad]; simp)]
    unfold fairAct tick
    rw [if_neg (by omega)]
    by_cases hp : (60 + d) % 2 = 0
    · rw [if_pos hp]
      simp only
      unfold State.nrtStep; rw [ih]; simp only [ih]
    · rw [if_neg hp]
      simp only
      rw [(rtStep_nrtSide hi _).1, ih]

theorem fairRun_fair : FairRun false fairRun fairAct where
  reach := reachable_first
  step := fun n => rfl
  up := by
    intro n; unfold fairAct tick; split
    · simp
    · split <;> simp
  rt := by
    intro n
    refine ⟨2 * n + 1, by omega, ⟨false, false, false⟩, ?_⟩
    unfold fairAct tick
    rw [if_neg (by omega), if_neg (by omega)]
  nrt := by
    intro n
    refine ⟨2 * (n + 1), by omega, ?_⟩
    unfold fairAct
    rw [if_neg (by omega), if_pos (by omega)]
  lock := by
    intro n h
    obtain ⟨op, ho⟩ := h (60 + n) (by omega)
    rw [(fairRun_quiet n).2] at ho
    simp at ho

/-- and the requested controller is loaded at the end -/
example : (fairRun 60).view.names = ["a"] := by decide +kernel

/-- the second wait is reached with the realtime loop idle -/
example : (((fairRun 0).run ([.call (goodLoad "a" [])] ++ cycle 5 ++ serve 6)).nrt matches .wait2 _ _) = true ∧
    (((fairRun 0).run ([.call (goodLoad "a" [])] ++ cycle 5 ++ serve 6)).rt matches .idle) = true := by decide +kernel

end Pr2
