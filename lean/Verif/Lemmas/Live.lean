import Verif.Lemmas.Race
import Mathlib.Data.Prod.Lex
import Mathlib.Order.WellFounded

namespace Pr2
set_option linter.unusedVariables false
set_option linter.unusedSimpArgs false

/-- An infinite execution in normal operation in which both threads keep taking steps, and the service thread does not
spin for ever on the publisher's lock being missed each time it is free. -/
structure FairRun (m : Bool) (σ : Nat → State) (act : Nat → Act) : Prop where
  reach : Reachable m (σ 0)
  step : ∀ n, σ (n+1) = (σ n).step (act n)
  up : ∀ n, act n ≠ .shutdown
  rt : ∀ n, ∃ k ≥ n, ∃ i, act k = .rt i
  nrt : ∀ n, ∃ k ≥ n, act k = .nrt
  lock : ∀ n, (∀ k ≥ n, ∃ op, (σ k).nrt = .pubLock op) → ∃ k ≥ n, act k = .nrt ∧ (σ k).pubLock = none

def usedLen (s : State) : Nat := match s.used with | some u => (s.lists u).length | none => 0

/-- remaining work of the current realtime cycle: phase and position in the phase -/
def rtRank (s : State) : Nat ×ₗ Nat := toLex (match s.rt with
  | .idle => (0, 0)
  | .gotCurrent _ => (12, 0)
  | .pre => (11, 0)
  | .restart k => (10, 2 * (usedLen s - k) + 1)
  | .restartMid k _ => (10, 2 * (usedLen s - (k+1)) + 2)
  | .sweep k => (9, usedLen s - k)
  | .publish => (8, 0)
  | .pubFill k _ => (7, (s.lists s.current).length - k)
  | .switchCheck => (6, 0)
  | .switchStop k => (5, s.stopReq.length - k)
  | .switchStart k => (4, s.startReq.length - k)
  | .switchClear => (3, 0)
  | .switchFlag => (2, 0)
  | .done => (1, 0))

theorem lex_lt_of_fst {a b c d : Nat} (h : a < c) : (toLex (a, b) : Nat ×ₗ Nat) < toLex (c, d) := Prod.Lex.toLex_lt_toLex.2 (Or.inl h)
theorem lex_lt_of_snd {a b d : Nat} (h : b < d) : (toLex (a, b) : Nat ×ₗ Nat) < toLex (a, d) := Prod.Lex.toLex_lt_toLex.2 (Or.inr ⟨rfl, h⟩)

/-- every realtime step inside a cycle brings its end nearer -/
theorem rtRank_lt {s : State} (h : Inv s) (i : RtIn) (hn : s.rt ≠ .idle) : rtRank (s.rtStep i) < rtRank s := by
  cases hrt : s.rt with
  | idle => exact absurd hrt hn
  | gotCurrent r =>
    have he : s.rtStep i = { s with used := some r, rt := .pre } := by unfold State.rtStep; rw [hrt]
    rw [he]; unfold rtRank; rw [hrt]; exact lex_lt_of_fst (by omega)
  | pre =>
    obtain ⟨u, hu, he⟩ := rtStep_pre h i hrt
    unfold rtRank; rw [hrt, he]
    by_cases hre : (!i.halted && s.motorsPrev) = true
    · simp only [hre, if_true]; exact lex_lt_of_fst (by omega)
    · simp only [hre, Bool.false_eq_true, if_false]; exact lex_lt_of_fst (by omega)
  | restart k =>
    obtain ⟨u, hu, he⟩ := rtStep_restart h i hrt
    rcases he with ⟨hk, j, e, h1, h2, h3, ⟨hr, he⟩ | ⟨hr, he⟩⟩ | ⟨hk, he⟩ <;> unfold rtRank usedLen <;> rw [hrt, he] <;> simp only [hu]
    · exact lex_lt_of_snd (by omega)
    · exact lex_lt_of_snd (by omega)
    · exact lex_lt_of_fst (by omega)
  | restartMid k id =>
    rw [rtStep_restartMid h i hrt]; unfold rtRank usedLen; rw [hrt]
    refine lex_lt_of_snd ?_; dsimp only; omega
  | sweep k =>
    obtain ⟨u, hu, he⟩ := rtStep_sweep h i hrt
    rcases he with ⟨hk, j, e, h1, h2, h3, he⟩ | ⟨hk, he⟩ <;> unfold rtRank usedLen <;> rw [hrt, he] <;> simp only [hu]
    · exact lex_lt_of_snd (by omega)
    · exact lex_lt_of_fst (by omega)
  | publish =>
    have : ∃ x, (s.rtStep i) = x ∧ (x.rt = .pubFill 0 [] ∨ x.rt = .switchCheck) := by
      refine ⟨_, rfl, ?_⟩
      unfold State.rtStep; rw [hrt]; simp only
      split <;> simp
    obtain ⟨x, hx, hx2⟩ := this
    rw [hx]; unfold rtRank; rw [hrt]
    rcases hx2 with hx2 | hx2 <;> rw [hx2] <;> exact lex_lt_of_fst (by omega)
  | pubFill k msg =>
    obtain ⟨hu, hn, he⟩ := rtStep_pubFill h i hrt
    rcases he with ⟨e, he1, he⟩ | ⟨hk, he⟩ <;> rw [he] <;> unfold rtRank <;> rw [hrt]
    · have := (List.getElem?_eq_some_iff.1 he1).1
      refine lex_lt_of_snd ?_; dsimp only; omega
    · exact lex_lt_of_fst (by omega)
  | switchCheck =>
    have : ∃ x, (s.rtStep i) = x ∧ (x.rt = .switchStop 0 ∨ x.rt = .done) := by
      refine ⟨_, rfl, ?_⟩
      unfold State.rtStep; rw [hrt]; simp only
      split <;> simp
    obtain ⟨x, hx, hx2⟩ := this
    rw [hx]; unfold rtRank; rw [hrt]
    rcases hx2 with hx2 | hx2 <;> rw [hx2] <;> exact lex_lt_of_fst (by omega)
  | switchStop k =>
    rcases rtStep_switchStop h i hrt with ⟨id, hid, _, he⟩ | ⟨hk, he⟩ <;> rw [he] <;> unfold rtRank <;> rw [hrt]
    · have := (List.getElem?_eq_some_iff.1 hid).1
      refine lex_lt_of_snd ?_; dsimp only; omega
    · exact lex_lt_of_fst (by omega)
  | switchStart k =>
    rcases rtStep_switchStart h i hrt with ⟨id, hid, _, he⟩ | ⟨hk, he⟩ <;> rw [he] <;> unfold rtRank <;> rw [hrt]
    · have := (List.getElem?_eq_some_iff.1 hid).1
      refine lex_lt_of_snd ?_; dsimp only; omega
    · exact lex_lt_of_fst (by omega)
  | switchClear => rw [rtStep_switchClear h i hrt]; unfold rtRank; rw [hrt]; exact lex_lt_of_fst (by omega)
  | switchFlag =>
    have he : s.rtStep i = { s with pleaseSwitch := false, rt := .done } := by unfold State.rtStep; rw [hrt]
    rw [he]; unfold rtRank; rw [hrt]; exact lex_lt_of_fst (by omega)
  | done =>
    have he : s.rtStep i = { s with rt := .idle, log := s.log ++ [.cycleEnd] } := by unfold State.rtStep; rw [hrt]
    rw [he]; unfold rtRank; rw [hrt]; exact lex_lt_of_fst (by omega)

theorem rtRank_keep {s s' : State} (h : Inv s) (hk : NrtKeeps s s') : rtRank s' = rtRank s := by
  have hlen : usedLen s' = usedLen s := by
    obtain ⟨u, hu⟩ := h.usedSome
    unfold usedLen; rw [hk.used, hu]; simp only [(hk.lists u hu).1]
  have hfl := hk.fills
  have hsw := hk.sw
  have hfu : s.rt.fills = true → s.used = some s.current := fun hf => (h.fillsUsed hf).1
  unfold rtRank
  rw [hk.rt]
  cases hrt : s.rt with
  | pubFill k msg =>
    rw [hrt] at hfl hfu
    simp only [hfl rfl, (hk.lists _ (hfu rfl)).1]
  | switchStop k => rw [hrt] at hsw; simp only [(hsw rfl).1]
  | switchStart k => rw [hrt] at hsw; simp only [(hsw rfl).2]
  | _ => simp only [hlen]

theorem FairRun.reachable {m σ act} (F : FairRun m σ act) (n : Nat) : Reachable m (σ n) := by
  induction n with
  | zero => exact F.reach
  | succ n ih => rw [F.step n]; exact Reachable.step ih _ (F.up n)

theorem FairRun.inv {m σ act} (F : FairRun m σ act) (n : Nat) : Inv (σ n) := (F.reachable n).inv.1

/-- one step of the run -/
theorem FairRun.cases {m σ act} (F : FairRun m σ act) (n : Nat) :
    (∃ i, act n = .rt i ∧ σ (n+1) = (σ n).rtStep i) ∨ (act n = .nrt ∧ σ (n+1) = (σ n).nrtStep) ∨ (∃ op, act n = .call op ∧ σ (n+1) = (σ n).call op) := by
  have h := F.step n
  have hb := (F.inv n).notbad
  unfold State.step at h
  rw [if_neg (by rw [hb]; simp)] at h
  cases ha : act n with
  | rt i => rw [ha] at h; exact Or.inl ⟨i, rfl, h⟩
  | nrt => rw [ha] at h; exact Or.inr (Or.inl ⟨rfl, h⟩)
  | call op => rw [ha] at h; exact Or.inr (Or.inr ⟨op, rfl, h⟩)
  | shutdown => exact absurd ha (F.up n)

/-- between realtime steps nothing the realtime loop depends on changes; the next realtime step from `n` on -/
theorem FairRun.nextRt {m σ act} (F : FairRun m σ act) (n : Nat) : ∃ k ≥ n, ∃ i, act k = .rt i ∧ σ (k+1) = (σ k).rtStep i ∧
    (σ k).rt = (σ n).rt ∧ rtRank (σ k) = rtRank (σ n) ∧ (σ k).used = (σ n).used := by
  obtain ⟨k0, hk0, i0, hi0⟩ := F.rt n
  obtain ⟨d, rfl⟩ := Nat.exists_eq_add_of_le hk0
  clear hk0
  induction d generalizing n with
  | zero =>
    rcases F.cases n with ⟨i, h1, h2⟩ | ⟨h1, _⟩ | ⟨op, h1, _⟩
    · exact ⟨n, le_refl _, i, h1, h2, rfl, rfl, rfl⟩
    · rw [Nat.add_zero, h1] at hi0; simp at hi0
    · rw [Nat.add_zero, h1] at hi0; simp at hi0
  | succ d ih =>
    have next : NrtKeeps (σ n) (σ (n+1)) → ∃ k ≥ n, ∃ i, act k = .rt i ∧ σ (k+1) = (σ k).rtStep i ∧
        (σ k).rt = (σ n).rt ∧ rtRank (σ k) = rtRank (σ n) ∧ (σ k).used = (σ n).used := by
      intro hk
      obtain ⟨k, hk1, i, h1, h2, h3, h4, h5⟩ := ih (n+1) (by rw [show n + 1 + d = n + (d+1) by omega]; exact hi0)
      exact ⟨k, by omega, i, h1, h2, h3.trans hk.rt, h4.trans (rtRank_keep (F.inv n) hk), h5.trans hk.used⟩
    rcases F.cases n with ⟨i, h1, h2⟩ | ⟨h1, h2⟩ | ⟨op, h1, h2⟩
    · exact ⟨n, le_refl _, i, h1, h2, rfl, rfl, rfl⟩
    · exact next (by rw [h2]; exact nrtKeeps (F.inv n))
    · exact next (by rw [h2]; exact callKeeps _ op)

/-- every cycle ends -/
theorem FairRun.rtIdle {m σ act} (F : FairRun m σ act) (n : Nat) : ∃ k ≥ n, (σ k).rt = .idle := by
  generalize hr : rtRank (σ n) = r
  induction r using WellFoundedLT.induction generalizing n with
  | ind r ih =>
    by_cases hi : (σ n).rt = .idle
    · exact ⟨n, le_refl _, hi⟩
    · obtain ⟨k, hk, i, h1, h2, h3, h4, h5⟩ := F.nextRt n
      have hlt : rtRank (σ (k+1)) < r := by
        rw [h2, ← hr, ← h4]
        exact rtRank_lt (F.inv k) i (by rw [h3]; exact hi)
      obtain ⟨k', hk', h⟩ := ih _ hlt (k+1) rfl
      exact ⟨k', by omega, h⟩

/-- what realtime steps leave alone for the service thread -/
theorem rtStep_nrtSide {s : State} (h : Inv s) (i : RtIn) :
    (s.rtStep i).nrt = s.nrt ∧ (s.rtStep i).lists = s.lists ∧ (s.rtStep i).current = s.current ∧
    ((s.rtStep i).rt = .idle → s.rt = .done) ∧
    ((s.rtStep i).rt = .done → (s.rtStep i).pleaseSwitch = false) ∧
    ((s.rtStep i).used = s.used ∨ ∃ r, s.rt = .gotCurrent r ∧ (s.rtStep i).used = some r) := by
  cases hrt : s.rt with
  | idle =>
    have he : s.rtStep i = { s with rt := .gotCurrent s.current } := by unfold State.rtStep; rw [hrt]
    rw [he]; simp
  | gotCurrent r =>
    have he : s.rtStep i = { s with used := some r, rt := .pre } := by unfold State.rtStep; rw [hrt]
    rw [he]; simp
  | pre =>
    obtain ⟨u, hu, he⟩ := rtStep_pre h i hrt
    rw [he]
    refine ⟨rfl, rfl, rfl, ?_, ?_, Or.inl rfl⟩
    · dsimp only; split <;> simp
    · dsimp only; split <;> simp
  | restart k =>
    obtain ⟨u, hu, he⟩ := rtStep_restart h i hrt
    rcases he with ⟨hk, j, e, h1, h2, h3, ⟨hr, he⟩ | ⟨hr, he⟩⟩ | ⟨hk, he⟩ <;> rw [he] <;> simp
  | restartMid k id => rw [rtStep_restartMid h i hrt]; simp
  | sweep k =>
    obtain ⟨u, hu, he⟩ := rtStep_sweep h i hrt
    rcases he with ⟨hk, j, e, h1, h2, h3, he⟩ | ⟨hk, he⟩ <;> rw [he] <;> simp
  | publish =>
    unfold State.rtStep; rw [hrt]; simp only
    split <;> simp
  | pubFill k msg =>
    obtain ⟨hu, hn, he⟩ := rtStep_pubFill h i hrt
    rcases he with ⟨e, he1, he⟩ | ⟨hk, he⟩ <;> rw [he] <;> simp
  | switchCheck =>
    unfold State.rtStep; rw [hrt]; simp only
    split
    · simp
    · rename_i hp; simp [hp]
  | switchStop k => rcases rtStep_switchStop h i hrt with ⟨id, hid, _, he⟩ | ⟨hk, he⟩ <;> rw [he] <;> simp
  | switchStart k => rcases rtStep_switchStart h i hrt with ⟨id, hid, _, he⟩ | ⟨hk, he⟩ <;> rw [he] <;> simp
  | switchClear => rw [rtStep_switchClear h i hrt]; simp
  | switchFlag =>
    have he : s.rtStep i = { s with pleaseSwitch := false, rt := .done } := by unfold State.rtStep; rw [hrt]
    rw [he]; simp
  | done =>
    have he : s.rtStep i = { s with rt := .idle, log := s.log ++ [.cycleEnd] } := by unfold State.rtStep; rw [hrt]
    rw [he]; simp

/-- a cycle starts with the list that is current at that moment -/
theorem rtStep_got {s : State} (h : Inv s) (i : RtIn) (r : Bool) (hr : (s.rtStep i).rt = .gotCurrent r) : r = s.current := by
  cases hrt : s.rt with
  | idle =>
    have he : s.rtStep i = { s with rt := .gotCurrent s.current } := by unfold State.rtStep; rw [hrt]
    rw [he] at hr; simpa using hr.symm
  | gotCurrent r =>
    have he : s.rtStep i = { s with used := some r, rt := .pre } := by unfold State.rtStep; rw [hrt]
    rw [he] at hr; simp at hr
  | pre =>
    obtain ⟨u, hu, he⟩ := rtStep_pre h i hrt
    rw [he] at hr; revert hr; dsimp only; split <;> simp
  | restart k =>
    obtain ⟨u, hu, he⟩ := rtStep_restart h i hrt
    rcases he with ⟨hk, j, e, h1, h2, h3, ⟨_, he⟩ | ⟨_, he⟩⟩ | ⟨hk, he⟩ <;> rw [he] at hr <;> simp at hr
  | restartMid k id => rw [rtStep_restartMid h i hrt] at hr; simp at hr
  | sweep k =>
    obtain ⟨u, hu, he⟩ := rtStep_sweep h i hrt
    rcases he with ⟨hk, j, e, h1, h2, h3, he⟩ | ⟨hk, he⟩ <;> rw [he] at hr <;> simp at hr
  | publish =>
    revert hr
    unfold State.rtStep; rw [hrt]; simp only
    split <;> simp
  | pubFill k msg =>
    obtain ⟨hu, hn, he⟩ := rtStep_pubFill h i hrt
    rcases he with ⟨e, he1, he⟩ | ⟨hk, he⟩ <;> rw [he] at hr <;> simp at hr
  | switchCheck =>
    revert hr
    unfold State.rtStep; rw [hrt]; simp only
    split <;> simp
  | switchStop k => rcases rtStep_switchStop h i hrt with ⟨id, hid, _, he⟩ | ⟨hk, he⟩ <;> rw [he] at hr <;> simp at hr
  | switchStart k => rcases rtStep_switchStart h i hrt with ⟨id, hid, _, he⟩ | ⟨hk, he⟩ <;> rw [he] at hr <;> simp at hr
  | switchClear => rw [rtStep_switchClear h i hrt] at hr; simp at hr
  | switchFlag =>
    have he : s.rtStep i = { s with pleaseSwitch := false, rt := .done } := by unfold State.rtStep; rw [hrt]
    rw [he] at hr; simp at hr
  | done =>
    have he : s.rtStep i = { s with rt := .idle, log := s.log ++ [.cycleEnd] } := by unfold State.rtStep; rw [hrt]
    rw [he] at hr; simp at hr

/-- the realtime loop never sets the switch request flag -/
theorem rtStep_pleaseFalse {s : State} (h : Inv s) (i : RtIn) (hp : s.pleaseSwitch = false) : (s.rtStep i).pleaseSwitch = false := by
  cases hrt : s.rt with
  | idle =>
    have he : s.rtStep i = { s with rt := .gotCurrent s.current } := by unfold State.rtStep; rw [hrt]
    rw [he]; exact hp
  | gotCurrent r =>
    have he : s.rtStep i = { s with used := some r, rt := .pre } := by unfold State.rtStep; rw [hrt]
    rw [he]; exact hp
  | pre =>
    obtain ⟨u, hu, he⟩ := rtStep_pre h i hrt
    rw [he]; exact hp
  | restart k =>
    obtain ⟨u, hu, he⟩ := rtStep_restart h i hrt
    rcases he with ⟨hk, j, e, h1, h2, h3, ⟨_, he⟩ | ⟨_, he⟩⟩ | ⟨hk, he⟩ <;> rw [he] <;> exact hp
  | restartMid k id => rw [rtStep_restartMid h i hrt]; exact hp
  | sweep k =>
    obtain ⟨u, hu, he⟩ := rtStep_sweep h i hrt
    rcases he with ⟨hk, j, e, h1, h2, h3, he⟩ | ⟨hk, he⟩ <;> rw [he] <;> exact hp
  | publish =>
    unfold State.rtStep; rw [hrt]; simp only
    split <;> exact hp
  | pubFill k msg =>
    obtain ⟨hu, hn, he⟩ := rtStep_pubFill h i hrt
    rcases he with ⟨e, he1, he⟩ | ⟨hk, he⟩ <;> rw [he] <;> exact hp
  | switchCheck =>
    unfold State.rtStep; rw [hrt]; simp only
    split <;> exact hp
  | switchStop k => rcases rtStep_switchStop h i hrt with ⟨id, hid, _, he⟩ | ⟨hk, he⟩ <;> rw [he] <;> exact hp
  | switchStart k => rcases rtStep_switchStart h i hrt with ⟨id, hid, _, he⟩ | ⟨hk, he⟩ <;> rw [he] <;> exact hp
  | switchClear => rw [rtStep_switchClear h i hrt]; exact hp
  | switchFlag =>
    have he : s.rtStep i = { s with pleaseSwitch := false, rt := .done } := by unfold State.rtStep; rw [hrt]
    rw [he]
  | done =>
    have he : s.rtStep i = { s with rt := .idle, log := s.log ++ [.cycleEnd] } := by unfold State.rtStep; rw [hrt]
    rw [he]; exact hp

/-- remaining work of a service call -/
def nRank (s : State) : Nat := match s.nrt with
  | .idle => 0
  | .unlock _ => 1
  | .clear2 _ _ => 2
  | .clear _ _ => 3
  | .wait2 _ _ | .wait2Inner _ _ => 4
  | .swap _ => 5
  | .pubResize _ => 6
  | .pubLock _ => 7
  | .build2 _ => 8
  | .build _ => 9
  | .wait1 _ | .wait1Inner _ => 10
  | .waitSwitch _ | .waitSwitchInner _ => 1
  | .setFlag _ => 2
  | .resolve2 _ => 3
  | .resolve _ => 4
  | .listing k _ => (s.lists s.current).length - k + 1

def NrtPc.waits : NrtPc → Bool
  | .wait1 _ | .wait1Inner _ | .pubLock _ | .wait2 _ _ | .wait2Inner _ _ | .waitSwitch _ | .waitSwitchInner _ => true
  | _ => false

theorem nRank_ret (s : State) (op : Op) (r : Res) : nRank (s.ret op r) = 0 := rfl

theorem nrt_nonwait {s : State} (h : Inv s) (hi : nRank s ≠ 0) (hw : s.nrt.waits = false) : nRank s.nrtStep < nRank s := by
  cases hn : s.nrt with
  | idle => unfold nRank at hi; rw [hn] at hi; simp at hi
  | build op =>
    have hu := h.usedCurrent (by rw [hn]; rfl)
    unfold State.nrtStep; rw [hn]; simp only
    rw [rtUses_false (by rw [hu]; simp), if_neg (by simp)]
    unfold nRank; rw [hn]; simp
  | build2 op =>
    have : nRank s = 8 := by unfold nRank; rw [hn]
    rw [this]
    cases op with
    | load r =>
      rcases nrtStep_build2_load h hn with ⟨hok, he, hg, hst⟩ | ⟨hok, he⟩ <;> rw [he]
      · simp [nRank]
      · rw [nRank_ret]; omega
    | unload n =>
      rcases nrtStep_build2_unload h hn with ⟨hok, he, hg⟩ | ⟨hok, he⟩ <;> rw [he]
      · simp [nRank]
      · rw [nRank_ret]; omega
    | switch a b c => have := h.wf; rw [hn] at this; simp [NrtPc.wf, Op.isListOp] at this
    | list => have := h.wf; rw [hn] at this; simp [NrtPc.wf, Op.isListOp] at this
  | pubResize op => unfold State.nrtStep nRank; rw [hn]; simp
  | swap op => unfold State.nrtStep nRank; rw [hn]; simp
  | clear op f =>
    have hu := h.usedCurrent (by rw [hn]; rfl)
    have hf := h.clearing f (by rw [hn]; rfl)
    unfold State.nrtStep; rw [hn]; simp only
    rw [rtUses_false (by rw [hu, hf]; simp), if_neg (by simp)]
    unfold nRank; rw [hn]; simp
  | clear2 op f => unfold State.nrtStep nRank; rw [hn]; simp
  | unlock op => unfold State.nrtStep nRank; rw [hn]; simp [State.ret]
  | resolve op =>
    have hns := h.notInSwitch (by rw [hn]; rfl)
    have hu : s.rtUsesReq = false := by
      unfold State.rtUsesReq
      revert hns
      cases s.rt <;> simp [RtPc.inSwitch]
    unfold State.nrtStep; rw [hn]; simp only [hu]
    unfold nRank; rw [hn]; simp
  | resolve2 op =>
    have : nRank s = 3 := by unfold nRank; rw [hn]
    rw [this]
    cases op with
    | switch start stop k =>
      unfold State.nrtStep; rw [hn]; simp only
      split
      · simp [nRank]
      · rw [nRank_ret]; omega
    | load r => have := h.wf; rw [hn] at this; simp [NrtPc.wf, Op.isSwitch] at this
    | unload n => have := h.wf; rw [hn] at this; simp [NrtPc.wf, Op.isSwitch] at this
    | list => have := h.wf; rw [hn] at this; simp [NrtPc.wf, Op.isSwitch] at this
  | setFlag op => unfold State.nrtStep nRank; rw [hn]; simp
  | listing k acc =>
    have : nRank s = (s.lists s.current).length - k + 1 := by unfold nRank; rw [hn]
    rw [this]
    rcases nrtStep_listing h hn with ⟨hk, he⟩ | ⟨j, e, hj, he1, he2, he⟩ <;> rw [he]
    · rw [nRank_ret]; omega
    · have hk : k < (s.lists s.current).length := by
        have := (List.getElem?_eq_some_iff.1 hj).1
        rwa [h.good.sched_length] at this
      simp only [nRank]; omega
  | wait1 op => rw [hn] at hw; simp [NrtPc.waits] at hw
  | wait1Inner op => rw [hn] at hw; simp [NrtPc.waits] at hw
  | pubLock op => rw [hn] at hw; simp [NrtPc.waits] at hw
  | wait2 op f => rw [hn] at hw; simp [NrtPc.waits] at hw
  | wait2Inner op f => rw [hn] at hw; simp [NrtPc.waits] at hw
  | waitSwitch op => rw [hn] at hw; simp [NrtPc.waits] at hw
  | waitSwitchInner op => rw [hn] at hw; simp [NrtPc.waits] at hw

/-- waiting loops: a step of the service thread either makes progress or stays in the same loop -/
theorem nrt_wait {s : State} (h : Inv s) (hw : s.nrt.waits = true) :
    nRank s.nrtStep < nRank s ∨ (nRank s.nrtStep = nRank s ∧ s.nrtStep.current = s.current ∧
      ((∃ op, s.nrt = .wait1Inner op ∧ s.nrtStep.nrt = .wait1 op) ∨
       (∃ op, s.nrt = .pubLock op ∧ s.nrtStep = s ∧ s.pubLock ≠ none) ∨
       (∃ op f, s.nrt = .wait2 op f ∧ s.used = some f ∧ s.nrtStep.nrt = .wait2Inner op f) ∨
       (∃ op f, s.nrt = .wait2Inner op f ∧ s.nrtStep.nrt = .wait2 op f) ∨
       (∃ op, s.nrt = .waitSwitch op ∧ s.pleaseSwitch = true ∧ s.nrtStep.nrt = .waitSwitchInner op ∧ s.nrtStep.pleaseSwitch = true) ∨
       (∃ op, s.nrt = .waitSwitchInner op ∧ s.nrtStep.nrt = .waitSwitch op ∧ s.nrtStep.pleaseSwitch = s.pleaseSwitch))) := by
  cases hn : s.nrt with
  | wait1 op =>
    have hu := h.usedCurrent (by rw [hn]; rfl)
    left
    unfold State.nrtStep; rw [hn]; simp only
    rw [if_neg (by rw [hu]; simp)]
    unfold nRank; rw [hn]; simp
  | wait1Inner op =>
    right
    unfold State.nrtStep; rw [hn]; simp only [h.ok, if_true]
    refine ⟨?_, trivial, Or.inl ⟨op, rfl, rfl⟩⟩
    unfold nRank; rw [hn]
  | pubLock op =>
    unfold State.nrtStep; rw [hn]; simp only
    split
    · left; unfold nRank; rw [hn]; simp
    · rename_i hl
      right
      refine ⟨rfl, rfl, Or.inr (Or.inl ⟨op, rfl, rfl, ?_⟩)⟩
      simpa using hl
  | wait2 op f =>
    unfold State.nrtStep; rw [hn]; simp only
    split
    · rename_i hc
      right
      refine ⟨?_, rfl, Or.inr (Or.inr (Or.inl ⟨op, f, rfl, ?_, rfl⟩))⟩
      · unfold nRank; rw [hn]
      · simpa [h.ok] using hc
    · left; unfold nRank; rw [hn]; simp
  | wait2Inner op f =>
    right
    unfold State.nrtStep; rw [hn]; simp only [h.ok, if_true]
    refine ⟨?_, trivial, Or.inr (Or.inr (Or.inr (Or.inl ⟨op, f, rfl, rfl⟩)))⟩
    unfold nRank; rw [hn]
  | waitSwitch op =>
    unfold State.nrtStep; rw [hn]; simp only
    split
    · rename_i hc
      have hc : s.pleaseSwitch = true := by simpa [h.ok] using hc
      right
      refine ⟨?_, rfl, Or.inr (Or.inr (Or.inr (Or.inr (Or.inl ⟨op, rfl, hc, rfl, hc⟩))))⟩
      unfold nRank; rw [hn]
    · left; rw [nRank_ret]; unfold nRank; rw [hn]; simp
  | waitSwitchInner op =>
    right
    unfold State.nrtStep; rw [hn]; simp only [h.ok, if_true]
    refine ⟨?_, trivial, Or.inr (Or.inr (Or.inr (Or.inr (Or.inr ⟨op, rfl, rfl, trivial⟩))))⟩
    unfold nRank; rw [hn]
  | idle => rw [hn] at hw; simp [NrtPc.waits] at hw
  | build op => rw [hn] at hw; simp [NrtPc.waits] at hw
  | build2 op => rw [hn] at hw; simp [NrtPc.waits] at hw
  | pubResize op => rw [hn] at hw; simp [NrtPc.waits] at hw
  | swap op => rw [hn] at hw; simp [NrtPc.waits] at hw
  | clear op f => rw [hn] at hw; simp [NrtPc.waits] at hw
  | clear2 op f => rw [hn] at hw; simp [NrtPc.waits] at hw
  | unlock op => rw [hn] at hw; simp [NrtPc.waits] at hw
  | resolve op => rw [hn] at hw; simp [NrtPc.waits] at hw
  | resolve2 op => rw [hn] at hw; simp [NrtPc.waits] at hw
  | setFlag op => rw [hn] at hw; simp [NrtPc.waits] at hw
  | listing k acc => rw [hn] at hw; simp [NrtPc.waits] at hw

theorem nRank_rt {s : State} (h : Inv s) (i : RtIn) : nRank (s.rtStep i) = nRank s := by
  obtain ⟨h1, h2, h3, _⟩ := rtStep_nrtSide h i
  unfold nRank; rw [h1, h2, h3]

theorem nRank_idle {s : State} : nRank s = 0 ↔ s.nrt = .idle := by
  unfold nRank; cases s.nrt <;> simp

theorem call_noop {s : State} (h : nRank s ≠ 0) (op : Op) : s.call op = s := by
  unfold State.call
  split
  · rename_i hn; exact absurd (nRank_idle.2 hn) h
  · rfl

/-- if no progress is made the call is stuck in one waiting loop -/
theorem FairRun.stuck {m σ act} (F : FairRun m σ act) (n : Nat) (hi : nRank (σ n) ≠ 0)
    (hno : ∀ k ≥ n, nRank (σ n) ≤ nRank (σ k)) : ∀ k ≥ n, nRank (σ k) = nRank (σ n) ∧ (σ k).nrt.waits = true := by
  have h1 : ∀ k ≥ n, nRank (σ k) = nRank (σ n) := by
    intro k hk
    obtain ⟨d, rfl⟩ := Nat.exists_eq_add_of_le hk
    clear hk
    induction d with
    | zero => rfl
    | succ d ih =>
      have hge := hno (n + d + 1) (by omega)
      rw [← Nat.add_assoc]
      rcases F.cases (n+d) with ⟨i, _, h2⟩ | ⟨_, h2⟩ | ⟨op, _, h2⟩
      · rw [h2, nRank_rt (F.inv _), ih]
      · rw [h2] at hge ⊢
        by_cases hw : (σ (n+d)).nrt.waits = true
        · rcases nrt_wait (F.inv _) hw with h3 | ⟨h3, _⟩
          · omega
          · omega
        · have := nrt_nonwait (F.inv _) (by rw [ih]; exact hi) (by simpa using hw)
          omega
      · rw [h2, call_noop (by rw [ih]; exact hi), ih]
  intro k hk
  refine ⟨h1 k hk, ?_⟩
  by_contra hw
  replace hw : (σ k).nrt.waits = false := by simpa using hw
  -- the first service step from k on
  obtain ⟨k', hk', ha⟩ := F.nrt k
  obtain ⟨d, rfl⟩ := Nat.exists_eq_add_of_le hk'
  clear hk'
  have hpos : ∀ j ≥ n, nRank (σ j) ≠ 0 := fun j hj => by rw [h1 j hj]; exact hi
  induction d generalizing k with
  | zero =>
    rcases F.cases k with ⟨i, h3, h2⟩ | ⟨h3, h2⟩ | ⟨op, h3, h2⟩
    · rw [Nat.add_zero, h3] at ha; simp at ha
    · have := nrt_nonwait (F.inv k) (hpos k hk) hw
      rw [← h2, h1 k hk, h1 (k+1) (by omega)] at this
      omega
    · rw [Nat.add_zero, h3] at ha; simp at ha
  | succ d ih =>
    have keep : (σ (k+1)).nrt = (σ k).nrt → False := fun h =>
      ih (k+1) (by omega) (by rw [h]; exact hw) (by rw [show k + 1 + d = k + (d+1) by omega]; exact ha)
    rcases F.cases k with ⟨i, h3, h2⟩ | ⟨h3, h2⟩ | ⟨op, h3, h2⟩
    · exact keep (by rw [h2]; exact (rtStep_nrtSide (F.inv k) i).1)
    · have := nrt_nonwait (F.inv k) (hpos k hk) hw
      rw [← h2, h1 k hk, h1 (k+1) (by omega)] at this
      omega
    · exact keep (by rw [h2, call_noop (hpos k hk)])

/-- the first service step from `k` on, when the call is in progress -/
theorem FairRun.nextNrt {m σ act} (F : FairRun m σ act) (k : Nat) (hpos : ∀ j ≥ k, nRank (σ j) ≠ 0) :
    ∃ j ≥ k, act j = .nrt ∧ σ (j+1) = (σ j).nrtStep ∧ (σ j).nrt = (σ k).nrt := by
  obtain ⟨k', hk', ha⟩ := F.nrt k
  obtain ⟨d, rfl⟩ := Nat.exists_eq_add_of_le hk'
  clear hk'
  induction d generalizing k with
  | zero =>
    rcases F.cases k with ⟨i, h3, h2⟩ | ⟨h3, h2⟩ | ⟨op, h3, h2⟩
    · rw [Nat.add_zero, h3] at ha; simp at ha
    · exact ⟨k, le_refl _, h3, h2, rfl⟩
    · rw [Nat.add_zero, h3] at ha; simp at ha
  | succ d ih =>
    have keep : (σ (k+1)).nrt = (σ k).nrt → ∃ j ≥ k, act j = .nrt ∧ σ (j+1) = (σ j).nrtStep ∧ (σ j).nrt = (σ k).nrt := by
      intro h
      obtain ⟨j, h1, h2, h3, h4⟩ := ih (k+1) (fun j hj => hpos j (by omega)) (by rw [show k + 1 + d = k + (d+1) by omega]; exact ha)
      exact ⟨j, by omega, h2, h3, h4.trans h⟩
    rcases F.cases k with ⟨i, h3, h2⟩ | ⟨h3, h2⟩ | ⟨op, h3, h2⟩
    · exact keep (by rw [h2]; exact (rtStep_nrtSide (F.inv k) i).1)
    · exact ⟨k, le_refl _, h3, h2, rfl⟩
    · exact keep (by rw [h2, call_noop (hpos k (le_refl _))])

/-- the service thread spins in one of its waiting loops in this step -/
def Spins (s s' : State) : Prop := ((∃ op, s.nrt = .wait1Inner op ∧ s'.nrt = .wait1 op) ∨
       (∃ op, s.nrt = .pubLock op ∧ s' = s ∧ s.pubLock ≠ none) ∨
       (∃ op f, s.nrt = .wait2 op f ∧ s.used = some f ∧ s'.nrt = .wait2Inner op f) ∨
       (∃ op f, s.nrt = .wait2Inner op f ∧ s'.nrt = .wait2 op f) ∨
       (∃ op, s.nrt = .waitSwitch op ∧ s.pleaseSwitch = true ∧ s'.nrt = .waitSwitchInner op ∧ s'.pleaseSwitch = true) ∨
       (∃ op, s.nrt = .waitSwitchInner op ∧ s'.nrt = .waitSwitch op ∧ s'.pleaseSwitch = s.pleaseSwitch)) ∧
       s'.current = s.current

theorem FairRun.noWait2 {m σ act} (F : FairRun m σ act) (n : Nat)
    (hpos : ∀ k ≥ n, nRank (σ k) ≠ 0)
    (hstep : ∀ k ≥ n, act k = .nrt → σ (k+1) = (σ k).nrtStep → Spins (σ k) (σ (k+1)))
    (op : Op) (f : Bool) (hn : (σ n).nrt = .wait2 op f ∨ (σ n).nrt = .wait2Inner op f) : False := by
  -- the loop is never left and `current` does not change
  have hloop : ∀ k ≥ n, ((σ k).nrt = .wait2 op f ∨ (σ k).nrt = .wait2Inner op f) ∧ (σ k).current = (σ n).current := by
    intro k hk
    obtain ⟨d, rfl⟩ := Nat.exists_eq_add_of_le hk
    clear hk
    induction d with
    | zero => exact ⟨hn, rfl⟩
    | succ d ih =>
      rw [← Nat.add_assoc]
      rcases F.cases (n+d) with ⟨i, _, h2⟩ | ⟨h1, h2⟩ | ⟨o, _, h2⟩
      · obtain ⟨e1, _, e3, _⟩ := rtStep_nrtSide (F.inv (n+d)) i
        rw [h2, e1, e3]; exact ih
      · obtain ⟨hs, hc⟩ := hstep (n+d) (by omega) h1 h2
        refine ⟨?_, hc.trans ih.2⟩
        rcases ih.1 with h | h
        · rcases hs with ⟨o, h', _⟩ | ⟨o, h', _⟩ | ⟨o, g, h', _, h''⟩ | ⟨o, g, h', h''⟩ | ⟨o, h', _⟩ | ⟨o, h', _⟩ <;> rw [h] at h' <;> simp at h'
          obtain ⟨rfl, rfl⟩ := h'; exact Or.inr h''
        · rcases hs with ⟨o, h', _⟩ | ⟨o, h', _⟩ | ⟨o, g, h', _, h''⟩ | ⟨o, g, h', h''⟩ | ⟨o, h', _⟩ | ⟨o, h', _⟩ <;> rw [h] at h' <;> simp at h'
          obtain ⟨rfl, rfl⟩ := h'; exact Or.inl h''
      · rw [h2, call_noop (hpos _ (by omega))]; exact ih
  have hfc : f = !(σ n).current := by
    refine ((F.inv n).former f ?_).1
    rcases hn with h | h <;> rw [h] <;> rfl
  -- the realtime loop picks up the new list
  obtain ⟨k, hk, hidle⟩ := F.rtIdle n
  obtain ⟨k1, hk1, i1, _, h2, h3, _, _⟩ := F.nextRt k
  rw [hidle] at h3
  have hg : (σ (k1+1)).rt = .gotCurrent (σ n).current := by
    rw [h2]; unfold State.rtStep; rw [h3]; simp only [(hloop k1 (by omega)).2]
  obtain ⟨k2, hk2, i2, _, h5, h6, _, _⟩ := F.nextRt (k1+1)
  rw [hg] at h6
  have hu0 : (σ (k2+1)).used = some (σ n).current ∧ ∀ r, (σ (k2+1)).rt = .gotCurrent r → r = (σ n).current := by
    have he : (σ k2).rtStep i2 = { (σ k2) with used := some (σ n).current, rt := .pre } := by unfold State.rtStep; rw [h6]
    rw [h5, he]; simp
  have huse : ∀ d, (σ (k2+1+d)).used = some (σ n).current ∧ ∀ r, (σ (k2+1+d)).rt = .gotCurrent r → r = (σ n).current := by
    intro d
    induction d with
    | zero => exact hu0
    | succ d ih =>
      rw [← Nat.add_assoc]
      rcases F.cases (k2+1+d) with ⟨i, _, h2⟩ | ⟨h1, h2⟩ | ⟨o, _, h2⟩
      · obtain ⟨_, _, _, _, _, e⟩ := rtStep_nrtSide (F.inv (k2+1+d)) i
        have e' := rtStep_got (F.inv (k2+1+d)) i
        refine ⟨?_, ?_⟩
        · rw [h2]
          rcases e with e | ⟨r, hr, e⟩
          · rw [e]; exact ih.1
          · rw [e, ih.2 r hr]
        · intro r hr
          rw [h2] at hr
          rw [(e' r hr), (hloop _ (by omega)).2]
      · have hk := nrtKeeps (F.inv (k2+1+d))
        rw [← h2] at hk
        rw [hk.used, hk.rt]; exact ih
      · rw [h2, call_noop (hpos _ (by omega))]; exact ih
  -- so the next look at the flag ends the loop
  have fin : ∀ j ≥ k2+1, (σ j).nrt = .wait2 op f → False := by
    intro j hj hjn
    obtain ⟨j', hj', ha, h2, h3⟩ := F.nextNrt j (fun k hk => hpos k (by omega))
    rw [hjn] at h3
    have hu := (huse (j' - (k2+1))).1
    rw [show k2+1 + (j' - (k2+1)) = j' by omega] at hu
    obtain ⟨hs, hc⟩ := hstep j' (by omega) ha h2
    rcases hs with ⟨o, h', _⟩ | ⟨o, h', _⟩ | ⟨o, g, h', hgu, h''⟩ | ⟨o, g, h', h''⟩ | ⟨o, h', _⟩ | ⟨o, h', _⟩ <;> rw [h3] at h' <;> simp at h'
    obtain ⟨rfl, rfl⟩ := h'
    rw [hu, hfc] at hgu
    revert hgu; cases (σ n).current <;> simp
  rcases (hloop (k2+1) (by omega)).1 with h | h
  · exact fin _ (le_refl _) h
  · obtain ⟨j, hj, ha, h2, h3⟩ := F.nextNrt (k2+1) (fun k hk => hpos k (by omega))
    rw [h] at h3
    obtain ⟨hs, hc⟩ := hstep j (by omega) ha h2
    rcases hs with ⟨o, h', _⟩ | ⟨o, h', _⟩ | ⟨o, g, h', hgu, h''⟩ | ⟨o, g, h', h''⟩ | ⟨o, h', _⟩ | ⟨o, h', _⟩ <;> rw [h3] at h' <;> simp at h'
    obtain ⟨rfl, rfl⟩ := h'
    exact fin (j+1) (by omega) h''

theorem FairRun.noWaitSwitch {m σ act} (F : FairRun m σ act) (n : Nat)
    (hpos : ∀ k ≥ n, nRank (σ k) ≠ 0)
    (hstep : ∀ k ≥ n, act k = .nrt → σ (k+1) = (σ k).nrtStep → Spins (σ k) (σ (k+1)))
    (op : Op) (hn : (σ n).nrt = .waitSwitch op ∨ (σ n).nrt = .waitSwitchInner op) : False := by
  have hloop : ∀ k ≥ n, ((σ k).nrt = .waitSwitch op ∨ (σ k).nrt = .waitSwitchInner op) := by
    intro k hk
    obtain ⟨d, rfl⟩ := Nat.exists_eq_add_of_le hk
    clear hk
    induction d with
    | zero => exact hn
    | succ d ih =>
      rw [← Nat.add_assoc]
      rcases F.cases (n+d) with ⟨i, _, h2⟩ | ⟨h1, h2⟩ | ⟨o, _, h2⟩
      · obtain ⟨e1, _, e3, _⟩ := rtStep_nrtSide (F.inv (n+d)) i
        rw [h2, e1]; exact ih
      · obtain ⟨hs, hc⟩ := hstep (n+d) (by omega) h1 h2
        rcases ih with h | h
        · rcases hs with ⟨o, h', _⟩ | ⟨o, h', _⟩ | ⟨o, g, h', _, h''⟩ | ⟨o, g, h', h''⟩ | ⟨o, h', _, h'', _⟩ | ⟨o, h', h'', _⟩ <;> rw [h] at h' <;> simp at h'
          subst h'; exact Or.inr h''
        · rcases hs with ⟨o, h', _⟩ | ⟨o, h', _⟩ | ⟨o, g, h', _, h''⟩ | ⟨o, g, h', h''⟩ | ⟨o, h', _, h'', _⟩ | ⟨o, h', h'', _⟩ <;> rw [h] at h' <;> simp at h'
          subst h'; exact Or.inl h''
      · rw [h2, call_noop (hpos _ (by omega))]; exact ih
  -- once cleared the flag stays cleared
  have hstay : ∀ k ≥ n, (σ k).pleaseSwitch = false → ∀ d, (σ (k+d)).pleaseSwitch = false := by
    intro k hk hp d
    induction d with
    | zero => exact hp
    | succ d ih =>
      rw [← Nat.add_assoc]
      rcases F.cases (k+d) with ⟨i, _, h2⟩ | ⟨h1, h2⟩ | ⟨o, _, h2⟩
      · rw [h2]; exact rtStep_pleaseFalse (F.inv (k+d)) i ih
      · obtain ⟨hs, hc⟩ := hstep (k+d) (by omega) h1 h2
        rcases hs with ⟨o, h', _⟩ | ⟨o, h', _⟩ | ⟨o, g, h', _, h''⟩ | ⟨o, g, h', h''⟩ | ⟨o, h', hp', h'', _⟩ | ⟨o, h', h'', hp'⟩
        · rcases hloop (k+d) (by omega) with h | h <;> rw [h] at h' <;> simp at h'
        · rcases hloop (k+d) (by omega) with h | h <;> rw [h] at h' <;> simp at h'
        · rcases hloop (k+d) (by omega) with h | h <;> rw [h] at h' <;> simp at h'
        · rcases hloop (k+d) (by omega) with h | h <;> rw [h] at h' <;> simp at h'
        · rw [ih] at hp'; simp at hp'
        · rw [hp', ih]
      · rw [h2, call_noop (hpos _ (by omega))]; exact ih
  -- so it is set for ever
  have fin : ∀ k ≥ n, (σ k).pleaseSwitch = false → (σ k).nrt = .waitSwitch op → False := by
    intro k hk hp hkn
    obtain ⟨j', hj', ha, h2, h3⟩ := F.nextNrt k (fun k hk => hpos k (by omega))
    rw [hkn] at h3
    have hp2 := hstay k hk hp (j' - k)
    rw [show k + (j' - k) = j' by omega] at hp2
    obtain ⟨hs, hc⟩ := hstep j' (by omega) ha h2
    rcases hs with ⟨o, h', _⟩ | ⟨o, h', _⟩ | ⟨o, g, h', hgu, h''⟩ | ⟨o, g, h', h''⟩ | ⟨o, h', hp', _⟩ | ⟨o, h', _⟩ <;> rw [h3] at h' <;> simp at h'
    rw [hp2] at hp'; simp at hp'
  have hset : ∀ k ≥ n, (σ k).pleaseSwitch = true := by
    intro k hk
    by_contra hp
    have hp : (σ k).pleaseSwitch = false := by simpa using hp
    rcases hloop k hk with h | h
    · exact fin k hk hp h
    · obtain ⟨j, hj, ha, h2, h3⟩ := F.nextNrt k (fun k hk => hpos k (by omega))
      rw [h] at h3
      obtain ⟨hs, hc⟩ := hstep j (by omega) ha h2
      have hp2 := hstay k hk hp (j + 1 - k)
      rw [show k + (j + 1 - k) = j + 1 by omega] at hp2
      rcases hs with ⟨o, h', _⟩ | ⟨o, h', _⟩ | ⟨o, g, h', hgu, h''⟩ | ⟨o, g, h', h''⟩ | ⟨o, h', _⟩ | ⟨o, h', h'', _⟩ <;> rw [h3] at h' <;> simp at h'
      subst h'
      exact fin (j+1) (by omega) hp2 h''
  -- but a whole cycle clears it
  obtain ⟨k, hk, hidle⟩ := F.rtIdle n
  obtain ⟨k1, hk1, i1, _, h2, h3, _, _⟩ := F.nextRt k
  rw [hidle] at h3
  have hg : (σ (k1+1)).rt ≠ .idle ∧ (σ (k1+1)).rt ≠ .done := by
    rw [h2]; unfold State.rtStep; rw [h3]; simp
  have hnever : ∀ d, (σ (k1+1+d)).rt ≠ .idle ∧ (σ (k1+1+d)).rt ≠ .done := by
    intro d
    induction d with
    | zero => exact hg
    | succ d ih =>
      rw [← Nat.add_assoc]
      rcases F.cases (k1+1+d) with ⟨i, _, h2⟩ | ⟨h1, h2⟩ | ⟨o, _, h2⟩
      · obtain ⟨_, _, _, e4, e5, _⟩ := rtStep_nrtSide (F.inv (k1+1+d)) i
        have hp := hset (k1+1+d+1) (by omega)
        rw [h2] at hp ⊢
        refine ⟨fun h => ih.2 (e4 h), fun h => ?_⟩
        rw [e5 h] at hp; simp at hp
      · have hk := nrtKeeps (F.inv (k1+1+d))
        rw [← h2] at hk
        rw [hk.rt]; exact ih
      · rw [h2, call_noop (hpos _ (by omega))]; exact ih
  obtain ⟨k', hk', hi'⟩ := F.rtIdle (k1+1)
  have := (hnever (k' - (k1+1))).1
  rw [show k1+1 + (k' - (k1+1)) = k' by omega] at this
  exact this hi'

/-- progress: the remaining work of a call in progress eventually decreases -/
theorem FairRun.progress {m σ act} (F : FairRun m σ act) (n : Nat) (hi : nRank (σ n) ≠ 0) : ∃ k ≥ n, nRank (σ k) < nRank (σ n) := by
  by_contra hno
  push Not at hno
  have hs := F.stuck n hi hno
  have hpos : ∀ k ≥ n, nRank (σ k) ≠ 0 := fun k hk => by rw [(hs k hk).1]; exact hi
  have hstep : ∀ k ≥ n, act k = .nrt → σ (k+1) = (σ k).nrtStep → Spins (σ k) (σ (k+1)) := by
    intro k hk _ h2
    have h3 := (hs (k+1) (by omega)).1
    rcases nrt_wait (F.inv k) (hs k hk).2 with h | ⟨_, h4, h5⟩
    · rw [← h2, h3, (hs k hk).1] at h; omega
    · rw [← h2] at h4 h5; exact ⟨h5, h4⟩
  -- which loop?
  have hw := (hs n (le_refl _)).2
  cases hn : (σ n).nrt with
  | wait1 op =>
    obtain ⟨j, hj, ha, h2, h3⟩ := F.nextNrt n hpos
    rw [hn] at h3
    rcases (hstep j hj ha h2).1 with ⟨o, h, _⟩ | ⟨o, h, _⟩ | ⟨o, f, h, _⟩ | ⟨o, f, h, _⟩ | ⟨o, h, _⟩ | ⟨o, h, _⟩ <;> rw [h3] at h <;> simp at h
  | wait1Inner op =>
    obtain ⟨j, hj, ha, h2, h3⟩ := F.nextNrt n hpos
    rw [hn] at h3
    have h4 : (σ (j+1)).nrt = .wait1 op := by
      rcases (hstep j hj ha h2).1 with ⟨o, h, h'⟩ | ⟨o, h, _⟩ | ⟨o, f, h, _⟩ | ⟨o, f, h, _⟩ | ⟨o, h, _⟩ | ⟨o, h, _⟩ <;> rw [h3] at h <;> simp at h
      rw [h', h]
    obtain ⟨j', hj', ha', h2', h3'⟩ := F.nextNrt (j+1) (fun k hk => hpos k (by omega))
    rw [h4] at h3'
    rcases (hstep j' (by omega) ha' h2').1 with ⟨o, h, _⟩ | ⟨o, h, _⟩ | ⟨o, f, h, _⟩ | ⟨o, f, h, _⟩ | ⟨o, h, _⟩ | ⟨o, h, _⟩ <;> rw [h3'] at h <;> simp at h
  | pubLock op =>
    have hall : ∀ k ≥ n, ∃ op, (σ k).nrt = .pubLock op := by
      intro k hk
      have h7 : nRank (σ k) = 7 := by rw [(hs k hk).1]; unfold nRank; rw [hn]
      have hwk := (hs k hk).2
      revert h7 hwk
      unfold nRank
      cases (σ k).nrt <;> simp [NrtPc.waits]
    obtain ⟨k, hk, ha, hl⟩ := F.lock n hall
    have h2 : σ (k+1) = (σ k).nrtStep := by
      rcases F.cases k with ⟨i, h3, h2⟩ | ⟨h3, h2⟩ | ⟨op, h3, h2⟩
      · rw [ha] at h3; simp at h3
      · exact h2
      · rw [ha] at h3; simp at h3
    obtain ⟨o, ho⟩ := hall k hk
    rcases (hstep k hk ha h2).1 with ⟨o, h, _⟩ | ⟨o, h, h', h''⟩ | ⟨o, f, h, _⟩ | ⟨o, f, h, _⟩ | ⟨o, h, _⟩ | ⟨o, h, _⟩
    · rw [ho] at h; simp at h
    · exact h'' hl
    all_goals rw [ho] at h; simp at h
  | wait2 op f => exact F.noWait2 n hpos hstep op f (Or.inl hn)
  | wait2Inner op f => exact F.noWait2 n hpos hstep op f (Or.inr hn)
  | waitSwitch op => exact F.noWaitSwitch n hpos hstep op (Or.inl hn)
  | waitSwitchInner op => exact F.noWaitSwitch n hpos hstep op (Or.inr hn)
  | idle => rw [hn] at hw; simp [NrtPc.waits] at hw
  | build op => rw [hn] at hw; simp [NrtPc.waits] at hw
  | build2 op => rw [hn] at hw; simp [NrtPc.waits] at hw
  | pubResize op => rw [hn] at hw; simp [NrtPc.waits] at hw
  | swap op => rw [hn] at hw; simp [NrtPc.waits] at hw
  | clear op f => rw [hn] at hw; simp [NrtPc.waits] at hw
  | clear2 op f => rw [hn] at hw; simp [NrtPc.waits] at hw
  | unlock op => rw [hn] at hw; simp [NrtPc.waits] at hw
  | resolve op => rw [hn] at hw; simp [NrtPc.waits] at hw
  | resolve2 op => rw [hn] at hw; simp [NrtPc.waits] at hw
  | setFlag op => rw [hn] at hw; simp [NrtPc.waits] at hw
  | listing k acc => rw [hn] at hw; simp [NrtPc.waits] at hw

end Pr2
