import Verif.Props.Tso
import Mathlib.Tactic.IntervalCases

/-!
# C88: service calls finish on a machine with store buffers
-/

namespace Pr2.Tso
set_option linter.unusedVariables false

/-! ## Specification -/

/-- The oldest buffered store of the realtime thread reaches memory between `s` and `s'`. -/
def RDrained (s s' : St) : Prop := ∃ e r, s.rbuf = e :: r ∧ s' = { s with mem := e.wr.apply s.mem, rbuf := r }
/-- The oldest buffered store of the service threads reaches memory between `s` and `s'`. -/
def NDrained (s s' : St) : Prop := ∃ w r, s.nbuf = w :: r ∧ s' = { s with mem := w.apply s.mem, nbuf := r }

/-- The service thread, inside a call, could go on: it is not in a wait loop, or it sees the condition of its wait loop satisfied. -/
def St.CanGoOn (s : St) : Prop :=
  match s.nrt with
  | .idle => False
  | .wait1 c => s.nview.used ≠ some (!c)
  | .wait2 c => s.nview.used ≠ some c
  | .waitSwitch => s.nview.please = false
  | _ => True

/-- Infinite executions in which everybody gets on: the realtime loop begins and ends cycles for ever, buffered stores do not stay buffered for ever, and a
service thread does not stay for ever where it can go on.  Nothing is said about when. -/
structure FairExec (σ : Nat → St) : Prop where
  init : Reach (σ 0)
  next : ∀ n, ∃ l, Step (σ n) l (σ (n + 1))
  ends : ∀ n, ∃ k ≥ n, (σ k).rt = .idle
  begins : ∀ n, ∃ k ≥ n, (σ k).rt ≠ .idle
  rdrain : ∀ n, (σ n).rbuf ≠ [] → ∃ k ≥ n, RDrained (σ k) (σ (k + 1))
  ndrain : ∀ n, (σ n).nbuf ≠ [] → ∃ k ≥ n, NDrained (σ k) (σ (k + 1))
  goesOn : ∀ n, ¬ ∀ k ≥ n, (σ k).nrt = (σ n).nrt ∧ (σ k).CanGoOn

/-! ## Proof -/

theorem FairExec.reach {σ : Nat → St} (F : FairExec σ) (n : Nat) : Reach (σ n) := by
  induction n with
  | zero => exact F.init
  | succ n ih => obtain ⟨l, h⟩ := F.next n; exact .step _ _ _ ih h

/-- What a step does to the realtime thread's buffer. -/
theorem Step.rbuf {s s' : St} {l : Label} (h : Step s l s') : (∃ y, s'.rbuf = s.rbuf ++ y) ∨ RDrained s s' := by
  cases h
  case rtDrain e r hr => exact Or.inr ⟨e, r, hr, rfl⟩
  all_goals first
    | exact Or.inl ⟨_, rfl⟩
    | exact Or.inl ⟨[], by simp [St.nput]⟩

/-- What a step does to the service thread's position and buffer. -/
def NPc.rank : NPc → Nat
  | .idle => 0
  | .wait1 _ => 5
  | .build _ => 4
  | .wait2 _ => 3
  | .clear _ => 2
  | .resolve => 3
  | .waitSwitch => 2
  | .switched => 1

theorem Step.nrt {s s' : St} {l : Label} (h : Step s l s') : s.nrt = .idle ∨ s'.nrt = s.nrt ∨ s'.nrt.rank < s.nrt.rank := by
  cases h
  all_goals first
    | exact Or.inr (Or.inl rfl)
    | exact Or.inl (by assumption)
    | (rename_i hn; rw [hn]; exact Or.inr (Or.inr (by simp [NPc.rank])))
    | (rename_i hn _; rw [hn]; exact Or.inr (Or.inr (by simp [NPc.rank])))

/-- In a wait loop the service thread stores nothing. -/
theorem Step.nbuf {s s' : St} {l : Label} (h : Step s l s') (hn : (∃ c, s.nrt = .wait2 c) ∨ s.nrt = .waitSwitch) :
    s'.nbuf = s.nbuf ∨ NDrained s s' := by
  cases h
  case nDrain w r hr => exact Or.inr ⟨w, r, hr, rfl⟩
  all_goals first
    | exact Or.inl rfl
    | (rename_i h1; rw [h1] at hn; rcases hn with ⟨_, hn⟩ | hn <;> cases hn)

/-- Something that holds at `n` and not later fails at some first moment. -/
theorem flips {P : Nat → Prop} {n k : Nat} (hk : n ≤ k) (h1 : P n) (h2 : ¬ P k) : ∃ j, n ≤ j ∧ P j ∧ ¬ P (j + 1) := by
  induction k, hk using Nat.le_induction with
  | base => exact absurd h1 h2
  | succ k hk ih =>
    by_cases hp : P k
    · exact ⟨k, hk, hp, h2⟩
    · exact ih hp

/-- Every buffered store of the realtime thread reaches memory. -/
theorem FairExec.drains {σ : Nat → St} (F : FairExec σ) (x : List RtWr) : ∀ (n : Nat) (e : RtWr) (y : List RtWr), (σ n).rbuf = x ++ e :: y →
    ∃ k ≥ n, ∃ r, (σ k).rbuf = e :: r ∧ σ (k + 1) = { σ k with mem := e.wr.apply (σ k).mem, rbuf := r } := by
  induction x with
  | nil =>
    intro n e y h
    obtain ⟨k, hk, hd⟩ := F.rdrain n (by rw [h]; simp)
    obtain ⟨d, rfl⟩ := Nat.exists_eq_add_of_le hk
    clear hk
    induction d generalizing n y with
    | zero =>
      obtain ⟨e', r, hr, hs⟩ := hd
      rw [Nat.add_zero] at hr hs
      rw [h] at hr
      cases hr
      exact ⟨n, le_refl _, _, h, hs⟩
    | succ d ih =>
      obtain ⟨l, hst⟩ := F.next n
      rcases hst.rbuf with ⟨z, hz⟩ | ⟨e', r, hr, hs⟩
      · obtain ⟨k, hk, r⟩ := ih (n + 1) (y ++ z) (by rw [hz, h]; rfl) (by rw [show n + 1 + d = n + (d + 1) by omega]; exact hd)
        exact ⟨k, by omega, r⟩
      · rw [h] at hr
        cases hr
        exact ⟨n, le_refl _, _, h, hs⟩
  | cons a x ihx =>
    intro n e y h
    obtain ⟨k, hk, hd⟩ := F.rdrain n (by rw [h]; simp)
    obtain ⟨d, rfl⟩ := Nat.exists_eq_add_of_le hk
    clear hk
    induction d generalizing n y with
    | zero =>
      obtain ⟨e', r, hr, hs⟩ := hd
      rw [Nat.add_zero] at hr hs
      rw [h] at hr
      cases hr
      obtain ⟨k, hk, r⟩ := ihx (n + 1) e y (by rw [hs]; rfl)
      exact ⟨k, by omega, r⟩
    | succ d ih =>
      obtain ⟨l, hst⟩ := F.next n
      rcases hst.rbuf with ⟨z, hz⟩ | ⟨e', r, hr, hs⟩
      · obtain ⟨k, hk, r⟩ := ih (n + 1) (y ++ z) (by rw [hz, h]; simp) (by rw [show n + 1 + d = n + (d + 1) by omega]; exact hd)
        exact ⟨k, by omega, r⟩
      · rw [h] at hr
        cases hr
        obtain ⟨k, hk, r⟩ := ihx (n + 1) e y (by rw [hs]; rfl)
        exact ⟨k, by omega, r⟩

/-- In a wait loop the service thread's stores all reach memory. -/
theorem FairExec.empties {σ : Nat → St} (F : FairExec σ) {N : Nat} (hw : ∀ k ≥ N, (∃ c, (σ k).nrt = .wait2 c) ∨ (σ k).nrt = .waitSwitch) :
    ∃ M ≥ N, ∀ k ≥ M, (σ k).nbuf = [] := by
  have key : ∀ (l n : Nat), N ≤ n → (σ n).nbuf.length = l → ∃ k ≥ n, (σ k).nbuf = [] := by
    intro l
    induction l with
    | zero => intro n _ h; exact ⟨n, le_refl _, List.length_eq_zero_iff.1 h⟩
    | succ l ihl =>
      intro n hn h
      obtain ⟨k, hk, hd⟩ := F.ndrain n (by intro e; rw [e] at h; cases h)
      obtain ⟨d, rfl⟩ := Nat.exists_eq_add_of_le hk
      clear hk
      have fin : ∀ n, N ≤ n → (σ n).nbuf.length = l + 1 → NDrained (σ n) (σ (n + 1)) → ∃ k ≥ n, (σ k).nbuf = [] := by
        rintro n hn h ⟨w, r, hr, hs⟩
        rw [hr] at h
        obtain ⟨k, hk, e⟩ := ihl (n + 1) (by omega) (by rw [hs]; simpa using h)
        exact ⟨k, by omega, e⟩
      induction d generalizing n with
      | zero => exact fin n hn h hd
      | succ d ih =>
        obtain ⟨lb, hst⟩ := F.next n
        rcases hst.nbuf (hw n hn) with e | e
        · obtain ⟨k, hk, r⟩ := ih (n + 1) (by omega) (by rw [e]; exact h) (by rw [show n + 1 + d = n + (d + 1) by omega]; exact hd)
          exact ⟨k, by omega, r⟩
        · exact fin n hn h e
  obtain ⟨M, hM, h0⟩ := key _ N (le_refl _) rfl
  refine ⟨M, hM, fun k hk => ?_⟩
  induction k, hk using Nat.le_induction with
  | base => exact h0
  | succ k hk ih =>
    obtain ⟨l, hst⟩ := F.next k
    rcases hst.nbuf (hw k (by omega)) with e | ⟨w, r, hr, _⟩
    · rw [e]; exact ih
    · rw [ih] at hr; cases hr

theorem nview_empty {s : St} (h : s.nbuf = []) : s.nview = s.mem := by unfold St.nview; rw [h]; rfl

/-- With the service thread's buffer empty, memory changes only by the realtime thread's stores. -/
theorem Step.mem {s s' : St} {l : Label} (h : Step s l s') (hn : s.nbuf = []) : s'.mem = s.mem ∨ ∃ e ∈ s.rbuf, s'.mem = e.wr.apply s.mem := by
  cases h
  case nDrain w r hr => rw [hn] at hr; cases hr
  case rtDrain e r hr => exact Or.inr ⟨e, by rw [hr]; simp, rfl⟩
  all_goals exact Or.inl rfl

/-- The second wait of a load or unload ends. -/
theorem FairExec.wait2 {σ : Nat → St} (F : FairExec σ) {N : Nat} {c : Bool} (hw : ∀ k ≥ N, (σ k).nrt = .wait2 c) : False := by
  obtain ⟨M, hM, hb⟩ := F.empties (N := N) fun k hk => Or.inl ⟨c, hw k hk⟩
  have hand : ∀ k ≥ M, Handing (σ k) c := by
    intro k hk
    have h2 := (F.reach k).listInv.2
    rw [hw k (by omega)] at h2
    rcases (show Pending (σ k) c ∨ Handing (σ k) c from h2) with h2 | h2
    · obtain ⟨pre, he, _⟩ := h2.nbuf
      rw [hb k hk] at he
      have := congrArg List.length he
      simp at this
    · exact h2
  -- some cycle stores the new list, and that store reaches memory
  have turned : ∃ k ≥ M, (σ k).mem.used = some (!c) := by
    obtain ⟨k1, h1, e1⟩ := F.ends M
    obtain ⟨k2, h2, e2⟩ := F.begins k1
    obtain ⟨j, hj, ej, ej'⟩ := flips (P := fun k => (σ k).rt = .idle) h2 e1 e2
    have got : (σ (j + 1)).rt = .got (!c) := by
      obtain ⟨l, hst⟩ := F.next j
      have hcur := rview_cur (F.reach j).listInv.1
      rw [(hand j (by omega)).cur] at hcur
      generalize hs' : σ (j + 1) = s' at hst ej'
      generalize hs : σ j = s at hst ej hcur
      cases hst
      case rtLoadCur => change RPc.got _ = _; rw [hcur]
      all_goals first
        | exact absurd ej ej'
        | (rename_i h1; rw [ej] at h1; cases h1)
        | (rename_i h1 _; rw [ej] at h1; cases h1)
    obtain ⟨k3, h3, e3⟩ := F.ends (j + 1)
    obtain ⟨i, hi, ei, ei'⟩ := flips (P := fun k => (σ k).rt = .got (!c)) h3 got (by rw [e3]; simp)
    have put : ∃ x, (σ (i + 1)).rbuf = x ++ [⟨.used (!c), !c, false⟩] := by
      obtain ⟨l, hst⟩ := F.next i
      generalize hs' : σ (i + 1) = s' at hst ei'
      generalize hs : σ i = s at hst ei
      cases hst
      case rtStoreUsed v hv =>
        rw [ei] at hv
        cases hv
        exact ⟨_, rfl⟩
      all_goals first
        | exact absurd ei ei'
        | (rename_i h1; rw [ei] at h1; cases h1)
        | (rename_i h1 _; rw [ei] at h1; cases h1)
    obtain ⟨x, hx⟩ := put
    obtain ⟨k, hk, r, hr, hs⟩ := F.drains x (i + 1) _ _ hx
    exact ⟨k + 1, by omega, by rw [hs]; rfl⟩
  obtain ⟨K, hK, hu⟩ := turned
  have always : ∀ k ≥ K, (σ k).mem.used = some (!c) := by
    intro k hk
    induction k, hk using Nat.le_induction with
    | base => exact hu
    | succ k hk ih =>
      obtain ⟨l, hst⟩ := F.next k
      rcases hst.mem (hb k (by omega)) with e | ⟨e, he, hm⟩
      · rw [e]; exact ih
      · have hne : (!c) ≠ c := by cases c <;> simp
        have hlst : e.lst = !c := by
          rcases (hand k (by omega)).turn with ⟨h1, _⟩ | ⟨h1, _⟩ | h1
          · rw [ih] at h1; exact absurd (Option.some.inj h1) hne
          · rw [ih] at h1; exact absurd (Option.some.inj h1) hne
          · exact h1.buf e he
        have hok := (F.reach k).listInv.1 e he
        rw [hm]
        unfold RtWr.Ok at hok
        cases hw : e.wr <;> rw [hw] at hok <;> first | exact ih | exact hok.elim | (change some _ = _; rw [hok, hlst])
  refine F.goesOn K fun k hk => ⟨by rw [hw k (by omega), hw K (by omega)], ?_⟩
  unfold St.CanGoOn
  rw [hw k (by omega)]
  dsimp only
  rw [nview_empty (hb k (by omega)), always k hk]
  cases c <;> simp

/-- The wait for the switch ends. -/
theorem FairExec.waitSwitch {σ : Nat → St} (F : FairExec σ) {N : Nat} (hw : ∀ k ≥ N, (σ k).nrt = .waitSwitch) : False := by
  obtain ⟨M, hM, hb⟩ := F.empties (N := N) fun k hk => Or.inr (hw k hk)
  have hok : ∀ k, ∀ e ∈ (σ k).rbuf, e.Ok := fun k => (F.reach k).listInv.1
  -- a buffered `please_switch_ = false` gets through
  have through' : ∀ k ≥ M, (∃ e ∈ (σ k).rbuf, e.wr.isPlease = true) → ∃ j ≥ k, (σ j).mem.please = false := by
    rintro k hk ⟨e, he, hp⟩
    obtain ⟨x, y, hxy⟩ := List.append_of_mem he
    obtain ⟨j, hj, r, hr, hs⟩ := F.drains x k e y hxy
    have h1 := hok k e he
    refine ⟨j + 1, by omega, ?_⟩
    rw [hs]
    unfold RtWr.Ok at h1
    cases hwr : e.wr <;> rw [hwr] at hp h1 <;> first | (cases hp; done) | exact h1.1
  have answered : ∃ k ≥ M, (σ k).mem.please = false := by
    obtain ⟨k1, h1, e1⟩ := F.begins M
    obtain ⟨k2, h2, e2⟩ := F.ends k1
    obtain ⟨j, hj, ej, ej'⟩ := flips (P := fun k => (σ k).rt ≠ .idle) h2 e1 (by simpa using e2)
    have view : ∀ k, (σ k).rview.please = false → (σ k).mem.please = false ∨ ∃ e ∈ (σ k).rbuf, e.wr.isPlease = true := by
      intro k hv
      by_cases h : ∀ e ∈ (σ k).rbuf, e.wr.isPlease = false
      · exact Or.inl (by rw [← rview_please_of h]; exact hv)
      · push Not at h
        obtain ⟨e, he, hne⟩ := h
        exact Or.inr ⟨e, he, by simpa using hne⟩
    have seen : (σ j).rview.please = false ∨ ∃ e ∈ (σ (j + 1)).rbuf, e.wr.isPlease = true := by
      obtain ⟨l, hst⟩ := F.next j
      generalize hs' : σ (j + 1) = s' at hst ej'
      generalize hs : σ j = s at hst ej
      cases hst
      case rtNoSwitch v h1 h2 => exact Or.inl h2
      case rtDone v h1 => exact Or.inr ⟨_, List.mem_append_right _ (List.mem_singleton.2 rfl), rfl⟩
      all_goals first
        | exact absurd ej ej'
        | exact absurd (by intro h; cases h) ej'
    rcases seen with h | h
    · rcases view j h with h | h
      · exact ⟨j, by omega, h⟩
      · obtain ⟨k, hk, e⟩ := through' j (by omega) h
        exact ⟨k, by omega, e⟩
    · obtain ⟨k, hk, e⟩ := through' (j + 1) (by omega) h
      exact ⟨k, by omega, e⟩
  obtain ⟨K, hK, hu⟩ := answered
  have always : ∀ k ≥ K, (σ k).mem.please = false := by
    intro k hk
    induction k, hk using Nat.le_induction with
    | base => exact hu
    | succ k hk ih =>
      obtain ⟨l, hst⟩ := F.next k
      rcases hst.mem (hb k (by omega)) with e | ⟨e, he, hm⟩
      · rw [e]; exact ih
      · have h1 := hok k e he
        rw [hm]
        unfold RtWr.Ok at h1
        cases hwr : e.wr <;> rw [hwr] at h1 <;> first | exact ih | exact h1.elim | exact h1.1
  refine F.goesOn K fun k hk => ⟨by rw [hw k (by omega), hw K (by omega)], ?_⟩
  unfold St.CanGoOn
  rw [hw k (by omega)]
  dsimp only
  rw [nview_empty (hb k (by omega)), always k hk]

/-- **C88.**  Although the stores of both sides are buffered, every load, unload and switch call finishes: in a fair execution there is no moment after which the service
thread never comes out of its call. -/
theorem C88_tso_calls_finish {σ : Nat → St} (F : FairExec σ) (n : Nat) : ∃ k ≥ n, (σ k).nrt = .idle := by
  by_contra hno
  push Not at hno
  -- the position settles
  have settle : ∀ (r n' : Nat), n ≤ n' → (σ n').nrt.rank = r → ∃ N ≥ n', ∀ k ≥ N, (σ k).nrt = (σ N).nrt := by
    intro r
    induction r using Nat.strong_induction_on with
    | _ r ih =>
      intro n' hn' hr
      by_cases hc : ∀ k ≥ n', (σ k).nrt = (σ n').nrt
      · exact ⟨n', le_refl _, hc⟩
      · push Not at hc
        obtain ⟨k, hk, hne⟩ := hc
        obtain ⟨j, hj, ej, ej'⟩ := flips (P := fun k => (σ k).nrt = (σ n').nrt) hk rfl hne
        obtain ⟨l, hst⟩ := F.next j
        rcases hst.nrt with h | h | h
        · exact absurd h (hno j (by omega))
        · exact absurd (h.trans ej) ej'
        · rw [ej, hr] at h
          obtain ⟨N, hN, h⟩ := ih _ h (j + 1) (by omega) rfl
          exact ⟨N, by omega, h⟩
  obtain ⟨N, hN, hs⟩ := settle _ n (le_refl _) rfl
  have free : (∀ k ≥ N, (σ k).CanGoOn) → False := fun h => F.goesOn N fun k hk => ⟨hs k hk, h k hk⟩
  cases hpc : (σ N).nrt with
  | idle => exact hno N hN hpc
  | wait2 c => exact F.wait2 (N := N) (c := c) fun k hk => (hs k hk).trans hpc
  | waitSwitch => exact F.waitSwitch (N := N) fun k hk => (hs k hk).trans hpc
  | wait1 c =>
    refine free fun k hk => ?_
    have h := (hs k hk).trans hpc
    have h2 := (F.reach k).listInv.2
    rw [h] at h2
    have h2 : Settled (σ k) c := h2
    unfold St.CanGoOn
    rw [h]
    dsimp only
    rw [nview_used h2.nbuf, h2.used]
    cases c <;> simp
  | _ => exact free fun k hk => by unfold St.CanGoOn; rw [hs k hk, hpc]; trivial

/-! ## Fair executions exist, from everywhere -/

/-- `s'` comes after `s`, by steps of the two threads and of the store buffers. -/
inductive Run : St → St → Prop
  | refl (s : St) : Run s s
  | step {s s' s'' : St} {l : Label} : Run s s' → Step s' l s'' → Run s s''

theorem Run.trans {a b c : St} (h : Run a b) (h' : Run b c) : Run a c := by
  induction h' with
  | refl => exact h
  | step _ hs ih => exact ih.step hs

theorem Run.reach {a b : St} (h : Run a b) (ha : Reach a) : Reach b := by
  induction h with
  | refl => exact ha
  | step _ hs ih => exact .step _ _ _ ih hs

theorem Run.one {a b : St} {l : Label} (h : Step a l b) : Run a b := (Run.refl a).step h

/-- As a numbered sequence. -/
theorem Run.seq {a b : St} (h : Run a b) : ∃ (n : Nat) (f : Nat → St), f 0 = a ∧ f n = b ∧ ∀ i < n, ∃ l, Step (f i) l (f (i + 1)) := by
  induction h with
  | refl => exact ⟨0, fun _ => a, rfl, rfl, fun i hi => by omega⟩
  | @step s' s'' l _ hs ih =>
    obtain ⟨n, f, h0, hn, hf⟩ := ih
    refine ⟨n + 1, fun i => if i ≤ n then f i else s'', ?_, ?_, ?_⟩
    · simpa using h0
    · simp
    · intro i hi
      by_cases e : i = n
      · subst e
        refine ⟨l, ?_⟩
        simpa [hn] using hs
      · have h1 : i ≤ n := by omega
        have h2 : i + 1 ≤ n := by omega
        simpa [h1, h2] using hf i (by omega)

/-- All buffered stores reach memory, nothing else happens. -/
theorem run_drain (s : St) : ∃ s', Run s s' ∧ s'.rbuf = [] ∧ s'.nbuf = [] ∧ s'.rt = s.rt ∧ s'.nrt = s.nrt := by
  have h1 : ∀ (b : List RtWr) (s : St), s.rbuf = b → ∃ s', Run s s' ∧ s'.rbuf = [] ∧ s'.nbuf = s.nbuf ∧ s'.rt = s.rt ∧ s'.nrt = s.nrt := by
    intro b
    induction b with
    | nil => exact fun s hs => ⟨s, .refl s, hs, rfl, rfl, rfl⟩
    | cons e b ih =>
      intro s hs
      obtain ⟨s', hr, r1, r2, r3, r4⟩ := ih { s with mem := e.wr.apply s.mem, rbuf := b } rfl
      exact ⟨s', (Run.one (.rtDrain s e b hs)).trans hr, r1, r2, r3, r4⟩
  have h2 : ∀ (b : List Wr) (s : St), s.nbuf = b → ∃ s', Run s s' ∧ s'.nbuf = [] ∧ s'.rbuf = s.rbuf ∧ s'.rt = s.rt ∧ s'.nrt = s.nrt := by
    intro b
    induction b with
    | nil => exact fun s hs => ⟨s, .refl s, hs, rfl, rfl, rfl⟩
    | cons e b ih =>
      intro s hs
      obtain ⟨s', hr, r1, r2, r3, r4⟩ := ih { s with mem := e.apply s.mem, nbuf := b } rfl
      exact ⟨s', (Run.one (.nDrain s e b hs)).trans hr, r1, r2, r3, r4⟩
  obtain ⟨s1, g1, a1, a2, a3, a4⟩ := h1 _ s rfl
  obtain ⟨s2, g2, b1, b2, b3, b4⟩ := h2 _ s1 rfl
  exact ⟨s2, g1.trans g2, b2.trans a1, b1, b3.trans a3, b4.trans a4⟩

/-- **C88, the realtime thread never waits.**  From any state whatever - wherever the service thread is, whatever is buffered - the realtime thread ends its
cycle by its own next instructions, at most five, without the service thread taking a step or a store reaching memory. -/
theorem C88_tso_realtime_wait_free (s : St) : ∃ (n : Nat) (f : Nat → St), n ≤ 5 ∧ f 0 = s ∧ (f n).rt = .idle ∧
    ∀ i < n, (∃ l, Step (f i) l (f (i + 1))) ∧ (f (i + 1)).mem = s.mem ∧ (f (i + 1)).nbuf = s.nbuf ∧ (f (i + 1)).nrt = s.nrt ∧
      ∃ b, (f (i + 1)).rbuf = (f i).rbuf ++ b := by
  have clear : ∀ (s : St) v, s.rt = .clearing v → ∃ (f : Nat → St), f 0 = s ∧ (f 1).rt = .idle ∧
      ∀ i < 1, (∃ l, Step (f i) l (f (i + 1))) ∧ (f (i + 1)).mem = s.mem ∧ (f (i + 1)).nbuf = s.nbuf ∧ (f (i + 1)).nrt = s.nrt ∧ ∃ b, (f (i + 1)).rbuf = (f i).rbuf ++ b := by
    intro s v h
    refine ⟨fun i => if i = 0 then s else { s.rput (.please false) v true with rt := .idle }, rfl, rfl, ?_⟩
    intro i hi
    obtain rfl : i = 0 := by omega
    exact ⟨⟨_, .rtDone s v h⟩, rfl, rfl, rfl, _, rfl⟩
  have before : ∀ (s s' : St) (l : Label) (n : Nat), Step s l s' → s'.mem = s.mem → s'.nbuf = s.nbuf → s'.nrt = s.nrt → (∃ b, s'.rbuf = s.rbuf ++ b) →
      (∃ (f : Nat → St), f 0 = s' ∧ (f n).rt = .idle ∧
        ∀ i < n, (∃ l, Step (f i) l (f (i + 1))) ∧ (f (i + 1)).mem = s'.mem ∧ (f (i + 1)).nbuf = s'.nbuf ∧ (f (i + 1)).nrt = s'.nrt ∧ ∃ b, (f (i + 1)).rbuf = (f i).rbuf ++ b) →
      ∃ (f : Nat → St), f 0 = s ∧ (f (n + 1)).rt = .idle ∧
        ∀ i < n + 1, (∃ l, Step (f i) l (f (i + 1))) ∧ (f (i + 1)).mem = s.mem ∧ (f (i + 1)).nbuf = s.nbuf ∧ (f (i + 1)).nrt = s.nrt ∧ ∃ b, (f (i + 1)).rbuf = (f i).rbuf ++ b := by
    intro s s' l n hs e1 e2 e3 e4 ⟨f, h0, hn, hf⟩
    refine ⟨fun i => match i with | 0 => s | i + 1 => f i, rfl, hn, ?_⟩
    intro i hi
    cases i with
    | zero =>
      dsimp only
      rw [h0]
      exact ⟨⟨l, hs⟩, e1, e2, e3, e4⟩
    | succ i =>
      obtain ⟨q1, q2, q3, q4, q5⟩ := hf i (by omega)
      exact ⟨q1, q2.trans e1, q3.trans e2, q4.trans e3, q5⟩
  have nil : ∀ s' : St, ∃ b, s'.rbuf = s'.rbuf ++ b := fun s' => ⟨[], (List.append_nil _).symm⟩
  have switching : ∀ (s : St) v, s.rt = .switching v → _ := fun s v h =>
    before s _ _ 1 (.rtClear s v h) rfl rfl rfl (nil s) (clear { s with rt := .clearing v } v rfl)
  have idle : ∀ s : St, s.rt = .idle → ∃ (f : Nat → St), f 0 = s ∧ (f 0).rt = .idle ∧
      ∀ i < 0, (∃ l, Step (f i) l (f (i + 1))) ∧ (f (i + 1)).mem = s.mem ∧ (f (i + 1)).nbuf = s.nbuf ∧ (f (i + 1)).nrt = s.nrt ∧ ∃ b, (f (i + 1)).rbuf = (f i).rbuf ++ b :=
    fun s h => ⟨fun _ => s, rfl, h, fun i hi => by omega⟩
  have running : ∀ (s : St) v, s.rt = .running v → ∃ n ≤ 3, ∃ (f : Nat → St), f 0 = s ∧ (f n).rt = .idle ∧
      ∀ i < n, (∃ l, Step (f i) l (f (i + 1))) ∧ (f (i + 1)).mem = s.mem ∧ (f (i + 1)).nbuf = s.nbuf ∧ (f (i + 1)).nrt = s.nrt ∧ ∃ b, (f (i + 1)).rbuf = (f i).rbuf ++ b := by
    intro s v h
    cases hp : s.rview.please with
    | false => exact ⟨1, by omega, before s _ _ 0 (.rtNoSwitch s v h hp) rfl rfl rfl (nil s) (idle _ rfl)⟩
    | true => exact ⟨3, by omega, before s _ _ 2 (.rtSwitch s v h hp) rfl rfl rfl (nil s) (switching { s with rt := .switching v, rounds := s.rounds + 1 } v rfl)⟩
  have got : ∀ (s : St) v, s.rt = .got v → ∃ n ≤ 4, ∃ (f : Nat → St), f 0 = s ∧ (f n).rt = .idle ∧
      ∀ i < n, (∃ l, Step (f i) l (f (i + 1))) ∧ (f (i + 1)).mem = s.mem ∧ (f (i + 1)).nbuf = s.nbuf ∧ (f (i + 1)).nrt = s.nrt ∧ ∃ b, (f (i + 1)).rbuf = (f i).rbuf ++ b := by
    intro s v h
    obtain ⟨n, hn, hf⟩ := running { s.rput (.used v) v false with rt := .running v } v rfl
    exact ⟨n + 1, by omega, before s _ _ n (.rtStoreUsed s v h) rfl rfl rfl ⟨_, rfl⟩ hf⟩
  cases h : s.rt with
  | idle => obtain ⟨f, hf⟩ := idle s h; exact ⟨0, f, by omega, hf⟩
  | got v => obtain ⟨n, hn, f, hf⟩ := got s v h; exact ⟨n, f, by omega, hf⟩
  | running v => obtain ⟨n, hn, f, hf⟩ := running s v h; exact ⟨n, f, by omega, hf⟩
  | switching v => obtain ⟨f, hf⟩ := switching s v h; exact ⟨2, f, by omega, hf⟩
  | clearing v => obtain ⟨f, hf⟩ := clear s v h; exact ⟨1, f, by omega, hf⟩

theorem run_of_seq {n : Nat} {f : Nat → St} (h : ∀ i < n, ∃ l, Step (f i) l (f (i + 1))) : Run (f 0) (f n) := by
  induction n with
  | zero => exact .refl _
  | succ n ih =>
    obtain ⟨l, hl⟩ := h n (by omega)
    exact (ih fun i hi => h i (by omega)).step hl

/-- The realtime thread ends its cycle and all stores reach memory. -/
theorem run_rest (s : St) : ∃ s', Run s s' ∧ s'.rbuf = [] ∧ s'.nbuf = [] ∧ s'.rt = .idle ∧ s'.nrt = s.nrt := by
  obtain ⟨n, f, _, h0, hn, hf⟩ := C88_tso_realtime_wait_free s
  have hrun : Run s (f n) := h0 ▸ run_of_seq fun i hi => (hf i hi).1
  have hnrt : (f n).nrt = s.nrt := by
    cases n with
    | zero => rw [h0]
    | succ n => exact (hf n (by omega)).2.2.2.1
  obtain ⟨s', hr, h1, h2, h3, h4⟩ := run_drain (f n)
  exact ⟨s', hrun.trans hr, h1, h2, h3.trans hn, h4.trans hnrt⟩

/-- A whole cycle from rest, all its stores reaching memory. -/
theorem run_cycle (s : St) (h1 : s.rbuf = []) (h2 : s.nbuf = []) (h3 : s.rt = .idle) :
    ∃ s', Run s s' ∧ s'.rbuf = [] ∧ s'.nbuf = [] ∧ s'.rt = .idle ∧ s'.nrt = s.nrt ∧ s'.mem.used = some s.mem.cur ∧ s'.mem.please = false ∧
      s'.mem.cur = s.mem.cur := by
  have e1 : s.rview = s.mem := by unfold St.rview; rw [h1]; rfl
  have g1 : Run s { s with rt := .got s.mem.cur } := by
    have := Run.one (.rtLoadCur s h3)
    rwa [e1] at this
  have g2 := g1.step (.rtStoreUsed _ s.mem.cur rfl)
  have g3 := g2.step (.rtDrain _ ⟨.used s.mem.cur, s.mem.cur, false⟩ [] (by simp [St.rput, h1]))
  cases hp : s.mem.please with
  | false => exact ⟨_, g3.step (.rtNoSwitch _ s.mem.cur rfl hp), rfl, h2, rfl, rfl, rfl, hp, rfl⟩
  | true =>
    have g4 := ((g3.step (.rtSwitch _ s.mem.cur rfl hp)).step (.rtClear _ s.mem.cur rfl)).step (.rtDone _ s.mem.cur rfl)
    exact ⟨_, g4.step (.rtDrain _ ⟨.please false, s.mem.cur, true⟩ [] rfl), rfl, h2, rfl, rfl, rfl, rfl, rfl⟩

/-- At rest, with no call in progress. -/
structure Resting (s : St) : Prop where
  rt : s.rt = .idle
  nrt : s.nrt = .idle
  rbuf : s.rbuf = []
  nbuf : s.nbuf = []
  used : s.mem.used = some s.mem.cur
  please : s.mem.please = false

theorem run_resting {s : St} (h : Reach s) : ∃ s', Run s s' ∧ Resting s' := by
  have done : ∀ s : St, s.rbuf = [] → s.nbuf = [] → s.rt = .idle → s.nrt = .idle → ∃ s', Run s s' ∧ Resting s' := by
    intro s h1 h2 h3 h4
    obtain ⟨s', hr, a1, a2, a3, a4, a5, a6, a7⟩ := run_cycle s h1 h2 h3
    exact ⟨s', hr, a3, a4.trans h4, a1, a2, a5.trans (by rw [a7]), a6⟩
  obtain ⟨s1, hr, h1, h2, h3, h4⟩ := run_rest s
  have hs1 := hr.reach h
  have hv : s1.nview = s1.mem := by unfold St.nview; rw [h2]; rfl
  have fin : ∀ s2, Run s1 s2 → s2.rbuf = [] → s2.nbuf = [] → s2.rt = .idle → s2.nrt = .idle → ∃ s', Run s s' ∧ Resting s' := by
    intro s2 g a1 a2 a3 a4
    obtain ⟨s', hr', hs'⟩ := done s2 a1 a2 a3 a4
    exact ⟨s', (hr.trans g).trans hr', hs'⟩
  have hinv := hs1.listInv.2
  cases hn : s1.nrt with
  | idle => exact fin s1 (.refl _) h1 h2 h3 hn
  | wait1 c =>
    rw [hn] at hinv
    have hu : s1.nview.used ≠ some (!c) := by rw [hv, (show Settled s1 c from hinv).used]; cases c <;> simp
    exact fin _ ((Run.one (.nFree s1 c hn hu)).step (.nFail _ c rfl)) h1 h2 h3 rfl
  | build c => exact fin _ (Run.one (.nFail s1 c hn)) h1 h2 h3 rfl
  | wait2 c =>
    rw [hn] at hinv
    have hcur : s1.mem.cur = !c := by
      rcases (show Pending s1 c ∨ Handing s1 c from hinv) with g | g
      · obtain ⟨pre, e, _⟩ := g.nbuf
        rw [h2] at e
        simp at e
      · exact g.cur
    obtain ⟨s2, g, a1, a2, a3, a4, a5, a6, a7⟩ := run_cycle s1 h1 h2 h3
    have hv2 : s2.nview = s2.mem := by unfold St.nview; rw [a2]; rfl
    have hu : s2.nview.used ≠ some c := by rw [hv2, a5, hcur]; cases c <;> simp
    exact fin _ ((g.step (.nSeen s2 c (a4.trans hn) hu)).step (.nDone _ c rfl)) a1 a2 a3 rfl
  | clear c => exact fin _ (Run.one (.nDone s1 c hn)) h1 h2 h3 rfl
  | resolve => exact fin _ (Run.one (.sFail s1 hn)) h1 h2 h3 rfl
  | waitSwitch =>
    obtain ⟨s2, g, a1, a2, a3, a4, a5, a6, a7⟩ := run_cycle s1 h1 h2 h3
    have hv2 : s2.nview = s2.mem := by unfold St.nview; rw [a2]; rfl
    exact fin _ ((g.step (.sDone s2 (a4.trans hn) (by rw [hv2]; exact a6))).step (.sReturn _ rfl)) a1 a2 a3 rfl
  | switched => exact fin _ (Run.one (.sReturn s1 hn)) h1 h2 h3 rfl

/-- What a step does to the service threads' buffer. -/
theorem Step.nbufs {s s' : St} {l : Label} (h : Step s l s') : (∃ y, s'.nbuf = s.nbuf ++ y) ∨ NDrained s s' := by
  cases h
  case nDrain w r hr => exact Or.inr ⟨w, r, hr, rfl⟩
  all_goals first
    | exact Or.inl ⟨_, rfl⟩
    | exact Or.inl ⟨[], by simp [St.rput]⟩

/-- One cycle without service calls. -/
def restCycle (s : St) : List St :=
  [s, { s with rt := .got s.mem.cur }, { s with rt := .running s.mem.cur, rbuf := [⟨.used s.mem.cur, s.mem.cur, false⟩] }, { s with rt := .running s.mem.cur }]

/-- First `f`, then cycles for ever. -/
def thenCycles (n : Nat) (f : Nat → St) (k : Nat) : St := if k < n then f k else (restCycle (f n)).getD ((k - n) % 4) (f n)

theorem thenCycles_cycle (n : Nat) (f : Nat → St) (q r : Nat) (hr : r < 4) : thenCycles n f (n + 4 * q + r) = (restCycle (f n)).getD r (f n) := by
  unfold thenCycles
  rw [if_neg (by omega), show (n + 4 * q + r - n) % 4 = r by omega]

theorem Resting.cycle_next {s : St} (h : Resting s) (r : Nat) (hr : r < 4) : ∃ l, Step ((restCycle s).getD r s) l ((restCycle s).getD ((r + 1) % 4) s) := by
  obtain ⟨⟨cur, used, please, list, req, obj⟩, rbuf, nbuf, rt, nrt, handed, asked, rounds⟩ := s
  obtain ⟨h1, h2, h3, h4, h5, h6⟩ := h
  dsimp only at h1 h2 h3 h4 h5 h6
  subst h1 h2 h3 h4 h5 h6
  interval_cases r
  · exact ⟨_, .rtLoadCur _ rfl⟩
  · exact ⟨_, .rtStoreUsed _ cur rfl⟩
  · exact ⟨_, .rtDrain _ ⟨.used cur, cur, false⟩ [] rfl⟩
  · exact ⟨_, .rtNoSwitch _ cur rfl rfl⟩

theorem thenCycles_fair {n : Nat} {f : Nat → St} (h0 : Reach (f 0)) (hf : ∀ i < n, ∃ l, Step (f i) l (f (i + 1))) (hn : Resting (f n)) : FairExec (thenCycles n f) := by
  have split : ∀ k, k < n ∨ ∃ q r, r < 4 ∧ k = n + 4 * q + r := by
    intro k
    by_cases h : k < n
    · exact Or.inl h
    · exact Or.inr ⟨(k - n) / 4, (k - n) % 4, by omega, by omega⟩
  have low : ∀ k ≤ n, thenCycles n f k = f k := by
    intro k hk
    by_cases h : k < n
    · unfold thenCycles; rw [if_pos h]
    · obtain rfl : k = n := by omega
      exact thenCycles_cycle k f 0 0 (by omega)
  have next : ∀ k, ∃ l, Step (thenCycles n f k) l (thenCycles n f (k + 1)) := by
    intro k
    rcases split k with h | ⟨q, r, hr, rfl⟩
    · rw [low k (by omega), low (k + 1) (by omega)]; exact hf k h
    · have e : thenCycles n f (n + 4 * q + r + 1) = (restCycle (f n)).getD ((r + 1) % 4) (f n) := by
        by_cases h3 : r = 3
        · subst h3
          rw [show n + 4 * q + 3 + 1 = n + 4 * (q + 1) + 0 by omega, thenCycles_cycle _ _ _ _ (by omega)]
        · rw [show n + 4 * q + r + 1 = n + 4 * q + (r + 1) by omega, thenCycles_cycle _ _ _ _ (by omega), Nat.mod_eq_of_lt (by omega)]
      rw [e, thenCycles_cycle _ _ _ _ hr]
      exact hn.cycle_next r hr
  have at0 : ∀ m, thenCycles n f (n + 4 * m + 0) = f n := fun m => thenCycles_cycle n f m 0 (by omega)
  refine ⟨by rw [low 0 (by omega)]; exact h0, next, ?_, ?_, ?_, ?_, ?_⟩
  · exact fun m => ⟨n + 4 * m + 0, by omega, by rw [at0]; exact hn.rt⟩
  · exact fun m => ⟨n + 4 * m + 1, by omega, by rw [thenCycles_cycle _ _ _ _ (by omega)]; intro h; cases h⟩
  · intro m _
    refine ⟨n + 4 * m + 2, by omega, ?_⟩
    rw [show n + 4 * m + 2 + 1 = n + 4 * m + 3 by omega, thenCycles_cycle _ _ _ _ (by omega), thenCycles_cycle _ _ _ _ (by omega)]
    obtain ⟨l, hl⟩ := hn.cycle_next 2 (by omega)
    rcases hl.rbuf with ⟨y, hy⟩ | hd
    · change (f n).rbuf = [_] ++ y at hy
      rw [hn.rbuf] at hy
      simp at hy
    · exact hd
  · intro m hm
    by_contra hno
    -- the buffer never shrinks before `f n`, where it is empty
    have keep : ∀ k, (thenCycles n f (m + k)).nbuf ≠ [] := by
      intro k
      induction k with
      | zero => exact hm
      | succ k ih =>
        obtain ⟨l, hl⟩ := next (m + k)
        rcases hl.nbufs with ⟨y, hy⟩ | hd
        · rw [show m + (k + 1) = m + k + 1 by omega, hy]
          simp [ih]
        · exact absurd ⟨m + k, by omega, hd⟩ hno
    have := keep (n + 4 * m + 0 - m)
    rw [show m + (n + 4 * m + 0 - m) = n + 4 * m + 0 by omega, at0] at this
    exact this hn.nbuf
  · intro m h
    have := (h (n + 4 * m + 0) (by omega)).2
    rw [at0] at this
    unfold St.CanGoOn at this
    rw [hn.nrt] at this
    exact this

/-- **C88, nothing ever gets stuck.**  Every reachable state - in the middle of any call, with anything buffered - is the first state of an execution in which everybody
gets on; so neither thread can get into a position from which it, or the other, cannot continue. -/
theorem C88_tso_no_deadlock {s : St} (h : Reach s) : ∃ σ, FairExec σ ∧ σ 0 = s := by
  obtain ⟨s', hr, hs'⟩ := run_resting h
  obtain ⟨n, f, h0, hn, hf⟩ := hr.seq
  refine ⟨thenCycles n f, thenCycles_fair (by rw [h0]; exact h) hf (by rw [hn]; exact hs'), ?_⟩
  unfold thenCycles
  by_cases e : 0 < n
  · rw [if_pos e, h0]
  · obtain rfl : n = 0 := by omega
    rw [if_neg (by omega)]
    exact h0

/-- C88: with a switch requested and not seen yet, and with a load waiting for the realtime thread. -/
example : ∃ σ s, FairExec σ ∧ σ 0 = s ∧ s.nrt = .waitSwitch ∧ s.nbuf = [.req 0 3, .please true] := by
  obtain ⟨σ, h, e⟩ := C88_tso_no_deadlock (.step _ _ _ (.step _ _ _ (.step _ _ _ (.start exSt ⟨rfl, rfl, rfl, rfl, rfl, rfl, fun _ _ => rfl⟩)
    (.sBegin _ rfl rfl)) (.sReq _ 0 3 rfl)) (.sGo _ rfl))
  exact ⟨σ, _, h, e, rfl, rfl⟩

example : ∃ σ s, FairExec σ ∧ σ 0 = s ∧ s.nrt = .wait2 false ∧ s.rbuf ≠ [] := by
  obtain ⟨s, h, _, hn, hb, _⟩ := exLoad
  obtain ⟨σ, h, e⟩ := C88_tso_no_deadlock h
  exact ⟨σ, s, h, e, hn, hb⟩

/-! ## A concrete fair execution

A load, from start to end, then control cycles for ever. -/

/-- The load and the cycle during which it finishes. -/
def exPrefix : List St :=
  let s0 := exSt
  let s1 := { s0 with nrt := .wait1 false }
  let s2 := { s1 with nrt := .build false }
  let s3 := s2.nput (.list true 0 7)
  let s4 : St := { s3.nput (.cur true) with nrt := .wait2 false, handed := fun b => if b = true then s3.nview.list b else s3.handed b }
  let s5 := { s4 with mem := (Wr.list true 0 7).apply s4.mem, nbuf := [.cur true] }
  let s6 := { s5 with mem := (Wr.cur true).apply s5.mem, nbuf := [] }
  let s7 := { s6 with rt := .got true }
  let s8 : St := { s7.rput (.used true) true false with rt := .running true }
  let s9 := { s8 with mem := (Wr.used true).apply s8.mem, rbuf := [] }
  let s10 := { s9 with nrt := .clear false }
  let s11 := { s10 with nrt := .idle }
  [s0, s1, s2, s3, s4, s5, s6, s7, s8, s9, s10, s11]

/-- Between two cycles, the load being done. -/
def exDone : St := { exPrefix.getD 11 exSt with rt := .idle }

/-- One cycle without service calls. -/
def exCycle : List St :=
  [exDone, { exDone with rt := .got true }, { exDone with rt := .running true, rbuf := [⟨.used true, true, false⟩] }, { exDone with rt := .running true }]

/-- The execution. -/
def exRun (n : Nat) : St := if n < 12 then exPrefix.getD n exSt else exCycle.getD ((n - 12) % 4) exDone

theorem exRun_cycle (q r : Nat) (hr : r < 4) : exRun (12 + 4 * q + r) = exCycle.getD r exDone := by
  unfold exRun
  rw [if_neg (by omega), show (12 + 4 * q + r - 12) % 4 = r by omega]

theorem exRun_next (n : Nat) : ∃ l, Step (exRun n) l (exRun (n + 1)) := by
  by_cases h : n < 12
  · interval_cases n
    · exact ⟨_, .nBegin _ rfl rfl⟩
    · exact ⟨_, .nFree _ false rfl (by decide)⟩
    · exact ⟨_, .nBuild _ false 0 7 rfl⟩
    · exact ⟨_, .nSwap _ false rfl⟩
    · exact ⟨_, .nDrain _ _ _ rfl⟩
    · exact ⟨_, .nDrain _ _ _ rfl⟩
    · exact ⟨_, .rtLoadCur _ rfl⟩
    · exact ⟨_, .rtStoreUsed _ true rfl⟩
    · exact ⟨_, .rtDrain _ ⟨.used true, true, false⟩ [] rfl⟩
    · exact ⟨_, .nSeen _ false rfl (by decide)⟩
    · exact ⟨_, .nDone _ false rfl⟩
    · exact ⟨_, .rtNoSwitch _ true rfl rfl⟩
  · obtain ⟨q, r, hr, rfl⟩ : ∃ q r, r < 4 ∧ n = 12 + 4 * q + r := ⟨(n - 12) / 4, (n - 12) % 4, by omega, by omega⟩
    rw [exRun_cycle q r hr]
    have hn : exRun (12 + 4 * q + r + 1) = exCycle.getD ((r + 1) % 4) exDone := by
      by_cases h3 : r = 3
      · subst h3
        rw [show 12 + 4 * q + 3 + 1 = 12 + 4 * (q + 1) + 0 by omega, exRun_cycle _ _ (by omega)]
      · rw [show 12 + 4 * q + r + 1 = 12 + 4 * q + (r + 1) by omega, exRun_cycle _ _ (by omega), Nat.mod_eq_of_lt (by omega)]
    rw [hn]
    interval_cases r
    · exact ⟨_, .rtLoadCur _ rfl⟩
    · exact ⟨_, .rtStoreUsed _ true rfl⟩
    · exact ⟨_, .rtDrain _ ⟨.used true, true, false⟩ [] rfl⟩
    · exact ⟨_, .rtNoSwitch _ true rfl rfl⟩

/-- `C88_tso_calls_finish`: the hypotheses are met by an execution with a load call in it. -/
theorem exRun_fair : FairExec exRun where
  init := .start _ ⟨rfl, rfl, rfl, rfl, rfl, rfl, fun _ _ => rfl⟩
  next := exRun_next
  ends n := ⟨12 + 4 * n + 0, by omega, by rw [exRun_cycle _ _ (by omega)]; rfl⟩
  begins n := ⟨12 + 4 * n + 1, by omega, by rw [exRun_cycle _ _ (by omega)]; intro h; cases h⟩
  rdrain n _ := by
    refine ⟨12 + 4 * n + 2, by omega, ?_⟩
    rw [show 12 + 4 * n + 2 + 1 = 12 + 4 * n + 3 by omega, exRun_cycle _ _ (by omega), exRun_cycle _ _ (by omega)]
    exact ⟨_, _, rfl, rfl⟩
  ndrain n h := by
    by_cases hn : n < 6
    · exact ⟨5, by omega, _, _, rfl, rfl⟩
    · exfalso
      by_cases h12 : n < 12
      · interval_cases n <;> exact h rfl
      · obtain ⟨q, r, hr, rfl⟩ : ∃ q r, r < 4 ∧ n = 12 + 4 * q + r := ⟨(n - 12) / 4, (n - 12) % 4, by omega, by omega⟩
        rw [exRun_cycle q r hr] at h
        interval_cases r <;> exact h rfl
  goesOn n h := by
    have := (h (12 + 4 * n + 0) (by omega)).2
    rw [exRun_cycle _ _ (by omega)] at this
    exact this

/-- … and the call is there. -/
example : (exRun 1).nrt = .wait1 false ∧ (exRun 9).nrt = .wait2 false := ⟨rfl, rfl⟩

end Pr2.Tso
