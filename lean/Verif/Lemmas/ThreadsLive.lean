import Verif.Lemmas.Threads2
import Verif.Props.Live
import Mathlib.Data.Nat.Find

namespace Pr2
set_option linter.unusedVariables false
set_option linter.unusedSimpArgs false

/-! ## A fair execution of the whole process is a fair execution of the underlying model -/

theorem FairSys.reachable {m nd d σ act} (F : FairSys m nd d σ act) (n : Nat) : SysReach m nd d (σ n) := by
  induction n with
  | zero => exact F.reach
  | succ n ih => rw [F.step]; exact ih.step _ (fun hd => F.who hd n)

theorem FairSys.locks {m nd d σ act} (F : FairSys m nd d σ act) (n : Nat) : Locks m (σ n) := (F.reachable n).locks

/-- the action of the underlying model in a step of the process -/
def baseAct (s : Sys) (a : SAct) : Act :=
  match a with
  | .rt i => .rt i
  | .go t =>
    match s.thr t with
    | .run _ (.call op _) false _ _ => if s.ctl = none then .call op else .call .list
    | .run _ (.call _ _) true _ _ => .nrt
    | .dwait op => if s.ctl = none then .call op else .call .list
    | .drun _ => .nrt
    | _ => if s.ctl = none then .nrt else .call .list
  | _ => if s.ctl = none then .nrt else .call .list

theorem Locks.busy {m : Bool} {s : Sys} (h : Locks m s) {t : Nat} (hc : s.ctl = some t) : ∃ op, (s.thr t).inOp = some op ∧ s.base.nrt.curOp = some op := by
  have := (h.ctl t).1 hc
  cases ho : (s.thr t).inOp with
  | none => exact absurd ho this
  | some op => exact ⟨op, rfl, h.cur t op ho⟩

theorem Locks.idle_iff {m : Bool} {s : Sys} (h : Locks m s) : s.ctl = none ↔ s.base.nrt = .idle := by
  refine ⟨h.idle, fun hi => ?_⟩
  cases hc : s.ctl with
  | none => rfl
  | some t =>
    obtain ⟨op, _, ho⟩ := h.busy hc
    rw [hi] at ho; simp [NrtPc.curOp] at ho

theorem stutter {m : Bool} {s : Sys} (h : Locks m s) : s.base.step (if s.ctl = none then .nrt else .call .list) = s.base := by
  split
  · rename_i hc
    rw [step_nrt h.reach]; unfold State.nrtStep; rw [h.idle hc]
  · rename_i hc
    rw [step_call h.reach]
    have : s.base.nrt ≠ .idle := fun hi => hc (h.idle_iff.2 hi)
    exact call_noop (fun h0 => this (nRank_idle.1 h0)) _

theorem stutter' {m : Bool} {s : Sys} (h : Locks m s) (hc : s.ctl ≠ none) : s.base.step (.call .list) = s.base := by
  have := stutter h
  rw [if_neg hc] at this; exact this

theorem setThr_base (s : Sys) (t : Nat) (x : Thr) : (s.setThr t x).base = s.base := rfl

theorem inside_base (s : Sys) (t : Nat) (next : CallRec → Thr) : (s.inside t next).base = s.base.step .nrt := by
  unfold Sys.inside
  simp only
  split <;> rfl

theorem base_step {m nd : Bool} {s : Sys} (h : Locks m s) (hd : s.dead = false) (a : SAct) : (s.step nd a).base = s.base.step (baseAct s a) := by
  unfold Sys.step
  rw [if_neg (by rw [hd]; simp)]
  cases a with
  | rt i => rfl
  | request t r =>
    unfold baseAct
    simp only
    rw [stutter h]
    split <;> rfl
  | direct t op =>
    unfold baseAct
    simp only
    rw [stutter h]
    split <;> rfl
  | go t =>
    unfold baseAct
    simp only
    unfold Sys.go
    have hok := h.ok t
    cases ht : s.thr t with
    | idle => simp only; exact (stutter h).symm
    | wait r =>
      simp only
      rw [stutter h]
      split <;> rfl
    | dwait op =>
      simp only
      split
      · rfl
      · rename_i hc; exact (stutter' h hc).symm
    | drun op => simp only; exact inside_base _ _ _
    | run r p b pre raced =>
      rw [ht] at hok
      cases b with
      | true =>
        obtain ⟨op, k, rfl⟩ := hok
        simp only; exact inside_base _ _ _
      | false =>
        cases p with
        | call op k =>
          simp only
          split
          · rfl
          · rename_i hc; exact (stutter' h hc).symm
        | ret a => simp only; rw [stutter h]; rfl
        | abort => simp only; rw [stutter h]
        | names k => simp only; rw [stutter h]; split <;> rfl
        | schedule k => simp only; rw [stutter h]; split <;> rfl
        | byName n k => simp only; rw [stutter h]; rfl
        | running id k => simp only; rw [stutter h]; split <;> rfl

/-- the state of a thread is changed by its own steps only, and by a request to an idle thread -/
theorem thr_frame {nd : Bool} {s : Sys} {a : SAct} {t : Nat} (hi : s.thr t ≠ .idle) (ha : a ≠ .go t) : (s.step nd a).thr t = s.thr t := by
  unfold Sys.step
  split
  · rfl
  · cases a with
    | rt i => rfl
    | request u r =>
      simp only
      split
      · rename_i hu
        rw [setThr_thr, if_neg]
        rintro rfl; exact hi hu
      · rfl
    | direct u op =>
      simp only
      split
      · rfl
      · rename_i hu _
        rw [setThr_thr, if_neg]
        rintro rfl; exact hi hu
      · rfl
    | go u =>
      have hut : t ≠ u := fun e => ha (by rw [e])
      have hs : ∀ (x : Sys) (y : Thr), (x.setThr u y).thr t = x.thr t := by
        intro x y; rw [setThr_thr, if_neg hut]
      have hin : ∀ next, (s.inside u next).thr t = s.thr t := by
        intro next
        unfold Sys.inside
        simp only
        split
        · rw [hs]
        · rfl
      simp only
      unfold Sys.go
      split <;> first | rfl | (rw [hs]) | (exact hin _) | (split <;> first | rfl | (rw [hs]))

theorem FairSys.frame {m nd d σ act} (F : FairSys m nd d σ act) {t n : Nat} (hi : (σ n).thr t ≠ .idle) :
    ∃ k ≥ n, act k = .go t ∧ ∀ j, n ≤ j → j ≤ k → (σ j).thr t = (σ n).thr t := by
  have hex : ∃ k, n ≤ k ∧ act k = .go t := by
    obtain ⟨k, hk, ha⟩ := F.go t n
    exact ⟨k, hk, ha⟩
  classical
  refine ⟨Nat.find hex, (Nat.find_spec hex).1, (Nat.find_spec hex).2, ?_⟩
  intro j hnj hjk
  induction j, hnj using Nat.le_induction with
  | base => rfl
  | succ j hnj ih =>
    have hj := ih (by omega)
    rw [F.step, thr_frame (by rw [hj]; exact hi) ?_, hj]
    intro ha
    exact Nat.find_min hex (m := j) (by omega) ⟨hnj, ha⟩

/-- the lock stays with its owner until the owner takes a step -/
theorem inOp_wants {x : Thr} (h : x.inOp ≠ none) : x ≠ .idle := by rintro rfl; exact h rfl

theorem FairSys.baseFair {m nd d σ act} (F : FairSys m nd d σ act) : FairRun m (fun n => (σ n).base) (fun n => baseAct (σ n) (act n)) where
  reach := (F.locks 0).reach
  step := by
    intro n
    change (σ (n+1)).base = _
    rw [F.step]; exact base_step (F.locks n) (F.alive n) _
  up := by
    intro n
    unfold baseAct
    split
    · simp
    · split <;> first | (split <;> simp; done) | simp
    · split <;> simp
  rt := by
    intro n
    obtain ⟨k, hk, i, ha⟩ := F.rt n
    refine ⟨k, hk, i, ?_⟩
    simp only [ha]; rfl
  nrt := by
    intro n
    -- with the lock taken, its owner makes the step
    have hbusy : ∀ n t, (σ n).ctl = some t → ∃ k ≥ n, baseAct (σ k) (act k) = .nrt := by
      intro n t hc
      obtain ⟨op, ho, _⟩ := (F.locks n).busy hc
      obtain ⟨k, hk, ha, hfr⟩ := F.frame (t := t) (n := n) (inOp_wants (by rw [ho]; simp))
      refine ⟨k, hk, ?_⟩
      have hk' := hfr k hk (le_refl _)
      simp only [ha, baseAct, hk']
      cases ht : (σ n).thr t with
      | run r p b pre raced =>
        rw [ht] at ho
        cases b
        · rw [inOp_free] at ho; simp at ho
        · cases p <;> first | rfl | (simp [Thr.inOp] at ho)
      | drun op => rfl
      | _ => rw [ht] at ho; simp [Thr.inOp] at ho
    obtain ⟨k, hk, ha⟩ := F.go 0 n
    by_cases hc : (σ k).ctl = none
    · by_cases hn : baseAct (σ k) (act k) = .nrt
      · exact ⟨k, hk, hn⟩
      · -- the step takes the lock
        have hbase : ∃ op, baseAct (σ k) (act k) = .call op := by
          rw [ha] at hn ⊢
          unfold baseAct at hn ⊢
          simp only [hc, if_true] at hn ⊢
          cases ht : (σ k).thr 0 with
          | idle => rw [ht] at hn; simp at hn
          | wait r => rw [ht] at hn; simp at hn
          | dwait op => exact ⟨op, rfl⟩
          | drun op => rw [ht] at hn; simp at hn
          | run r p b pre raced =>
            rw [ht] at hn
            cases b <;> cases p <;> simp at hn ⊢
        obtain ⟨op, hop⟩ := hbase
        have hcur : (σ (k+1)).base.nrt.curOp = some op := by
          rw [F.step, base_step (F.locks k) (F.alive k), hop, step_call (F.locks k).reach]
          exact (call_op ((F.locks k).idle hc) op).1
        cases hc1 : (σ (k+1)).ctl with
        | none => rw [(F.locks (k+1)).idle hc1] at hcur; simp [NrtPc.curOp] at hcur
        | some t =>
          obtain ⟨j, hj, hh⟩ := hbusy (k+1) t hc1
          exact ⟨j, by omega, hh⟩
    · cases hc1 : (σ k).ctl with
      | none => exact absurd hc1 hc
      | some t =>
        obtain ⟨j, hj, hh⟩ := hbusy k t hc1
        exact ⟨j, by omega, hh⟩
  lock := by
    intro n hall
    have hsome : ∀ k ≥ n, ∃ t, (σ k).ctl = some t := by
      intro k hk
      obtain ⟨op, ho⟩ := hall k hk
      cases hc : (σ k).ctl with
      | some t => exact ⟨t, rfl⟩
      | none =>
        have := (F.locks k).idle hc
        change (σ k).base.nrt = _ at ho
        rw [ho] at this; simp at this
    obtain ⟨t, ht⟩ := hsome n (le_refl _)
    -- the owner stays the same
    have hown : ∀ k ≥ n, (σ k).ctl = some t := by
      intro k hk
      induction k, hk using Nat.le_induction with
      | base => exact ht
      | succ k hk ih =>
        obtain ⟨op, ho, hcur⟩ := (F.locks k).busy ih
        obtain ⟨o2, ho2⟩ := hall (k+1) (by omega)
        change (σ (k+1)).base.nrt = _ at ho2
        refine ((F.locks (k+1)).ctl t).2 ?_
        by_cases ha : act k = .go t
        · have hst : σ (k+1) = (σ k).go nd t := by
            rw [F.step, ha]; unfold Sys.step; rw [if_neg (by rw [F.alive k]; simp)]
          have key : ∀ next, σ (k+1) = (σ k).inside t next → (σ (k+1)).thr t = (σ k).thr t := by
            intro next he
            rcases inside_cases (F.locks k).reach hcur t next with ⟨he', _, _⟩ | ⟨r, he', hi, _, _⟩
            · rw [he, he']
            · rw [he, he'] at ho2
              change (σ k).base.nrtStep.nrt = _ at ho2
              rw [hi] at ho2; simp at ho2
          unfold Sys.go at hst
          cases htt : (σ k).thr t with
          | run r p b pre raced =>
            rw [htt] at ho hst
            cases b
            · rw [inOp_free] at ho; simp at ho
            · cases p <;> first
                | (simp [Thr.inOp] at ho; done)
                | (simp only at hst; rw [key _ hst, htt]; simp [Thr.inOp])
          | drun op =>
            rw [htt] at ho hst
            simp only at hst
            rw [key _ hst, htt]; simp [Thr.inOp]
          | _ => rw [htt] at ho; simp [Thr.inOp] at ho
        · rw [F.step, thr_frame (inOp_wants (by rw [ho]; simp)) ha, ho]; simp
    obtain ⟨k, hk, ha, hp⟩ := F.pubLock t n (fun k hk => ⟨hown k hk, hall k hk⟩)
    refine ⟨k, hk, ?_, hp⟩
    obtain ⟨op, ho, hcur⟩ := (F.locks k).busy (hown k hk)
    simp only [ha, baseAct]
    cases htt : (σ k).thr t with
    | run r p b pre raced =>
      rw [htt] at ho
      cases b
      · rw [inOp_free] at ho; simp at ho
      · cases p <;> first | rfl | (simp [Thr.inOp] at ho)
    | drun op => rfl
    | _ => rw [htt] at ho; simp [Thr.inOp] at ho

/-- `controllers_lock_` is free again and again -/
theorem FairSys.ctlFree {m nd d σ act} (F : FairSys m nd d σ act) (n : Nat) : ∃ k ≥ n, (σ k).ctl = none := by
  obtain ⟨k, hk, hi⟩ := C24_calls_finish F.baseFair n
  exact ⟨k, hk, (F.locks k).idle_iff.2 hi⟩

theorem FairSys.goStep {m nd d σ act} (F : FairSys m nd d σ act) {k t : Nat} (ha : act k = .go t) : σ (k+1) = (σ k).go nd t := by
  rw [F.step, ha]; unfold Sys.step; rw [if_neg (by rw [F.alive k]; simp)]

theorem setThr_self (s : Sys) (t : Nat) (x : Thr) : (s.setThr t x).thr t = x := by rw [setThr_thr, if_pos rfl]

/-- a thread waiting for `controllers_lock_` gets it -/
theorem FairSys.getCtl {m nd d σ act} (F : FairSys m nd d σ act) {t n : Nat} (hw : ((σ n).thr t).wantsCtl = true)
    (hstay : ∀ k, (σ k).thr t = (σ n).thr t → act k = .go t → (σ k).ctl ≠ none → (σ (k+1)).thr t = (σ k).thr t) :
    ∃ k ≥ n, act k = .go t ∧ (σ k).ctl = none ∧ (σ k).thr t = (σ n).thr t := by
  by_contra hno
  push Not at hno
  have hall : ∀ k ≥ n, (σ k).thr t = (σ n).thr t := by
    intro k hk
    induction k, hk using Nat.le_induction with
    | base => rfl
    | succ k hk ih =>
      by_cases ha : act k = .go t
      · rw [hstay k ih ha (fun hc => hno k hk ha hc ih), ih]
      · rw [F.step, thr_frame ?_ ha, ih]
        rw [ih]; intro he; rw [he] at hw; simp [Thr.wantsCtl] at hw
  obtain ⟨k, hk, ha, hc⟩ := F.ctlLock t n (fun k hk => by rw [hall k hk]; exact hw) (fun k _ => F.ctlFree k)
  exact hno k hk ha hc (hall k hk)

/-- a thread inside an operation leaves it -/
theorem FairSys.leave {m nd d σ act} (F : FairSys m nd d σ act) {t n : Nat} (hw : ((σ n).thr t).inOp ≠ none)  :
    ∃ k ≥ n, act k = .go t ∧ (σ k).thr t = (σ n).thr t ∧ (σ (k+1)).thr t ≠ (σ n).thr t := by
  by_contra hno
  push Not at hno
  have hall : ∀ k ≥ n, (σ k).thr t = (σ n).thr t := by
    intro k hk
    induction k, hk using Nat.le_induction with
    | base => rfl
    | succ k hk ih =>
      by_cases ha : act k = .go t
      · exact hno k hk ha ih
      · rw [F.step, thr_frame ?_ ha, ih]
        rw [ih]; exact inOp_wants hw
  obtain ⟨k, hk, hc⟩ := F.ctlFree n
  have := ((F.locks k).ctl t).2 (by rw [hall k hk]; exact hw)
  rw [hc] at this; simp at this

/-- a handler that holds `services_lock_` finishes and releases it -/
theorem FairSys.handler {m nd d σ act} (F : FairSys m nd d σ act) (p : HProg) :
    ∀ (t n : Nat) (r : Req) (b : Bool) (pre : View) (raced : Bool), (σ n).thr t = .run r p b pre raced →
      ∃ k ≥ n, (σ k).thr t = .idle ∧ (σ k).srv = none := by
  have step1 : ∀ (t n : Nat) r p pre raced, (σ n).thr t = .run r p false pre raced → ∃ k ≥ n, σ (k+1) = (σ k).go nd t ∧ (σ k).thr t = .run r p false pre raced := by
    intro t n r p pre raced ht
    obtain ⟨k, hk, ha, hfr⟩ := F.frame (t := t) (n := n) (by rw [ht]; simp)
    exact ⟨k, hk, F.goStep ha, by rw [hfr k hk (le_refl _), ht]⟩
  have noBusy : ∀ (t n : Nat) r p pre raced, (σ n).thr t = .run r p true pre raced → ∃ op k, p = .call op k := by
    intro t n r p pre raced ht
    have := (F.locks n).ok t
    rw [ht] at this; exact this
  induction p with
  | ret a =>
    intro t n r b pre raced ht
    cases b with
    | true => obtain ⟨op, k, h⟩ := noBusy _ _ _ _ _ _ ht; simp at h
    | false =>
      obtain ⟨k, hk, hg, hk'⟩ := step1 _ _ _ _ _ _ ht
      refine ⟨k+1, by omega, ?_⟩
      rw [hg]; unfold Sys.go; rw [hk']
      exact ⟨setThr_self _ _ _, rfl⟩
  | abort =>
    intro t n r b pre raced ht
    cases b with
    | true => obtain ⟨op, k, h⟩ := noBusy _ _ _ _ _ _ ht; simp at h
    | false =>
      obtain ⟨k, hk, hg, hk'⟩ := step1 _ _ _ _ _ _ ht
      have := F.alive (k+1)
      rw [hg] at this; unfold Sys.go at this; rw [hk'] at this
      simp at this
  | byName nm kk ih =>
    intro t n r b pre raced ht
    cases b with
    | true => obtain ⟨op, k, h⟩ := noBusy _ _ _ _ _ _ ht; simp at h
    | false =>
      obtain ⟨k, hk, hg, hk'⟩ := step1 _ _ _ _ _ _ ht
      have h1 : (σ (k+1)).thr t = .run r (kk (findByName ((σ k).base.lists (σ k).base.current) nm)) false pre raced := by
        rw [hg]; unfold Sys.go; rw [hk']; exact setThr_self _ _ _
      obtain ⟨j, hj, h⟩ := ih _ t (k+1) _ _ _ _ h1
      exact ⟨j, by omega, h⟩
  | running id kk ih =>
    intro t n r b pre raced ht
    cases b with
    | true => obtain ⟨op, k, h⟩ := noBusy _ _ _ _ _ _ ht; simp at h
    | false =>
      obtain ⟨k, hk, hg, hk'⟩ := step1 _ _ _ _ _ _ ht
      have hal := F.alive (k+1)
      rw [hg] at hal; unfold Sys.go at hal hg; rw [hk'] at hal hg
      simp only at hal hg
      split at hg
      · rename_i hh
        have h1 : (σ (k+1)).thr t = .run r (kk ((σ k).base.isRunning id)) false pre (raced || (σ k).base.midRestart id) := by
          rw [hg]; exact setThr_self _ _ _
        obtain ⟨j, hj, h⟩ := ih _ t (k+1) _ _ _ _ h1
        exact ⟨j, by omega, h⟩
      · rename_i hh
        rw [if_neg hh] at hal; simp at hal
  | names kk ih =>
    intro t n r b pre raced ht
    cases b with
    | true => obtain ⟨op, k, h⟩ := noBusy _ _ _ _ _ _ ht; simp at h
    | false =>
      obtain ⟨k, hk, ha, hc, hk'⟩ := F.getCtl (t := t) (n := n) (by rw [ht]; rfl) (by
        intro k hk ha hc
        rw [F.goStep ha]; unfold Sys.go; rw [hk, ht]; simp only
        rw [if_neg hc, hk, ht])
      rw [ht] at hk'
      have h1 : (σ (k+1)).thr t = .run r (kk (names ((σ k).base.lists (σ k).base.current))) false pre raced := by
        rw [F.goStep ha]; unfold Sys.go; rw [hk']; simp only; rw [if_pos hc]; exact setThr_self _ _ _
      obtain ⟨j, hj, h⟩ := ih _ t (k+1) _ _ _ _ h1
      exact ⟨j, by omega, h⟩
  | schedule kk ih =>
    intro t n r b pre raced ht
    cases b with
    | true => obtain ⟨op, k, h⟩ := noBusy _ _ _ _ _ _ ht; simp at h
    | false =>
      obtain ⟨k, hk, ha, hc, hk'⟩ := F.getCtl (t := t) (n := n) (by rw [ht]; rfl) (by
        intro k hk ha hc
        rw [F.goStep ha]; unfold Sys.go; rw [hk, ht]; simp only
        rw [if_neg hc, hk, ht])
      rw [ht] at hk'
      have h1 : (σ (k+1)).thr t = .run r (kk ((σ k).base.sched (σ k).base.current)) false pre raced := by
        rw [F.goStep ha]; unfold Sys.go; rw [hk']; simp only; rw [if_pos hc]; exact setThr_self _ _ _
      obtain ⟨j, hj, h⟩ := ih _ t (k+1) _ _ _ _ h1
      exact ⟨j, by omega, h⟩
  | call op kk ih =>
    have busy : ∀ (t n : Nat) (r : Req) (pre : View) (raced : Bool), (σ n).thr t = .run r (.call op kk) true pre raced →
        ∃ k ≥ n, (σ k).thr t = .idle ∧ (σ k).srv = none := by
      intro t n r pre raced ht
      obtain ⟨k, hk, ha, hk', hne⟩ := F.leave (t := t) (n := n) (by rw [ht]; simp [Thr.inOp])
      have hk'' := hk'
      rw [ht] at hk''
      have hg := F.goStep ha
      unfold Sys.go at hg; rw [hk''] at hg; simp only at hg
      rcases inside_cases (F.locks k).reach ((F.locks k).cur t op (by rw [hk'']; rfl)) t _ with ⟨he, _, _⟩ | ⟨c, he, hi, _, _⟩
      · rw [hg, he] at hne
        exact absurd hk' hne
      · have h1 : (σ (k+1)).thr t = .run r (kk c.res.ok) false pre (raced || c.raced) := by
          rw [hg, he]; exact setThr_self _ _ _
        obtain ⟨j, hj, h⟩ := ih _ t (k+1) _ _ _ _ h1
        exact ⟨j, by omega, h⟩
    intro t n r b pre raced ht
    cases b with
    | true => exact busy t n r pre raced ht
    | false =>
      obtain ⟨k, hk, ha, hc, hk'⟩ := F.getCtl (t := t) (n := n) (by rw [ht]; rfl) (by
        intro k hk ha hc
        rw [F.goStep ha]; unfold Sys.go; rw [hk, ht]; simp only
        rw [if_neg hc, hk, ht])
      rw [ht] at hk'
      have h1 : (σ (k+1)).thr t = .run r (.call op kk) true pre raced := by
        rw [F.goStep ha]; unfold Sys.go; rw [hk']; simp only; rw [if_pos hc]; exact setThr_self _ _ _
      obtain ⟨j, hj, h⟩ := busy t (k+1) _ _ _ h1
      exact ⟨j, by omega, h⟩

/-- `services_lock_` is free again and again -/
theorem FairSys.srvFree {m nd d σ act} (F : FairSys m nd d σ act) (n : Nat) : ∃ k ≥ n, (σ k).srv = none := by
  cases hs : (σ n).srv with
  | none => exact ⟨n, le_refl _, hs⟩
  | some t =>
    have := ((F.locks n).srv t).1 hs
    cases ht : (σ n).thr t with
    | run r p b pre raced =>
      obtain ⟨k, hk, _, h⟩ := F.handler p t n r b pre raced ht
      exact ⟨k, hk, h⟩
    | _ => rw [ht] at this; simp [Thr.inSrv] at this

theorem FairSys.finish {m nd d σ act} (F : FairSys m nd d σ act) (t n : Nat) : ∃ k ≥ n, (σ k).thr t = .idle := by
  have drun : ∀ n op, (σ n).thr t = .drun op → ∃ k ≥ n, (σ k).thr t = .idle := by
    intro n op ht
    obtain ⟨k, hk, ha, hk', hne⟩ := F.leave (t := t) (n := n) (by rw [ht]; simp [Thr.inOp])
    have hk'' := hk'
    rw [ht] at hk''
    have hg := F.goStep ha
    unfold Sys.go at hg; rw [hk''] at hg; simp only at hg
    rcases inside_cases (F.locks k).reach ((F.locks k).cur t op (by rw [hk'']; rfl)) t _ with ⟨he, _, _⟩ | ⟨c, he, hi, _, _⟩
    · rw [hg, he] at hne
      exact absurd hk' hne
    · exact ⟨k+1, by omega, by rw [hg, he]; exact setThr_self _ _ _⟩
  cases ht : (σ n).thr t with
  | idle => exact ⟨n, le_refl _, ht⟩
  | run r p b pre raced =>
    obtain ⟨k, hk, h, _⟩ := F.handler p t n r b pre raced ht
    exact ⟨k, hk, h⟩
  | drun op => exact drun n op ht
  | dwait op =>
    obtain ⟨k, hk, ha, hc, hk'⟩ := F.getCtl (t := t) (n := n) (by rw [ht]; rfl) (by
      intro k hk ha hc
      rw [F.goStep ha]; unfold Sys.go; rw [hk, ht]; simp only
      rw [if_neg hc, hk, ht])
    rw [ht] at hk'
    have h1 : (σ (k+1)).thr t = .drun op := by
      rw [F.goStep ha]; unfold Sys.go; rw [hk']; simp only; rw [if_pos hc]; exact setThr_self _ _ _
    obtain ⟨j, hj, h⟩ := drun (k+1) _ h1
    exact ⟨j, by omega, h⟩
  | wait r =>
    by_contra hno
    have hall : ∀ k ≥ n, (σ k).thr t = .wait r := by
      intro k hk
      induction k, hk using Nat.le_induction with
      | base => exact ht
      | succ k hk ih =>
        by_cases ha : act k = .go t
        · by_cases hs : (σ k).srv = none
          · exfalso
            have h1 : (σ (k+1)).thr t = .run r (r.prog nd) false (σ k).base.view false := by
              rw [F.goStep ha]; unfold Sys.go; rw [ih]; simp only; rw [if_pos hs]; exact setThr_self _ _ _
            obtain ⟨j, hj, h, _⟩ := F.handler _ t (k+1) _ _ _ _ h1
            exact hno ⟨j, by omega, h⟩
          · rw [F.goStep ha]; unfold Sys.go; rw [ih]; simp only; rw [if_neg hs]; exact ih
        · rw [F.step, thr_frame (by rw [ih]; simp) ha, ih]
    obtain ⟨k, hk, ha, hs⟩ := F.srvLock t n (fun k hk => by rw [hall k hk]; rfl) (fun k _ => F.srvFree k)
    have h1 : (σ (k+1)).thr t = .run r (r.prog nd) false (σ k).base.view false := by
      rw [F.goStep ha]; unfold Sys.go; rw [hall k hk]; simp only; rw [if_pos hs]; exact setThr_self _ _ _
    obtain ⟨j, hj, h, _⟩ := F.handler _ t (k+1) _ _ _ _ h1
    exact hno ⟨j, by omega, h⟩

end Pr2
