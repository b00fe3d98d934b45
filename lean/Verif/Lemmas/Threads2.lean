import Verif.Lemmas.Threads

namespace Pr2
set_option linter.unusedVariables false
set_option linter.unusedSimpArgs false

/-! ## Steps of the service thread of the underlying model -/

/-- the operation in progress -/
def NrtPc.curOp : NrtPc → Option Op
  | .idle => none
  | .listing _ _ => some .list
  | .wait1 op | .wait1Inner op | .build op | .build2 op | .pubLock op | .pubResize op | .swap op
  | .wait2 op _ | .wait2Inner op _ | .clear op _ | .clear2 op _ | .unlock op
  | .resolve op | .resolve2 op | .setFlag op | .waitSwitch op | .waitSwitchInner op => some op

theorem curOp_none {p : NrtPc} : p.curOp = none ↔ p = .idle := by cases p <;> simp [NrtPc.curOp]

theorem call_op {s : State} (hn : s.nrt = .idle) (op : Op) : (s.call op).nrt.curOp = some op ∧ (s.call op).nlog = s.nlog := by
  unfold State.call
  rw [hn]
  cases op <;> exact ⟨rfl, rfl⟩

theorem nrtStep_op {s : State} (h : Inv s) {op : Op} (ho : s.nrt.curOp = some op) :
    (s.nrtStep.nrt.curOp = some op ∧ s.nrtStep.nlog = s.nlog) ∨
    (s.nrtStep.nrt = .idle ∧ ∃ r, s.nrtStep.nlog = s.nlog ++ [r] ∧ r.op = op) := by
  cases hn : s.nrt with
  | idle => rw [hn] at ho; simp [NrtPc.curOp] at ho
  | build2 o =>
    rw [hn] at ho; simp only [NrtPc.curOp, Option.some.injEq] at ho; subst ho
    cases o with
    | load r =>
      rcases nrtStep_build2_load h hn with ⟨hok, he, hg, hst⟩ | ⟨hok, he⟩ <;> rw [he]
      · exact Or.inl ⟨rfl, rfl⟩
      · exact Or.inr ⟨rfl, _, rfl, rfl⟩
    | unload n =>
      rcases nrtStep_build2_unload h hn with ⟨hok, he, hg⟩ | ⟨hok, he⟩ <;> rw [he]
      · exact Or.inl ⟨rfl, rfl⟩
      · exact Or.inr ⟨rfl, _, rfl, rfl⟩
    | switch a b c => have := h.wf; rw [hn] at this; simp [NrtPc.wf, Op.isListOp] at this
    | list => have := h.wf; rw [hn] at this; simp [NrtPc.wf, Op.isListOp] at this
  | listing k acc =>
    rw [hn] at ho; simp only [NrtPc.curOp, Option.some.injEq] at ho; subst ho
    rcases nrtStep_listing h hn with ⟨hk, he⟩ | ⟨j, e, hj, he1, he2, he⟩ <;> rw [he]
    · exact Or.inr ⟨rfl, _, rfl, rfl⟩
    · exact Or.inl ⟨rfl, rfl⟩
  | resolve2 o =>
    rw [hn] at ho; simp only [NrtPc.curOp, Option.some.injEq] at ho; subst ho
    have hwf := h.wf
    rw [hn] at hwf
    unfold State.nrtStep; rw [hn]; simp only
    cases o <;> simp only [NrtPc.wf, Op.isSwitch, Bool.false_eq_true] at hwf ⊢
    split
    · exact Or.inl ⟨rfl, rfl⟩
    · exact Or.inr ⟨rfl, _, rfl, rfl⟩
  | unlock o =>
    rw [hn] at ho; simp only [NrtPc.curOp, Option.some.injEq] at ho; subst ho
    unfold State.nrtStep; rw [hn]
    exact Or.inr ⟨rfl, _, rfl, rfl⟩
  | waitSwitch o =>
    rw [hn] at ho; simp only [NrtPc.curOp, Option.some.injEq] at ho; subst ho
    unfold State.nrtStep; rw [hn]; simp only
    split
    · exact Or.inl ⟨rfl, rfl⟩
    · exact Or.inr ⟨rfl, _, rfl, rfl⟩
  | waitSwitchInner o =>
    rw [hn] at ho; simp only [NrtPc.curOp, Option.some.injEq] at ho; subst ho
    unfold State.nrtStep; rw [hn]; simp only [h.ok, if_true]
    exact Or.inl ⟨rfl, trivial⟩
  | wait1Inner o =>
    rw [hn] at ho; simp only [NrtPc.curOp, Option.some.injEq] at ho; subst ho
    unfold State.nrtStep; rw [hn]; simp only [h.ok, if_true]
    exact Or.inl ⟨rfl, trivial⟩
  | wait2Inner o f =>
    rw [hn] at ho; simp only [NrtPc.curOp, Option.some.injEq] at ho; subst ho
    unfold State.nrtStep; rw [hn]; simp only [h.ok, if_true]
    exact Or.inl ⟨rfl, trivial⟩
  | pubLock o =>
    rw [hn] at ho; simp only [NrtPc.curOp, Option.some.injEq] at ho; subst ho
    unfold State.nrtStep; rw [hn]; simp only
    split
    · exact Or.inl ⟨rfl, rfl⟩
    · rw [hn]; exact Or.inl ⟨rfl, rfl⟩
  | build o =>
    rw [hn] at ho; simp only [NrtPc.curOp, Option.some.injEq] at ho; subst ho
    unfold State.nrtStep; rw [hn]; simp only
    split
    · unfold State.fail; dsimp only; rw [hn]; exact Or.inl ⟨rfl, rfl⟩
    · exact Or.inl ⟨rfl, rfl⟩
  | clear o f =>
    rw [hn] at ho; simp only [NrtPc.curOp, Option.some.injEq] at ho; subst ho
    unfold State.nrtStep; rw [hn]; simp only
    split
    · unfold State.fail; dsimp only; rw [hn]; exact Or.inl ⟨rfl, rfl⟩
    · exact Or.inl ⟨rfl, rfl⟩
  | resolve o =>
    rw [hn] at ho; simp only [NrtPc.curOp, Option.some.injEq] at ho; subst ho
    unfold State.nrtStep; rw [hn]; simp only
    split
    · unfold State.fail; dsimp only; rw [hn]; exact Or.inl ⟨rfl, rfl⟩
    · exact Or.inl ⟨rfl, rfl⟩
  | _ =>
    rw [hn] at ho; simp only [NrtPc.curOp, Option.some.injEq] at ho; subst ho
    unfold State.nrtStep; rw [hn]; simp only
    first
      | exact Or.inl ⟨rfl, rfl⟩
      | exact Or.inl ⟨rfl, trivial⟩
      | (split <;> exact Or.inl ⟨rfl, rfl⟩)

theorem History.snoc_inv {v w : View} {l : List CallRec} {r : CallRec} (h : History v (l ++ [r]) w) : History v l r.pre ∧ CallOk r ∧ w = r.post := by
  generalize hl : l ++ [r] = l' at h
  cases h with
  | nil => simp at hl
  | snoc r' h hpre hok =>
    obtain ⟨h1, h2⟩ := List.append_inj' hl rfl
    rw [List.cons.injEq] at h2
    obtain ⟨h2, _⟩ := h2
    subst h1; subst h2
    rw [hpre]; exact ⟨h, hok, rfl⟩

theorem History.unique {v w w' : View} {l : List CallRec} (h : History v l w) (h' : History v l w') : w' = w := by
  induction h with
  | nil =>
    generalize hl : ([] : List CallRec) = l at h'
    cases h' with
    | nil => rfl
    | snoc => simp at hl
  | snoc r h hpre hok ih => exact h'.snoc_inv.2.2

theorem Reachable.histIdle {m : Bool} {s : State} (h : Reachable m s) (hi : s.nrt = .idle) : History View.empty s.nlog s.view := by
  have := h.inv.2.hist
  rw [hi] at this
  exact this

theorem step_rt {m : Bool} {s : State} (h : Reachable m s) (i : RtIn) : s.step (.rt i) = s.rtStep i := by
  unfold State.step; rw [if_neg (by rw [h.inv.1.notbad]; simp)]
theorem step_nrt {m : Bool} {s : State} (h : Reachable m s) : s.step .nrt = s.nrtStep := by
  unfold State.step; rw [if_neg (by rw [h.inv.1.notbad]; simp)]
theorem step_call {m : Bool} {s : State} (h : Reachable m s) (op : Op) : s.step (.call op) = s.call op := by
  unfold State.step; rw [if_neg (by rw [h.inv.1.notbad]; simp)]

/-! ## Locks -/

def Thr.inSrv : Thr → Bool
  | .run _ _ _ _ _ => true
  | _ => false

/-- the operation a thread is executing while holding `controllers_lock_` -/
def Thr.inOp : Thr → Option Op
  | .run _ (.call op _) true _ _ => some op
  | .drun op => some op
  | _ => none

theorem inOp_free (r : Req) (p : HProg) (pre : View) (raced : Bool) : (Thr.run r p false pre raced).inOp = none := by cases p <;> rfl

/-- a thread that holds `controllers_lock_` is executing an operation -/
def Thr.ok : Thr → Prop
  | .run _ p true _ _ => ∃ op k, p = .call op k
  | _ => True

/-- the locks, and the thread inside the underlying model -/
structure Locks (m : Bool) (s : Sys) : Prop where
  reach : Reachable m s.base
  srv : ∀ t, s.srv = some t ↔ (s.thr t).inSrv = true
  ctl : ∀ t, s.ctl = some t ↔ (s.thr t).inOp ≠ none
  idle : s.ctl = none → s.base.nrt = .idle
  cur : ∀ t op, (s.thr t).inOp = some op → s.base.nrt.curOp = some op
  ok : ∀ t, (s.thr t).ok

theorem setThr_thr (s : Sys) (t u : Nat) (x : Thr) : (s.setThr t x).thr u = if u = t then x else s.thr u := rfl

theorem inside_cases {m : Bool} {s : Sys} (h : Reachable m s.base) {op : Op} (ho : s.base.nrt.curOp = some op) (t : Nat) (next : CallRec → Thr) :
    (s.inside t next = { s with base := s.base.nrtStep } ∧ s.base.nrtStep.nrt.curOp = some op ∧ s.base.nrtStep.nlog = s.base.nlog) ∨
    (∃ r, s.inside t next = { s with base := s.base.nrtStep, ctl := none }.setThr t (next r) ∧ s.base.nrtStep.nrt = .idle ∧
      s.base.nrtStep.nlog = s.base.nlog ++ [r] ∧ r.op = op) := by
  unfold Sys.inside
  simp only [step_nrt h]
  rcases nrtStep_op h.inv.1 ho with ⟨h1, h2⟩ | ⟨h1, r, h2, h3⟩
  · left
    refine ⟨?_, h1, h2⟩
    cases hc : s.base.nrtStep.nrt <;> first | rfl | (rw [hc] at h1; simp [NrtPc.curOp] at h1)
  · right
    refine ⟨r, ?_, h1, h2, h3⟩
    rw [h1, h2]
    simp

/-- a thread that changes neither lock nor the underlying model -/
theorem Locks.setThr {m : Bool} {s : Sys} (h : Locks m s) (t : Nat) (x : Thr) (h1 : x.inSrv = (s.thr t).inSrv) (h2 : x.inOp = (s.thr t).inOp)
    (h3 : x.ok) : Locks m (s.setThr t x) := by
  refine ⟨h.reach, ?_, ?_, h.idle, ?_, ?_⟩
  · intro u; rw [setThr_thr]; split
    · rename_i e; subst e; rw [h1]; exact h.srv u
    · exact h.srv u
  · intro u; rw [setThr_thr]; split
    · rename_i e; subst e; rw [h2]; exact h.ctl u
    · exact h.ctl u
  · intro u op; rw [setThr_thr]; split
    · rename_i e; subst e; rw [h2]; exact h.cur u op
    · exact h.cur u op
  · intro u; rw [setThr_thr]; split
    · exact h3
    · exact h.ok u

/-- a thread takes `controllers_lock_` and begins an operation -/
theorem Locks.enter {m : Bool} {s : Sys} (h : Locks m s) (hc : s.ctl = none) (t : Nat) (x : Thr) (op : Op) (h1 : x.inSrv = (s.thr t).inSrv)
    (h2 : x.inOp = some op) (h3 : x.ok) : Locks m ({ s with base := s.base.step (.call op), ctl := some t }.setThr t x) := by
  have hno : ∀ u, (s.thr u).inOp = none := by
    intro u
    by_contra hu
    have := (h.ctl u).2 hu
    rw [hc] at this; simp at this
  have hr : Reachable m (s.base.step (.call op)) := h.reach.step _ (by simp)
  refine ⟨hr, ?_, ?_, ?_, ?_, ?_⟩
  · intro u; rw [setThr_thr]; split
    · rename_i e; subst e; rw [h1]; exact h.srv u
    · exact h.srv u
  · intro u; rw [setThr_thr]
    change some t = some u ↔ _
    split
    · rename_i e; subst e; simp [h2]
    · rename_i e
      rw [show (s.thr u).inOp = none from hno u]
      simp [Ne.symm e]
  · intro hh; simp [Sys.setThr] at hh
  · intro u o; rw [setThr_thr]
    change _ → (s.base.step (.call op)).nrt.curOp = some o
    rw [step_call h.reach]
    split
    · intro hx; rw [h2, Option.some.injEq] at hx; subst hx
      exact (call_op (h.idle hc) op).1
    · intro hx
      change (s.thr u).inOp = some o at hx
      rw [hno u] at hx; simp at hx
  · intro u; rw [setThr_thr]; split
    · exact h3
    · exact h.ok u

/-- a step inside an operation -/
theorem Locks.inside {m : Bool} {s : Sys} (h : Locks m s) (t : Nat) (op : Op) (ht : (s.thr t).inOp = some op) (next : CallRec → Thr)
    (h1 : ∀ r, (next r).inSrv = (s.thr t).inSrv) (h2 : ∀ r, (next r).inOp = none) (h3 : ∀ r, (next r).ok) : Locks m (s.inside t next) := by
  have hc := (h.ctl t).2 (by rw [ht]; simp)
  have hr : Reachable m s.base.nrtStep := by rw [← step_nrt h.reach]; exact h.reach.step _ (by simp)
  have hno : ∀ u, u ≠ t → (s.thr u).inOp = none := by
    intro u hut
    by_contra hu
    have := (h.ctl u).2 hu
    rw [hc, Option.some.injEq] at this
    exact hut this.symm
  rcases inside_cases h.reach (h.cur t op ht) t next with ⟨he, ho, _⟩ | ⟨r, he, hi, _, _⟩ <;> rw [he]
  · refine ⟨hr, h.srv, h.ctl, ?_, ?_, h.ok⟩
    · intro hh; change s.ctl = none at hh; rw [hc] at hh; simp at hh
    · intro u o hu
      change (s.thr u).inOp = some o at hu
      by_cases hut : u = t
      · subst hut; rw [ht, Option.some.injEq] at hu; subst hu; exact ho
      · rw [hno u hut] at hu; simp at hu
  · refine ⟨hr, ?_, ?_, ?_, ?_, ?_⟩
    · intro u; rw [setThr_thr]; split
      · rename_i e; subst e; rw [h1]; exact h.srv u
      · exact h.srv u
    · intro u; rw [setThr_thr]
      change (none : Option Nat) = some u ↔ _
      split
      · simp [h2]
      · rename_i e; change _ ↔ (s.thr u).inOp ≠ none; rw [hno u e]; simp
    · intro _; exact hi
    · intro u o; rw [setThr_thr]; split
      · rw [h2]; simp
      · rename_i e; change (s.thr u).inOp = some o → _; rw [hno u e]; simp
    · intro u; rw [setThr_thr]; split
      · exact h3 r
      · exact h.ok u

theorem Locks.dead {m : Bool} {s : Sys} (h : Locks m s) : Locks m { s with dead := true } := ⟨h.reach, h.srv, h.ctl, h.idle, h.cur, h.ok⟩

theorem Locks.go {m nd : Bool} {s : Sys} (h : Locks m s) (t : Nat) : Locks m (s.go nd t) := by
  have hok := h.ok t
  have hs := h.srv t
  have hc := h.ctl t
  unfold Sys.go
  split
  · exact h
  · rename_i r ht
    split
    · rename_i hn
      refine ⟨h.reach, ?_, ?_, h.idle, ?_, ?_⟩
      · intro u; rw [setThr_thr]
        change some t = some u ↔ _
        split
        · rename_i e; subst e; simp [Thr.inSrv]
        · rename_i e
          change _ ↔ (s.thr u).inSrv = true
          rw [← h.srv u, hn]
          simp [Ne.symm e]
      · intro u; rw [setThr_thr]; split
        · rename_i e; subst e
          rw [ht] at hc
          rw [inOp_free]; exact hc
        · exact h.ctl u
      · intro u o; rw [setThr_thr]; split
        · simp [inOp_free]
        · exact h.cur u o
      · intro u; rw [setThr_thr]; split
        · trivial
        · exact h.ok u
    · exact h
  · rename_i r a pre raced ht
    have hso : s.srv = some t := hs.2 (by rw [ht]; rfl)
    refine ⟨h.reach, ?_, ?_, h.idle, ?_, ?_⟩
    · intro u; rw [setThr_thr]
      change (none : Option Nat) = some u ↔ _
      split
      · simp [Thr.inSrv]
      · rename_i e
        change _ ↔ (s.thr u).inSrv = true
        rw [← h.srv u, hso]
        simp [Ne.symm e]
    · intro u; rw [setThr_thr]; split
      · rename_i e; subst e
        rw [ht] at hc
        exact hc
      · exact h.ctl u
    · intro u o; rw [setThr_thr]; split
      · simp [Thr.inOp]
      · exact h.cur u o
    · intro u; rw [setThr_thr]; split
      · trivial
      · exact h.ok u
  · exact h.dead
  · rename_i r op k pre raced ht
    split
    · rename_i hn
      exact h.enter hn t _ op (by rw [ht]; rfl) rfl ⟨op, k, rfl⟩
    · exact h
  · rename_i r k pre raced ht
    split
    · exact h.setThr t _ (by rw [ht]; rfl) (by rw [ht, inOp_free, inOp_free]) trivial
    · exact h
  · rename_i r k pre raced ht
    split
    · exact h.setThr t _ (by rw [ht]; rfl) (by rw [ht, inOp_free, inOp_free]) trivial
    · exact h
  · rename_i r n k pre raced ht
    exact h.setThr t _ (by rw [ht]; rfl) (by rw [ht, inOp_free, inOp_free]) trivial
  · rename_i r id k pre raced ht
    split
    · exact h.setThr t _ (by rw [ht]; rfl) (by rw [ht, inOp_free, inOp_free]) trivial
    · exact h.dead
  · rename_i r op k pre raced ht
    exact h.inside t op (by rw [ht]; rfl) _ (fun r => by rw [ht]; rfl) (fun r => inOp_free _ _ _ _) (fun r => trivial)
  · exact h
  · rename_i op ht
    split
    · rename_i hn
      exact h.enter hn t _ op (by rw [ht]; rfl) rfl trivial
    · exact h
  · rename_i op ht
    exact h.inside t op (by rw [ht]; rfl) _ (fun r => by rw [ht]; rfl) (fun r => rfl) (fun r => trivial)

theorem Locks.step {m nd : Bool} {s : Sys} (h : Locks m s) (a : SAct) : Locks m (s.step nd a) := by
  unfold Sys.step
  split
  · exact h
  · cases a with
    | rt i =>
      have hr : Reachable m (s.base.step (.rt i)) := h.reach.step _ (by simp)
      have hn : (s.base.step (.rt i)).nrt = s.base.nrt := by rw [step_rt h.reach]; exact (rtStep_frame h.reach.inv.1 i).2.2.2.1
      refine ⟨hr, h.srv, h.ctl, ?_, ?_, h.ok⟩
      · intro hc; change (s.base.step (.rt i)).nrt = _; rw [hn]; exact h.idle hc
      · intro t op ho; change (s.base.step (.rt i)).nrt.curOp = _; rw [hn]; exact h.cur t op ho
    | request t r =>
      simp only
      split
      · rename_i ht; exact h.setThr t _ (by rw [ht]; rfl) (by rw [ht]; rfl) trivial
      · exact h
    | direct t op =>
      simp only
      split
      · exact h
      · rename_i ht _; exact h.setThr t _ (by rw [ht]; rfl) (by rw [ht]; rfl) trivial
      · exact h
    | go t => exact h.go t

theorem SysReach.locks {m nd d : Bool} {s : Sys} (h : SysReach m nd d s) : Locks m s := by
  induction h with
  | start h hi hl =>
    refine ⟨h, ?_, ?_, fun _ => hi, ?_, fun t => trivial⟩
    · intro t; simp [Sys.start, Thr.inSrv]
    · intro t; simp [Sys.start, Thr.inOp]
    · intro t op ho; simp [Sys.start, Thr.inOp] at ho
  | step hs a ha ih => exact ih.step a


/-! ## Requests are served one after the other -/

/-- no direct calls -/
def Thr.service : Thr → Prop
  | .dwait _ | .drun _ => False
  | _ => True

structure Serial (nd : Bool) (s : Sys) (v0 : View) : Prop where
  noDir : ∀ t, (s.thr t).service
  hist : ReqHistory nd View.empty s.done v0
  wf : v0.WF'
  quiet : s.srv = none → History View.empty s.base.nlog v0
  at_ : ∀ t r p b pre raced, s.thr t = .run r p b pre raced → pre = v0 ∧
    ∀ v, History View.empty s.base.nlog v → ∀ R, (raced = true → R = true) → ∀ o v', p.den R v o v' → (r.prog nd).den R v0 o v'
  dead : s.dead = true → nd = false ∧ ∃ t p b pre raced, s.thr t = .run (.reload true) p b pre raced ∧ pre.ctrls ≠ []

theorem free_ctl {m nd : Bool} {s : Sys} {v0 : View} (h : Locks m s) (hs : Serial nd s v0) (hb : ∀ t, (s.thr t).inOp = none) : s.ctl = none := by
  cases hc : s.ctl with
  | none => rfl
  | some t => exact absurd (hb t) ((h.ctl t).1 hc)

/-- with services only, `controllers_lock_` is free unless the owner of `services_lock_` holds it -/
theorem ctl_free {m nd : Bool} {s : Sys} {v0 : View} (h : Locks m s) (hs : Serial nd s v0) (ho : ∀ t, s.srv = some t → (s.thr t).inOp = none) :
    s.ctl = none := by
  refine free_ctl h hs (fun t => ?_)
  cases ht : s.thr t with
  | idle => rfl
  | wait r => rfl
  | run r p b pre raced =>
    rw [← ht]
    exact ho t ((h.srv t).2 (by rw [ht]; rfl))
  | dwait op => have := hs.noDir t; rw [ht] at this; exact this.elim
  | drun op => have := hs.noDir t; rw [ht] at this; exact this.elim

theorem ctl_free_run {m nd : Bool} {s : Sys} {v0 : View} (h : Locks m s) (hs : Serial nd s v0) {t r p pre raced}
    (ht : s.thr t = .run r p false pre raced) : s.ctl = none := by
  refine ctl_free h hs (fun u hu => ?_)
  have := (h.srv t).2 (by rw [ht]; rfl)
  rw [hu, Option.some.injEq] at this
  subst this
  rw [ht, inOp_free]

theorem find_viewOf (h : Heap) (l : List Entry) (sc : List Nat) (R : Nat → Bool) (n : String) :
    ((viewOf h l sc R).ctrls.find? (fun c => c.name == n)).map (·.id) = findByName l n := by
  unfold viewOf findByName
  induction l with
  | nil => rfl
  | cons e l ih =>
    simp only [List.map_cons, List.find?_cons]
    cases hc : (e.name == n)
    · exact ih
    · rfl

/-- the thread holding `services_lock_` goes on in its program -/
theorem Serial.progress {m nd : Bool} {s : Sys} {v0 : View} (h : Locks m s) (hs : Serial nd s v0) {t r p b pre raced}
    (ht : s.thr t = .run r p b pre raced) {s' : Sys} {p' : HProg} {b' raced' : Bool}
    (hthr : s'.thr = fun u => if u = t then .run r p' b' pre raced' else s.thr u) (hsrv : s'.srv = s.srv) (hd : s'.done = s.done) (hde : s'.dead = s.dead)
    (hden : ∀ v', History View.empty s'.base.nlog v' → ∃ v, History View.empty s.base.nlog v ∧
      ∀ R, (raced' = true → R = true) → ((raced = true → R = true) ∧ ∀ o w, p'.den R v' o w → p.den R v o w)) :
    Serial nd s' v0 := by
  have hso := (h.srv t).2 (by rw [ht]; rfl)
  refine ⟨?_, hd ▸ hs.hist, hs.wf, ?_, ?_, ?_⟩
  · intro u; rw [hthr]; dsimp only; split
    · trivial
    · exact hs.noDir u
  · intro hn; rw [hsrv, hso] at hn; simp at hn
  · intro u r1 p1 b1 pre1 raced1 hu
    rw [hthr] at hu; dsimp only at hu
    by_cases hut : u = t
    · rw [if_pos hut] at hu
      injection hu with e1 e2 e3 e4 e5
      subst e1; subst e2; subst e3; subst e4; subst e5
      obtain ⟨a1, a2⟩ := hs.at_ t r p b pre raced ht
      refine ⟨a1, ?_⟩
      intro v' hv' R hR o w hw
      obtain ⟨v, hv, hstep⟩ := hden v' hv'
      obtain ⟨s1, s2⟩ := hstep R hR
      exact a2 v hv R s1 o w (s2 o w hw)
    · rw [if_neg hut] at hu
      have := (h.srv u).2 (by rw [hu]; rfl)
      rw [hso, Option.some.injEq] at this
      exact absurd this.symm hut
  · intro hdd
    rw [hde] at hdd
    obtain ⟨d1, u, p1, b1, pre1, raced1, hu, hp⟩ := hs.dead hdd
    refine ⟨d1, u, ?_⟩
    rw [hthr]; dsimp only
    by_cases hut : u = t
    · rw [if_pos hut]
      subst hut
      rw [ht] at hu
      injection hu with e1 e2 e3 e4 e5
      subst e1; subst e4
      exact ⟨_, _, _, _, rfl, hp⟩
    · rw [if_neg hut]
      exact ⟨_, _, _, _, hu, hp⟩

theorem Serial.go {m nd : Bool} {s : Sys} {v0 : View} (h : Locks m s) (hs : Serial nd s v0) (hnd : s.dead = false) (t : Nat) :
    ∃ v0', Serial nd (s.go nd t) v0' := by
  unfold Sys.go
  split
  · exact ⟨v0, hs⟩
  · rename_i r ht
    split
    · rename_i hn
      have hc := ctl_free h hs (fun u hu => by rw [hn] at hu; simp at hu)
      have hv := h.reach.histIdle (h.idle hc)
      have hv0 : s.base.view = v0 := (hs.quiet hn).unique hv
      refine ⟨v0, ?_, hs.hist, hs.wf, ?_, ?_, ?_⟩
      · intro u; rw [setThr_thr]; split
        · trivial
        · exact hs.noDir u
      · intro hh; simp [Sys.setThr] at hh
      · intro u r1 p1 b1 pre1 raced1 hu
        rw [setThr_thr] at hu
        split at hu
        · injection hu with e1 e2 e3 e4 e5
          subst e1; subst e2; subst e3; subst e4; subst e5
          refine ⟨hv0, ?_⟩
          intro v hv' R hR o v' hd
          have : v = v0 := (hs.quiet hn).unique hv'
          rw [this] at hd; exact hd
        · have := (h.srv u).2 (by change s.thr u = _ at hu; rw [hu]; rfl)
          rw [hn] at this; simp at this
      · intro hd; change s.dead = true at hd; rw [hnd] at hd; simp at hd
    · exact ⟨v0, hs⟩
  · rename_i r a pre raced ht
    have hc := ctl_free_run h hs ht
    have hv := h.reach.histIdle (h.idle hc)
    obtain ⟨rfl, a2⟩ := hs.at_ t r _ _ _ _ ht
    have hd := a2 _ hv raced id (some a) s.base.view ⟨rfl, rfl⟩
    have hreq := req_den t hs.wf hd
    refine ⟨s.base.view, ?_, ReqHistory.snoc _ hs.hist rfl hreq, WF'.history hv WF'.empty, fun _ => hv, ?_, ?_⟩
    · intro u; rw [setThr_thr]; split
      · trivial
      · exact hs.noDir u
    · intro u r1 p1 b1 pre1 raced1 hu
      rw [setThr_thr] at hu
      split at hu
      · simp at hu
      · rename_i hut
        have h1 := (h.srv u).2 (by change s.thr u = _ at hu; rw [hu]; rfl)
        have h2 := (h.srv t).2 (by rw [ht]; rfl)
        rw [h1, Option.some.injEq] at h2
        exact absurd h2 hut
    · intro hd; change s.dead = true at hd; rw [hnd] at hd; simp at hd
  · rename_i r pre raced ht
    have hc := ctl_free_run h hs ht
    have hv := h.reach.histIdle (h.idle hc)
    obtain ⟨rfl, a2⟩ := hs.at_ t r _ _ _ _ ht
    have hd := a2 _ hv raced id none s.base.view ⟨rfl, rfl⟩
    obtain ⟨d1, rfl, d3⟩ := req_den_dead hs.wf hd
    exact ⟨pre, hs.noDir, hs.hist, hs.wf, hs.quiet, hs.at_, fun _ => ⟨d1, t, _, _, _, _, ht, d3⟩⟩
  · rename_i r op k pre raced ht
    split
    · rename_i hn
      refine ⟨v0, hs.progress h ht rfl rfl rfl rfl ?_⟩
      intro v' hv'
      refine ⟨v', ?_, fun R hR => ⟨hR, fun o w hw => hw⟩⟩
      change History View.empty (s.base.step (.call op)).nlog v' at hv'
      rw [step_call h.reach, (call_op (h.idle hn) op).2] at hv'
      exact hv'
    · exact ⟨v0, hs⟩
  · rename_i r k pre raced ht
    split
    · rename_i hn
      refine ⟨v0, hs.progress h ht rfl rfl rfl rfl ?_⟩
      intro v' hv'
      refine ⟨v', hv', fun R hR => ⟨hR, fun o w hw => ?_⟩⟩
      have : v' = s.base.view := (h.reach.histIdle (h.idle hn)).unique hv'
      subst this
      unfold HProg.den
      rw [view_eq, viewOf_names]
      exact hw
    · exact ⟨v0, hs⟩
  · rename_i r k pre raced ht
    split
    · rename_i hn
      refine ⟨v0, hs.progress h ht rfl rfl rfl rfl ?_⟩
      intro v' hv'
      refine ⟨v', hv', fun R hR => ⟨hR, fun o w hw => ?_⟩⟩
      have : v' = s.base.view := (h.reach.histIdle (h.idle hn)).unique hv'
      subst this
      unfold HProg.den
      exact hw
    · exact ⟨v0, hs⟩
  · rename_i r n k pre raced ht
    have hc := ctl_free_run h hs ht
    refine ⟨v0, hs.progress h ht rfl rfl rfl rfl ?_⟩
    intro v' hv'
    refine ⟨v', hv', fun R hR => ⟨hR, fun o w hw => ?_⟩⟩
    have : v' = s.base.view := (h.reach.histIdle (h.idle hc)).unique hv'
    subst this
    unfold HProg.den
    rw [view_eq, find_viewOf]
    exact hw
  · rename_i r id k pre raced ht
    have hc := ctl_free_run h hs ht
    have hi := h.idle hc
    have hv := h.reach.histIdle hi
    split
    · rename_i hal
      refine ⟨v0, hs.progress h ht rfl rfl rfl rfl ?_⟩
      intro v' hv'
      have : v' = s.base.view := hv.unique hv'
      subst this
      refine ⟨_, hv, fun R hR => ⟨fun hh => hR (by rw [hh]; rfl), fun o w hw => ?_⟩⟩
      unfold HProg.den
      by_cases hex : ∃ c ∈ s.base.view.ctrls, c.id = id
      · obtain ⟨c, hc1, hc2⟩ := hex
        right
        refine ⟨c, hc1, hc2, s.base.isRunning id, ?_, ?_, hw⟩
        · intro hr
          obtain ⟨e, he, rfl⟩ := List.mem_map.1 hc1
          dsimp only at hc2 ⊢
          unfold State.runs; rw [hc2, hr]; rfl
        · intro hRf
          have hm : s.base.midRestart id = false := by
            cases hm : s.base.midRestart id with
            | false => rfl
            | true => rw [hR (by rw [hm]; simp)] at hRf; simp at hRf
          obtain ⟨e, he, rfl⟩ := List.mem_map.1 hc1
          dsimp only at hc2 ⊢
          unfold State.runs; rw [hc2, hm, Bool.or_false]
      · left
        intro c hc1 hc2
        exact hex ⟨c, hc1, hc2⟩
    · rename_i hal
      obtain ⟨rfl, a2⟩ := hs.at_ t r _ _ _ _ ht
      have hd := a2 _ hv raced (fun x => x) none s.base.view (by
        unfold HProg.den
        left
        intro c hc1 hc2
        obtain ⟨e, he, rfl⟩ := List.mem_map.1 hc1
        apply hal
        rw [← hc2]
        exact alive_of (by unfold State.writing; rw [hi]; simp) he)
      obtain ⟨d1, rfl, d3⟩ := req_den_dead hs.wf hd
      exact ⟨pre, hs.noDir, hs.hist, hs.wf, hs.quiet, hs.at_, fun _ => ⟨d1, t, _, _, _, _, ht, d3⟩⟩
  · rename_i r op k pre raced ht
    have hcur := h.cur t op (by rw [ht]; rfl)
    have hr : Reachable m s.base.nrtStep := by rw [← step_nrt h.reach]; exact h.reach.step _ (by simp)
    rcases inside_cases h.reach hcur t _ with ⟨he, ho, hl⟩ | ⟨c, he, hi, hl, hop⟩ <;> rw [he]
    · refine ⟨v0, hs.progress h ht (p' := .call op k) (b' := true) (raced' := raced) ?_ rfl rfl rfl ?_⟩
      · funext u
        dsimp only
        split
        · rename_i e; subst e; exact ht
        · rfl
      · intro v' hv'
        change History View.empty s.base.nrtStep.nlog v' at hv'
        rw [hl] at hv'
        exact ⟨v', hv', fun R hR => ⟨hR, fun o w hw => hw⟩⟩
    · refine ⟨v0, hs.progress h ht rfl rfl rfl rfl ?_⟩
      intro v' hv'
      change History View.empty s.base.nrtStep.nlog v' at hv'
      rw [hl] at hv'
      obtain ⟨h1, h2, rfl⟩ := hv'.snoc_inv
      refine ⟨_, h1, fun R hR => ⟨fun hh => hR (by rw [hh]; rfl), fun o w hw => ?_⟩⟩
      unfold HProg.den
      refine ⟨c.res, c.raced, c.post, fun hh => hR (by rw [hh]; simp), ?_, hw⟩
      obtain ⟨o1, o2, o3, o4, o5⟩ := c
      dsimp only at hop ⊢
      subst hop
      exact h2
  · exact ⟨v0, hs⟩
  · rename_i op ht; have := hs.noDir t; rw [ht] at this; exact this.elim
  · rename_i op ht; have := hs.noDir t; rw [ht] at this; exact this.elim

theorem SysReach.serial {m nd : Bool} {s : Sys} (h : SysReach m nd false s) : ∃ v0, Serial nd s v0 := by
  induction h with
  | @start s h hi hl =>
    have hv := h.histIdle hi
    refine ⟨View.empty, fun t => trivial, ReqHistory.nil _, WF'.empty, ?_, ?_, ?_⟩
    · intro _; change History View.empty s.nlog _; rw [hl]; exact History.nil _
    · intro t r p b pre raced ht; simp [Sys.start] at ht
    · intro hd; simp [Sys.start] at hd
  | @step s hs a ha ih =>
    obtain ⟨v0, ih⟩ := ih
    have hlk := hs.locks
    unfold Sys.step
    split
    · exact ⟨v0, ih⟩
    · rename_i hnd
      have hnd : s.dead = false := by simpa using hnd
      cases a with
      | rt i =>
        have hl : (s.base.step (.rt i)).nlog = s.base.nlog := by rw [step_rt hlk.reach]; exact (rtStep_frame hlk.reach.inv.1 i).2.2.2.2.1
        refine ⟨v0, ih.noDir, ih.hist, ih.wf, ?_, ?_, ih.dead⟩
        · intro hn; change History View.empty (s.base.step (.rt i)).nlog v0; rw [hl]; exact ih.quiet hn
        · intro t r p b pre raced ht
          obtain ⟨a1, a2⟩ := ih.at_ t r p b pre raced ht
          refine ⟨a1, ?_⟩
          intro v hv
          change History View.empty (s.base.step (.rt i)).nlog v at hv
          rw [hl] at hv
          exact a2 v hv
      | request t r =>
        simp only
        split
        · rename_i ht
          refine ⟨v0, ?_, ih.hist, ih.wf, ih.quiet, ?_, ?_⟩
          · intro u; rw [setThr_thr]; split
            · trivial
            · exact ih.noDir u
          · intro u r1 p1 b1 pre1 raced1 hu
            rw [setThr_thr] at hu
            split at hu
            · simp at hu
            · exact ih.at_ u r1 p1 b1 pre1 raced1 hu
          · intro hd; change s.dead = true at hd; rw [hnd] at hd; simp at hd
        · exact ⟨v0, ih⟩
      | direct t op => exact absurd rfl (ha rfl t op)
      | go t => exact ih.go hlk hnd t

end Pr2
