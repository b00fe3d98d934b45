import Verif.Lemmas.Manager

namespace Pr2
set_option linter.unusedVariables false
set_option linter.unusedSimpArgs false

/-! ## Program-counter classes -/

def NrtPc.former : NrtPc → Option Bool
  | .wait2 _ f => some f
  | .wait2Inner _ f => some f
  | _ => none

def NrtPc.clearing : NrtPc → Option Bool
  | .clear _ f => some f
  | .clear2 _ f => some f
  | _ => none

def NrtPc.holdsPub : NrtPc → Bool
  | .pubResize _ | .swap _ | .wait2 _ _ | .wait2Inner _ _ | .clear _ _ | .clear2 _ _ | .unlock _ => true
  | _ => false

def NrtPc.built : NrtPc → Bool
  | .pubLock _ | .pubResize _ | .swap _ => true
  | _ => false

def NrtPc.isSwap : NrtPc → Bool
  | .swap _ => true
  | _ => false

def NrtPc.waitsSwitch : NrtPc → Bool
  | .waitSwitch _ | .waitSwitchInner _ => true
  | _ => false

def NrtPc.hasReq : NrtPc → Bool
  | .setFlag _ | .waitSwitch _ | .waitSwitchInner _ => true
  | _ => false

def Op.isSwitch : Op → Bool
  | .switch _ _ _ => true
  | _ => false

def Op.isListOp : Op → Bool
  | .load _ | .unload _ => true
  | _ => false

def NrtPc.wf : NrtPc → Bool
  | .idle | .listing _ _ => true
  | .wait1 op | .wait1Inner op | .build op | .build2 op | .pubLock op | .pubResize op | .swap op
  | .wait2 op _ | .wait2Inner op _ | .clear op _ | .clear2 op _ | .unlock op => op.isListOp
  | .resolve op | .resolve2 op | .setFlag op | .waitSwitch op | .waitSwitchInner op => op.isSwitch

def RtPc.reg : RtPc → Option Bool
  | .gotCurrent r => some r
  | _ => none

def RtPc.mid : RtPc → Option Nat
  | .restartMid _ i => some i
  | _ => none

def RtPc.fills : RtPc → Bool
  | .pubFill _ _ => true
  | _ => false

def RtPc.inSwitch : RtPc → Bool
  | .switchStop _ | .switchStart _ | .switchClear | .switchFlag => true
  | _ => false

/-- the realtime thread uses list `used` -/
def RtPc.usesList : RtPc → Bool
  | .pre | .restart _ | .restartMid _ _ | .sweep _ | .publish | .pubFill _ _ => true
  | _ => false

theorem midRestart_eq (s : State) (i : Nat) : s.midRestart i = true ↔ s.rt.mid = some i := by
  unfold State.midRestart RtPc.mid
  cases s.rt <;> simp

/-- Safety invariant of the interleaving model. -/
structure Inv (s : State) : Prop where
  ok : s.rosOk = true
  notbad : s.bad = false
  good : Good s.heap s.next (s.lists s.current) (s.sched s.current)
  used : s.used = some s.current ∨ ∃ f, s.used = some f ∧ s.nrt.former = some f
  reg : ∀ r, s.rt.reg = some r → r = s.current ∨ (s.nrt.former = some r ∧ s.used = some r)
  former : ∀ f, s.nrt.former = some f → f = !s.current ∧ Good s.heap s.next (s.lists f) (s.sched f)
  clearing : ∀ f, s.nrt.clearing = some f → f = !s.current
  built : s.nrt.built = true → Good s.heap s.next (s.lists (!s.current)) (s.sched (!s.current))
  pubN : s.pubLock = some .nrt ↔ s.nrt.holdsPub = true
  pubR : s.pubLock = some .rt ↔ s.rt.fills = true
  pnames : s.pubNames = names (s.lists (if s.nrt.isSwap then !s.current else s.current))
  mid : ∀ i, s.rt.mid = some i → (s.heap i).st = .initialized ∧ ∃ u e, s.used = some u ∧ e ∈ s.lists u ∧ e.id = i
  sw1 : s.pleaseSwitch = true → s.nrt.waitsSwitch = true
  sw2 : s.rt.inSwitch = true → s.pleaseSwitch = true
  req : ∀ i, i ∈ s.stopReq ∨ i ∈ s.startReq → ∃ e ∈ s.lists s.current, e.id = i
  req0 : s.nrt.hasReq = false → s.stopReq = [] ∧ s.startReq = []
  req1 : s.nrt.waitsSwitch = true → (s.pleaseSwitch = false ∨ s.rt = .switchFlag) → s.stopReq = [] ∧ s.startReq = []
  wf : s.nrt.wf = true

/-! ## Consequences -/

theorem Inv.goodUsed {s : State} (h : Inv s) {u : Bool} (hu : s.used = some u) : Good s.heap s.next (s.lists u) (s.sched u) := by
  rcases h.used with h1 | ⟨f, h1, h2⟩
  · rw [hu, Option.some.injEq] at h1; rw [h1]; exact h.good
  · rw [hu, Option.some.injEq] at h1; rw [h1]; exact (h.former f h2).2

theorem Inv.writing_ne {s : State} (h : Inv s) {u : Bool} (hu : s.used = some u) : s.writing ≠ some u := by
  unfold State.writing
  have h1 := h.used
  have h2 := h.clearing
  split
  · rename_i op hn
    rw [hn] at h1
    simp only [NrtPc.former, reduceCtorEq, and_false, exists_false, or_false] at h1
    rw [hu, Option.some.injEq] at h1
    subst h1; simp
  · rename_i op f hn
    rw [hn] at h1 h2
    simp only [NrtPc.former, reduceCtorEq, and_false, exists_false, or_false] at h1
    rw [hu, Option.some.injEq] at h1
    have := h2 f rfl
    subst h1; rw [this]; simp
  · simp

theorem Inv.writing_ne_current {s : State} (h : Inv s) : s.writing ≠ some s.current := by
  unfold State.writing
  have h2 := h.clearing
  split
  · simp
  · rename_i op f hn
    rw [hn] at h2
    rw [h2 f rfl]; simp
  · simp

theorem alive_of {s : State} {u : Bool} (hw : s.writing ≠ some u) {e : Entry} (he : e ∈ s.lists u) : s.alive e.id = true := by
  unfold State.alive
  rw [List.any_eq_true]
  refine ⟨u, by cases u <;> simp, ?_⟩
  simp only [Bool.and_eq_true, bne_iff_ne, ne_eq, hw, not_false_eq_true, true_and, List.any_eq_true, beq_iff_eq]
  exact ⟨e, he, rfl⟩

theorem Inv.rtEntry {s : State} (h : Inv s) {u : Bool} (hu : s.used = some u) {k : Nat} (hk : k < (s.lists u).length) :
    ∃ i e, (s.sched u)[k]? = some i ∧ (s.lists u)[i]? = some e ∧ e ∈ s.lists u ∧ s.rtEntry u k = some e := by
  obtain ⟨i, e, h1, h2, h3⟩ := (h.goodUsed hu).entry hk
  refine ⟨i, e, h1, h2, h3, ?_⟩
  unfold State.rtEntry
  rw [if_neg (h.writing_ne hu), h1]
  simp only [h2]
  rw [if_pos (alive_of (h.writing_ne hu) h3)]

theorem Inv.pleaseOff {s : State} (h : Inv s) (hn : s.nrt.waitsSwitch = false) : s.pleaseSwitch = false := by
  by_contra hc
  have := h.sw1 (by simpa using hc)
  rw [hn] at this; simp at this

theorem stopRequest_inited {c : Ctrl} (h : c.st ≠ .constructed) : c.stopRequest = ({ c with st := .initialized }, [.stopping], true) := by
  unfold Ctrl.stopRequest
  rw [if_pos]
  cases hc : c.st <;> simp_all

theorem startRequest_inited {c : Ctrl} (h : c.st ≠ .constructed) : c.startRequest = ({ c with st := .running }, [.starting], true) := by
  unfold Ctrl.startRequest
  rw [if_pos]
  cases hc : c.st <;> simp_all

theorem updateRequest_fst (c : Ctrl) : c.updateRequest.1 = c := by
  unfold Ctrl.updateRequest; split <;> rfl

theorem setCtrl_self (s : State) (i : Nat) : s.setCtrl i (s.heap i) = s := by
  unfold State.setCtrl
  have : (fun j => if j = i then s.heap i else s.heap j) = s.heap := by
    funext j; split
    · rename_i h; rw [h]
    · rfl
  rw [this]

/-- changing only the run state of an initialised object -/
def setSt (h : Heap) (i : Nat) (st : CState) : Heap := fun j => if j = i then { h i with st := st } else h j

theorem Good.setSt {h : Heap} {n : Nat} {l : List Entry} {sc : List Nat} (g : Good h n l sc) (i : Nat) {st : CState}
    (hst : st ≠ .constructed) : Good (Pr2.setSt h i st) n l sc := by
  refine g.congr (le_refl _) ?_ ?_
  · intro e he; unfold Pr2.setSt; split
    · rename_i hh; rw [hh]; exact ⟨rfl, rfl⟩
    · exact ⟨rfl, rfl⟩
  · intro e he; unfold Pr2.setSt; split
    · exact hst
    · exact g.inited e he

/-- Realtime steps that change only run states, the realtime pc, and the log. -/
theorem Inv.rtFrame {s s' : State} (h : Inv s)
    (hheap : s'.heap = s.heap ∨ ∃ i st, st ≠ .constructed ∧ s'.heap = setSt s.heap i st)
    (hnext : s'.next = s.next) (hlists : s'.lists = s.lists) (hsched : s'.sched = s.sched) (hcur : s'.current = s.current)
    (hused : s'.used = s.used) (hstop : s'.stopReq = s.stopReq) (hstart : s'.startReq = s.startReq)
    (hpl : s'.pleaseSwitch = s.pleaseSwitch) (hpn : s'.pubNames = s.pubNames) (hok : s'.rosOk = s.rosOk) (hbad : s'.bad = s.bad)
    (hnrt : s'.nrt = s.nrt)
    (hpub : (s'.pubLock = some .nrt ↔ s.pubLock = some .nrt) ∧ (s'.pubLock = some .rt ↔ s'.rt.fills = true))
    (hreg : ∀ r, s'.rt.reg = some r → r = s.current ∨ (s.nrt.former = some r ∧ s.used = some r))
    (hmid : ∀ i, s'.rt.mid = some i → (s'.heap i).st = .initialized ∧ ∃ u e, s.used = some u ∧ e ∈ s.lists u ∧ e.id = i)
    (hsw : s'.rt.inSwitch = true → s.pleaseSwitch = true) (hfl : s'.rt ≠ .switchFlag) : Inv s' := by
  have hg : ∀ l sc, Good s.heap s.next l sc → Good s'.heap s.next l sc := by
    intro l sc g
    rcases hheap with hh | ⟨i, st, hst, hh⟩
    · rw [hh]; exact g
    · rw [hh]; exact g.setSt i hst
  constructor
  · rw [hok]; exact h.ok
  · rw [hbad]; exact h.notbad
  · rw [hnext, hlists, hsched, hcur]; exact hg _ _ h.good
  · rw [hused, hcur, hnrt]; exact h.used
  · intro r hr; rw [hcur, hnrt, hused]; exact hreg r hr
  · intro f hf; rw [hnrt] at hf; rw [hcur, hnext, hlists, hsched]; exact ⟨(h.former f hf).1, hg _ _ (h.former f hf).2⟩
  · intro f hf; rw [hnrt] at hf; rw [hcur]; exact h.clearing f hf
  · intro hb; rw [hnrt] at hb; rw [hnext, hlists, hsched, hcur]; exact hg _ _ (h.built hb)
  · rw [hnrt, hpub.1]; exact h.pubN
  · exact hpub.2
  · rw [hpn, hlists, hnrt, hcur]; exact h.pnames
  · intro i hi; rw [hused, hlists]; exact hmid i hi
  · rw [hpl, hnrt]; exact h.sw1
  · rw [hpl]; exact hsw
  · rw [hstop, hstart, hlists, hcur]; exact h.req
  · rw [hnrt, hstop, hstart]; exact h.req0
  · rw [hnrt, hpl, hstop, hstart]; intro hw hp; exact h.req1 hw (Or.inl (hp.resolve_right hfl))
  · rw [hnrt]; exact h.wf

end Pr2
