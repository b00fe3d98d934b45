import Verif.Lemmas.ConcurrentRt

namespace Pr2
set_option linter.unusedVariables false
set_option linter.unusedSimpArgs false

/-- object created by a successful load -/
def newCtrl (s : State) (r : LoadReq) : Ctrl := (Ctrl.fresh.initRequest (names (s.lists s.current)) r.init).1

theorem setAt_same {α} (f : Bool → α) (b : Bool) (x : α) : setAt f b x b = x := by simp [setAt]
theorem setAt_not {α} (f : Bool → α) (b : Bool) (x : α) : setAt f (!b) x b = f b := by cases b <;> simp [setAt]
theorem setAt_not' {α} (f : Bool → α) (b : Bool) (x : α) : setAt f b x (!b) = f (!b) := by cases b <;> simp [setAt]

theorem goodStep_build2_load {s : State} (g : Good s.heap s.next (s.lists s.current) (s.sched s.current)) {r : LoadReq} (hn : s.nrt = .build2 (.load r)) :
    let out := loadBody s.heap s.next (s.lists s.current) (s.sched (!s.current)) r
    (out.ok = true ∧ s.nrtStep = { s with
        heap := fun i => if i = s.next then newCtrl s r else s.heap i
        next := s.next + 1
        lists := setAt s.lists (!s.current) (s.lists s.current ++ [⟨r.name, s.next⟩])
        sched := setAt s.sched (!s.current) out.sched
        nrt := .pubLock (.load r) } ∧
      Good (fun i => if i = s.next then newCtrl s r else s.heap i) (s.next + 1) (s.lists s.current ++ [⟨r.name, s.next⟩]) out.sched ∧
      (newCtrl s r).st = .initialized) ∨
    (out.ok = false ∧ s.nrtStep = State.ret { s with
        lists := setAt s.lists (!s.current) out.dst
        sched := setAt s.sched (!s.current) out.sched } (.load r) (.flag false)) := by
  intro out
  obtain ⟨h1, h2, h3, h4⟩ := loadBody_spec g (s.sched (!s.current)) r
  unfold State.nrtStep
  rw [hn]
  simp only [State.body, State.bodyRaces, Bool.or_false]
  change out.ub = false at h1
  change out.ok = false → out.ctrl = none at h2
  change out.ok = true → _ at h4
  cases hok : out.ok with
  | true =>
    left
    obtain ⟨h5, h6, h7, h8⟩ := h4 hok
    refine ⟨rfl, ?_, ?_, h6⟩
    · change out.ctrl = _ at h5
      change out.dst = _ at h7
      simp only [show loadBody s.heap s.next (s.lists s.current) (s.sched (!s.current)) r = out from rfl, hok, h1, h5, h7,
        Bool.or_false, if_true]
      rfl
    · exact h8
  | false =>
    right
    refine ⟨rfl, ?_⟩
    have h5 := h2 hok
    simp only [show loadBody s.heap s.next (s.lists s.current) (s.sched (!s.current)) r = out from rfl, hok, h1, h5,
        Bool.or_false]
    rfl

theorem nrtStep_build2_load {s : State} (h : Inv s) {r : LoadReq} (hn : s.nrt = .build2 (.load r)) :
    let out := loadBody s.heap s.next (s.lists s.current) (s.sched (!s.current)) r
    (out.ok = true ∧ s.nrtStep = { s with
        heap := fun i => if i = s.next then newCtrl s r else s.heap i
        next := s.next + 1
        lists := setAt s.lists (!s.current) (s.lists s.current ++ [⟨r.name, s.next⟩])
        sched := setAt s.sched (!s.current) out.sched
        nrt := .pubLock (.load r) } ∧
      Good (fun i => if i = s.next then newCtrl s r else s.heap i) (s.next + 1) (s.lists s.current ++ [⟨r.name, s.next⟩]) out.sched ∧
      (newCtrl s r).st = .initialized) ∨
    (out.ok = false ∧ s.nrtStep = State.ret { s with
        lists := setAt s.lists (!s.current) out.dst
        sched := setAt s.sched (!s.current) out.sched } (.load r) (.flag false)) :=
  goodStep_build2_load h.good hn

theorem goodStep_build2_unload {s : State} (g : Good s.heap s.next (s.lists s.current) (s.sched s.current)) {n : String} (hn : s.nrt = .build2 (.unload n)) :
    let out := unloadBody s.heap s.isRunning (s.lists s.current) (s.sched (!s.current)) n
    (out.ok = true ∧ s.nrtStep = { s with
        lists := setAt s.lists (!s.current) ((s.lists s.current).filter (fun e => e.name != n))
        sched := setAt s.sched (!s.current) out.sched
        raced := s.raced || s.bodyRaces (.unload n)
        nrt := .pubLock (.unload n) } ∧
      Good s.heap s.next ((s.lists s.current).filter (fun e => e.name != n)) out.sched) ∨
    (out.ok = false ∧ s.nrtStep = State.ret { s with
        lists := setAt s.lists (!s.current) out.dst
        raced := s.raced || s.bodyRaces (.unload n)
        sched := setAt s.sched (!s.current) out.sched } (.unload n) (.flag false)) := by
  intro out
  obtain ⟨h1, h2, h3, h4⟩ := unloadBody_spec g s.isRunning (s.sched (!s.current)) n
  unfold State.nrtStep
  rw [hn]
  simp only [State.body]
  change out.ub = false at h1
  change out.ctrl = none at h2
  change out.ok = true → _ at h4
  by_cases hok : out.ok = true
  · left
    obtain ⟨h7, h8⟩ := h4 hok
    refine ⟨hok, ?_, h8⟩
    change out.dst = _ at h7
    simp only [show unloadBody s.heap s.isRunning (s.lists s.current) (s.sched (!s.current)) n = out from rfl, hok, h1, h2, h7,
        Bool.or_false, if_true]
  · right
    have hok : out.ok = false := by simpa using hok
    refine ⟨hok, ?_⟩
    simp only [show unloadBody s.heap s.isRunning (s.lists s.current) (s.sched (!s.current)) n = out from rfl, hok, h1, h2,
        Bool.or_false]
    rfl

theorem nrtStep_build2_unload {s : State} (h : Inv s) {n : String} (hn : s.nrt = .build2 (.unload n)) :
    let out := unloadBody s.heap s.isRunning (s.lists s.current) (s.sched (!s.current)) n
    (out.ok = true ∧ s.nrtStep = { s with
        lists := setAt s.lists (!s.current) ((s.lists s.current).filter (fun e => e.name != n))
        sched := setAt s.sched (!s.current) out.sched
        raced := s.raced || s.bodyRaces (.unload n)
        nrt := .pubLock (.unload n) } ∧
      Good s.heap s.next ((s.lists s.current).filter (fun e => e.name != n)) out.sched) ∨
    (out.ok = false ∧ s.nrtStep = State.ret { s with
        lists := setAt s.lists (!s.current) out.dst
        raced := s.raced || s.bodyRaces (.unload n)
        sched := setAt s.sched (!s.current) out.sched } (.unload n) (.flag false)) :=
  goodStep_build2_unload h.good hn

theorem nrtStep_listing {s : State} (h : Inv s) {k : Nat} {acc} (hn : s.nrt = .listing k acc) :
    ((s.lists s.current).length ≤ k ∧ s.nrtStep = s.ret .list (.listing acc)) ∨
    (∃ j e, (s.sched s.current)[k]? = some j ∧ (s.lists s.current)[j]? = some e ∧ e ∈ s.lists s.current ∧
       s.nrtStep = { s with nrt := .listing (k+1) (acc ++ [(e.name, s.isRunning e.id)]), raced := s.raced || s.midRestart e.id }) := by
  unfold State.nrtStep
  rw [hn]
  simp only
  rw [if_neg (by simp [h.good.sched_length])]
  by_cases hk : k < (s.lists s.current).length
  · right
    obtain ⟨j, e, h1, h2, h3⟩ := h.good.entry hk
    refine ⟨j, e, h1, h2, h3, ?_⟩
    have h4 : (names (s.lists s.current))[j]? = some e.name := by simp [names, h2]
    simp only [h1, h4, findByName_mem h.good.distinct h3]
  · left
    have : (s.sched s.current)[k]? = none := by
      rw [List.getElem?_eq_none_iff, h.good.sched_length]; omega
    refine ⟨by omega, ?_⟩
    simp only [this]

/-- Service-thread steps that change only its pc (and ghost state), between pcs of the same class. -/
theorem Inv.nrtFrame {s s' : State} (h : Inv s)
    (hheap : s'.heap = s.heap)
    (hnext : s'.next = s.next) (hlists : s'.lists = s.lists) (hsched : s'.sched = s.sched) (hcur : s'.current = s.current)
    (hused : s'.used = s.used) (hstop : s'.stopReq = s.stopReq) (hstart : s'.startReq = s.startReq)
    (hpl : s'.pleaseSwitch = s.pleaseSwitch) (hpn : s'.pubNames = s.pubNames) (hok : s'.rosOk = s.rosOk) (hbad : s'.bad = s.bad)
    (hrt : s'.rt = s.rt) (hpub : s'.pubLock = s.pubLock)
    (hformer : s'.nrt.former = s.nrt.former) (hclearing : ∀ f, s'.nrt.clearing = some f → f = !s.current)
    (hbuilt : s'.nrt.built = true → s.nrt.built = true) (hhold : s'.nrt.holdsPub = s.nrt.holdsPub) (hswap : s'.nrt.isSwap = s.nrt.isSwap)
    (hwait : s.pleaseSwitch = true → s'.nrt.waitsSwitch = true) (hreq : s'.nrt.hasReq = false → s.stopReq = [] ∧ s.startReq = [])
    (hwf : s'.nrt.wf = true)
    (hreq1 : s'.nrt.waitsSwitch = true → (s.pleaseSwitch = false ∨ s.rt = .switchFlag) → s.stopReq = [] ∧ s.startReq = []) : Inv s' := by
  constructor
  · rw [hok]; exact h.ok
  · rw [hbad]; exact h.notbad
  · rw [hheap, hnext, hlists, hsched, hcur]; exact h.good
  · rw [hused, hcur, hformer]; exact h.used
  · rw [hrt, hcur, hformer, hused]; exact h.reg
  · rw [hformer, hheap, hcur, hnext, hlists, hsched]; exact h.former
  · rw [hcur]; exact hclearing
  · intro hb; rw [hheap, hnext, hlists, hsched, hcur]; exact h.built (hbuilt hb)
  · rw [hpub, hhold]; exact h.pubN
  · rw [hpub, hrt]; exact h.pubR
  · rw [hpn, hlists, hswap, hcur]; exact h.pnames
  · rw [hrt, hused, hlists, hheap]; exact h.mid
  · rw [hpl]; exact hwait
  · rw [hpl, hrt]; exact h.sw2
  · rw [hstop, hstart, hlists, hcur]; exact h.req
  · rw [hstop, hstart]; exact hreq
  · rw [hstop, hstart, hpl, hrt]; exact hreq1
  · exact hwf

theorem Inv.usedCurrent {s : State} (h : Inv s) (hf : s.nrt.former = none) : s.used = some s.current := by
  rcases h.used with h1 | ⟨f, h1, h2⟩
  · exact h1
  · rw [hf] at h2; simp at h2

theorem Inv.regCurrent {s : State} (h : Inv s) (hf : s.nrt.former = none) : ∀ r, s.rt.reg = some r → r = s.current := by
  intro r hr
  rcases h.reg r hr with h1 | ⟨h1, h2⟩
  · exact h1
  · rw [hf] at h1; simp at h1

theorem rtUses_false {s : State} {b : Bool} (h : s.used ≠ some b) : s.rtUses b = false := by
  unfold State.rtUses
  have : (s.used == some b) = false := by simpa using h
  rw [this]; rfl

/-- The invariant is preserved by every service-thread step. -/
theorem Inv.nrtStep {s : State} (h : Inv s) : Inv s.nrtStep := by
  cases hn : s.nrt with
  | idle => unfold State.nrtStep; rw [hn]; exact h
  | wait1 op =>
    have hu := h.usedCurrent (by rw [hn]; rfl)
    have hwf := h.wf; rw [hn] at hwf
    have hr := h.req0 (by rw [hn]; rfl)
    have hp := h.pleaseOff (by rw [hn]; rfl)
    unfold State.nrtStep; rw [hn]; simp only
    split
    all_goals
      refine h.nrtFrame rfl rfl rfl rfl rfl rfl rfl rfl rfl rfl rfl rfl rfl rfl (by rw [hn]; rfl) (by intro f hf; simp [NrtPc.clearing] at hf)
        (by simp [NrtPc.built]) (by rw [hn]; rfl) (by rw [hn]; rfl) (by rw [hp]; simp) (fun _ => hr) hwf (fun _ _ => hr)
  | wait1Inner op =>
    have hwf := h.wf; rw [hn] at hwf
    have hr := h.req0 (by rw [hn]; rfl)
    have hp := h.pleaseOff (by rw [hn]; rfl)
    unfold State.nrtStep; rw [hn]; simp only [h.ok, if_true]
    refine h.nrtFrame rfl rfl rfl rfl rfl rfl rfl rfl rfl rfl h.ok.symm rfl rfl rfl (by rw [hn]; rfl) (by intro f hf; simp [NrtPc.clearing] at hf)
        (by simp [NrtPc.built]) (by rw [hn]; rfl) (by rw [hn]; rfl) (by rw [hp]; simp) (fun _ => hr) hwf (fun _ _ => hr)
  | build op =>
    have hu := h.usedCurrent (by rw [hn]; rfl)
    have hwf := h.wf; rw [hn] at hwf
    have hr := h.req0 (by rw [hn]; rfl)
    have hp := h.pleaseOff (by rw [hn]; rfl)
    unfold State.nrtStep; rw [hn]; simp only
    rw [rtUses_false (by rw [hu]; simp), if_neg (by simp)]
    refine h.nrtFrame rfl rfl rfl rfl rfl rfl rfl rfl rfl rfl rfl rfl rfl rfl (by rw [hn]; rfl) (by intro f hf; simp [NrtPc.clearing] at hf)
        (by simp [NrtPc.built]) (by rw [hn]; rfl) (by rw [hn]; rfl) (by rw [hp]; simp) (fun _ => hr) hwf (fun _ _ => hr)
  | build2 op =>
    have hu := h.usedCurrent (by rw [hn]; rfl)
    have hreg := h.regCurrent (by rw [hn]; rfl)
    have hwf := h.wf; rw [hn] at hwf
    have hr := h.req0 (by rw [hn]; rfl)
    have hp := h.pleaseOff (by rw [hn]; rfl)
    have hpN : s.pubLock ≠ some .nrt := by
      intro hc; have := h.pubN.1 hc; rw [hn] at this; simp [NrtPc.holdsPub] at this
    have hnames := h.pnames
    rw [hn] at hnames
    simp only [NrtPc.isSwap, Bool.false_eq_true, if_false] at hnames
    cases op with
    | load r =>
      rcases nrtStep_build2_load h hn with ⟨hok, he, hg, hst⟩ | ⟨hok, he⟩ <;> rw [he]
      · have hold : ∀ e ∈ s.lists s.current, e.id ≠ s.next := fun e he => ne_of_lt (h.good.lt e he)
        have hgc : Good (fun i => if i = s.next then newCtrl s r else s.heap i) (s.next + 1) (s.lists s.current) (s.sched s.current) := by
          refine h.good.congr (by omega) ?_ ?_
          · intro e he; simp [hold e he]
          · intro e he; simp only [hold e he, if_false]; exact h.good.inited e he
        refine ⟨h.ok, h.notbad, ?_, ?_, ?_, ?_, ?_, ?_, ?_, h.pubR, ?_, ?_, ?_, h.sw2, ?_, ?_, fun _ _ => hr, rfl⟩
        · simp only [setAt_not]; exact hgc
        · exact Or.inl hu
        · intro r' hr'; exact Or.inl (hreg r' hr')
        · intro f hf; simp [NrtPc.former] at hf
        · intro f hf; simp [NrtPc.clearing] at hf
        · intro _; simp only [setAt_same]; exact hg
        · simp [NrtPc.holdsPub, hpN]
        · simp only [NrtPc.isSwap, Bool.false_eq_true, if_false, setAt_not]; exact hnames
        · intro i hi
          obtain ⟨h1, u, e, h2, h3, h4⟩ := h.mid i hi
          rw [hu, Option.some.injEq] at h2
          subst h2; subst h4
          refine ⟨?_, s.current, e, hu, ?_, rfl⟩
          · simp only [hold e h3, if_false]; exact h1
          · simp only [setAt_not]; exact h3
        · intro hc; rw [hp] at hc; simp at hc
        · simp only [setAt_not]; exact h.req
        · intro _; exact hr
      · unfold State.ret
        refine ⟨h.ok, h.notbad, ?_, ?_, ?_, ?_, ?_, ?_, ?_, h.pubR, ?_, ?_, ?_, h.sw2, ?_, ?_, fun _ _ => hr, rfl⟩
        · simp only [setAt_not]; exact h.good
        · exact Or.inl hu
        · intro r' hr'; exact Or.inl (hreg r' hr')
        · intro f hf; simp [NrtPc.former] at hf
        · intro f hf; simp [NrtPc.clearing] at hf
        · intro hb; simp [NrtPc.built] at hb
        · simp [NrtPc.holdsPub, hpN]
        · simp only [NrtPc.isSwap, Bool.false_eq_true, if_false, setAt_not]; exact hnames
        · intro i hi
          obtain ⟨h1, u, e, h2, h3, h4⟩ := h.mid i hi
          rw [hu, Option.some.injEq] at h2
          subst h2; subst h4
          refine ⟨h1, s.current, e, hu, ?_, rfl⟩
          simp only [setAt_not]; exact h3
        · intro hc; rw [hp] at hc; simp at hc
        · simp only [setAt_not]; exact h.req
        · intro _; exact hr
    | unload n =>
      rcases nrtStep_build2_unload h hn with ⟨hok, he, hg⟩ | ⟨hok, he⟩ <;> rw [he]
      · refine ⟨h.ok, h.notbad, ?_, ?_, ?_, ?_, ?_, ?_, ?_, h.pubR, ?_, ?_, ?_, h.sw2, ?_, ?_, fun _ _ => hr, rfl⟩
        · simp only [setAt_not]; exact h.good
        · exact Or.inl hu
        · intro r' hr'; exact Or.inl (hreg r' hr')
        · intro f hf; simp [NrtPc.former] at hf
        · intro f hf; simp [NrtPc.clearing] at hf
        · intro _; simp only [setAt_same]; exact hg
        · simp [NrtPc.holdsPub, hpN]
        · simp only [NrtPc.isSwap, Bool.false_eq_true, if_false, setAt_not]; exact hnames
        · intro i hi
          obtain ⟨h1, u, e, h2, h3, h4⟩ := h.mid i hi
          rw [hu, Option.some.injEq] at h2
          subst h2; subst h4
          refine ⟨h1, s.current, e, hu, ?_, rfl⟩
          simp only [setAt_not]; exact h3
        · intro hc; rw [hp] at hc; simp at hc
        · simp only [setAt_not]; exact h.req
        · intro _; exact hr
      · unfold State.ret
        refine ⟨h.ok, h.notbad, ?_, ?_, ?_, ?_, ?_, ?_, ?_, h.pubR, ?_, ?_, ?_, h.sw2, ?_, ?_, fun _ _ => hr, rfl⟩
        · simp only [setAt_not]; exact h.good
        · exact Or.inl hu
        · intro r' hr'; exact Or.inl (hreg r' hr')
        · intro f hf; simp [NrtPc.former] at hf
        · intro f hf; simp [NrtPc.clearing] at hf
        · intro hb; simp [NrtPc.built] at hb
        · simp [NrtPc.holdsPub, hpN]
        · simp only [NrtPc.isSwap, Bool.false_eq_true, if_false, setAt_not]; exact hnames
        · intro i hi
          obtain ⟨h1, u, e, h2, h3, h4⟩ := h.mid i hi
          rw [hu, Option.some.injEq] at h2
          subst h2; subst h4
          refine ⟨h1, s.current, e, hu, ?_, rfl⟩
          simp only [setAt_not]; exact h3
        · intro hc; rw [hp] at hc; simp at hc
        · simp only [setAt_not]; exact h.req
        · intro _; exact hr
    | switch a b c => simp [NrtPc.wf, Op.isListOp] at hwf
    | list => simp [NrtPc.wf, Op.isListOp] at hwf
  | pubLock op =>
    have hwf := h.wf; rw [hn] at hwf
    have hr := h.req0 (by rw [hn]; rfl)
    have hp := h.pleaseOff (by rw [hn]; rfl)
    have hb := h.built (by rw [hn]; rfl)
    unfold State.nrtStep; rw [hn]; simp only
    split
    · rename_i hl
      have hl : s.pubLock = none := by simpa using hl
      have hnf : s.rt.fills = false := by
        by_contra hc
        have := h.pubR.2 (by simpa using hc)
        rw [hl] at this; simp at this
      refine ⟨h.ok, h.notbad, h.good, ?_, ?_, ?_, ?_, fun _ => hb, ?_, ?_, ?_, h.mid, ?_, h.sw2, h.req, fun _ => hr, fun _ _ => hr, hwf⟩
      · exact Or.inl (h.usedCurrent (by rw [hn]; rfl))
      · intro r hr; exact Or.inl (h.regCurrent (by rw [hn]; rfl) r hr)
      · intro f hf; simp [NrtPc.former] at hf
      · intro f hf; simp [NrtPc.clearing] at hf
      · simp [NrtPc.holdsPub]
      · simp [hnf]
      · have := h.pnames; rw [hn] at this; exact this
      · intro hc; rw [hp] at hc; simp at hc
    · exact h
  | pubResize op =>
    have hwf := h.wf; rw [hn] at hwf
    have hr := h.req0 (by rw [hn]; rfl)
    have hp := h.pleaseOff (by rw [hn]; rfl)
    have hb := h.built (by rw [hn]; rfl)
    unfold State.nrtStep; rw [hn]; simp only
    refine ⟨h.ok, h.notbad, h.good, ?_, ?_, ?_, ?_, fun _ => hb, ?_, h.pubR, ?_, h.mid, ?_, h.sw2, h.req, fun _ => hr, fun _ _ => hr, hwf⟩
    · exact Or.inl (h.usedCurrent (by rw [hn]; rfl))
    · intro r hr; exact Or.inl (h.regCurrent (by rw [hn]; rfl) r hr)
    · intro f hf; simp [NrtPc.former] at hf
    · intro f hf; simp [NrtPc.clearing] at hf
    · have := h.pubN; rw [hn] at this; exact this
    · simp [NrtPc.isSwap]
    · intro hc; rw [hp] at hc; simp at hc
  | swap op =>
    have hwf := h.wf; rw [hn] at hwf
    have hr := h.req0 (by rw [hn]; rfl)
    have hp := h.pleaseOff (by rw [hn]; rfl)
    have hb := h.built (by rw [hn]; rfl)
    have hu := h.usedCurrent (by rw [hn]; rfl)
    unfold State.nrtStep; rw [hn]; simp only
    refine ⟨h.ok, h.notbad, hb, ?_, ?_, ?_, ?_, ?_, ?_, h.pubR, ?_, h.mid, ?_, h.sw2, ?_, fun _ => hr, fun _ _ => hr, hwf⟩
    · exact Or.inr ⟨s.current, hu, rfl⟩
    · intro r hr
      have := h.regCurrent (by rw [hn]; rfl) r hr
      subst this
      exact Or.inr ⟨rfl, hu⟩
    · intro f hf
      simp only [NrtPc.former, Option.some.injEq] at hf
      subst hf
      exact ⟨by simp, h.good⟩
    · intro f hf; simp [NrtPc.clearing] at hf
    · simp [NrtPc.built]
    · have := h.pubN; rw [hn] at this; exact this
    · have := h.pnames; rw [hn] at this; simpa [NrtPc.isSwap] using this
    · intro hc; rw [hp] at hc; simp at hc
    · rw [hr.1, hr.2]; intro i hi; simp at hi
  | wait2 op f =>
    have hwf := h.wf; rw [hn] at hwf
    have hr := h.req0 (by rw [hn]; rfl)
    have hp := h.pleaseOff (by rw [hn]; rfl)
    have hff := (h.former f (by rw [hn]; rfl)).1
    unfold State.nrtStep; rw [hn]; simp only
    split
    · refine h.nrtFrame rfl rfl rfl rfl rfl rfl rfl rfl rfl rfl rfl rfl rfl rfl (by rw [hn]; rfl) (by intro f hf; simp [NrtPc.clearing] at hf)
        (by simp [NrtPc.built]) (by rw [hn]; rfl) (by rw [hn]; rfl) (by rw [hp]; simp) (fun _ => hr) hwf (fun _ _ => hr)
    · rename_i hc
      simp only [h.ok, Bool.true_and, beq_iff_eq] at hc
      have hu : s.used = some s.current := by
        rcases h.used with h1 | ⟨f', h1, h2⟩
        · exact h1
        · rw [hn] at h2; simp only [NrtPc.former, Option.some.injEq] at h2
          rw [h2] at hc; exact absurd h1 hc
      refine ⟨h.ok, h.notbad, h.good, Or.inl hu, ?_, ?_, ?_, ?_, ?_, h.pubR, ?_, h.mid, ?_, h.sw2, h.req, fun _ => hr, fun _ _ => hr, hwf⟩
      · intro r hr
        rcases h.reg r hr with h1 | ⟨h1, h2⟩
        · exact Or.inl h1
        · rw [hn] at h1; simp only [NrtPc.former, Option.some.injEq] at h1
          rw [← h1] at h2; exact absurd h2 hc
      · intro f hf; simp [NrtPc.former] at hf
      · intro f' hf'; simp only [NrtPc.clearing, Option.some.injEq] at hf'; rw [← hf']; exact hff
      · simp [NrtPc.built]
      · have := h.pubN; rw [hn] at this; exact this
      · have := h.pnames; rw [hn] at this; exact this
      · intro hc; rw [hp] at hc; simp at hc
  | wait2Inner op f =>
    have hwf := h.wf; rw [hn] at hwf
    have hr := h.req0 (by rw [hn]; rfl)
    have hp := h.pleaseOff (by rw [hn]; rfl)
    unfold State.nrtStep; rw [hn]; simp only [h.ok, if_true]
    refine h.nrtFrame rfl rfl rfl rfl rfl rfl rfl rfl rfl rfl h.ok.symm rfl rfl rfl (by rw [hn]; rfl) (by intro f hf; simp [NrtPc.clearing] at hf)
        (by simp [NrtPc.built]) (by rw [hn]; rfl) (by rw [hn]; rfl) (by rw [hp]; simp) (fun _ => hr) hwf (fun _ _ => hr)
  | clear op f =>
    have hwf := h.wf; rw [hn] at hwf
    have hr := h.req0 (by rw [hn]; rfl)
    have hp := h.pleaseOff (by rw [hn]; rfl)
    have hu := h.usedCurrent (by rw [hn]; rfl)
    have hf := h.clearing f (by rw [hn]; rfl)
    unfold State.nrtStep; rw [hn]; simp only
    rw [rtUses_false (by rw [hu, hf]; simp), if_neg (by simp)]
    refine h.nrtFrame rfl rfl rfl rfl rfl rfl rfl rfl rfl rfl rfl rfl rfl rfl (by rw [hn]; rfl)
        (by intro f' hf'; simp only [NrtPc.clearing, Option.some.injEq] at hf'; rw [← hf']; exact hf)
        (by simp [NrtPc.built]) (by rw [hn]; rfl) (by rw [hn]; rfl) (by rw [hp]; simp) (fun _ => hr) hwf (fun _ _ => hr)
  | clear2 op f =>
    have hwf := h.wf; rw [hn] at hwf
    have hr := h.req0 (by rw [hn]; rfl)
    have hp := h.pleaseOff (by rw [hn]; rfl)
    have hu := h.usedCurrent (by rw [hn]; rfl)
    have hf := h.clearing f (by rw [hn]; rfl)
    subst hf
    unfold State.nrtStep; rw [hn]; simp only
    refine ⟨h.ok, h.notbad, ?_, Or.inl hu, ?_, ?_, ?_, ?_, ?_, h.pubR, ?_, ?_, ?_, h.sw2, ?_, fun _ => hr, fun _ _ => hr, hwf⟩
    · simp only [setAt_not]; exact h.good
    · intro r hr; exact Or.inl (h.regCurrent (by rw [hn]; rfl) r hr)
    · intro f hf; simp [NrtPc.former] at hf
    · intro f hf; simp [NrtPc.clearing] at hf
    · simp [NrtPc.built]
    · have := h.pubN; rw [hn] at this; exact this
    · have := h.pnames; rw [hn] at this
      simp only [NrtPc.isSwap, Bool.false_eq_true, if_false] at this
      simp only [NrtPc.isSwap, Bool.false_eq_true, if_false, setAt_not]; exact this
    · intro i hi
      obtain ⟨h1, u, e, h2, h3, h4⟩ := h.mid i hi
      rw [hu, Option.some.injEq] at h2
      subst h2; subst h4
      refine ⟨h1, s.current, e, hu, ?_, rfl⟩
      simp only [setAt_not]; exact h3
    · intro hc; rw [hp] at hc; simp at hc
    · simp only [setAt_not]; exact h.req
  | unlock op =>
    have hr := h.req0 (by rw [hn]; rfl)
    have hp := h.pleaseOff (by rw [hn]; rfl)
    have hu := h.usedCurrent (by rw [hn]; rfl)
    have hl := h.pubN.2 (by rw [hn]; rfl)
    have hnf : s.rt.fills = false := by
      by_contra hc
      have := h.pubR.2 (by simpa using hc)
      rw [hl] at this; simp at this
    unfold State.nrtStep; rw [hn]; simp only [State.ret]
    refine ⟨h.ok, h.notbad, h.good, Or.inl hu, ?_, ?_, ?_, ?_, ?_, ?_, ?_, h.mid, ?_, h.sw2, h.req, fun _ => hr, fun _ _ => hr, rfl⟩
    · intro r hr; exact Or.inl (h.regCurrent (by rw [hn]; rfl) r hr)
    · intro f hf; simp [NrtPc.former] at hf
    · intro f hf; simp [NrtPc.clearing] at hf
    · simp [NrtPc.built]
    · simp [NrtPc.holdsPub]
    · simp [hnf]
    · have := h.pnames; rw [hn] at this; exact this
    · intro hc; rw [hp] at hc; simp at hc
  | resolve op =>
    have hwf := h.wf; rw [hn] at hwf
    have hr := h.req0 (by rw [hn]; rfl)
    have hp := h.pleaseOff (by rw [hn]; rfl)
    have hns : s.rt.inSwitch = false := by
      by_contra hc
      have := h.sw2 (by simpa using hc)
      rw [hp] at this; simp at this
    unfold State.nrtStep; rw [hn]; simp only
    have : s.rtUsesReq = false := by
      unfold State.rtUsesReq
      revert hns
      cases s.rt <;> simp [RtPc.inSwitch]
    rw [this, if_neg (by simp)]
    refine h.nrtFrame rfl rfl rfl rfl rfl rfl rfl rfl rfl rfl rfl rfl rfl rfl (by rw [hn]; rfl)
        (by intro f hf; simp [NrtPc.clearing] at hf)
        (by simp [NrtPc.built]) (by rw [hn]; rfl) (by rw [hn]; rfl) (by rw [hp]; simp) (fun _ => hr) hwf (fun _ _ => hr)
  | resolve2 op =>
    have hwf := h.wf; rw [hn] at hwf
    have hr := h.req0 (by rw [hn]; rfl)
    have hp := h.pleaseOff (by rw [hn]; rfl)
    have hu := h.usedCurrent (by rw [hn]; rfl)
    have hns : s.rt.inSwitch = false := by
      by_contra hc
      have := h.sw2 (by simpa using hc)
      rw [hp] at this; simp at this
    have hpN : s.pubLock ≠ some .nrt := by
      intro hc; have := h.pubN.1 hc; rw [hn] at this; simp [NrtPc.holdsPub] at this
    have hnames := h.pnames
    rw [hn] at hnames
    cases op with
    | load r => simp [NrtPc.wf, Op.isSwitch] at hwf
    | unload r => simp [NrtPc.wf, Op.isSwitch] at hwf
    | list => simp [NrtPc.wf, Op.isSwitch] at hwf
    | switch start stop k =>
      unfold State.nrtStep; rw [hn]; simp only
      rw [hr.1, hr.2]
      generalize hres : resolveSwitch (s.lists s.current) [] [] start stop k = R
      obtain ⟨ok, a, b⟩ := R
      have hmem : ∀ i, i ∈ a ∨ i ∈ b → ∃ e ∈ s.lists s.current, e.id = i := by
        have key : ∀ strict ns r, resolveNames (s.lists s.current) strict ns [] = some r → ∀ i ∈ r, ∃ e ∈ s.lists s.current, e.id = i := by
          intro strict ns r hres i hi
          rw [(resolveNames_spec (s.lists s.current) strict ns []).2 r hres] at hi
          rw [List.nil_append, List.mem_filterMap] at hi
          obtain ⟨n, _, hn⟩ := hi
          obtain ⟨e, he, _, h2⟩ := findByName_some hn
          exact ⟨e, he, h2⟩
        unfold resolveSwitch at hres
        simp only at hres
        split at hres
        · simp only [Prod.mk.injEq] at hres
          obtain ⟨_, rfl, rfl⟩ := hres
          intro i hi; simp at hi
        · rename_i a' ha'
          split at hres
          · simp only [Prod.mk.injEq] at hres
            obtain ⟨_, rfl, rfl⟩ := hres
            intro i hi; simp at hi
          · rename_i b' hb'
            simp only [Prod.mk.injEq] at hres
            obtain ⟨_, rfl, rfl⟩ := hres
            intro i hi
            rcases hi with hi | hi
            · exact key _ _ _ ha' i hi
            · exact key _ _ _ hb' i hi
      have hempty : ok = false → a = [] ∧ b = [] := by
        intro hok
        unfold resolveSwitch at hres
        simp only at hres
        split at hres
        · simp only [Prod.mk.injEq] at hres
          obtain ⟨_, rfl, rfl⟩ := hres
          exact ⟨rfl, rfl⟩
        · split at hres
          · simp only [Prod.mk.injEq] at hres
            obtain ⟨_, rfl, rfl⟩ := hres
            exact ⟨rfl, rfl⟩
          · simp only [Prod.mk.injEq] at hres
            rw [← hres.1] at hok; simp at hok
      simp only
      split
      · refine ⟨h.ok, h.notbad, h.good, Or.inl hu, ?_, ?_, ?_, ?_, ?_, h.pubR, ?_, h.mid, ?_, h.sw2, hmem, ?_, ?_, rfl⟩
        · intro r hr; exact Or.inl (h.regCurrent (by rw [hn]; rfl) r hr)
        · intro f hf; simp [NrtPc.former] at hf
        · intro f hf; simp [NrtPc.clearing] at hf
        · simp [NrtPc.built]
        · simp [NrtPc.holdsPub, hpN]
        · exact hnames
        · intro hc; rw [hp] at hc; simp at hc
        · intro hc; simp [NrtPc.hasReq] at hc
        · intro hc; simp [NrtPc.waitsSwitch] at hc
      · rename_i hok
        unfold State.ret
        refine ⟨h.ok, h.notbad, h.good, Or.inl hu, ?_, ?_, ?_, ?_, ?_, h.pubR, ?_, h.mid, ?_, h.sw2, hmem, ?_, ?_, rfl⟩
        · intro r hr; exact Or.inl (h.regCurrent (by rw [hn]; rfl) r hr)
        · intro f hf; simp [NrtPc.former] at hf
        · intro f hf; simp [NrtPc.clearing] at hf
        · simp [NrtPc.built]
        · simp [NrtPc.holdsPub, hpN]
        · exact hnames
        · intro hc; rw [hp] at hc; simp at hc
        · intro hc; exact hempty (by simpa using hok)
        · intro hc; simp [NrtPc.waitsSwitch] at hc
  | setFlag op =>
    have hwf := h.wf; rw [hn] at hwf
    have hu := h.usedCurrent (by rw [hn]; rfl)
    have hpN := h.pubN; rw [hn] at hpN
    have hnames := h.pnames; rw [hn] at hnames
    unfold State.nrtStep; rw [hn]; simp only
    have hp := h.pleaseOff (by rw [hn]; rfl)
    refine ⟨h.ok, h.notbad, h.good, Or.inl hu, ?_, ?_, ?_, ?_, hpN, h.pubR, hnames, h.mid, ?_, ?_, h.req, ?_, ?_, hwf⟩
    · intro r hr; exact Or.inl (h.regCurrent (by rw [hn]; rfl) r hr)
    · intro f hf; simp [NrtPc.former] at hf
    · intro f hf; simp [NrtPc.clearing] at hf
    · simp [NrtPc.built]
    · simp [NrtPc.waitsSwitch]
    · intro _; rfl
    · intro hc; simp [NrtPc.hasReq] at hc
    · intro _ hc
      rcases hc with hc | hc
      · simp at hc
      · exfalso
        have := h.sw2 (by change s.rt = _ at hc; rw [hc]; rfl)
        rw [hp] at this; simp at this
  | waitSwitch op =>
    have hwf := h.wf; rw [hn] at hwf
    have hu := h.usedCurrent (by rw [hn]; rfl)
    have hpN := h.pubN; rw [hn] at hpN
    have hnames := h.pnames; rw [hn] at hnames
    unfold State.nrtStep; rw [hn]; simp only
    split
    · refine ⟨h.ok, h.notbad, h.good, Or.inl hu, ?_, ?_, ?_, ?_, hpN, h.pubR, hnames, h.mid, ?_, h.sw2, h.req, ?_, fun _ => h.req1 (by rw [hn]; rfl), hwf⟩
      · intro r hr; exact Or.inl (h.regCurrent (by rw [hn]; rfl) r hr)
      · intro f hf; simp [NrtPc.former] at hf
      · intro f hf; simp [NrtPc.clearing] at hf
      · simp [NrtPc.built]
      · simp [NrtPc.waitsSwitch]
      · intro hc; simp [NrtPc.hasReq] at hc
    · rename_i hc
      have hc : s.pleaseSwitch = false := by simpa [h.ok] using hc
      have hr := h.req1 (by rw [hn]; rfl) (Or.inl hc)
      unfold State.ret
      refine ⟨h.ok, h.notbad, h.good, Or.inl hu, ?_, ?_, ?_, ?_, hpN, h.pubR, hnames, h.mid, ?_, h.sw2, h.req, fun _ => hr, fun _ _ => hr, rfl⟩
      · intro r hr; exact Or.inl (h.regCurrent (by rw [hn]; rfl) r hr)
      · intro f hf; simp [NrtPc.former] at hf
      · intro f hf; simp [NrtPc.clearing] at hf
      · simp [NrtPc.built]
      · intro hc'; rw [hc] at hc'; simp at hc'
  | waitSwitchInner op =>
    have hwf := h.wf; rw [hn] at hwf
    have hu := h.usedCurrent (by rw [hn]; rfl)
    have hpN := h.pubN; rw [hn] at hpN
    have hnames := h.pnames; rw [hn] at hnames
    unfold State.nrtStep; rw [hn]; simp only [h.ok, if_true]
    refine ⟨rfl, h.notbad, h.good, Or.inl hu, ?_, ?_, ?_, ?_, hpN, h.pubR, hnames, h.mid, ?_, h.sw2, h.req, ?_, fun _ => h.req1 (by rw [hn]; rfl), hwf⟩
    · intro r hr; exact Or.inl (h.regCurrent (by rw [hn]; rfl) r hr)
    · intro f hf; simp [NrtPc.former] at hf
    · intro f hf; simp [NrtPc.clearing] at hf
    · simp [NrtPc.built]
    · simp [NrtPc.waitsSwitch]
    · intro hc; simp [NrtPc.hasReq] at hc
  | listing k acc =>
    have hr := h.req0 (by rw [hn]; rfl)
    have hp := h.pleaseOff (by rw [hn]; rfl)
    rcases nrtStep_listing h hn with ⟨hk, he⟩ | ⟨j, e, h1, h2, h3, he⟩ <;> rw [he]
    · refine h.nrtFrame rfl rfl rfl rfl rfl rfl rfl rfl rfl rfl rfl rfl rfl rfl (by rw [hn]; rfl) (by intro f hf; simp [State.ret, NrtPc.clearing] at hf)
        (by simp [State.ret, NrtPc.built]) (by rw [hn]; rfl) (by rw [hn]; rfl) (by rw [hp]; simp) (fun _ => hr) rfl (fun _ _ => hr)
    · refine h.nrtFrame rfl rfl rfl rfl rfl rfl rfl rfl rfl rfl rfl rfl rfl rfl (by rw [hn]; rfl) (by intro f hf; simp [NrtPc.clearing] at hf)
        (by simp [NrtPc.built]) (by rw [hn]; rfl) (by rw [hn]; rfl) (by rw [hp]; simp) (fun _ => hr) rfl (fun _ _ => hr)

end Pr2
