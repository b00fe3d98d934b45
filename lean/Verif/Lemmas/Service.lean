import Verif.Lemmas.ConcurrentNrt
import Verif.Spec.Manager

namespace Pr2
set_option linter.unusedVariables false
set_option linter.unusedSimpArgs false

/-- view of list `b` with given run flags -/
def viewOf (h : Heap) (l : List Entry) (sc : List Nat) (R : Nat → Bool) : View where
  ctrls := l.map (fun e => ⟨e.name, e.id, (h e.id).before, (h e.id).after, R e.id⟩)
  order := sc

theorem view_eq (s : State) : s.view = viewOf s.heap (s.lists s.current) (s.sched s.current) s.runs := rfl

theorem viewOf_congr {h h' : Heap} {l : List Entry} {sc : List Nat} {R R' : Nat → Bool}
    (hh : ∀ e ∈ l, (h' e.id).before = (h e.id).before ∧ (h' e.id).after = (h e.id).after) (hR : ∀ e ∈ l, R' e.id = R e.id) :
    viewOf h' l sc R' = viewOf h l sc R := by
  unfold viewOf
  congr 1
  apply List.map_congr_left
  intro e he
  rw [(hh e he).1, (hh e he).2, hR e he]

theorem viewOf_names (h : Heap) (l : List Entry) (sc : List Nat) (R : Nat → Bool) : (viewOf h l sc R).names = names l := by
  simp [viewOf, View.names, names, Function.comp_def]

theorem viewOf_specs (h : Heap) (l : List Entry) (sc : List Nat) (R : Nat → Bool) : (viewOf h l sc R).specs = specs h l := by
  simp [viewOf, View.specs, specs, Function.comp_def]

theorem Good.validOrder {h : Heap} {n : Nat} {l : List Entry} {sc : List Nat} (g : Good h n l sc) (R : Nat → Bool) :
    (viewOf h l sc R).ValidOrder := by
  refine ⟨?_, ?_⟩
  · have := g.perm
    simpa [viewOf] using this
  · rw [viewOf_specs]
    obtain ⟨v, hv⟩ := g.sched
    rcases scheduleControllers_eq (specs h l) (Good.distinctSpecs g.distinct) v with ⟨v', _, h', _⟩ | ⟨o, _, ho, hmin, h'⟩
    · rw [h'] at hv; simp at hv
    · rw [h'] at hv; simp only [SchedResult.ret.injEq, true_and] at hv
      refine ⟨o, ?_, ho, hmin⟩
      have := executes_idxOf (cs := specs h l) (l := o) (fun x hx => ho.perm.mem_iff.1 hx)
      rw [hv] at this; exact this

/-- a realtime step that is not executing a switch leaves `runs` and all dependencies alone -/
theorem rtStep_runs {s : State} (h : Inv s) (i : RtIn) (hs : s.rt.inSwitch = false) :
    (∀ j, (s.rtStep i).runs j = s.runs j) ∧ (∀ j, ((s.rtStep i).heap j).before = (s.heap j).before ∧ ((s.rtStep i).heap j).after = (s.heap j).after) ∧
    (s.rtStep i).lists = s.lists ∧ (s.rtStep i).sched = s.sched ∧ (s.rtStep i).current = s.current ∧ (s.rtStep i).nrt = s.nrt ∧
    (s.rtStep i).snap = s.snap ∧ (s.rtStep i).raced = s.raced ∧ (s.rtStep i).nlog = s.nlog ∧ (s.rtStep i).pleaseSwitch = s.pleaseSwitch ∧
    (s.rtStep i).stopReq = s.stopReq ∧ (s.rtStep i).startReq = s.startReq ∧ (s.rtStep i).next = s.next := by
  cases hrt : s.rt with
  | idle =>
    have he : s.rtStep i = { s with rt := .gotCurrent s.current } := by unfold State.rtStep; rw [hrt]
    rw [he]
    refine ⟨?_, fun _ => ⟨rfl, rfl⟩, rfl, rfl, rfl, rfl, rfl, rfl, rfl, rfl, rfl, rfl, rfl⟩
    intro j; simp [State.runs, State.midRestart, hrt, State.isRunning]
  | gotCurrent r =>
    have he : s.rtStep i = { s with used := some r, rt := .pre } := by unfold State.rtStep; rw [hrt]
    rw [he]
    refine ⟨?_, fun _ => ⟨rfl, rfl⟩, rfl, rfl, rfl, rfl, rfl, rfl, rfl, rfl, rfl, rfl, rfl⟩
    intro j; simp [State.runs, State.midRestart, hrt, State.isRunning]
  | pre =>
    obtain ⟨u, hu, he⟩ := rtStep_pre h i hrt
    rw [he]
    refine ⟨?_, fun _ => ⟨rfl, rfl⟩, rfl, rfl, rfl, rfl, rfl, rfl, rfl, rfl, rfl, rfl, rfl⟩
    intro j
    by_cases hre : (!i.halted && s.motorsPrev) = true
    · simp only [State.runs, State.midRestart, hrt, State.isRunning, hre, if_true]
    · simp only [State.runs, State.midRestart, hrt, State.isRunning, hre, Bool.false_eq_true, if_false]
  | restart k =>
    obtain ⟨u, hu, he⟩ := rtStep_restart h i hrt
    rcases he with ⟨hk, j, e, h1, h2, h3, ⟨hr, he⟩ | ⟨hr, he⟩⟩ | ⟨hk, he⟩ <;> rw [he]
    · refine ⟨?_, ?_, rfl, rfl, rfl, rfl, rfl, rfl, rfl, rfl, rfl, rfl, rfl⟩
      · intro j
        unfold State.isRunning at hr
        simp only [State.runs, State.midRestart, hrt, State.isRunning, setSt]
        by_cases hj : j = e.id
        · subst hj; simp [hr]
        · simp [hj, Ne.symm hj]
      · intro j; simp only [setSt]; split
        · rename_i hj; subst hj; exact ⟨rfl, rfl⟩
        · exact ⟨rfl, rfl⟩
    · refine ⟨?_, fun _ => ⟨rfl, rfl⟩, rfl, rfl, rfl, rfl, rfl, rfl, rfl, rfl, rfl, rfl, rfl⟩
      intro j; simp [State.runs, State.midRestart, hrt, State.isRunning]
    · refine ⟨?_, fun _ => ⟨rfl, rfl⟩, rfl, rfl, rfl, rfl, rfl, rfl, rfl, rfl, rfl, rfl, rfl⟩
      intro j; simp [State.runs, State.midRestart, hrt, State.isRunning]
  | restartMid k id =>
    rw [rtStep_restartMid h i hrt]
    refine ⟨?_, ?_, rfl, rfl, rfl, rfl, rfl, rfl, rfl, rfl, rfl, rfl, rfl⟩
    · intro j
      simp only [State.runs, State.midRestart, hrt, State.isRunning, setSt]
      by_cases hj : j = id
      · subst hj; simp [Ctrl.isRunning]
      · simp [hj, Ne.symm hj]
    · intro j; simp only [setSt]; split
      · rename_i hj; subst hj; exact ⟨rfl, rfl⟩
      · exact ⟨rfl, rfl⟩
  | sweep k =>
    obtain ⟨u, hu, he⟩ := rtStep_sweep h i hrt
    rcases he with ⟨hk, j, e, h1, h2, h3, he⟩ | ⟨hk, he⟩ <;> rw [he]
    all_goals
      refine ⟨?_, fun _ => ⟨rfl, rfl⟩, rfl, rfl, rfl, rfl, rfl, rfl, rfl, rfl, rfl, rfl, rfl⟩
      intro j; simp [State.runs, State.midRestart, hrt, State.isRunning]
  | publish =>
    unfold State.rtStep; rw [hrt]; simp only
    split
    all_goals
      refine ⟨?_, fun _ => ⟨rfl, rfl⟩, rfl, rfl, rfl, rfl, rfl, rfl, rfl, rfl, rfl, rfl, rfl⟩
      intro j; simp [State.runs, State.midRestart, hrt, State.isRunning]
  | pubFill k msg =>
    obtain ⟨hu, hn, he⟩ := rtStep_pubFill h i hrt
    rcases he with ⟨e, he1, he⟩ | ⟨hk, he⟩ <;> rw [he]
    all_goals
      refine ⟨?_, fun _ => ⟨rfl, rfl⟩, rfl, rfl, rfl, rfl, rfl, rfl, rfl, rfl, rfl, rfl, rfl⟩
      intro j; simp [State.runs, State.midRestart, hrt, State.isRunning]
  | switchCheck =>
    unfold State.rtStep; rw [hrt]; simp only
    split
    all_goals
      refine ⟨?_, fun _ => ⟨rfl, rfl⟩, rfl, rfl, rfl, rfl, rfl, rfl, rfl, rfl, rfl, rfl, rfl⟩
      intro j; simp [State.runs, State.midRestart, hrt, State.isRunning]
  | switchStop k => rw [hrt] at hs; simp [RtPc.inSwitch] at hs
  | switchStart k => rw [hrt] at hs; simp [RtPc.inSwitch] at hs
  | switchClear => rw [hrt] at hs; simp [RtPc.inSwitch] at hs
  | switchFlag => rw [hrt] at hs; simp [RtPc.inSwitch] at hs
  | done =>
    have he : s.rtStep i = { s with rt := .idle, log := s.log ++ [.cycleEnd] } := by unfold State.rtStep; rw [hrt]
    rw [he]
    refine ⟨?_, fun _ => ⟨rfl, rfl⟩, rfl, rfl, rfl, rfl, rfl, rfl, rfl, rfl, rfl, rfl, rfl⟩
    intro j; simp [State.runs, State.midRestart, hrt, State.isRunning]

/-- controllers a switch call stops / starts -/
def stopIds (s : State) : Op → List Nat
  | .switch _ stop _ => stop.filterMap (findByName (s.lists s.current))
  | _ => []
def startIds (s : State) : Op → List Nat
  | .switch start _ _ => start.filterMap (findByName (s.lists s.current))
  | _ => []

/-- run flags after stopping `A` and starting `B` -/
def afterSwitch (A B : List Nat) (R : Nat → Bool) (i : Nat) : Bool := if i ∈ B then true else if i ∈ A then false else R i

/-- how far the realtime loop has executed the pending switch -/
def SwitchProg (s : State) (op : Op) : Prop :=
  ∃ R : Nat → Bool, s.snap = viewOf s.heap (s.lists s.current) (s.sched s.current) R ∧
  (if s.pleaseSwitch then
    match s.rt with
    | .switchStop k => s.stopReq = stopIds s op ∧ s.startReq = startIds s op ∧ ∀ i, s.runs i = afterSwitch (s.stopReq.take k) [] R i
    | .switchStart k => s.stopReq = stopIds s op ∧ s.startReq = startIds s op ∧ ∀ i, s.runs i = afterSwitch s.stopReq (s.startReq.take k) R i
    | .switchClear => ∀ i, s.runs i = afterSwitch (stopIds s op) (startIds s op) R i
    | .switchFlag => ∀ i, s.runs i = afterSwitch (stopIds s op) (startIds s op) R i
    | _ => s.stopReq = stopIds s op ∧ s.startReq = startIds s op ∧ ∀ i, s.runs i = R i
  else ∀ i, s.runs i = afterSwitch (stopIds s op) (startIds s op) R i)

/-- Was the switch request acceptable? -/
def SwitchAccepted (s : State) : Op → Prop
  | .switch start stop k => ¬ (k = STRICT ∧ ∃ n, (n ∈ start ∨ n ∈ stop) ∧ n ∉ names (s.lists s.current))
  | _ => False

/-- what is known at each position of the service thread -/
def Prog (s : State) : Prop :=
  match s.nrt with
  | .idle => True
  | .wait1 _ | .wait1Inner _ | .build _ | .build2 _ => s.snap = s.view ∧ s.raced = false
  | .pubLock op | .pubResize op | .swap op => s.snap = s.view ∧
      CallOk ⟨op, .flag true, s.snap, viewOf s.heap (s.lists (!s.current)) (s.sched (!s.current)) s.runs, s.raced⟩
  | .wait2 op _ | .wait2Inner op _ | .clear op _ | .clear2 op _ | .unlock op =>
      CallOk ⟨op, .flag true, s.snap, s.view, s.raced⟩
  | .resolve _ | .resolve2 _ => s.snap = s.view
  | .setFlag op => s.snap = s.view ∧ s.stopReq = stopIds s op ∧ s.startReq = startIds s op ∧ SwitchAccepted s op
  | .waitSwitch op | .waitSwitchInner op => SwitchProg s op ∧ SwitchAccepted s op
  | .listing k acc => s.snap = s.view ∧ (s.raced = false → acc = s.snap.listing.take k) ∧
      List.Forall₂ (fun a b => a.1 = b.1 ∧ (a.2 = true → b.2 = true)) acc (s.snap.listing.take k)

structure Inv2 (s : State) : Prop where
  hist : History View.empty s.nlog (match s.nrt with | .idle => s.view | _ => s.snap)
  prog : Prog s

theorem view_congr {s s' : State} (h1 : ∀ j, s'.runs j = s.runs j)
    (h2 : ∀ j, (s'.heap j).before = (s.heap j).before ∧ (s'.heap j).after = (s.heap j).after)
    (h3 : s'.lists = s.lists) (h4 : s'.sched = s.sched) (h5 : s'.current = s.current) : s'.view = s.view := by
  rw [view_eq, view_eq, h3, h4, h5]
  exact viewOf_congr (fun e _ => h2 e.id) (fun e _ => h1 e.id)

theorem afterSwitch_nil (R : Nat → Bool) (i : Nat) : afterSwitch [] [] R i = R i := by simp [afterSwitch]

theorem SwitchProg.quiet {s : State} {op : Op} (hs : s.rt.inSwitch = false) (h : SwitchProg s op) :
    ∃ R : Nat → Bool, s.snap = viewOf s.heap (s.lists s.current) (s.sched s.current) R ∧
      if s.pleaseSwitch then s.stopReq = stopIds s op ∧ s.startReq = startIds s op ∧ ∀ i, s.runs i = R i
      else ∀ i, s.runs i = afterSwitch (stopIds s op) (startIds s op) R i := by
  obtain ⟨R, h1, h2⟩ := h
  refine ⟨R, h1, ?_⟩
  split
  · rename_i hp
    rw [if_pos hp] at h2
    revert h2 hs
    cases s.rt <;> simp [RtPc.inSwitch]
  · rename_i hp
    rwa [if_neg hp] at h2

theorem SwitchProg.of_quiet {s : State} {op : Op} (hs : s.rt.inSwitch = false ∨ s.rt = .switchStop 0)
    (h : ∃ R : Nat → Bool, s.snap = viewOf s.heap (s.lists s.current) (s.sched s.current) R ∧
      if s.pleaseSwitch then s.stopReq = stopIds s op ∧ s.startReq = startIds s op ∧ ∀ i, s.runs i = R i
      else ∀ i, s.runs i = afterSwitch (stopIds s op) (startIds s op) R i) : SwitchProg s op := by
  obtain ⟨R, h1, h2⟩ := h
  refine ⟨R, h1, ?_⟩
  split
  · rename_i hp
    rw [if_pos hp] at h2
    rcases hs with hs | hs
    · revert h2 hs
      cases s.rt <;> simp [RtPc.inSwitch]
    · rw [hs]
      simp only [List.take_zero, afterSwitch_nil]
      exact h2
  · rename_i hp
    rwa [if_neg hp] at h2

theorem rtStep_quiet_rt {s : State} (h : Inv s) (i : RtIn) (hs : s.rt.inSwitch = false) :
    (s.rtStep i).rt.inSwitch = false ∨ (s.rtStep i).rt = .switchStop 0 := by
  cases hrt : s.rt with
  | idle => left; unfold State.rtStep; rw [hrt]; rfl
  | gotCurrent r => left; unfold State.rtStep; rw [hrt]; rfl
  | pre =>
    obtain ⟨u, hu, he⟩ := rtStep_pre h i hrt
    rw [he]; left; dsimp only; split <;> rfl
  | restart k =>
    obtain ⟨u, hu, he⟩ := rtStep_restart h i hrt
    rcases he with ⟨hk, j, e, h1, h2, h3, ⟨hr, he⟩ | ⟨hr, he⟩⟩ | ⟨hk, he⟩ <;> rw [he] <;> exact Or.inl rfl
  | restartMid k id => rw [rtStep_restartMid h i hrt]; exact Or.inl rfl
  | sweep k =>
    obtain ⟨u, hu, he⟩ := rtStep_sweep h i hrt
    rcases he with ⟨hk, j, e, h1, h2, h3, he⟩ | ⟨hk, he⟩ <;> rw [he] <;> exact Or.inl rfl
  | publish => left; unfold State.rtStep; rw [hrt]; simp only; split <;> rfl
  | pubFill k msg =>
    obtain ⟨hu, hn, he⟩ := rtStep_pubFill h i hrt
    rcases he with ⟨e, he1, he⟩ | ⟨hk, he⟩ <;> rw [he] <;> exact Or.inl rfl
  | switchCheck => unfold State.rtStep; rw [hrt]; simp only; split <;> simp [RtPc.inSwitch]
  | switchStop k => rw [hrt] at hs; simp [RtPc.inSwitch] at hs
  | switchStart k => rw [hrt] at hs; simp [RtPc.inSwitch] at hs
  | switchClear => rw [hrt] at hs; simp [RtPc.inSwitch] at hs
  | switchFlag => rw [hrt] at hs; simp [RtPc.inSwitch] at hs
  | done => left; unfold State.rtStep; rw [hrt]; rfl

theorem Inv2.rtStep_quiet {s : State} (h : Inv s) (h2 : Inv2 s) (i : RtIn) (hs : s.rt.inSwitch = false) : Inv2 (s.rtStep i) := by
  obtain ⟨hr, hb, hl, hsc, hc, hn, hsnap, hra, hnl, hps, hst, hsa, hnx⟩ := rtStep_runs h i hs
  have hv := view_congr hr hb hl hsc hc
  have hsp : ∀ op, SwitchProg s op ∧ SwitchAccepted s op → SwitchProg (s.rtStep i) op ∧ SwitchAccepted (s.rtStep i) op := by
    intro op ⟨h3, h4⟩
    obtain ⟨R, h5, h6⟩ := h3.quiet hs
    refine ⟨SwitchProg.of_quiet (rtStep_quiet_rt h i hs) ⟨R, ?_, ?_⟩, ?_⟩
    · rw [hsnap, hl, hsc, hc, viewOf_congr (fun e _ => hb e.id) (fun e _ => rfl)]; exact h5
    · rw [hps, hst, hsa]
      have e1 : stopIds (s.rtStep i) op = stopIds s op := by unfold stopIds; rw [hl, hc]
      have e2 : startIds (s.rtStep i) op = startIds s op := by unfold startIds; rw [hl, hc]
      rw [e1, e2]; simp only [hr]; exact h6
    · unfold SwitchAccepted at h4 ⊢; rw [hl, hc]; exact h4
  refine ⟨?_, ?_⟩
  · rw [hnl, hn, hsnap, hv]; exact h2.hist
  · have hp := h2.prog
    unfold Prog at hp ⊢
    rw [hn, hsnap, hv, hra]
    cases hnrt : s.nrt with
    | idle => trivial
    | wait1 op => rw [hnrt] at hp; exact hp
    | wait1Inner op => rw [hnrt] at hp; exact hp
    | build op => rw [hnrt] at hp; exact hp
    | build2 op => rw [hnrt] at hp; exact hp
    | pubLock op =>
      rw [hnrt] at hp; simp only at hp ⊢
      rw [hl, hsc, hc, viewOf_congr (fun e _ => hb e.id) (fun e _ => hr e.id)]; exact hp
    | pubResize op =>
      rw [hnrt] at hp; simp only at hp ⊢
      rw [hl, hsc, hc, viewOf_congr (fun e _ => hb e.id) (fun e _ => hr e.id)]; exact hp
    | swap op =>
      rw [hnrt] at hp; simp only at hp ⊢
      rw [hl, hsc, hc, viewOf_congr (fun e _ => hb e.id) (fun e _ => hr e.id)]; exact hp
    | wait2 op f => rw [hnrt] at hp; exact hp
    | wait2Inner op f => rw [hnrt] at hp; exact hp
    | clear op f => rw [hnrt] at hp; exact hp
    | clear2 op f => rw [hnrt] at hp; exact hp
    | unlock op => rw [hnrt] at hp; exact hp
    | resolve op => rw [hnrt] at hp; exact hp
    | resolve2 op => rw [hnrt] at hp; exact hp
    | setFlag op =>
      rw [hnrt] at hp; simp only at hp ⊢
      rw [hst, hsa]
      refine ⟨hp.1, ?_, ?_, ?_⟩
      · rw [hp.2.1]; unfold stopIds; rw [hl, hc]
      · rw [hp.2.2.1]; unfold startIds; rw [hl, hc]
      · have := hp.2.2.2; unfold SwitchAccepted at this ⊢; rw [hl, hc]; exact this
    | listing k acc => rw [hnrt] at hp; exact hp
    | waitSwitch op =>
      rw [hnrt] at hp; simp only at hp ⊢
      exact hsp op hp
    | waitSwitchInner op =>
      rw [hnrt] at hp; simp only at hp ⊢
      exact hsp op hp

theorem setSt_deps (h : Heap) (i : Nat) (st : CState) (j : Nat) :
    (setSt h i st j).before = (h j).before ∧ (setSt h i st j).after = (h j).after := by
  unfold setSt; split
  · rename_i hj; subst hj; exact ⟨rfl, rfl⟩
  · exact ⟨rfl, rfl⟩

theorem take_succ_of {α} {l : List α} {k : Nat} {a : α} (h : l[k]? = some a) : l.take (k+1) = l.take k ++ [a] := by
  rw [List.take_add_one, h]; rfl

/-- While a switch is being executed the service thread only waits. -/
theorem Inv2.rtStep_switch {s : State} (h : Inv s) (h2 : Inv2 s) (i : RtIn) (hs : s.rt.inSwitch = true) : Inv2 (s.rtStep i) := by
  have hps := h.sw2 hs
  have hw := (h.switchFacts hs).2
  have key : ∀ s', (s' = s.rtStep i) → s'.nrt = s.nrt → s'.nlog = s.nlog → s'.snap = s.snap →
      (∀ op, SwitchProg s op ∧ SwitchAccepted s op → SwitchProg s' op ∧ SwitchAccepted s' op) → Inv2 s' := by
    intro s' _ hn hnl hsn hp
    refine ⟨?_, ?_⟩
    · have := h2.hist
      rw [hnl, hn, hsn]
      revert this hw
      cases s.nrt <;> simp [NrtPc.waitsSwitch]
    · have h3 := h2.prog
      unfold Prog at h3 ⊢
      rw [hn]
      revert h3 hw
      cases s.nrt <;> simp only [NrtPc.waitsSwitch, Bool.false_eq_true, IsEmpty.forall_iff, forall_const]
      · exact hp _
      · exact hp _
  cases hrt : s.rt with
  | switchStop k =>
    rcases rtStep_switchStop h i hrt with ⟨id, hid, ⟨e, he, hee⟩, he'⟩ | ⟨hk, he'⟩
    · refine key _ rfl (by rw [he']) (by rw [he']) (by rw [he']) ?_
      rw [he']
      intro op ⟨⟨R, h5, h6⟩, h4⟩
      refine ⟨⟨R, ?_, ?_⟩, h4⟩
      · dsimp only
        rw [viewOf_congr (fun e _ => setSt_deps _ _ _ _) (fun e _ => rfl)]; exact h5
      · rw [if_pos hps, hrt] at h6
        rw [if_pos hps]
        obtain ⟨h7, h8, h9⟩ := h6
        refine ⟨h7, h8, ?_⟩
        intro j
        have := h9 j
        simp only [State.runs, State.midRestart, hrt, State.isRunning, Bool.or_false] at this ⊢
        rw [take_succ_of hid]
        unfold setSt afterSwitch at *
        by_cases hj : j = id
        · subst hj; simp [Ctrl.isRunning]
        · simp only [hj, if_false, this]; simp [hj]
    · refine key _ rfl (by rw [he']) (by rw [he']) (by rw [he']) ?_
      rw [he']
      intro op ⟨⟨R, h5, h6⟩, h4⟩
      refine ⟨⟨R, h5, ?_⟩, h4⟩
      rw [if_pos hps, hrt] at h6
      rw [if_pos hps]
      obtain ⟨h7, h8, h9⟩ := h6
      refine ⟨h7, h8, ?_⟩
      intro j
      have := h9 j
      rw [List.take_of_length_le hk] at this
      simp only [State.runs, State.midRestart, hrt, State.isRunning, Bool.or_false, List.take_zero] at this ⊢
      exact this
  | switchStart k =>
    rcases rtStep_switchStart h i hrt with ⟨id, hid, ⟨e, he, hee⟩, he'⟩ | ⟨hk, he'⟩
    · refine key _ rfl (by rw [he']) (by rw [he']) (by rw [he']) ?_
      rw [he']
      intro op ⟨⟨R, h5, h6⟩, h4⟩
      refine ⟨⟨R, ?_, ?_⟩, h4⟩
      · dsimp only
        rw [viewOf_congr (fun e _ => setSt_deps _ _ _ _) (fun e _ => rfl)]; exact h5
      · rw [if_pos hps, hrt] at h6
        rw [if_pos hps]
        obtain ⟨h7, h8, h9⟩ := h6
        refine ⟨h7, h8, ?_⟩
        intro j
        have := h9 j
        simp only [State.runs, State.midRestart, hrt, State.isRunning, Bool.or_false] at this ⊢
        rw [take_succ_of hid]
        unfold setSt afterSwitch at *
        by_cases hj : j = id
        · subst hj; simp [Ctrl.isRunning]
        · simp only [hj, if_false, this]; simp [hj]
    · refine key _ rfl (by rw [he']) (by rw [he']) (by rw [he']) ?_
      rw [he']
      intro op ⟨⟨R, h5, h6⟩, h4⟩
      refine ⟨⟨R, h5, ?_⟩, h4⟩
      rw [if_pos hps, hrt] at h6
      rw [if_pos hps]
      obtain ⟨h7, h8, h9⟩ := h6
      intro j
      have := h9 j
      rw [List.take_of_length_le hk, h7, h8] at this
      simp only [State.runs, State.midRestart, hrt, State.isRunning, Bool.or_false, List.take_zero] at this ⊢
      exact this
  | switchClear =>
    have he' := rtStep_switchClear h i hrt
    refine key _ rfl (by rw [he']) (by rw [he']) (by rw [he']) ?_
    rw [he']
    intro op ⟨⟨R, h5, h6⟩, h4⟩
    refine ⟨⟨R, h5, ?_⟩, h4⟩
    rw [if_pos hps, hrt] at h6
    rw [if_pos hps]
    intro j
    have := h6 j
    simp only [State.runs, State.midRestart, hrt, State.isRunning, Bool.or_false] at this ⊢
    exact this
  | switchFlag =>
    have he' : s.rtStep i = { s with pleaseSwitch := false, rt := .done } := by unfold State.rtStep; rw [hrt]
    refine key _ rfl (by rw [he']) (by rw [he']) (by rw [he']) ?_
    rw [he']
    intro op ⟨⟨R, h5, h6⟩, h4⟩
    refine ⟨⟨R, h5, ?_⟩, h4⟩
    rw [if_pos hps, hrt] at h6
    rw [if_neg (by simp)]
    intro j
    have := h6 j
    simp only [State.runs, State.midRestart, hrt, State.isRunning, Bool.or_false] at this ⊢
    exact this
  | idle => rw [hrt] at hs; simp [RtPc.inSwitch] at hs
  | gotCurrent r => rw [hrt] at hs; simp [RtPc.inSwitch] at hs
  | pre => rw [hrt] at hs; simp [RtPc.inSwitch] at hs
  | restart k => rw [hrt] at hs; simp [RtPc.inSwitch] at hs
  | restartMid k id => rw [hrt] at hs; simp [RtPc.inSwitch] at hs
  | sweep k => rw [hrt] at hs; simp [RtPc.inSwitch] at hs
  | publish => rw [hrt] at hs; simp [RtPc.inSwitch] at hs
  | pubFill k m => rw [hrt] at hs; simp [RtPc.inSwitch] at hs
  | switchCheck => rw [hrt] at hs; simp [RtPc.inSwitch] at hs
  | done => rw [hrt] at hs; simp [RtPc.inSwitch] at hs

theorem Inv2.rtStep {s : State} (h : Inv s) (h2 : Inv2 s) (i : RtIn) : Inv2 (s.rtStep i) := by
  by_cases hs : s.rt.inSwitch = true
  · exact h2.rtStep_switch h i hs
  · exact h2.rtStep_quiet h i (by simpa using hs)

end Pr2
