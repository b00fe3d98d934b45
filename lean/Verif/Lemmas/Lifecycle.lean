import Verif.Lemmas.Log
import Verif.Spec.Lifecycle

namespace Pr2
set_option linter.unusedVariables false
set_option linter.unusedSimpArgs false

/-! ## Every accepted switch is executed exactly once -/

theorem executed_append (a b : List Ev) : executedSwitches (a ++ b) = executedSwitches a ++ executedSwitches b := by
  simp [executedSwitches]

theorem accepted_append (a b : List CallRec) : acceptedSwitches (a ++ b) = acceptedSwitches a ++ acceptedSwitches b := by
  simp [acceptedSwitches]

theorem idsOf_viewOf (h : Heap) (l : List Entry) (sc : List Nat) (R : Nat → Bool) (ns : List String) :
    (viewOf h l sc R).idsOf ns = ns.filterMap (findByName l) := by
  unfold View.idsOf viewOf
  congr 1
  funext n
  unfold findByName
  induction l with
  | nil => rfl
  | cons e l ih =>
    simp only [List.map_cons, List.find?_cons]
    cases hc : (e.name == n)
    · exact ih
    · rfl

/-- the switch the realtime loop has begun for the call in progress -/
def pendingSwitch (s : State) : List (List Nat × List Nat) :=
  match s.nrt with
  | .waitSwitch op | .waitSwitchInner op => if s.pleaseSwitch && !s.rt.inSwitch then [] else [(stopIds s op, startIds s op)]
  | _ => []

def ExactlyOnce (s : State) : Prop := executedSwitches s.log = acceptedSwitches s.nlog ++ pendingSwitch s

theorem pending_congr {s s' : State} (h1 : s'.nrt = s.nrt) (h2 : (s'.pleaseSwitch && !s'.rt.inSwitch) = (s.pleaseSwitch && !s.rt.inSwitch))
    (h3 : s'.lists s'.current = s.lists s.current) : pendingSwitch s' = pendingSwitch s := by
  have e1 : ∀ op, stopIds s' op = stopIds s op := by intro op; unfold stopIds; rw [h3]
  have e2 : ∀ op, startIds s' op = startIds s op := by intro op; unfold startIds; rw [h3]
  unfold pendingSwitch
  rw [h1, h2]
  simp only [e1, e2]

theorem ExactlyOnce.congr {s s' : State} (h : ExactlyOnce s) (h0 : executedSwitches s'.log = executedSwitches s.log)
    (h00 : s'.nlog = s.nlog) (h1 : s'.nrt = s.nrt)
    (h2 : (s'.pleaseSwitch && !s'.rt.inSwitch) = (s.pleaseSwitch && !s.rt.inSwitch))
    (h3 : s'.lists s'.current = s.lists s.current) : ExactlyOnce s' := by
  unfold ExactlyOnce
  rw [h0, h00, pending_congr h1 h2 h3]
  exact h

theorem ExactlyOnce.rtStep {s : State} (h : Inv s) (h2 : Inv2 s) (hx : ExactlyOnce s) (i : RtIn) : ExactlyOnce (s.rtStep i) := by
  cases hrt : s.rt with
  | idle => unfold State.rtStep; rw [hrt]; exact hx.congr rfl rfl rfl (by rw [hrt]; rfl) rfl
  | gotCurrent r => unfold State.rtStep; rw [hrt]; exact hx.congr rfl rfl rfl (by rw [hrt]; rfl) rfl
  | pre =>
    obtain ⟨u, hu, he⟩ := rtStep_pre h i hrt
    rw [he]
    refine hx.congr (by rw [executed_append]; simp [executedSwitches]) rfl rfl ?_ rfl
    rw [hrt]; dsimp only; split <;> rfl
  | restart k =>
    obtain ⟨u, hu, he⟩ := rtStep_restart h i hrt
    rcases he with ⟨hk, j, e, h1, h2, h3, ⟨hr, he⟩ | ⟨hr, he⟩⟩ | ⟨hk, he⟩ <;> rw [he]
    · exact hx.congr (by rw [executed_append]; simp [executedSwitches]) rfl rfl (by rw [hrt]; rfl) rfl
    · exact hx.congr rfl rfl rfl (by rw [hrt]; rfl) rfl
    · exact hx.congr rfl rfl rfl (by rw [hrt]; rfl) rfl
  | restartMid k id =>
    rw [rtStep_restartMid h i hrt]
    exact hx.congr (by rw [executed_append]; simp [executedSwitches]) rfl rfl (by rw [hrt]; rfl) rfl
  | sweep k =>
    obtain ⟨u, hu, he⟩ := rtStep_sweep h i hrt
    rcases he with ⟨hk, j, e, h1, h2, h3, he⟩ | ⟨hk, he⟩ <;> rw [he]
    · refine hx.congr ?_ rfl rfl (by rw [hrt]; rfl) rfl
      dsimp only
      rw [executed_append]
      split <;> simp [executedSwitches]
    · exact hx.congr rfl rfl rfl (by rw [hrt]; rfl) rfl
  | publish =>
    unfold State.rtStep; rw [hrt]; simp only
    split <;> exact hx.congr rfl rfl rfl (by rw [hrt]; rfl) rfl
  | pubFill k msg =>
    obtain ⟨hu, hn, he⟩ := rtStep_pubFill h i hrt
    rcases he with ⟨e, he1, he⟩ | ⟨hk, he⟩ <;> rw [he]
    · exact hx.congr rfl rfl rfl (by rw [hrt]; rfl) rfl
    · exact hx.congr (by rw [executed_append]; simp [executedSwitches]) rfl rfl (by rw [hrt]; rfl) rfl
  | switchCheck =>
    unfold State.rtStep; rw [hrt]; simp only
    split
    · rename_i hp
      have hw := h.sw1 hp
      have hpr := h2.prog
      unfold Prog at hpr
      have key : ∀ op, SwitchProg s op → s.stopReq = stopIds s op ∧ s.startReq = startIds s op := by
        intro op hs
        obtain ⟨R, _, h6⟩ := hs.quiet (by rw [hrt]; rfl)
        rw [if_pos hp] at h6
        exact ⟨h6.1, h6.2.1⟩
      unfold ExactlyOnce at hx ⊢
      dsimp only
      rw [executed_append, hx]
      unfold pendingSwitch
      cases hn : s.nrt with
      | waitSwitch op =>
        rw [hn] at hpr
        obtain ⟨k1, k2⟩ := key op hpr.1
        simp [hp, hrt, RtPc.inSwitch, executedSwitches, k1, k2, stopIds, startIds]
      | waitSwitchInner op =>
        rw [hn] at hpr
        obtain ⟨k1, k2⟩ := key op hpr.1
        simp [hp, hrt, RtPc.inSwitch, executedSwitches, k1, k2, stopIds, startIds]
      | _ => rw [hn] at hw; simp [NrtPc.waitsSwitch] at hw
    · exact hx.congr rfl rfl rfl (by rw [hrt]; rfl) rfl
  | switchStop k =>
    have := rtStep_switchStop h i hrt
    rcases this with ⟨id, h1, h3, he⟩ | ⟨hk, he⟩ <;> rw [he]
    · exact hx.congr (by rw [executed_append]; simp [executedSwitches]) rfl rfl (by rw [hrt]; rfl) rfl
    · exact hx.congr rfl rfl rfl (by rw [hrt]; rfl) rfl
  | switchStart k =>
    have := rtStep_switchStart h i hrt
    rcases this with ⟨id, h1, h3, he⟩ | ⟨hk, he⟩ <;> rw [he]
    · exact hx.congr (by rw [executed_append]; simp [executedSwitches]) rfl rfl (by rw [hrt]; rfl) rfl
    · exact hx.congr rfl rfl rfl (by rw [hrt]; rfl) rfl
  | switchClear =>
    rw [rtStep_switchClear h i hrt]
    exact hx.congr (by rw [executed_append]; simp [executedSwitches]) rfl rfl (by rw [hrt]; rfl) rfl
  | switchFlag =>
    have hp := h.sw2 (by rw [hrt]; rfl)
    unfold State.rtStep; rw [hrt]
    exact hx.congr rfl rfl rfl (by rw [hrt, hp]; rfl) rfl
  | done =>
    unfold State.rtStep; rw [hrt]
    exact hx.congr (by rw [executed_append]; simp [executedSwitches]) rfl rfl (by rw [hrt]; rfl) rfl

/-- inside a call, no switch pending before or after -/
theorem ExactlyOnce.stay {s s' : State} (hx : ExactlyOnce s) (h0 : s'.log = s.log) (h1 : acceptedSwitches s'.nlog = acceptedSwitches s.nlog)
    (h2 : pendingSwitch s = []) (h3 : pendingSwitch s' = []) : ExactlyOnce s' := by
  unfold ExactlyOnce at hx ⊢
  rw [h0, h1, h3, hx, h2]

theorem accepted_ret (s : State) (op : Op) (r : Res) (h : (∀ a b k, op ≠ .switch a b k) ∨ r ≠ .flag true) :
    acceptedSwitches (s.ret op r).nlog = acceptedSwitches s.nlog := by
  unfold State.ret
  dsimp only
  rw [accepted_append]
  unfold acceptedSwitches
  rcases h with h | h
  · cases op <;> simp_all
  · cases op <;> cases r <;> simp_all

theorem ExactlyOnce.nrtStep {s : State} (h : Inv s) (h2 : Inv2 s) (hx : ExactlyOnce s) : ExactlyOnce s.nrtStep := by
  have hlog := (nrtKeeps h).log
  have hwf := h.wf
  have p0 : ∀ {pc}, s.nrt = pc → pc.waitsSwitch = false → pendingSwitch s = [] := by
    intro pc hn hw
    unfold pendingSwitch
    rw [hn]
    cases pc <;> simp_all [NrtPc.waitsSwitch]
  cases hn : s.nrt with
  | idle => unfold State.nrtStep; rw [hn]; exact hx
  | wait1 op =>
    unfold State.nrtStep; rw [hn]; simp only
    split <;> exact hx.stay rfl rfl (p0 hn rfl) rfl
  | wait1Inner op =>
    unfold State.nrtStep; rw [hn]; simp only [h.ok, if_true]
    exact hx.stay rfl rfl (p0 hn rfl) rfl
  | build op =>
    unfold State.nrtStep; rw [hn]; simp only
    split
    · exact hx.stay rfl rfl (p0 hn rfl) (by unfold pendingSwitch State.fail; simp [hn])
    · exact hx.stay rfl rfl (p0 hn rfl) rfl
  | build2 op =>
    cases op with
    | load r =>
      rcases nrtStep_build2_load h hn with ⟨hok, he, hg, hst⟩ | ⟨hok, he⟩ <;> rw [he]
      · exact hx.stay rfl rfl (p0 hn rfl) rfl
      · exact hx.stay rfl (accepted_ret _ _ _ (Or.inr (by simp))) (p0 hn rfl) rfl
    | unload n =>
      rcases nrtStep_build2_unload h hn with ⟨hok, he, hg⟩ | ⟨hok, he⟩ <;> rw [he]
      · exact hx.stay rfl rfl (p0 hn rfl) rfl
      · exact hx.stay rfl (accepted_ret _ _ _ (Or.inr (by simp))) (p0 hn rfl) rfl
    | switch a b c => rw [hn] at hwf; simp [NrtPc.wf, Op.isListOp] at hwf
    | list => rw [hn] at hwf; simp [NrtPc.wf, Op.isListOp] at hwf
  | pubLock op =>
    unfold State.nrtStep; rw [hn]; simp only
    split
    · exact hx.stay rfl rfl (p0 hn rfl) rfl
    · exact hx
  | pubResize op => unfold State.nrtStep; rw [hn]; simp only; exact hx.stay rfl rfl (p0 hn rfl) rfl
  | swap op => unfold State.nrtStep; rw [hn]; simp only; exact hx.stay rfl rfl (p0 hn rfl) rfl
  | wait2 op f =>
    unfold State.nrtStep; rw [hn]; simp only
    split <;> exact hx.stay rfl rfl (p0 hn rfl) rfl
  | wait2Inner op f =>
    unfold State.nrtStep; rw [hn]; simp only [h.ok, if_true]
    exact hx.stay rfl rfl (p0 hn rfl) rfl
  | clear op f =>
    unfold State.nrtStep; rw [hn]; simp only
    split
    · exact hx.stay rfl rfl (p0 hn rfl) (by unfold pendingSwitch State.fail; simp [hn])
    · exact hx.stay rfl rfl (p0 hn rfl) rfl
  | clear2 op f => unfold State.nrtStep; rw [hn]; simp only; exact hx.stay rfl rfl (p0 hn rfl) rfl
  | unlock op =>
    unfold State.nrtStep; rw [hn]; simp only
    refine hx.stay rfl (accepted_ret _ _ _ (Or.inl ?_)) (p0 hn rfl) rfl
    rintro a b k rfl
    rw [hn] at hwf; simp [NrtPc.wf, Op.isListOp] at hwf
  | resolve op =>
    unfold State.nrtStep; rw [hn]; simp only
    split
    · exact hx.stay rfl rfl (p0 hn rfl) (by unfold pendingSwitch State.fail; simp [hn])
    · exact hx.stay rfl rfl (p0 hn rfl) rfl
  | resolve2 op =>
    cases op with
    | switch start stop k =>
      unfold State.nrtStep; rw [hn]; simp only
      split
      · exact hx.stay rfl rfl (p0 hn rfl) rfl
      · exact hx.stay rfl (accepted_ret _ _ _ (Or.inr (by simp))) (p0 hn rfl) rfl
    | load r => rw [hn] at hwf; simp [NrtPc.wf, Op.isSwitch] at hwf
    | unload n => rw [hn] at hwf; simp [NrtPc.wf, Op.isSwitch] at hwf
    | list => rw [hn] at hwf; simp [NrtPc.wf, Op.isSwitch] at hwf
  | setFlag op =>
    have hns := h.notInSwitch (by rw [hn]; rfl)
    unfold State.nrtStep; rw [hn]; simp only
    exact hx.stay rfl rfl (p0 hn rfl) (by unfold pendingSwitch; simp [hns])
  | waitSwitch op =>
    have hp := h2.prog
    unfold Prog at hp; rw [hn] at hp
    obtain ⟨⟨R, p1, p2⟩, p3⟩ := hp
    unfold State.nrtStep; rw [hn]; simp only
    split
    · unfold ExactlyOnce pendingSwitch at hx ⊢
      rw [hn] at hx
      exact hx
    · rename_i hc
      rw [h.ok] at hc
      simp only [Bool.true_and, Bool.not_eq_true] at hc
      unfold ExactlyOnce at hx ⊢
      unfold pendingSwitch at hx
      rw [hn] at hx
      simp only [hc, Bool.false_and, Bool.false_eq_true, if_false] at hx
      unfold State.ret pendingSwitch
      dsimp only
      rw [hx, accepted_append, List.append_nil]
      congr 1
      cases op with
      | switch start stop k =>
        unfold acceptedSwitches
        simp only [List.filterMap_cons, List.filterMap_nil]
        rw [p1, idsOf_viewOf, idsOf_viewOf]
        rfl
      | load r => rw [hn] at hwf; simp [NrtPc.wf, Op.isSwitch] at hwf
      | unload n => rw [hn] at hwf; simp [NrtPc.wf, Op.isSwitch] at hwf
      | list => rw [hn] at hwf; simp [NrtPc.wf, Op.isSwitch] at hwf
  | waitSwitchInner op =>
    unfold State.nrtStep; rw [hn]; simp only [h.ok, if_true]
    unfold ExactlyOnce pendingSwitch at hx ⊢
    rw [hn] at hx
    exact hx
  | listing k acc =>
    rcases nrtStep_listing h hn with ⟨hk, he⟩ | ⟨j, e, hj, he1, he2, he⟩ <;> rw [he]
    · exact hx.stay rfl (accepted_ret _ _ _ (Or.inr (by simp))) (p0 hn rfl) rfl
    · exact hx.stay rfl rfl (p0 hn rfl) rfl

theorem ExactlyOnce.call {s : State} (hx : ExactlyOnce s) (op : Op) : ExactlyOnce (s.call op) := by
  unfold State.call
  split
  · rename_i hn
    refine hx.stay rfl rfl (by unfold pendingSwitch; rw [hn]) ?_
    unfold pendingSwitch
    cases op <;> rfl
  · exact hx

theorem Reachable.exactlyOnce {m : Bool} {s : State} (h : Reachable m s) : ExactlyOnce s :=
  (reach_induct m (P := fun s => Inv2 s ∧ ExactlyOnce s) ⟨inv2_first m, rfl⟩
    (fun s i h h2 => ⟨h2.1.rtStep h i, h2.2.rtStep h h2.1 i⟩) (fun s h h2 => ⟨h2.1.nrtStep h, h2.2.nrtStep h h2.1⟩)
    (fun s op h h2 => ⟨h2.1.call h op, h2.2.call op⟩) h).2.2

end Pr2

namespace Pr2
set_option linter.unusedVariables false
set_option linter.unusedSimpArgs false

/-! ## Run flags and the history of calls -/

theorem startedLast_nil (id : Nat) : ¬ StartedLast [] id := by
  rintro ⟨a, b, h, _⟩
  simp at h

theorem startedLast_snoc (log : List Ev) (e : Ev) (id : Nat) :
    StartedLast (log ++ [e]) id ↔ e = .starting id ∨ (e ≠ .stopping id ∧ StartedLast log id) := by
  constructor
  · rintro ⟨a, b, h, hb⟩
    rcases List.eq_nil_or_concat b with rfl | ⟨b', x, rfl⟩
    · have := List.append_inj_right' h (by simp)
      left; simpa using this
    · rw [List.concat_eq_append] at h hb
      have h' : log ++ [e] = (a ++ .starting id :: b') ++ [x] := by rw [h]; simp
      obtain ⟨h1, h2⟩ := List.append_inj' h' rfl
      simp only [List.cons.injEq, and_true] at h2
      subst h2
      simp only [List.mem_append, List.mem_singleton, not_or] at hb
      exact Or.inr ⟨fun h => hb.2 h.symm, a, b', h1, hb.1⟩
  · rintro (rfl | ⟨h, a, b, rfl, hb⟩)
    · exact ⟨log, [], rfl, by simp⟩
    · refine ⟨a, b ++ [e], by simp, ?_⟩
      simp only [List.mem_append, List.mem_singleton, not_or]
      exact ⟨hb, fun h' => h h'.symm⟩

/-- run flags agree with the history; objects not yet made were never called -/
structure Life (s : State) : Prop where
  run : ∀ id, id < s.next → (s.isRunning id = true ↔ StartedLast s.log id)
  new : ∀ id, s.next ≤ id → ∀ e ∈ s.log, e.calls id = false

theorem notStarted_of_uncalled {log : List Ev} {id : Nat} (h : ∀ e ∈ log, e.calls id = false) : ¬ StartedLast log id := by
  rintro ⟨a, b, rfl, _⟩
  have := h (.starting id) (by simp)
  simp [Ev.calls] at this

/-- a step that calls nothing -/
theorem Life.quiet {s s' : State} (hl : Life s) (h1 : s'.next = s.next) (h2 : ∀ i, s'.isRunning i = s.isRunning i) (h3 : s'.log = s.log) : Life s' :=
  ⟨fun id h => by rw [h2, h3]; exact hl.run id (h1 ▸ h), fun id h => by rw [h3]; exact hl.new id (h1 ▸ h)⟩

/-- a step that logs one event which is not a call -/
theorem Life.mark {s s' : State} (hl : Life s) (h1 : s'.next = s.next) (h2 : ∀ i, s'.isRunning i = s.isRunning i) (ev : Ev)
    (h3 : s'.log = s.log ++ [ev]) (h4 : ∀ id, ev.calls id = false) : Life s' := by
  refine ⟨fun id h => ?_, fun id h => ?_⟩
  · rw [h2, h3, startedLast_snoc, hl.run id (h1 ▸ h)]
    have := h4 id
    constructor
    · intro hs
      refine Or.inr ⟨?_, hs⟩
      rintro rfl
      simp [Ev.calls] at this
    · rintro (rfl | h)
      · simp [Ev.calls] at this
      · exact h.2
  · rw [h3]
    intro e he
    rcases List.mem_append.1 he with he | he
    · exact hl.new id (h1 ▸ h) e he
    · rw [List.mem_singleton.1 he]; exact h4 id

/-- a step that calls object `i` -/
theorem Life.called {s s' : State} (hl : Life s) (h1 : s'.next = s.next) {i : Nat} (hi : i < s.next) (ev : Ev)
    (h3 : s'.log = s.log ++ [ev]) (h4 : ∀ id, id ≠ i → ev.calls id = false)
    (h2 : ∀ id, id ≠ i → s'.isRunning id = s.isRunning id)
    (h5 : s'.isRunning i = true ↔ ev = .starting i ∨ (ev ≠ .stopping i ∧ s.isRunning i = true)) : Life s' := by
  refine ⟨fun id h => ?_, fun id h => ?_⟩
  · by_cases hc : id = i
    · subst hc
      rw [h3, startedLast_snoc, h5, hl.run id hi]
    · rw [h2 id hc, h3, startedLast_snoc, hl.run id (h1 ▸ h)]
      have := h4 id hc
      constructor
      · intro hs
        refine Or.inr ⟨?_, hs⟩
        rintro rfl
        simp [Ev.calls] at this
      · rintro (rfl | h)
        · simp [Ev.calls] at this
        · exact h.2
  · rw [h3]
    intro e he
    rcases List.mem_append.1 he with he | he
    · exact hl.new id (h1 ▸ h) e he
    · rw [List.mem_singleton.1 he]
      refine h4 id ?_
      rintro rfl
      rw [h1] at h; omega

theorem isRunning_setSt (s : State) (i : Nat) (st : CState) (s' : State) (hh : s'.heap = setSt s.heap i st) :
    (∀ id, id ≠ i → s'.isRunning id = s.isRunning id) ∧ (s'.isRunning i = true ↔ st = .running) := by
  unfold State.isRunning
  rw [hh]
  refine ⟨fun id h => by simp [setSt, h], ?_⟩
  simp [setSt, Ctrl.isRunning]

theorem Life.rtStep {s : State} (h : Inv s) (hl : Life s) (i : RtIn) : Life (s.rtStep i) := by
  have hlt : ∀ {u}, s.used = some u → ∀ e ∈ s.lists u, e.id < s.next := fun hu e he => (h.goodUsed hu).lt e he
  have hltc : ∀ e ∈ s.lists s.current, e.id < s.next := h.good.lt
  cases hrt : s.rt with
  | idle => unfold State.rtStep; rw [hrt]; exact hl.quiet rfl (fun _ => rfl) rfl
  | gotCurrent r => unfold State.rtStep; rw [hrt]; exact hl.quiet rfl (fun _ => rfl) rfl
  | pre =>
    obtain ⟨u, hu, he⟩ := rtStep_pre h i hrt
    rw [he]
    exact hl.mark rfl (fun _ => rfl) _ rfl (fun _ => rfl)
  | restart k =>
    obtain ⟨u, hu, he⟩ := rtStep_restart h i hrt
    rcases he with ⟨hk, j, e, h1, h2, h3, ⟨hr, he⟩ | ⟨hr, he⟩⟩ | ⟨hk, he⟩ <;> rw [he]
    · obtain ⟨f1, f2⟩ := isRunning_setSt s e.id .initialized { s with heap := setSt s.heap e.id .initialized, rt := .restartMid k e.id, log := s.log ++ [.stopping e.id] } rfl
      refine hl.called rfl (hlt hu e h3) (.stopping e.id) rfl (fun id hd => by simp [Ev.calls, Ne.symm hd]) f1 ?_
      rw [f2]; simp
    · exact hl.quiet rfl (fun _ => rfl) rfl
    · exact hl.quiet rfl (fun _ => rfl) rfl
  | restartMid k id =>
    obtain ⟨_, u, e, hu, he, hid⟩ := h.mid id (by rw [hrt]; rfl)
    rw [rtStep_restartMid h i hrt]
    obtain ⟨f1, f2⟩ := isRunning_setSt s id .running { s with heap := setSt s.heap id .running, rt := .restart (k+1), log := s.log ++ [.starting id] } rfl
    refine hl.called rfl (hid ▸ hlt hu e he) (.starting id) rfl (fun id' hd => by simp [Ev.calls, Ne.symm hd]) f1 ?_
    rw [f2]; simp
  | sweep k =>
    obtain ⟨u, hu, he⟩ := rtStep_sweep h i hrt
    rcases he with ⟨hk, j, e, h1, h2, h3, he⟩ | ⟨hk, he⟩ <;> rw [he]
    · cases hr : s.isRunning e.id
      · exact hl.quiet rfl (fun _ => rfl) (by simp)
      · refine hl.called rfl (hlt hu e h3) (.update e.id) (by simp) (fun id hd => by simp [Ev.calls, Ne.symm hd]) (fun _ _ => rfl) ?_
        simp [State.isRunning]
    · exact hl.quiet rfl (fun _ => rfl) rfl
  | publish =>
    unfold State.rtStep; rw [hrt]; simp only
    split <;> exact hl.quiet rfl (fun _ => rfl) rfl
  | pubFill k msg =>
    obtain ⟨hu, hn, he⟩ := rtStep_pubFill h i hrt
    rcases he with ⟨e, he1, he⟩ | ⟨hk, he⟩ <;> rw [he]
    · exact hl.quiet rfl (fun _ => rfl) rfl
    · exact hl.mark rfl (fun _ => rfl) _ rfl (fun _ => rfl)
  | switchCheck =>
    unfold State.rtStep; rw [hrt]; simp only
    split
    · exact hl.mark rfl (fun _ => rfl) _ rfl (fun _ => rfl)
    · exact hl.quiet rfl (fun _ => rfl) rfl
  | switchStop k =>
    rcases rtStep_switchStop h i hrt with ⟨id, h1, h3, he⟩ | ⟨hk, he⟩ <;> rw [he]
    · obtain ⟨e, he1, he2⟩ := h.req id (Or.inl (List.mem_of_getElem? h1))
      obtain ⟨f1, f2⟩ := isRunning_setSt s id .initialized { s with heap := setSt s.heap id .initialized, rt := .switchStop (k+1), log := s.log ++ [.stopping id] } rfl
      refine hl.called rfl (he2 ▸ hltc e he1) (.stopping id) rfl (fun id' hd => by simp [Ev.calls, Ne.symm hd]) f1 ?_
      rw [f2]; simp
    · exact hl.quiet rfl (fun _ => rfl) rfl
  | switchStart k =>
    rcases rtStep_switchStart h i hrt with ⟨id, h1, h3, he⟩ | ⟨hk, he⟩ <;> rw [he]
    · obtain ⟨e, he1, he2⟩ := h.req id (Or.inr (List.mem_of_getElem? h1))
      obtain ⟨f1, f2⟩ := isRunning_setSt s id .running { s with heap := setSt s.heap id .running, rt := .switchStart (k+1), log := s.log ++ [.starting id] } rfl
      refine hl.called rfl (he2 ▸ hltc e he1) (.starting id) rfl (fun id' hd => by simp [Ev.calls, Ne.symm hd]) f1 ?_
      rw [f2]; simp
    · exact hl.quiet rfl (fun _ => rfl) rfl
  | switchClear =>
    rw [rtStep_switchClear h i hrt]
    exact hl.mark rfl (fun _ => rfl) _ rfl (fun _ => rfl)
  | switchFlag => unfold State.rtStep; rw [hrt]; exact hl.quiet rfl (fun _ => rfl) rfl
  | done =>
    unfold State.rtStep; rw [hrt]
    exact hl.mark rfl (fun _ => rfl) _ rfl (fun _ => rfl)

/-- heap and counter are changed by a successful load only -/
theorem nrtStep_heap {s : State} (h : Inv s) :
    (s.nrtStep.heap = s.heap ∧ s.nrtStep.next = s.next) ∨
    (∃ r, s.nrt = .build2 (.load r) ∧ s.nrtStep.next = s.next + 1 ∧ (newCtrl s r).st = .initialized ∧
      s.nrtStep.heap = fun i => if i = s.next then newCtrl s r else s.heap i) := by
  cases hn : s.nrt with
  | build2 op =>
    cases op with
    | load r =>
      rcases nrtStep_build2_load h hn with ⟨hok, he, hg, hst⟩ | ⟨hok, he⟩
      · right; refine ⟨r, rfl, ?_, hst, ?_⟩ <;> rw [he]
      · left; rw [he]; exact ⟨rfl, rfl⟩
    | unload n =>
      left
      rcases nrtStep_build2_unload h hn with ⟨hok, he, hg⟩ | ⟨hok, he⟩ <;> rw [he] <;> exact ⟨rfl, rfl⟩
    | switch a b c => have := h.wf; rw [hn] at this; simp [NrtPc.wf, Op.isListOp] at this
    | list => have := h.wf; rw [hn] at this; simp [NrtPc.wf, Op.isListOp] at this
  | listing k acc =>
    left
    rcases nrtStep_listing h hn with ⟨hk, he⟩ | ⟨j, e, hj, he1, he2, he⟩ <;> rw [he] <;> exact ⟨rfl, rfl⟩
  | resolve2 op =>
    left
    unfold State.nrtStep; rw [hn]; simp only
    cases op <;> simp only
    case switch => split <;> exact ⟨rfl, rfl⟩
    all_goals exact ⟨rfl, rfl⟩
  | _ =>
    left
    unfold State.nrtStep; rw [hn]; simp only
    first
      | exact ⟨rfl, rfl⟩
      | exact ⟨trivial, trivial⟩
      | (split <;> exact ⟨rfl, rfl⟩)

theorem Life.nrtStep {s : State} (h : Inv s) (hl : Life s) : Life s.nrtStep := by
  have hlog := (nrtKeeps h).log
  rcases nrtStep_heap h with ⟨h1, h2⟩ | ⟨r, hn, h2, h3, h1⟩
  · exact hl.quiet h2 (fun i => by unfold State.isRunning; rw [h1]) hlog
  · refine ⟨fun id hid => ?_, fun id hid => ?_⟩
    · rw [hlog]
      unfold State.isRunning
      rw [h1]
      dsimp only
      by_cases hc : id = s.next
      · rw [if_pos hc]
        have := notStarted_of_uncalled (hl.new id (by omega))
        simp only [this, iff_false, Bool.not_eq_true]
        unfold Ctrl.isRunning
        rw [h3]; rfl
      · rw [if_neg hc]
        exact hl.run id (by omega)
    · rw [hlog]
      exact hl.new id (by omega)

theorem Life.call {s : State} (hl : Life s) (op : Op) : Life (s.call op) := by
  unfold State.call
  split
  · exact hl.quiet rfl (fun _ => rfl) rfl
  · exact hl

theorem Reachable.life {m : Bool} {s : State} (h : Reachable m s) : Life s :=
  (reach_induct m (P := Life) ⟨fun id h => by simp [State.init] at h, fun id h e he => by simp [State.init] at he⟩
    (fun s i h h2 => h2.rtStep h i) (fun s h h2 => h2.nrtStep h)
    (fun s op h h2 => h2.call op) h).2

/-! ## Unloaded objects are never called again -/

/-- object `id` is in no list the realtime loop may use -/
structure Gone (id : Nat) (s : State) : Prop where
  lt : id < s.next
  cur : ∀ e ∈ s.lists s.current, e.id ≠ id
  former : ∀ f, s.nrt.former = some f → ∀ e ∈ s.lists f, e.id ≠ id
  built : s.nrt.built = true → ∀ e ∈ s.lists (!s.current), e.id ≠ id

theorem rtStep_frame {s : State} (h : Inv s) (i : RtIn) :
    (s.rtStep i).next = s.next ∧ (s.rtStep i).lists = s.lists ∧ (s.rtStep i).current = s.current ∧ (s.rtStep i).nrt = s.nrt ∧
    (s.rtStep i).nlog = s.nlog ∧ (s.rtStep i).snap = s.snap := by
  by_cases hs : s.rt.inSwitch = true
  · cases hrt : s.rt with
    | switchStop k => rcases rtStep_switchStop h i hrt with ⟨id, h1, h3, he⟩ | ⟨hk, he⟩ <;> rw [he] <;> exact ⟨rfl, rfl, rfl, rfl, rfl, rfl⟩
    | switchStart k => rcases rtStep_switchStart h i hrt with ⟨id, h1, h3, he⟩ | ⟨hk, he⟩ <;> rw [he] <;> exact ⟨rfl, rfl, rfl, rfl, rfl, rfl⟩
    | switchClear => rw [rtStep_switchClear h i hrt]; exact ⟨rfl, rfl, rfl, rfl, rfl, rfl⟩
    | switchFlag => unfold State.rtStep; rw [hrt]; exact ⟨rfl, rfl, rfl, rfl, rfl, rfl⟩
    | _ => rw [hrt] at hs; simp [RtPc.inSwitch] at hs
  · obtain ⟨hr, hb, hl, hsc, hc, hn, hsnap, hra, hnl, hps, hst, hsa, hnx⟩ := rtStep_runs h i (by simpa using hs)
    exact ⟨hnx, hl, hc, hn, hnl, hsnap⟩

theorem Gone.rtStep {id : Nat} {s : State} (h : Inv s) (hg : Gone id s) (i : RtIn) : Gone id (s.rtStep i) := by
  obtain ⟨h1, h2, h3, h4, _⟩ := rtStep_frame h i
  exact ⟨by rw [h1]; exact hg.lt, by rw [h2, h3]; exact hg.cur, by rw [h2, h4]; exact hg.former, by rw [h2, h3, h4]; exact hg.built⟩

theorem Gone.used {id : Nat} {s : State} (h : Inv s) (hg : Gone id s) {u : Bool} (hu : s.used = some u) : ∀ e ∈ s.lists u, e.id ≠ id := by
  rcases h.used with h1 | ⟨f, h1, h2⟩
  · rw [h1, Option.some.injEq] at hu; subst hu; exact hg.cur
  · rw [h1, Option.some.injEq] at hu; subst hu; exact hg.former f h2

/-- a realtime step does not call an object that is gone -/
theorem Gone.uncalled {id : Nat} {s : State} (h : Inv s) (hg : Gone id s) (i : RtIn) :
    (s.rtStep i).log = s.log ∨ ∃ ev, (s.rtStep i).log = s.log ++ [ev] ∧ ev.calls id = false := by
  cases hrt : s.rt with
  | idle => left; unfold State.rtStep; rw [hrt]
  | gotCurrent r => left; unfold State.rtStep; rw [hrt]
  | pre =>
    obtain ⟨u, hu, he⟩ := rtStep_pre h i hrt
    rw [he]; exact Or.inr ⟨_, rfl, rfl⟩
  | restart k =>
    obtain ⟨u, hu, he⟩ := rtStep_restart h i hrt
    rcases he with ⟨hk, j, e, h1, h2, h3, ⟨hr, he⟩ | ⟨hr, he⟩⟩ | ⟨hk, he⟩ <;> rw [he]
    · exact Or.inr ⟨_, rfl, by simp [Ev.calls, hg.used h hu e h3]⟩
    · exact Or.inl rfl
    · exact Or.inl rfl
  | restartMid k id' =>
    obtain ⟨_, u, e, hu, he, hid⟩ := h.mid id' (by rw [hrt]; rfl)
    rw [rtStep_restartMid h i hrt]
    refine Or.inr ⟨_, rfl, ?_⟩
    have := hg.used h hu e he
    rw [hid] at this
    simp [Ev.calls, this]
  | sweep k =>
    obtain ⟨u, hu, he⟩ := rtStep_sweep h i hrt
    rcases he with ⟨hk, j, e, h1, h2, h3, he⟩ | ⟨hk, he⟩ <;> rw [he]
    · cases hr : s.isRunning e.id
      · left; simp
      · exact Or.inr ⟨.update e.id, by simp, by simp [Ev.calls, hg.used h hu e h3]⟩
    · exact Or.inl rfl
  | publish => left; unfold State.rtStep; rw [hrt]; simp only; split <;> rfl
  | pubFill k msg =>
    obtain ⟨hu, hn, he⟩ := rtStep_pubFill h i hrt
    rcases he with ⟨e, he1, he⟩ | ⟨hk, he⟩ <;> rw [he]
    · exact Or.inl rfl
    · exact Or.inr ⟨_, rfl, rfl⟩
  | switchCheck =>
    unfold State.rtStep; rw [hrt]; simp only
    split
    · exact Or.inr ⟨_, rfl, rfl⟩
    · exact Or.inl rfl
  | switchStop k =>
    rcases rtStep_switchStop h i hrt with ⟨id', h1, h3, he⟩ | ⟨hk, he⟩ <;> rw [he]
    · obtain ⟨e, he1, he2⟩ := h.req id' (Or.inl (List.mem_of_getElem? h1))
      refine Or.inr ⟨_, rfl, ?_⟩
      have := hg.cur e he1
      rw [he2] at this
      simp [Ev.calls, this]
    · exact Or.inl rfl
  | switchStart k =>
    rcases rtStep_switchStart h i hrt with ⟨id', h1, h3, he⟩ | ⟨hk, he⟩ <;> rw [he]
    · obtain ⟨e, he1, he2⟩ := h.req id' (Or.inr (List.mem_of_getElem? h1))
      refine Or.inr ⟨_, rfl, ?_⟩
      have := hg.cur e he1
      rw [he2] at this
      simp [Ev.calls, this]
    · exact Or.inl rfl
  | switchClear => rw [rtStep_switchClear h i hrt]; exact Or.inr ⟨_, rfl, rfl⟩
  | switchFlag => left; unfold State.rtStep; rw [hrt]
  | done => right; unfold State.rtStep; rw [hrt]; exact ⟨_, rfl, rfl⟩

/-- steps that change no list and reach no later position of load/unload -/
theorem Gone.of {id : Nat} {s s' : State} (hg : Gone id s) (h1 : s'.next = s.next) (h2 : s'.lists = s.lists) (h3 : s'.current = s.current)
    (h4 : ∀ f, s'.nrt.former = some f → s.nrt.former = some f) (h5 : s'.nrt.built = true → s.nrt.built = true) : Gone id s' :=
  ⟨by rw [h1]; exact hg.lt, by rw [h2, h3]; exact hg.cur, fun f hf => by rw [h2]; exact hg.former f (h4 f hf),
    fun hb => by rw [h2, h3]; exact hg.built (h5 hb)⟩

theorem Gone.nrtStep {id : Nat} {s : State} (h : Inv s) (hg : Gone id s) : Gone id s.nrtStep := by
  have triv : ∀ {s'}, s'.next = s.next → s'.lists = s.lists → s'.current = s.current → s'.nrt.former = none → s'.nrt.built = false → Gone id s' :=
    fun h1 h2 h3 h4 h5 => hg.of h1 h2 h3 (fun f hf => by rw [h4] at hf; simp at hf) (fun hb => by rw [h5] at hb; simp at hb)
  cases hn : s.nrt with
  | idle => unfold State.nrtStep; rw [hn]; exact hg
  | wait1 op => unfold State.nrtStep; rw [hn]; simp only; split <;> exact triv rfl rfl rfl rfl rfl
  | wait1Inner op =>
    unfold State.nrtStep; rw [hn]; simp only [h.ok, if_true]
    exact triv rfl rfl rfl rfl rfl
  | build op =>
    unfold State.nrtStep; rw [hn]; simp only
    split
    · exact triv rfl rfl rfl (by unfold State.fail; simp [hn, NrtPc.former]) (by unfold State.fail; simp [hn, NrtPc.built])
    · exact triv rfl rfl rfl rfl rfl
  | build2 op =>
    cases op with
    | load r =>
      rcases nrtStep_build2_load h hn with ⟨hok, he, _⟩ | ⟨hok, he⟩ <;> rw [he]
      · refine ⟨Nat.lt_succ_of_lt hg.lt, ?_, fun f hf => by simp [NrtPc.former] at hf, ?_⟩
        · simp only [setAt_not]; exact hg.cur
        · intro _
          simp only [setAt_same]
          intro e he
          rcases List.mem_append.1 he with he | he
          · exact hg.cur e he
          · rw [List.mem_singleton.1 he]
            have := hg.lt
            dsimp only
            omega
      · refine ⟨hg.lt, ?_, fun f hf => by simp [State.ret, NrtPc.former] at hf, fun hb => by simp [State.ret, NrtPc.built] at hb⟩
        simp only [State.ret, setAt_not]; exact hg.cur
    | unload n =>
      rcases nrtStep_build2_unload h hn with ⟨hok, he, _⟩ | ⟨hok, he⟩ <;> rw [he]
      · refine ⟨hg.lt, ?_, fun f hf => by simp [NrtPc.former] at hf, ?_⟩
        · simp only [setAt_not]; exact hg.cur
        · intro _
          simp only [setAt_same]
          intro e he
          exact hg.cur e (List.mem_filter.1 he).1
      · refine ⟨hg.lt, ?_, fun f hf => by simp [State.ret, NrtPc.former] at hf, fun hb => by simp [State.ret, NrtPc.built] at hb⟩
        simp only [State.ret, setAt_not]; exact hg.cur
    | switch a b c => have := h.wf; rw [hn] at this; simp [NrtPc.wf, Op.isListOp] at this
    | list => have := h.wf; rw [hn] at this; simp [NrtPc.wf, Op.isListOp] at this
  | pubLock op =>
    unfold State.nrtStep; rw [hn]; simp only
    split
    · exact hg.of rfl rfl rfl (fun f hf => by simp [NrtPc.former] at hf) (fun _ => by rw [hn]; rfl)
    · exact hg
  | pubResize op =>
    unfold State.nrtStep; rw [hn]; simp only
    exact hg.of rfl rfl rfl (fun f hf => by simp [NrtPc.former] at hf) (fun _ => by rw [hn]; rfl)
  | swap op =>
    unfold State.nrtStep; rw [hn]; simp only
    refine ⟨hg.lt, hg.built (by rw [hn]; rfl), ?_, fun hb => by simp [NrtPc.built] at hb⟩
    intro f hf
    simp only [NrtPc.former, Option.some.injEq] at hf
    rw [← hf]
    exact hg.cur
  | wait2 op f =>
    unfold State.nrtStep; rw [hn]; simp only
    split
    · exact hg.of rfl rfl rfl (fun g hf => by rw [hn]; exact hf) (fun hb => by simp [NrtPc.built] at hb)
    · exact triv rfl rfl rfl rfl rfl
  | wait2Inner op f =>
    unfold State.nrtStep; rw [hn]; simp only [h.ok, if_true]
    exact hg.of rfl rfl rfl (fun g hf => by rw [hn]; exact hf) (fun hb => by simp [NrtPc.built] at hb)
  | clear op f =>
    unfold State.nrtStep; rw [hn]; simp only
    split
    · exact triv rfl rfl rfl (by unfold State.fail; simp [hn, NrtPc.former]) (by unfold State.fail; simp [hn, NrtPc.built])
    · exact triv rfl rfl rfl rfl rfl
  | clear2 op f =>
    have hf := h.clearing f (by rw [hn]; rfl)
    unfold State.nrtStep; rw [hn]; simp only
    refine ⟨hg.lt, ?_, fun f hf => by simp [NrtPc.former] at hf, fun hb => by simp [NrtPc.built] at hb⟩
    dsimp only
    rw [hf]
    simp only [setAt_not]
    exact hg.cur
  | unlock op => unfold State.nrtStep; rw [hn]; exact triv rfl rfl rfl rfl rfl
  | resolve op =>
    unfold State.nrtStep; rw [hn]; simp only
    split
    · exact triv rfl rfl rfl (by unfold State.fail; simp [hn, NrtPc.former]) (by unfold State.fail; simp [hn, NrtPc.built])
    · exact triv rfl rfl rfl rfl rfl
  | resolve2 op =>
    unfold State.nrtStep; rw [hn]; simp only
    cases op with
    | switch start stop k => simp only; split <;> exact triv rfl rfl rfl rfl rfl
    | load r => exact triv rfl rfl rfl (by unfold State.fail; simp [hn, NrtPc.former]) (by unfold State.fail; simp [hn, NrtPc.built])
    | unload n => exact triv rfl rfl rfl (by unfold State.fail; simp [hn, NrtPc.former]) (by unfold State.fail; simp [hn, NrtPc.built])
    | list => exact triv rfl rfl rfl (by unfold State.fail; simp [hn, NrtPc.former]) (by unfold State.fail; simp [hn, NrtPc.built])
  | setFlag op => unfold State.nrtStep; rw [hn]; exact triv rfl rfl rfl rfl rfl
  | waitSwitch op => unfold State.nrtStep; rw [hn]; simp only; split <;> exact triv rfl rfl rfl rfl rfl
  | waitSwitchInner op =>
    unfold State.nrtStep; rw [hn]; simp only [h.ok, if_true]
    exact triv rfl rfl rfl rfl rfl
  | listing k acc =>
    rcases nrtStep_listing h hn with ⟨hk, he⟩ | ⟨j, e, hj, he1, he2, he⟩ <;> rw [he] <;> exact triv rfl rfl rfl rfl rfl

theorem Gone.call {id : Nat} {s : State} (hg : Gone id s) (op : Op) : Gone id (s.call op) := by
  unfold State.call
  split
  · rename_i hn
    refine hg.of rfl rfl rfl ?_ ?_
    · cases op <;> simp [NrtPc.former]
    · cases op <;> simp [NrtPc.built]
  · exact hg

/-- snapshots: objects are distinct and made -/
structure SnapOk (s : State) : Prop where
  lt : s.nrt ≠ .idle → ∀ c ∈ s.snap.ctrls, c.id < s.next
  ids : s.nrt ≠ .idle → (s.snap.ctrls.map (·.id)).Nodup

/-- the objects removed by unload calls so far are gone -/
def RemovedGone (s : State) : Prop :=
  ∀ r ∈ s.nlog, ∀ n, r.op = .unload n → r.res = .flag true → ∀ c ∈ r.pre.ctrls, c.name = n → Gone c.id s

theorem snap_nrtStep {s : State} (h : Inv s) : s.nrtStep.snap = s.snap ∧
    (s.nrtStep.nlog = s.nlog ∨ ∃ r, s.nrtStep.nlog = s.nlog ++ [r] ∧
      ((∀ n, r.op = .unload n → r.res = .flag false) ∨ (∃ op, s.nrt = .unlock op ∧ r = ⟨op, .flag true, s.snap, s.view, s.raced⟩))) := by
  cases hn : s.nrt with
  | build2 op =>
    cases op with
    | load r =>
      rcases nrtStep_build2_load h hn with ⟨hok, he, hg, hst⟩ | ⟨hok, he⟩ <;> rw [he]
      · exact ⟨rfl, Or.inl rfl⟩
      · exact ⟨rfl, Or.inr ⟨_, rfl, Or.inl (by simp)⟩⟩
    | unload n =>
      rcases nrtStep_build2_unload h hn with ⟨hok, he, hg⟩ | ⟨hok, he⟩ <;> rw [he]
      · exact ⟨rfl, Or.inl rfl⟩
      · exact ⟨rfl, Or.inr ⟨_, rfl, Or.inl (by simp)⟩⟩
    | switch a b c => have := h.wf; rw [hn] at this; simp [NrtPc.wf, Op.isListOp] at this
    | list => have := h.wf; rw [hn] at this; simp [NrtPc.wf, Op.isListOp] at this
  | listing k acc =>
    rcases nrtStep_listing h hn with ⟨hk, he⟩ | ⟨j, e, hj, he1, he2, he⟩ <;> rw [he]
    · exact ⟨rfl, Or.inr ⟨_, rfl, Or.inl (by simp)⟩⟩
    · exact ⟨rfl, Or.inl rfl⟩
  | resolve2 op =>
    unfold State.nrtStep; rw [hn]; simp only
    cases op <;> simp only
    case switch =>
      split
      · exact ⟨rfl, Or.inl rfl⟩
      · exact ⟨rfl, Or.inr ⟨_, rfl, Or.inl (by simp)⟩⟩
    all_goals exact ⟨rfl, Or.inl rfl⟩
  | unlock op =>
    unfold State.nrtStep; rw [hn]
    exact ⟨rfl, Or.inr ⟨_, rfl, Or.inr ⟨op, rfl, rfl⟩⟩⟩
  | waitSwitch op =>
    unfold State.nrtStep; rw [hn]; simp only
    split
    · exact ⟨rfl, Or.inl rfl⟩
    · refine ⟨rfl, Or.inr ⟨_, rfl, Or.inl ?_⟩⟩
      rintro n rfl
      have := h.wf; rw [hn] at this; simp [NrtPc.wf, Op.isSwitch] at this
  | waitSwitchInner op =>
    unfold State.nrtStep; rw [hn]; simp only [h.ok, if_true]
    exact ⟨trivial, Or.inl trivial⟩
  | wait1Inner op =>
    unfold State.nrtStep; rw [hn]; simp only [h.ok, if_true]
    exact ⟨trivial, Or.inl trivial⟩
  | wait2Inner op f =>
    unfold State.nrtStep; rw [hn]; simp only [h.ok, if_true]
    exact ⟨trivial, Or.inl trivial⟩
  | _ =>
    unfold State.nrtStep; rw [hn]; simp only
    first
      | exact ⟨rfl, Or.inl rfl⟩
      | exact ⟨trivial, Or.inl trivial⟩
      | (split <;> exact ⟨rfl, Or.inl rfl⟩)

theorem next_mono_nrt {s : State} (h : Inv s) : s.next ≤ s.nrtStep.next := by
  rcases nrtStep_heap h with ⟨_, h2⟩ | ⟨r, hn, h2, _⟩ <;> omega

theorem RemovedGone.nrtStep {s : State} (h : Inv s) (h2 : Inv2 s) (hs : SnapOk s) (hr : RemovedGone s) : SnapOk s.nrtStep ∧ RemovedGone s.nrtStep := by
  obtain ⟨f1, f2⟩ := snap_nrtStep h
  have hnx := next_mono_nrt h
  have hidle : s.nrtStep.nrt ≠ .idle → s.nrt ≠ .idle := by
    intro h3 h4
    apply h3
    unfold State.nrtStep; rw [h4]; simp only; exact h4
  refine ⟨⟨fun hi c hc => ?_, fun hi => ?_⟩, ?_⟩
  · rw [f1] at hc
    exact lt_of_lt_of_le (hs.lt (hidle hi) c hc) hnx
  · rw [f1]; exact hs.ids (hidle hi)
  · intro r hrm n ho hres c hc hcn
    have old : r ∈ s.nlog → Gone c.id s.nrtStep := fun hm => (hr r hm n ho hres c hc hcn).nrtStep h
    rcases f2 with f2 | ⟨r', f2, f3⟩
    · rw [f2] at hrm; exact old hrm
    · rw [f2] at hrm
      rcases List.mem_append.1 hrm with hm | hm
      · exact old hm
      · rw [List.mem_singleton] at hm
        subst hm
        rcases f3 with f3 | ⟨op, hn, f3⟩
        · rw [f3 n ho] at hres; simp at hres
        · have hni : s.nrt ≠ .idle := by rw [hn]; simp
          have hpr := h2.prog
          unfold Prog at hpr; rw [hn] at hpr
          subst f3
          dsimp only at ho hc
          subst ho
          rcases hpr with ⟨_, _, _, _, hpost⟩ | ⟨h3, _⟩
          · dsimp only at hpost
            have : s.nrtStep = { s with pubLock := none }.ret (.unload n) (.flag true) := by unfold State.nrtStep; rw [hn]
            rw [this]
            refine ⟨hs.lt hni c hc, ?_, fun f hf => by simp [State.ret, NrtPc.former] at hf, fun hb => by simp [State.ret, NrtPc.built] at hb⟩
            show ∀ e ∈ s.lists s.current, e.id ≠ c.id
            intro e he hid
            have hm : (⟨e.name, e.id, (s.heap e.id).before, (s.heap e.id).after, s.runs e.id⟩ : CtrlView) ∈ s.view.ctrls :=
              List.mem_map.2 ⟨e, he, rfl⟩
            rw [hpost, List.mem_filter] at hm
            have heq := (List.inj_on_of_nodup_map (hs.ids hni)) hm.1 hc hid
            have hne := hm.2
            rw [← hcn, ← heq] at hne
            simp at hne
          · simp at h3

theorem RemovedGone.rtStep {s : State} (h : Inv s) (hs : SnapOk s) (hr : RemovedGone s) (i : RtIn) : SnapOk (s.rtStep i) ∧ RemovedGone (s.rtStep i) := by
  obtain ⟨h1, h2, h3, h4, h5, h6⟩ := rtStep_frame h i
  refine ⟨⟨by rw [h1, h4, h6]; exact hs.lt, by rw [h4, h6]; exact hs.ids⟩, ?_⟩
  intro r hm n ho hres c hc hcn
  rw [h5] at hm
  exact (hr r hm n ho hres c hc hcn).rtStep h i

theorem RemovedGone.call {s : State} (h : Inv s) (hs : SnapOk s) (hr : RemovedGone s) (op : Op) : SnapOk (s.call op) ∧ RemovedGone (s.call op) := by
  refine ⟨?_, ?_⟩
  · unfold State.call
    split
    · refine ⟨fun _ c hc => ?_, fun _ => ?_⟩
      · obtain ⟨e, he, rfl⟩ := List.mem_map.1 hc
        exact h.good.lt e he
      · show ((s.lists s.current).map _ |>.map _).Nodup
        rw [List.map_map]
        exact h.good.ids
    · exact hs
  · intro r hm n ho hres c hc hcn
    have : (s.call op).nlog = s.nlog := by unfold State.call; split <;> rfl
    rw [this] at hm
    exact (hr r hm n ho hres c hc hcn).call op

theorem Reachable.removedGone {m : Bool} {s : State} (h : Reachable m s) : RemovedGone s :=
  (reach_induct m (P := fun s => Inv2 s ∧ SnapOk s ∧ RemovedGone s)
    ⟨inv2_first m, ⟨fun h => absurd rfl h, fun h => absurd rfl h⟩, fun r hr => by simp [State.init] at hr⟩
    (fun s i h h2 => ⟨h2.1.rtStep h i, h2.2.2.rtStep h h2.2.1 i⟩) (fun s h h2 => ⟨h2.1.nrtStep h, h2.2.2.nrtStep h h2.1 h2.2.1⟩)
    (fun s op h h2 => ⟨h2.1.call h op, h2.2.2.call h h2.2.1 op⟩) h).2.2.2

/-- an object that is gone stays gone and is never called -/
theorem Gone.run {id : Nat} {s : State} (h : Inv s) (hg : Gone id s) (acts : List Act) (hs : ∀ a ∈ acts, a ≠ .shutdown) :
    Gone id (s.run acts) ∧ ∃ new, (s.run acts).log = s.log ++ new ∧ ∀ e ∈ new, e.calls id = false := by
  induction acts generalizing s with
  | nil => exact ⟨hg, [], by simp [State.run], by simp⟩
  | cons a acts ih =>
    have ha := hs a (by simp)
    have hb : ¬ s.bad = true := by rw [h.notbad]; simp
    have hstep : Gone id (s.step a) := by
      unfold State.step
      rw [if_neg hb]
      cases a with
      | rt i => exact hg.rtStep h i
      | nrt => exact hg.nrtStep h
      | call op => exact hg.call op
      | shutdown => exact absurd rfl ha
    have hlog : ∃ new, (s.step a).log = s.log ++ new ∧ ∀ e ∈ new, e.calls id = false := by
      unfold State.step
      rw [if_neg hb]
      cases a with
      | rt i =>
        rcases hg.uncalled h i with h1 | ⟨ev, h1, h2⟩
        · exact ⟨[], by simp [h1], by simp⟩
        · exact ⟨[ev], h1, by simpa using h2⟩
      | nrt => exact ⟨[], by simp [(nrtKeeps h).log], by simp⟩
      | call op => exact ⟨[], by simp [(callKeeps s op).log], by simp⟩
      | shutdown => exact absurd rfl ha
    obtain ⟨n1, e1, f1⟩ := hlog
    obtain ⟨hg2, n2, e2, f2⟩ := ih (h.step ha) hstep (fun b hb => hs b (by simp [hb]))
    refine ⟨hg2, n1 ++ n2, ?_, ?_⟩
    · show ((s.step a).run acts).log = _
      rw [e2, e1]; simp
    · intro e he
      rcases List.mem_append.1 he with he | he
      · exact f1 e he
      · exact f2 e he

/-! ## Updates -/

/-- a realtime step adds at most one event, and calls `update()` of running controllers only -/
theorem rtStep_update {s : State} (h : Inv s) (i : RtIn) : (s.rtStep i).log = s.log ∨
    ∃ ev, (s.rtStep i).log = s.log ++ [ev] ∧ ∀ id, ev = .update id → s.isRunning id = true ∧ id < s.next := by
  cases hrt : s.rt with
  | idle => left; unfold State.rtStep; rw [hrt]
  | gotCurrent r => left; unfold State.rtStep; rw [hrt]
  | pre =>
    obtain ⟨u, hu, he⟩ := rtStep_pre h i hrt
    rw [he]; exact Or.inr ⟨_, rfl, by simp⟩
  | restart k =>
    obtain ⟨u, hu, he⟩ := rtStep_restart h i hrt
    rcases he with ⟨hk, j, e, h1, h2, h3, ⟨hr, he⟩ | ⟨hr, he⟩⟩ | ⟨hk, he⟩ <;> rw [he]
    · exact Or.inr ⟨_, rfl, by simp⟩
    · exact Or.inl rfl
    · exact Or.inl rfl
  | restartMid k id' => rw [rtStep_restartMid h i hrt]; exact Or.inr ⟨_, rfl, by simp⟩
  | sweep k =>
    obtain ⟨u, hu, he⟩ := rtStep_sweep h i hrt
    rcases he with ⟨hk, j, e, h1, h2, h3, he⟩ | ⟨hk, he⟩ <;> rw [he]
    · cases hr : s.isRunning e.id
      · left; simp
      · refine Or.inr ⟨.update e.id, by simp, ?_⟩
        intro id hid
        simp only [Ev.update.injEq] at hid
        subst hid
        exact ⟨hr, (h.goodUsed hu).lt e h3⟩
    · exact Or.inl rfl
  | publish => left; unfold State.rtStep; rw [hrt]; simp only; split <;> rfl
  | pubFill k msg =>
    obtain ⟨hu, hn, he⟩ := rtStep_pubFill h i hrt
    rcases he with ⟨e, he1, he⟩ | ⟨hk, he⟩ <;> rw [he]
    · exact Or.inl rfl
    · exact Or.inr ⟨_, rfl, by simp⟩
  | switchCheck =>
    unfold State.rtStep; rw [hrt]; simp only
    split
    · exact Or.inr ⟨_, rfl, by simp⟩
    · exact Or.inl rfl
  | switchStop k =>
    rcases rtStep_switchStop h i hrt with ⟨id', h1, h3, he⟩ | ⟨hk, he⟩ <;> rw [he]
    · exact Or.inr ⟨_, rfl, by simp⟩
    · exact Or.inl rfl
  | switchStart k =>
    rcases rtStep_switchStart h i hrt with ⟨id', h1, h3, he⟩ | ⟨hk, he⟩ <;> rw [he]
    · exact Or.inr ⟨_, rfl, by simp⟩
    · exact Or.inl rfl
  | switchClear => rw [rtStep_switchClear h i hrt]; exact Or.inr ⟨_, rfl, by simp⟩
  | switchFlag => left; unfold State.rtStep; rw [hrt]
  | done => right; unfold State.rtStep; rw [hrt]; exact ⟨_, rfl, by simp⟩

def UpdatesStarted (log : List Ev) : Prop := ∀ pre post id, log = pre ++ .update id :: post → StartedLast pre id

theorem UpdatesStarted.snoc {log : List Ev} (h : UpdatesStarted log) (ev : Ev) (he : ∀ id, ev = .update id → StartedLast log id) :
    UpdatesStarted (log ++ [ev]) := by
  intro pre post id hp
  rcases List.eq_nil_or_concat post with rfl | ⟨post', x, rfl⟩
  · obtain ⟨h1, h2⟩ := List.append_inj' hp rfl
    simp only [List.cons.injEq, and_true] at h2
    subst h1
    exact he id h2
  · rw [List.concat_eq_append] at hp
    have h' : log ++ [ev] = (pre ++ .update id :: post') ++ [x] := by rw [hp]; simp
    obtain ⟨h1, h2⟩ := List.append_inj' h' rfl
    exact h pre post' id h1

theorem Reachable.updatesStarted {m : Bool} {s : State} (h : Reachable m s) : UpdatesStarted s.log := by
  refine (reach_induct m (P := fun s => Life s ∧ UpdatesStarted s.log)
    ⟨⟨fun id h => by simp [State.init] at h, fun id h e he => by simp [State.init] at he⟩, ?_⟩ ?_ ?_ ?_ h).2.2
  · intro pre post id hp; simp [State.init] at hp
  · intro s i hi hl
    refine ⟨hl.1.rtStep hi i, ?_⟩
    rcases rtStep_update hi i with h1 | ⟨ev, h1, h2⟩
    · rw [h1]; exact hl.2
    · rw [h1]
      refine hl.2.snoc ev (fun id hid => ?_)
      obtain ⟨h3, h4⟩ := h2 id hid
      exact (hl.1.run id h4).1 h3
  · intro s hi hl
    exact ⟨hl.1.nrtStep hi, by rw [(nrtKeeps hi).log]; exact hl.2⟩
  · intro s op hi hl
    exact ⟨hl.1.call op, by rw [(callKeeps s op).log]; exact hl.2⟩

end Pr2
