import Verif.Props.Lifecycle

/-!
# C106: shutting down in order

`ros::ok()` turning false makes the service functions stop waiting for the realtime loop (findings 2), so services and realtime loop must not both go on
after it.  If the realtime loop has stopped between two cycles first (as a driver does that leaves its loop before it shuts ROS down), or if no service
call is in progress and none is made afterwards, nothing bad happens, and a call that was waiting returns.
-/

namespace Pr2
set_option linter.unusedVariables false
set_option linter.unusedSimpArgs false

/-- What a load or unload that returns true has done. -/
def Op.Done (op : Op) (loaded : List String) : Prop :=
  match op with
  | .load q => q.name ∈ loaded
  | .unload n => n ∉ loaded
  | _ => True

/-- what holds while the realtime loop has stopped -/
structure Down (s : State) : Prop where
  notbad : s.bad = false
  rt : s.rt = .idle
  good : Good s.heap s.next (s.lists s.current) (s.sched s.current)
  built : s.nrt.built = true → Good s.heap s.next (s.lists (!s.current)) (s.sched (!s.current))
  former : ∀ f, s.nrt.former = some f → f = !s.current
  clearing : ∀ f, s.nrt.clearing = some f → f = !s.current
  wf : s.nrt.wf = true
  done1 : ∀ op, s.nrt = .pubLock op ∨ s.nrt = .pubResize op ∨ s.nrt = .swap op → op.Done (names (s.lists (!s.current)))
  done2 : ∀ op, (∃ f, s.nrt = .wait2 op f ∨ s.nrt = .wait2Inner op f ∨ s.nrt = .clear op f ∨ s.nrt = .clear2 op f) ∨ s.nrt = .unlock op →
    op.Done (names (s.lists s.current))
  recs : ∀ r ∈ s.nlog, r.res = .flag true → r.op.Done r.post.names

theorem done_of_callOk' {op : Op} {pre post : View} {raced : Bool} (hc : CallOk ⟨op, .flag true, pre, post, raced⟩) : op.Done post.names := by
  cases op with
  | load q =>
    rcases hc with ⟨_, _, _, id, _, h2⟩ | ⟨h1, _⟩
    · show q.name ∈ post.names
      unfold View.names; rw [h2]; simp
    · simp at h1
  | unload n =>
    rcases hc with ⟨_, _, _, _, h2⟩ | ⟨h1, _⟩
    · show n ∉ post.names
      unfold View.names; rw [h2]; simp
    · simp at h1
  | switch a b k => trivial
  | list => trivial

theorem done_of_callOk {op : Op} {pre : View} {raced : Bool} {h : Heap} {l : List Entry} {sc : List Nat} {R : Nat → Bool}
    (hc : CallOk ⟨op, .flag true, pre, viewOf h l sc R, raced⟩) : op.Done (names l) := by
  rw [← viewOf_names h l sc R]; exact done_of_callOk' hc

theorem Reachable.down {m : Bool} {s : State} (h : Reachable m s) (hrt : s.rt = .idle) (ok : Bool) : Down { s with rosOk := ok } := by
  have hi := h.inv.1
  have hp := h.inv.2.prog
  refine ⟨hi.notbad, hrt, hi.good, hi.built, fun f hf => (hi.former f hf).1, hi.clearing, hi.wf, ?_, ?_, ?_⟩
  · rintro op (hn | hn | hn) <;> dsimp only at hn ⊢ <;> unfold Prog at hp <;> rw [hn] at hp <;> exact done_of_callOk hp.2
  · rintro op (⟨f, hn | hn | hn | hn⟩ | hn) <;> dsimp only at hn ⊢ <;> unfold Prog at hp <;> rw [hn] at hp <;> exact done_of_callOk hp
  · intro r hr ht
    have hc := callOk h hr
    obtain ⟨op, res, pre, post, raced⟩ := r
    dsimp only at ht ⊢
    subst ht
    exact done_of_callOk' hc

/-- a step within a call that leaves lists and objects alone -/
theorem Down.stay {s s' : State} (h : Down s) (h0 : s'.bad = s.bad) (h1 : s'.rt = s.rt) (h2 : s'.heap = s.heap) (h3 : s'.next = s.next)
    (h4 : s'.lists = s.lists) (h5 : s'.sched = s.sched) (h6 : s'.current = s.current) (h7 : s'.nlog = s.nlog)
    (hb : s'.nrt.built = true → s.nrt.built = true) (hf : ∀ f, s'.nrt.former = some f → s.nrt.former = some f)
    (hc : ∀ f, s'.nrt.clearing = some f → s.nrt.clearing = some f ∨ s.nrt.former = some f) (hw : s'.nrt.wf = true)
    (hd1 : ∀ op, s'.nrt = .pubLock op ∨ s'.nrt = .pubResize op ∨ s'.nrt = .swap op → op.Done (names (s.lists (!s.current))))
    (hd2 : ∀ op, (∃ f, s'.nrt = .wait2 op f ∨ s'.nrt = .wait2Inner op f ∨ s'.nrt = .clear op f ∨ s'.nrt = .clear2 op f) ∨ s'.nrt = .unlock op →
      op.Done (names (s.lists s.current))) : Down s' := by
  refine ⟨by rw [h0]; exact h.notbad, by rw [h1]; exact h.rt, ?_, ?_, ?_, ?_, hw, ?_, ?_, ?_⟩
  · rw [h2, h3, h4, h5, h6]; exact h.good
  · intro hb'; rw [h2, h3, h4, h5, h6]; exact h.built (hb hb')
  · intro f hf'; rw [h6]; exact h.former f (hf f hf')
  · intro f hc'; rw [h6]; exact (hc f hc').elim (h.clearing f) (h.former f)
  · rw [h4, h6]; exact hd1
  · rw [h4, h6]; exact hd2
  · rw [h7]; exact h.recs

theorem Down.ret {s s' : State} (h : Down s) (h0 : s'.bad = s.bad) (h1 : s'.rt = s.rt) (h2 : s'.heap = s.heap) (h3 : s'.next = s.next)
    (h4 : s'.lists s.current = s.lists s.current) (h5 : s'.sched s.current = s.sched s.current) (h6 : s'.current = s.current)
    (h7 : s'.nlog = s.nlog) (op : Op) (r : Res) (hr : r = .flag true → op.Done (names (s.lists s.current))) : Down (s'.ret op r) := by
  refine ⟨by show s'.bad = false; rw [h0]; exact h.notbad, by show s'.rt = _; rw [h1]; exact h.rt, ?_, ?_, ?_, ?_, rfl, ?_, ?_, ?_⟩
  · show Good s'.heap s'.next (s'.lists s'.current) (s'.sched s'.current)
    rw [h2, h3, h6, h4, h5]; exact h.good
  · intro hb; simp [State.ret, NrtPc.built] at hb
  · intro f hf; simp [State.ret, NrtPc.former] at hf
  · intro f hf; simp [State.ret, NrtPc.clearing] at hf
  · intro op hn; simp [State.ret] at hn
  · intro op hn; simp [State.ret] at hn
  · intro q hq ht
    rcases List.mem_append.1 (show q ∈ s'.nlog ++ [_] from hq) with hq | hq
    · rw [h7] at hq; exact h.recs q hq ht
    · rw [List.mem_singleton] at hq; subst hq
      dsimp only at ht ⊢
      have : s'.view.names = names (s.lists s.current) := by
        rw [view_eq, viewOf_names, h6, h4]
      rw [this]; exact hr ht

theorem Down.noRt {s : State} (h : Down s) (b : Bool) : s.rtUses b = false ∧ s.rtUsesReq = false := by
  unfold State.rtUses State.rtUsesReq; rw [h.rt]; simp

theorem Down.nrtStep {s : State} (h : Down s) : Down s.nrtStep := by
  have hwf := h.wf
  cases hn : s.nrt with
  | idle => unfold State.nrtStep; rw [hn]; exact h
  | wait1 op =>
    rw [hn] at hwf
    unfold State.nrtStep; rw [hn]; simp only
    split <;> refine h.stay rfl rfl rfl rfl rfl rfl rfl rfl ?_ ?_ ?_ hwf ?_ ?_ <;> simp [NrtPc.built, NrtPc.former, NrtPc.clearing]
  | wait1Inner op =>
    rw [hn] at hwf
    unfold State.nrtStep; rw [hn]; simp only
    split
    · refine h.stay rfl rfl rfl rfl rfl rfl rfl rfl ?_ ?_ ?_ hwf ?_ ?_ <;> simp [NrtPc.built, NrtPc.former, NrtPc.clearing]
    · apply Down.ret h <;> first | rfl | simp [Op.Done]
  | build op =>
    rw [hn] at hwf
    unfold State.nrtStep; rw [hn]; simp only
    rw [if_neg (by rw [(h.noRt _).1]; simp)]
    refine h.stay rfl rfl rfl rfl rfl rfl rfl rfl ?_ ?_ ?_ hwf ?_ ?_ <;> simp [NrtPc.built, NrtPc.former, NrtPc.clearing]
  | build2 op =>
    rw [hn] at hwf
    cases op with
    | load r =>
      rcases goodStep_build2_load h.good hn with ⟨hok, he, hg, hst⟩ | ⟨hok, he⟩ <;> rw [he]
      · refine ⟨h.notbad, h.rt, ?_, ?_, ?_, ?_, hwf, ?_, ?_, h.recs⟩
        · dsimp only
          rw [setAt_not, setAt_not]
          have hne : ∀ e ∈ s.lists s.current, e.id ≠ s.next := fun e he => ne_of_lt (h.good.lt e he)
          refine h.good.congr (Nat.le_succ _) ?_ ?_
          · intro e he; rw [if_neg (hne e he)]; exact ⟨rfl, rfl⟩
          · intro e he; rw [if_neg (hne e he)]; exact h.good.inited e he
        · intro _
          dsimp only
          rw [setAt_same, setAt_same]
          exact hg
        · intro f hf; simp [NrtPc.former] at hf
        · intro f hf; simp [NrtPc.clearing] at hf
        · intro op ho
          simp only [NrtPc.pubLock.injEq, reduceCtorEq, or_false] at ho
          subst ho
          dsimp only
          rw [setAt_same]
          simp [names, Op.Done]
        · intro op ho; simp at ho
      · apply Down.ret h <;> first | rfl | exact setAt_not _ _ _ | simp
    | unload n =>
      rcases goodStep_build2_unload h.good hn with ⟨hok, he, hg⟩ | ⟨hok, he⟩ <;> rw [he]
      · refine ⟨h.notbad, h.rt, ?_, ?_, ?_, ?_, hwf, ?_, ?_, h.recs⟩
        · dsimp only
          rw [setAt_not, setAt_not]
          exact h.good
        · intro _
          dsimp only
          rw [setAt_same, setAt_same]
          exact hg
        · intro f hf; simp [NrtPc.former] at hf
        · intro f hf; simp [NrtPc.clearing] at hf
        · intro op ho
          simp only [NrtPc.pubLock.injEq, reduceCtorEq, or_false] at ho
          subst ho
          dsimp only
          rw [setAt_same]
          simp [names, Op.Done]
        · intro op ho; simp at ho
      · apply Down.ret h <;> first | rfl | exact setAt_not _ _ _ | simp
    | switch a b c => simp [NrtPc.wf, Op.isListOp] at hwf
    | list => simp [NrtPc.wf, Op.isListOp] at hwf
  | pubLock op =>
    rw [hn] at hwf
    have hd := h.done1 op (Or.inl hn)
    unfold State.nrtStep; rw [hn]; simp only
    split
    · refine h.stay rfl rfl rfl rfl rfl rfl rfl rfl (fun _ => by rw [hn]; rfl) ?_ ?_ hwf ?_ ?_
      · simp [NrtPc.former]
      · simp [NrtPc.clearing]
      · intro o ho; simp only [reduceCtorEq, NrtPc.pubResize.injEq, false_or, or_false] at ho; rw [← ho]; exact hd
      · simp
    · exact h
  | pubResize op =>
    rw [hn] at hwf
    have hd := h.done1 op (Or.inr (Or.inl hn))
    unfold State.nrtStep; rw [hn]; simp only
    refine h.stay rfl rfl rfl rfl rfl rfl rfl rfl (fun _ => by rw [hn]; rfl) ?_ ?_ hwf ?_ ?_
    · simp [NrtPc.former]
    · simp [NrtPc.clearing]
    · intro o ho; simp only [reduceCtorEq, NrtPc.swap.injEq, false_or] at ho; rw [← ho]; exact hd
    · simp
  | swap op =>
    rw [hn] at hwf
    have hd := h.done1 op (Or.inr (Or.inr hn))
    have hb := h.built (by rw [hn]; rfl)
    unfold State.nrtStep; rw [hn]; simp only
    refine ⟨h.notbad, h.rt, hb, ?_, ?_, ?_, hwf, ?_, ?_, h.recs⟩
    · intro hb; simp [NrtPc.built] at hb
    · intro f hf; simp only [NrtPc.former, Option.some.injEq] at hf; simp [← hf]
    · intro f hf; simp [NrtPc.clearing] at hf
    · simp
    · intro o ho
      simp only [NrtPc.wait2.injEq, reduceCtorEq, or_false, exists_and_left, exists_eq', and_true] at ho
      rw [← ho]; exact hd
  | wait2 op f =>
    rw [hn] at hwf
    have hd := h.done2 op (Or.inl ⟨f, Or.inl hn⟩)
    unfold State.nrtStep; rw [hn]; simp only
    split
    · refine h.stay rfl rfl rfl rfl rfl rfl rfl rfl ?_ (fun g hg => by rw [hn]; exact hg) ?_ hwf ?_ ?_
      · simp [NrtPc.built]
      · simp [NrtPc.clearing]
      · simp
      · intro o ho; simp at ho; rw [← ho]; exact hd
    · refine h.stay rfl rfl rfl rfl rfl rfl rfl rfl ?_ ?_ (fun g hg => by rw [hn]; exact Or.inr hg) hwf ?_ ?_
      · simp [NrtPc.built]
      · simp [NrtPc.former]
      · simp
      · intro o ho; simp at ho; rw [← ho]; exact hd
  | wait2Inner op f =>
    rw [hn] at hwf
    have hd := h.done2 op (Or.inl ⟨f, Or.inr (Or.inl hn)⟩)
    unfold State.nrtStep; rw [hn]; simp only
    split
    · refine h.stay rfl rfl rfl rfl rfl rfl rfl rfl ?_ (fun g hg => by rw [hn]; exact hg) ?_ hwf ?_ ?_
      · simp [NrtPc.built]
      · simp [NrtPc.clearing]
      · simp
      · intro o ho; simp at ho; rw [← ho]; exact hd
    · apply Down.ret h <;> first | rfl | simp [Op.Done]
  | clear op f =>
    rw [hn] at hwf
    have hd := h.done2 op (Or.inl ⟨f, Or.inr (Or.inr (Or.inl hn))⟩)
    unfold State.nrtStep; rw [hn]; simp only
    rw [if_neg (by rw [(h.noRt _).1]; simp)]
    refine h.stay rfl rfl rfl rfl rfl rfl rfl rfl ?_ ?_ (fun g hg => by rw [hn]; exact Or.inl hg) hwf ?_ ?_
    · simp [NrtPc.built]
    · simp [NrtPc.former]
    · simp
    · intro o ho; simp at ho; rw [← ho]; exact hd
  | clear2 op f =>
    rw [hn] at hwf
    have hd := h.done2 op (Or.inl ⟨f, Or.inr (Or.inr (Or.inr hn))⟩)
    have hf := h.clearing f (by rw [hn]; rfl)
    have hl : setAt s.lists f [] s.current = s.lists s.current := by rw [hf]; simp [setAt]
    unfold State.nrtStep; rw [hn]; simp only
    refine ⟨h.notbad, h.rt, ?_, ?_, ?_, ?_, hwf, ?_, ?_, h.recs⟩
    · show Good _ _ (setAt s.lists f [] s.current) _
      rw [hl]; exact h.good
    · intro hb; simp [NrtPc.built] at hb
    · intro g hg; simp [NrtPc.former] at hg
    · intro g hg; simp [NrtPc.clearing] at hg
    · simp
    · intro o ho; simp at ho; rw [← ho]
      show op.Done (names (setAt s.lists f [] s.current))
      rw [hl]; exact hd
  | unlock op =>
    have hd := h.done2 op (Or.inr hn)
    unfold State.nrtStep; rw [hn]; simp only
    exact Down.ret (s' := { s with pubLock := none, nrt := .unlock op }) h rfl rfl rfl rfl rfl rfl rfl rfl op (.flag true) (fun _ => hd)
  | resolve op =>
    rw [hn] at hwf
    unfold State.nrtStep; rw [hn]; simp only
    rw [if_neg (by rw [(h.noRt true).2]; simp)]
    refine h.stay rfl rfl rfl rfl rfl rfl rfl rfl ?_ ?_ ?_ hwf ?_ ?_ <;> simp [NrtPc.built, NrtPc.former, NrtPc.clearing]
  | resolve2 op =>
    rw [hn] at hwf
    cases op with
    | switch start stop k =>
      unfold State.nrtStep; rw [hn]; simp only
      split
      · refine h.stay rfl rfl rfl rfl rfl rfl rfl rfl ?_ ?_ ?_ hwf ?_ ?_ <;> simp [NrtPc.built, NrtPc.former, NrtPc.clearing]
      · apply Down.ret h <;> first | rfl | simp [Op.Done]
    | load r => simp [NrtPc.wf, Op.isSwitch] at hwf
    | unload n => simp [NrtPc.wf, Op.isSwitch] at hwf
    | list => simp [NrtPc.wf, Op.isSwitch] at hwf
  | setFlag op =>
    rw [hn] at hwf
    unfold State.nrtStep; rw [hn]; simp only
    refine h.stay rfl rfl rfl rfl rfl rfl rfl rfl ?_ ?_ ?_ hwf ?_ ?_ <;> simp [NrtPc.built, NrtPc.former, NrtPc.clearing]
  | waitSwitch op =>
    rw [hn] at hwf
    unfold State.nrtStep; rw [hn]; simp only
    split
    · refine h.stay rfl rfl rfl rfl rfl rfl rfl rfl ?_ ?_ ?_ hwf ?_ ?_ <;> simp [NrtPc.built, NrtPc.former, NrtPc.clearing]
    · cases op with
      | switch start stop k => apply Down.ret h <;> first | rfl | simp [Op.Done]
      | _ => simp [NrtPc.wf, Op.isSwitch] at hwf
  | waitSwitchInner op =>
    rw [hn] at hwf
    unfold State.nrtStep; rw [hn]; simp only
    split
    · refine h.stay rfl rfl rfl rfl rfl rfl rfl rfl ?_ ?_ ?_ hwf ?_ ?_ <;> simp [NrtPc.built, NrtPc.former, NrtPc.clearing]
    · apply Down.ret h <;> first | rfl | simp [Op.Done]
  | listing k acc =>
    unfold State.nrtStep; rw [hn]; simp only
    rw [if_neg (by simp [h.good.sched_length])]
    by_cases hk : k < (s.lists s.current).length
    · obtain ⟨j, e, h1, h2, h3⟩ := h.good.entry hk
      have h4 : (names (s.lists s.current))[j]? = some e.name := by simp [names, h2]
      simp only [h1, h4, findByName_mem h.good.distinct h3]
      refine h.stay rfl rfl rfl rfl rfl rfl rfl rfl ?_ ?_ ?_ rfl ?_ ?_ <;> simp [NrtPc.built, NrtPc.former, NrtPc.clearing]
    · have : (s.sched s.current)[k]? = none := by
        rw [List.getElem?_eq_none_iff, h.good.sched_length]; omega
      simp only [this]
      apply Down.ret h <;> first | rfl | simp [Op.Done]

theorem Down.call {s : State} (h : Down s) (op : Op) : Down (s.call op) := by
  unfold State.call
  split
  · refine h.stay rfl rfl rfl rfl rfl rfl rfl rfl ?_ ?_ ?_ ?_ ?_ ?_ <;> cases op <;>
      simp [NrtPc.built, NrtPc.former, NrtPc.clearing, NrtPc.wf, Op.isListOp, Op.isSwitch]
  · exact h

/-- no step of the realtime loop -/
def Act.notRt : Act → Bool
  | .rt _ => false
  | _ => true

theorem Down.step {s : State} (h : Down s) {a : Act} (ha : a.notRt = true) : Down (s.step a) := by
  unfold State.step
  rw [if_neg (by rw [h.notbad]; simp)]
  cases a with
  | rt i => simp [Act.notRt] at ha
  | nrt => exact h.nrtStep
  | call op => exact h.call op
  | shutdown => exact ⟨h.notbad, h.rt, h.good, h.built, h.former, h.clearing, h.wf, h.done1, h.done2, h.recs⟩

theorem Down.run {s : State} (h : Down s) (acts : List Act) (ha : ∀ a ∈ acts, a.notRt = true) : Down (s.run acts) := by
  unfold State.run
  induction acts generalizing s with
  | nil => exact h
  | cons a l ih => exact ih (h.step (ha a (by simp))) (fun b hb => ha b (by simp [hb]))

/-- C106: once the realtime loop has stopped between two cycles, the services cannot do anything undefined, whether ROS shuts down or not, whatever calls are in
progress or made later. -/
theorem C106_safe_stopped {m : Bool} {s : State} (h : Reachable m s) (hrt : s.rt = .idle) (acts : List Act) (ha : ∀ a ∈ acts, a.notRt = true) :
    (s.run acts).bad = false := by
  have hd : Down s := h.down hrt s.rosOk
  exact (hd.run acts ha).notbad

/-- C106: and also then a load that returns true has loaded the controller, an unload that returns true has unloaded it. -/
theorem C106_true_means_done {m : Bool} {s : State} (h : Reachable m s) (hrt : s.rt = .idle) (acts : List Act) (ha : ∀ a ∈ acts, a.notRt = true)
    {r : CallRec} (hr : r ∈ (s.run acts).nlog) (ht : r.res = .flag true) :
    (∀ q, r.op = .load q → q.name ∈ r.post.names) ∧ (∀ n, r.op = .unload n → n ∉ r.post.names) := by
  have hd : Down s := h.down hrt s.rosOk
  have := (hd.run acts ha).recs r hr ht
  refine ⟨fun q hq => ?_, fun n hn => ?_⟩
  · rw [hq] at this; exact this
  · rw [hn] at this; exact this

/-- the same state, after or before the shutdown -/
def setOk (b : Bool) (s : State) : State := { s with rosOk := b }

/-- the realtime loop does not look at `ros::ok()` -/
theorem rtStep_setOk (s : State) (i : RtIn) (b : Bool) : (setOk b s).rtStep i = setOk b (s.rtStep i) := by
  have e0 : (setOk b s).rt = s.rt := rfl
  have e1 : (setOk b s).writing = s.writing := rfl
  have e2 : (setOk b s).writingReq = s.writingReq := rfl
  have e3 : ∀ j, (setOk b s).alive j = s.alive j := fun _ => rfl
  have e4 : ∀ u k, (setOk b s).rtEntry u k = s.rtEntry u k := fun _ _ => rfl
  have e5 : (setOk b s).used = s.used := rfl
  have e6 : (setOk b s).pubLock = s.pubLock := rfl
  have e7 : (setOk b s).lists = s.lists := rfl
  have e8 : (setOk b s).pubNames = s.pubNames := rfl
  have e9 : (setOk b s).pleaseSwitch = s.pleaseSwitch := rfl
  have e10 : (setOk b s).stopReq = s.stopReq := rfl
  have e11 : (setOk b s).startReq = s.startReq := rfl
  have e12 : (setOk b s).sched = s.sched := rfl
  unfold State.rtStep
  rw [e0]
  cases s.rt <;> dsimp only
  case idle => rfl
  case gotCurrent r => rfl
  case pre =>
    rw [e5]
    cases s.used with
    | none => rfl
    | some u => dsimp only; rw [e1]; by_cases hc : s.writing = some u <;> simp only [hc, if_true, if_false] <;> rfl
  case restart k =>
    rw [e5]
    cases s.used with
    | none => rfl
    | some u =>
      dsimp only; rw [e1, e4]; split
      · rfl
      · rw [e7]; split
        · cases s.rtEntry u k with
          | none => rfl
          | some e =>
            dsimp only
            have e13 : (setOk b s).isRunning e.id = s.isRunning e.id := rfl
            rw [e13]; split <;> rfl
        · rfl
  case restartMid k id => rw [e3]; split <;> rfl
  case sweep k =>
    rw [e5]
    cases s.used with
    | none => rfl
    | some u =>
      dsimp only; rw [e1, e4]; split
      · rfl
      · rw [e7]; split
        · cases s.rtEntry u k with
          | none => rfl
          | some e => rfl
        · rfl
  case publish => rw [e6]; split <;> rfl
  case pubFill k msg =>
    rw [e5]
    cases s.used with
    | none => rfl
    | some u =>
      dsimp only; rw [e1, e7, e8]; split
      · rfl
      · cases (s.lists u)[k]? with
        | none => rfl
        | some e =>
          dsimp only
          cases s.pubNames[k]? with
          | none => rfl
          | some n => dsimp only; rw [e3]; split <;> rfl
  case switchCheck => rw [e9]; split <;> rfl
  case switchStop k =>
    rw [e2, e10]; split
    · rfl
    · cases s.stopReq[k]? with
      | none => rfl
      | some id => dsimp only; rw [e3]; split <;> rfl
  case switchStart k =>
    rw [e2, e11]; split
    · rfl
    · cases s.startReq[k]? with
      | none => rfl
      | some id => dsimp only; rw [e3]; split <;> rfl
  case switchClear => rw [e2]; split <;> rfl
  case switchFlag => rfl
  case done => rfl

/-- C106: if no service call is in progress and none is made any more, the realtime loop may go on after ROS has shut down. -/
theorem C106_safe_silent {m : Bool} {s : State} (h : Reachable m s) (hn : s.nrt = .idle) (acts : List Act)
    (ha : ∀ a ∈ acts, a = .shutdown ∨ ∃ i, a = .rt i) : (s.run acts).bad = false := by
  have key : ∀ (acts : List Act) (s : State) (b : Bool), Reachable m s → (∀ a ∈ acts, a = .shutdown ∨ ∃ i, a = .rt i) →
      ∃ s' b', Reachable m s' ∧ ({ s with rosOk := b } : State).run acts = { s' with rosOk := b' } := by
    intro acts
    induction acts with
    | nil => intro s b h _; exact ⟨s, b, h, rfl⟩
    | cons a l ih =>
      intro s b h ha
      have hb : ({ s with rosOk := b } : State).bad = false := h.inv.1.notbad
      show ∃ s' b', Reachable m s' ∧ (({ s with rosOk := b } : State).step a).run l = { s' with rosOk := b' }
      rcases ha a (by simp) with rfl | ⟨i, rfl⟩
      · have : ({ s with rosOk := b } : State).step .shutdown = { s with rosOk := false } := by
          unfold State.step; rw [if_neg (by rw [hb]; simp)]
        rw [this]
        exact ih s false h (fun c hc => ha c (by simp [hc]))
      · have : ({ s with rosOk := b } : State).step (.rt i) = { s.step (.rt i) with rosOk := b } := by
          unfold State.step
          rw [if_neg (by rw [hb]; simp), if_neg (by rw [h.inv.1.notbad]; simp)]
          exact rtStep_setOk s i b
        rw [this]
        exact ih _ b (h.step (.rt i) (by simp)) (fun c hc => ha c (by simp [hc]))
  obtain ⟨s', b', hs', he⟩ := key acts s s.rosOk h ha
  have he' : s.run acts = { s' with rosOk := b' } := he
  rw [he']
  exact hs'.inv.1.notbad

/-! ## Calls in progress return -/

/-- calls that still have to take the publisher's lock -/
def NrtPc.needsPub : NrtPc → Bool
  | .wait1 _ | .build _ | .build2 _ | .pubLock _ => true
  | _ => false

/-- how many own steps a call still makes after the shutdown, at most -/
def callLeft (len : Nat) : NrtPc → Nat
  | .idle => 0
  | .wait1 _ => 10
  | .wait1Inner _ => 1
  | .build _ => 9
  | .build2 _ => 8
  | .pubLock _ => 7
  | .pubResize _ => 6
  | .swap _ => 5
  | .wait2 _ _ => 4
  | .wait2Inner _ _ => 1
  | .clear _ _ => 3
  | .clear2 _ _ => 2
  | .unlock _ => 1
  | .resolve _ => 4
  | .resolve2 _ => 3
  | .setFlag _ => 2
  | .waitSwitch _ => 1
  | .waitSwitchInner _ => 1
  | .listing k _ => len - k + 1

def State.left (s : State) : Nat := callLeft (s.lists s.current).length s.nrt

theorem down_left {s : State} (h : Down s) (hok : s.rosOk = false) (hl : s.nrt.needsPub = true → s.pubLock = none) (hn : s.nrt ≠ .idle) :
    s.nrtStep.left < s.left ∧ s.nrtStep.rosOk = false ∧ (s.nrtStep.nrt.needsPub = true → s.nrtStep.pubLock = none) := by
  have hwf := h.wf
  unfold State.left
  cases hpc : s.nrt with
  | idle => exact absurd hpc hn
  | wait1 op =>
    have := hl (by rw [hpc]; rfl)
    have he : s.nrtStep = { s with nrt := .build op } := by
      unfold State.nrtStep; rw [hpc]; simp only; rw [if_neg (by rw [hok]; simp)]
    rw [he]; exact ⟨by simp [callLeft], hok, fun _ => this⟩
  | wait1Inner op =>
    have he : s.nrtStep = s.ret op (.flag false) := by
      unfold State.nrtStep; rw [hpc]; simp only; rw [if_neg (by rw [hok]; simp)]
    rw [he]; exact ⟨by simp [State.ret, callLeft], hok, by simp [State.ret, NrtPc.needsPub]⟩
  | build op =>
    have := hl (by rw [hpc]; rfl)
    have he : s.nrtStep = { s with nrt := .build2 op } := by
      unfold State.nrtStep; rw [hpc]; simp only; rw [if_neg (by rw [(h.noRt _).1]; simp)]
    rw [he]; exact ⟨by simp [callLeft], hok, fun _ => this⟩
  | build2 op =>
    have hp := hl (by rw [hpc]; rfl)
    rw [hpc] at hwf
    cases op with
    | load r =>
      rcases goodStep_build2_load h.good hpc with ⟨_, he, _⟩ | ⟨_, he⟩ <;> rw [he]
      · exact ⟨by simp [callLeft], hok, fun _ => hp⟩
      · exact ⟨by simp [State.ret, callLeft], hok, by simp [State.ret, NrtPc.needsPub]⟩
    | unload n =>
      rcases goodStep_build2_unload h.good hpc with ⟨_, he, _⟩ | ⟨_, he⟩ <;> rw [he]
      · exact ⟨by simp [callLeft], hok, fun _ => hp⟩
      · exact ⟨by simp [State.ret, callLeft], hok, by simp [State.ret, NrtPc.needsPub]⟩
    | switch a b c => simp [NrtPc.wf, Op.isListOp] at hwf
    | list => simp [NrtPc.wf, Op.isListOp] at hwf
  | pubLock op =>
    have hp := hl (by rw [hpc]; rfl)
    have he : s.nrtStep = { s with pubLock := some .nrt, nrt := .pubResize op } := by
      unfold State.nrtStep; rw [hpc]; simp only; rw [if_pos (by rw [hp]; rfl)]
    rw [he]; exact ⟨by simp [callLeft], hok, by simp [NrtPc.needsPub]⟩
  | pubResize op =>
    have he : s.nrtStep = { s with pubNames := names (s.lists (!s.current)), nrt := .swap op } := by
      unfold State.nrtStep; rw [hpc]
    rw [he]; exact ⟨by simp [callLeft], hok, by simp [NrtPc.needsPub]⟩
  | swap op =>
    have he : s.nrtStep = { s with current := !s.current, nrt := .wait2 op s.current } := by
      unfold State.nrtStep; rw [hpc]
    rw [he]; exact ⟨by simp [callLeft], hok, by simp [NrtPc.needsPub]⟩
  | wait2 op f =>
    have he : s.nrtStep = { s with nrt := .clear op f } := by
      unfold State.nrtStep; rw [hpc]; simp only; rw [if_neg (by rw [hok]; simp)]
    rw [he]; exact ⟨by simp [callLeft], hok, by simp [NrtPc.needsPub]⟩
  | wait2Inner op f =>
    have he : s.nrtStep = s.ret op (.flag false) := by
      unfold State.nrtStep; rw [hpc]; simp only; rw [if_neg (by rw [hok]; simp)]
    rw [he]; exact ⟨by simp [State.ret, callLeft], hok, by simp [State.ret, NrtPc.needsPub]⟩
  | clear op f =>
    have he : s.nrtStep = { s with nrt := .clear2 op f } := by
      unfold State.nrtStep; rw [hpc]; simp only; rw [if_neg (by rw [(h.noRt _).1]; simp)]
    rw [he]; exact ⟨by simp [callLeft], hok, by simp [NrtPc.needsPub]⟩
  | clear2 op f =>
    have he : s.nrtStep = { s with lists := setAt s.lists f [], nrt := .unlock op } := by
      unfold State.nrtStep; rw [hpc]
    rw [he]; exact ⟨by simp [callLeft], hok, by simp [NrtPc.needsPub]⟩
  | unlock op =>
    have he : s.nrtStep = ({ s with pubLock := none } : State).ret op (.flag true) := by
      unfold State.nrtStep; rw [hpc]
    rw [he]; exact ⟨by simp [State.ret, callLeft], hok, by simp [State.ret, NrtPc.needsPub]⟩
  | resolve op =>
    have he : s.nrtStep = { s with nrt := .resolve2 op } := by
      unfold State.nrtStep; rw [hpc]; simp only; rw [if_neg (by rw [(h.noRt true).2]; simp)]
    rw [he]; exact ⟨by simp [callLeft], hok, by simp [NrtPc.needsPub]⟩
  | resolve2 op =>
    rw [hpc] at hwf
    cases op with
    | switch start stop k =>
      unfold State.nrtStep; rw [hpc]; simp only
      split
      · exact ⟨by simp [callLeft], hok, by simp [NrtPc.needsPub]⟩
      · exact ⟨by simp [State.ret, callLeft], hok, by simp [State.ret, NrtPc.needsPub]⟩
    | load r => simp [NrtPc.wf, Op.isSwitch] at hwf
    | unload n => simp [NrtPc.wf, Op.isSwitch] at hwf
    | list => simp [NrtPc.wf, Op.isSwitch] at hwf
  | setFlag op =>
    have he : s.nrtStep = { s with pleaseSwitch := true, nrt := .waitSwitch op } := by
      unfold State.nrtStep; rw [hpc]
    rw [he]; exact ⟨by simp [callLeft], hok, by simp [NrtPc.needsPub]⟩
  | waitSwitch op =>
    have he : s.nrtStep = s.ret op (.flag true) := by
      unfold State.nrtStep; rw [hpc]; simp only; rw [if_neg (by rw [hok]; simp)]
    rw [he]; exact ⟨by simp [State.ret, callLeft], hok, by simp [State.ret, NrtPc.needsPub]⟩
  | waitSwitchInner op =>
    have he : s.nrtStep = s.ret op (.flag false) := by
      unfold State.nrtStep; rw [hpc]; simp only; rw [if_neg (by rw [hok]; simp)]
    rw [he]; exact ⟨by simp [State.ret, callLeft], hok, by simp [State.ret, NrtPc.needsPub]⟩
  | listing k acc =>
    unfold State.nrtStep; rw [hpc]; simp only
    rw [if_neg (by simp [h.good.sched_length])]
    by_cases hk : k < (s.lists s.current).length
    · obtain ⟨j, e, h1, h2, h3⟩ := h.good.entry hk
      have h4 : (names (s.lists s.current))[j]? = some e.name := by simp [names, h2]
      simp only [h1, h4, findByName_mem h.good.distinct h3]
      refine ⟨?_, hok, by simp [NrtPc.needsPub]⟩
      simp only [callLeft]
      omega
    · have : (s.sched s.current)[k]? = none := by
        rw [List.getElem?_eq_none_iff, h.good.sched_length]; omega
      simp only [this]
      exact ⟨by simp [State.ret, callLeft], hok, by simp [State.ret, NrtPc.needsPub]⟩

theorem down_idle : ∀ (n : Nat) {s : State}, Down s → s.rosOk = false → (s.nrt.needsPub = true → s.pubLock = none) → s.left ≤ n →
    (s.run (List.replicate n .nrt)).nrt = .idle := by
  intro n
  induction n with
  | zero =>
    intro s h hok hl hle
    show s.nrt = .idle
    unfold State.left at hle
    cases hpc : s.nrt <;> rw [hpc] at hle <;> simp [callLeft] at hle ⊢
  | succ n ih =>
    intro s h hok hl hle
    have hst : s.step .nrt = s.nrtStep := by unfold State.step; rw [if_neg (by rw [h.notbad]; simp)]
    show ((s.step .nrt).run (List.replicate n .nrt)).nrt = .idle
    rw [hst]
    by_cases hn : s.nrt = .idle
    · have he : s.nrtStep = s := by unfold State.nrtStep; rw [hn]
      rw [he]
      refine ih h hok hl ?_
      unfold State.left; rw [hn]; simp [callLeft]
    · obtain ⟨h1, h2, h3⟩ := down_left h hok hl hn
      exact ih h.nrtStep h2 h3 (by omega)

/-- C106: a call that was waiting for the realtime loop when it stopped returns once ROS has shut down, after at most ten steps of its own, plus one per
controller for a listing. -/
theorem C106_returns {m : Bool} {s : State} (h : Reachable m s) (hrt : s.rt = .idle) (n : Nat) (hn : 10 + s.view.ctrls.length ≤ n) :
    (s.run (.shutdown :: List.replicate n .nrt)).nrt = .idle := by
  have hd : Down { s with rosOk := false } := h.down hrt false
  have hi := h.inv.1
  have hst : s.step .shutdown = { s with rosOk := false } := by unfold State.step; rw [if_neg (by rw [hi.notbad]; simp)]
  show ((s.step .shutdown).run (List.replicate n .nrt)).nrt = .idle
  rw [hst]
  refine down_idle n hd rfl ?_ ?_
  · intro hp
    show s.pubLock = none
    cases hl : s.pubLock with
    | none => rfl
    | some o =>
      cases o with
      | rt => have := hi.pubR.1 hl; rw [hrt] at this; simp [RtPc.fills] at this
      | nrt =>
        have := hi.pubN.1 hl
        dsimp only at hp
        revert hp this
        cases s.nrt <;> simp [NrtPc.needsPub, NrtPc.holdsPub]
  · have : s.view.ctrls.length = (s.lists s.current).length := by simp [State.view]
    rw [this] at hn
    unfold State.left
    dsimp only
    cases s.nrt <;> simp only [callLeft] <;> omega

/-! ## The hypotheses are met; the order matters -/

/-- A load waiting for a realtime loop that has stopped between two cycles: it never returns until ROS shuts down, and then does, with the controller loaded. -/
def stoppedState : State := ((State.init false).run (firstInputs.map Act.rt)).run (cycle 5 ++ [Act.call (goodLoad "a" [])] ++ serve 8)

theorem stopped_reachable : Reachable false stoppedState := by
  refine reachable_first.run _ ?_
  intro a ha
  have : ((cycle 5 ++ [Act.call (goodLoad "a" [])] ++ serve 8).all (fun a => match a with | .shutdown => false | _ => true)) = true := by decide +kernel
  have := List.all_eq_true.1 this a ha
  rintro rfl; simp at this

example : stoppedState.rt = .idle ∧ (stoppedState.nrt matches .wait2 _ _) = true ∧
    ((stoppedState.run (.shutdown :: serve 11)).nlog.map (fun r => (decide (r.res = .flag true), r.post.names))) = [(true, ["a"])] := by
  decide +kernel

/-- The converse of `C106_true_means_done` does not hold: one step later the same load answers false, although the controller is on the list and stays
there. -/
theorem C106_false_may_be_done : ∃ s, Reachable false s ∧ s.rt = .idle ∧
    ((s.run (.shutdown :: serve 11)).nlog.map (fun r => (decide (r.res = .flag false), r.post.names))) = [(true, ["a"])] := by
  refine ⟨stoppedState.run (serve 1), stopped_reachable.run _ ?_, by decide +kernel⟩
  intro a ha
  have := List.eq_of_mem_replicate ha
  rw [this]; simp

/-- C106: the other way round it is not safe: when ROS shuts down while the realtime loop runs and a load waits, the load clears the list in use
(finding 2). -/
theorem C106_order_matters : ∃ s, Reachable false s ∧ (s.run (.shutdown :: serve 2)).bad = true := by
  refine ⟨_, reachable_first.run ([Act.call (goodLoad "a" [])] ++ serve 6) ?_, by decide +kernel⟩
  intro a ha
  have : (([Act.call (goodLoad "a" [])] ++ serve 6).all (fun a => match a with | .shutdown => false | _ => true)) = true := by decide +kernel
  have := List.all_eq_true.1 this a ha
  rintro rfl; simp at this

end Pr2
