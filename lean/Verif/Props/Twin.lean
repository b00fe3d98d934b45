import Verif.Props.Plant

/-!
# Two executions of the whole machine side by side

What C122 and C123 have in common: a relation between robot states that the parts of a cycle preserve makes two executions of the machine, whose readings and
plugins respect it, agree in everything the manager does.
-/

namespace Pr2
set_option linter.unusedVariables false
set_option linter.unusedSectionVars false

section
variable {F : Type} [FCmp F] [Zero F] [Add F] [Sub F] [Mul F] [iDiv : Div F] [Neg F] [FLit F] [iTrig : FTrig F]

/-- The parts of a cycle preserve the relation. -/
structure Relates (big : F) (R : RState F → RState F → Prop) : Prop where
  pos : ∀ s s' t t', R s s' → s.Ready → s'.Ready → s.propagatePosition = some t → s'.propagatePosition = some t' → R t t'
  zero : ∀ s s', R s s' → R s.zeroCommands s'.zeroCommands
  safety : ∀ s s', R s s' → R (s.enforceSafety big) (s'.enforceSafety big)
  effort : ∀ s s' t t', R s s' → s.Ready → s'.Ready → s.propagateEffort = some t → s'.propagateEffort = some t' → R t t'
  reset : ∀ s s', R s s' → R s.resetStats s'.resetStats

/-- Inputs of one step of two executions that respect the relation, and with them the robots are both halted or both not. -/
structure TwinIn (R : RState F → RState F → Prop) (i i' : PlantIn F) : Prop where
  tame : i.Tame
  tame' : i'.Tame
  hw : ∀ s s', R s s' → R { s with acts := i.hw s.acts } { s' with acts := i'.hw s'.acts } ∧
    RState.isHalted { s with acts := i.hw s.acts } = RState.isHalted { s' with acts := i'.hw s'.acts }
  plug : ∀ s s', R s s' → R (i.plug s) (i'.plug s')
  start : i.start = i'.start
  fin : i.fin = i'.fin
  statNow : i.statNow = i'.statNow
  turn : i.turn = i'.turn
  jointNow : i.jointNow = i'.jointNow
  jointFree : i.jointFree = i'.jointFree

/-- Two executions side by side: the same steps of the two threads and the same service calls, with inputs related by `ok`. -/
inductive TwinRun (big : F) (m : Bool) (d d' : RtData F) (ok : PlantIn F → PlantIn F → Prop) : Plant F → Plant F → Prop
  | init : TwinRun big m d d' ok (Plant.init m d) (Plant.init m d')
  | rt {p p' : Plant F} (h : TwinRun big m d d' ok p p') (i i' : PlantIn F) (ht : ok i i') : TwinRun big m d d' ok (p.step big (.rt i)) (p'.step big (.rt i'))
  | nrt {p p' : Plant F} (h : TwinRun big m d d' ok p p') (hu : p.mgr.used ≠ none) : TwinRun big m d d' ok (p.step big .nrt) (p'.step big .nrt)
  | call {p p' : Plant F} (h : TwinRun big m d d' ok p p') (hu : p.mgr.used ≠ none) (op : Op) :
      TwinRun big m d d' ok (p.step big (.call op)) (p'.step big (.call op))

/-- A cycle of two executions: it began alike, the same plugin calls were made, and what was sent is related. -/
structure CyclesTwin (R : RState F → RState F → Prop) (r r' : CycleRec F) : Prop where
  begun : r.begun = r'.begun
  calls : r.calls.map (·.ev) = r'.calls.map (·.ev)
  timed : r.timed = r'.timed
  sent : R r.sent r'.sent

structure TwinInv (R : RState F → RState F → Prop) (p p' : Plant F) : Prop where
  mgr : p'.mgr = p.mgr
  robot : R p.data.robot p'.data.robot
  stats : p'.data.stats = p.data.stats
  statPub : p'.data.statPub.last = p.data.statPub.last ∧ p'.data.statPub.period = p.data.statPub.period
  jointPub : p'.data.jointPub.last = p.data.jointPub.last ∧ p'.data.jointPub.period = p.data.jointPub.period
  begun : p.begun = p'.begun
  calls : p.calls.map (·.ev) = p'.calls.map (·.ev)
  timed : p.timed = p'.timed
  cycles : List.Forall₂ (CyclesTwin R) p.cycles p'.cycles

theorem applyCalls_twin {R : RState F → RState F → Prop} {plug plug' : RState F → RState F} (hp : ∀ s s', R s s' → R (plug s) (plug' s')) (l : List Ev)
    {s s' : RState F} (h : R s s') :
    R (applyCalls (l.map (fun e => PlugCall.mk e plug)) s) (applyCalls (l.map (fun e => PlugCall.mk e plug')) s') := by
  induction l generalizing s s' with
  | nil => exact h
  | cons e l ih => exact ih (hp _ _ h)

variable {R : RState F → RState F → Prop}

theorem TwinInv.advance {p p' : Plant F} (h : TwinInv R p p') (m : State) {plug plug' : RState F → RState F}
    (hp : ∀ s s', R s s' → R (plug s) (plug' s')) : TwinInv R (p.advance m plug) (p'.advance m plug') := by
  unfold Plant.advance
  rw [h.mgr]
  refine ⟨rfl, applyCalls_twin hp _ h.robot, h.stats, h.statPub, h.jointPub, h.begun, ?_, h.timed, h.cycles⟩
  dsimp only
  rw [List.map_append, List.map_append, h.calls, List.map_map, List.map_map]
  rfl

theorem TwinInv.time {p p' : Plant F} (h : TwinInv R p p') (id : Nat) (a b : Int) : TwinInv R (p.time id a b) (p'.time id a b) := by
  refine ⟨h.mgr, h.robot, ?_, h.statPub, h.jointPub, h.begun, h.calls, ?_, h.cycles⟩
  · unfold Plant.time; dsimp only; rw [h.stats]
  · unfold Plant.time; dsimp only; rw [h.timed]

theorem publishStats_agree {R : RState F → RState F → Prop} (hR : ∀ s s', R s s' → R s.resetStats s'.resetStats) {now : Int} {free : Bool} {sp sp' : Pub (List (SRow F) × List (ARow F))} {s s' : RState F} {r r' : Pub (List (SRow F) × List (ARow F)) × RState F × Bool}
    (hl : sp'.last = sp.last ∧ sp'.period = sp.period) (hs : R s s') (h : publishStats now free sp s = some r) (h' : publishStats now free sp' s' = some r') :
    (r'.1.last = r.1.last ∧ r'.1.period = r.1.period) ∧ R r.2.1 r'.2.1 := by
  unfold publishStats at h h'
  rw [hl.1, hl.2] at h'
  rcases ht : pubTick sp.period now free sp.last with _ | t
  · rw [ht] at h; cases h
  rw [ht] at h h'
  simp only [Option.bind_eq_bind, Option.bind_some] at h h'
  by_cases hb : t.2 = true
  · rw [if_pos hb] at h h'
    rcases h1 : fillRows (JState.srow now) s.joints 0 sp.msg.1 with _ | x
    · rw [h1] at h; cases h
    rcases h2 : fillActs s.acts 0 sp.msg.2 with _ | y
    · rw [h1, h2] at h; cases h
    rcases h1' : fillRows (JState.srow now) s'.joints 0 sp'.msg.1 with _ | x'
    · rw [h1'] at h'; cases h'
    rcases h2' : fillActs s'.acts 0 sp'.msg.2 with _ | y'
    · rw [h1', h2'] at h'; cases h'
    rw [h1, h2] at h
    rw [h1', h2'] at h'
    cases h; cases h'
    exact ⟨⟨rfl, rfl⟩, hR _ _ hs⟩
  · rw [if_neg hb] at h h'
    cases h; cases h'
    exact ⟨⟨rfl, rfl⟩, hs⟩

theorem publishJoints_agree {now : Int} {free : Bool} {jp jp' : Pub (List (JRow F))} {s s' : RState F} {r r' : Pub (List (JRow F)) × Bool}
    (hl : jp'.last = jp.last ∧ jp'.period = jp.period) (h : publishJoints now free jp s = some r) (h' : publishJoints now free jp' s' = some r') :
    r'.1.last = r.1.last ∧ r'.1.period = r.1.period := by
  unfold publishJoints at h h'
  rw [hl.1, hl.2] at h'
  rcases ht : pubTick jp.period now free jp.last with _ | t
  · rw [ht] at h; cases h
  rw [ht] at h h'
  simp only [Option.bind_eq_bind, Option.bind_some] at h h'
  by_cases hb : t.2 = true
  · rw [if_pos hb] at h h'
    rcases h1 : fillRows JState.jrow s.joints 0 jp.msg with _ | x
    · rw [h1] at h; cases h
    rcases h1' : fillRows JState.jrow s'.joints 0 jp'.msg with _ | x'
    · rw [h1'] at h'; cases h'
    rw [h1] at h
    rw [h1'] at h'
    cases h; cases h'
    exact ⟨rfl, rfl⟩
  · rw [if_neg hb] at h h'
    cases h; cases h'
    exact ⟨rfl, rfl⟩

theorem position_halted {s t : RState F} (hr : s.Ready) (h : s.propagatePosition = some t) : t.isHalted = s.isHalted := by
  have ha := position_acts _ _ hr h
  have hc := (SameRobot.position hr h).conns
  unfold RState.isHalted
  rw [ha]
  generalize s.conns = l at hc ⊢
  generalize t.conns = l' at hc ⊢
  induction hc with
  | nil => rfl
  | cons e _ ih => obtain ⟨b, rfl, _⟩ := e; rw [List.any_cons, List.any_cons, ih]

variable {big : F} {m : Bool} {d d' : RtData F}

theorem TwinInv.rtStep (hR : Relates big R) {p p' : Plant F} (h : TwinInv R p p') (g : GInv big d p) (g' : GInv big d' p') {i i' : PlantIn F}
    (ht : TwinIn R i i') : TwinInv R (p.rtStep big i) (p'.rtStep big i') := by
  have hi := ht.tame
  have hi' := ht.tame'
  unfold Plant.rtStep
  rw [h.mgr]
  cases hrt : p.mgr.rt with
  | pre =>
    dsimp only
    have hr0 := (SameRobot.of_acts p.data.robot _ (hi.hw p.data.robot.acts)).ready g.good.ready
    have hr0' := (SameRobot.of_acts p'.data.robot _ (hi'.hw p'.data.robot.acts)).ready g'.good.ready
    obtain ⟨s, hs, _⟩ := C67_position_never_aborts _ hr0
    obtain ⟨s', hs', _⟩ := C67_position_never_aborts _ hr0'
    obtain ⟨h1, h2⟩ := ht.hw _ _ h.robot
    have k1 := hR.pos _ _ _ _ h1 hr0 hr0' hs hs'
    have k2 : s.zeroCommands.isHalted = s'.zeroCommands.isHalted := by
      rw [zero_isHalted, zero_isHalted, position_halted hr0 hs, position_halted hr0' hs', h2]
    rw [hs, hs']
    dsimp only
    rw [← k2]
    exact ⟨rfl, hR.zero _ _ k1, h.stats, h.statPub, h.jointPub, rfl, rfl, rfl, h.cycles⟩
  | sweep k =>
    dsimp only
    have hupd : p'.updated k = p.updated k := by unfold Plant.updated; rw [h.mgr]
    split
    · have hr1 := (SameRobot.safety big p.data.robot).ready g.good.ready
      have hr1' := (SameRobot.safety big p'.data.robot).ready g'.good.ready
      obtain ⟨s, hs, _⟩ := C67_effort_never_aborts _ hr1
      obtain ⟨s', hs', _⟩ := C67_effort_never_aborts _ hr1'
      have k1 := hR.effort _ _ _ _ (hR.safety _ _ h.robot) hr1 hr1' hs hs'
      rw [hs, hs']
      refine ⟨rfl, k1, h.stats, h.statPub, h.jointPub, h.begun, h.calls, h.timed, ?_⟩
      exact List.rel_append h.cycles (.cons ⟨h.begun, h.calls, h.timed, k1⟩ .nil)
    · rw [hupd]
      split
      · exact h.advance _ ht.plug
      · rw [ht.start, ht.fin]
        exact (h.advance _ ht.plug).time _ _ _
  | publish =>
    dsimp only
    obtain ⟨sp, robot, b, h1, k1, _⟩ := publishStats_good g.good i.statNow (i.turn && p.mgr.pubLock == none)
    obtain ⟨sp', robot', b', h1', k1', _⟩ := publishStats_good g'.good i.statNow (i.turn && p.mgr.pubLock == none)
    obtain ⟨q1, q2⟩ := publishStats_agree hR.reset h.statPub h.robot h1 h1'
    have g1 := g.good.same k1 (st := p.data.stats)
    have g1' := g'.good.same k1' (st := p'.data.stats)
    obtain ⟨jp, c, j1, _⟩ := publishJoints_good g1 i.jointNow i.jointFree
    obtain ⟨jp', c', j1', _⟩ := publishJoints_good g1' i.jointNow i.jointFree
    dsimp only at j1 j1' q1 q2
    have q3 := publishJoints_agree h.jointPub j1 j1'
    rw [← ht.statNow, ← ht.turn, ← ht.jointNow, ← ht.jointFree, h1, h1']
    dsimp only
    rw [j1, j1']
    dsimp only
    rw [h.statPub.1, h.statPub.2]
    exact ⟨rfl, q2, h.stats, q1, q3, h.begun, h.calls, h.timed, h.cycles⟩
  | _ => exact h.advance _ ht.plug

theorem TwinRun.both (hR : Relates big R) {ok : PlantIn F → PlantIn F → Prop} (hok : ∀ i i', ok i i' → TwinIn R i i') (hd : d.Good) (hd' : d'.Good)
    (h0 : TwinInv R (Plant.init m d) (Plant.init m d')) {p p' : Plant F} (h : TwinRun big m d d' ok p p') :
    Plant.Reach big m d PlantIn.Tame p ∧ Plant.Reach big m d' PlantIn.Tame p' ∧ TwinInv R p p' := by
  induction h with
  | init => exact ⟨.init, .init, h0⟩
  | rt h i i' ht ih =>
    obtain ⟨h1, h2, h3⟩ := ih
    have hk := hok _ _ ht
    refine ⟨h1.rt i hk.tame, h2.rt i' hk.tame', ?_⟩
    unfold Plant.step
    rw [if_neg (by rw [(h1.ginv hd).alive]; simp), if_neg (by rw [(h2.ginv hd').alive]; simp)]
    exact h3.rtStep hR (h1.ginv hd) (h2.ginv hd') hk
  | nrt h hu ih =>
    obtain ⟨h1, h2, h3⟩ := ih
    refine ⟨h1.nrt hu, h2.nrt (by rw [h3.mgr]; exact hu), ?_⟩
    unfold Plant.step
    rw [if_neg (by rw [(h1.ginv hd).alive]; simp), if_neg (by rw [(h2.ginv hd').alive]; simp)]
    exact ⟨by dsimp only; rw [h3.mgr], h3.robot, h3.stats, h3.statPub, h3.jointPub, h3.begun, h3.calls, h3.timed, h3.cycles⟩
  | call h hu op ih =>
    obtain ⟨h1, h2, h3⟩ := ih
    refine ⟨h1.call hu op, h2.call (by rw [h3.mgr]; exact hu) op, ?_⟩
    unfold Plant.step
    rw [if_neg (by rw [(h1.ginv hd).alive]; simp), if_neg (by rw [(h2.ginv hd').alive]; simp)]
    exact ⟨by dsimp only; rw [h3.mgr], h3.robot, h3.stats, h3.statPub, h3.jointPub, h3.begun, h3.calls, h3.timed, h3.cycles⟩

/-- Executions as lists, for the examples. -/
theorem TwinRun.runs {ok : PlantIn F → PlantIn F → Prop} {p p' : Plant F} (h : TwinRun big m d d' ok p p') (l : List (PAct F × PAct F))
    (hl : ∀ x ∈ l, (∃ i i', x = (.rt i, .rt i') ∧ ok i i') ∨ x = (.nrt, .nrt) ∨ ∃ op, x = (.call op, .call op))
    (hs : ∀ pre, pre <+: l → (Plant.runs big p (pre.map (·.1))).mgr.used.isSome = true) :
    TwinRun big m d d' ok (Plant.runs big p (l.map (·.1))) (Plant.runs big p' (l.map (·.2))) := by
  induction l generalizing p p' with
  | nil => exact h
  | cons x l ih =>
    have hn : p.mgr.used ≠ none := by
      have := hs [] (by simp)
      intro e; change p.mgr.used.isSome = true at this; rw [e] at this; cases this
    have h1 : TwinRun big m d d' ok (p.step big x.1) (p'.step big x.2) := by
      rcases hl x (by simp) with ⟨i, i', rfl, h3⟩ | rfl | ⟨op, rfl⟩
      · exact h.rt i i' h3
      · exact h.nrt hn
      · exact h.call hn op
    refine ih h1 (fun y hy => hl y (by simp [hy])) ?_
    intro pre hpre
    exact hs (x :: pre) (List.cons_prefix_cons.2 ⟨rfl, hpre⟩)

end

end Pr2
