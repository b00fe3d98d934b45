import Verif.Props.PlantPublish
import Verif.Props.PlantStats

/-!
# C124: publishing, locking and services do not disturb control

The realtime loop publishes statistics in between, resets them, and shares its time with the services.  Here the machine with all that is compared with the plain
control loop - readings, positions, plugin calls, limits, efforts - that does none of it.
-/

namespace Pr2
set_option linter.unusedVariables false
set_option linter.unusedSectionVars false

/-! ## Specification: the plain control loop -/

/-- What happens to the robot, seen from a control loop: a cycle begins with new readings, a plugin is called, the efforts are sent. -/
inductive CtlEv (F : Type) where
  | begin (hw : List (Actuator F) → List (Actuator F))
  | call (eff : RState F → RState F)
  | send

/-- A joint with its statistics (joint.h:48-78) wiped out. -/
def JState.forgetStats {F : Type} [Zero F] (j : JState F) : JState F := { j with stats := ⟨0, 0, 0, 0, 0, false, false, 0⟩ }

/-- Equal but for joint statistics: the same actuators, transmissions and joints - positions, velocities, efforts, commands, calibration. -/
def RState.SameButStats {F : Type} [Zero F] (s s' : RState F) : Prop := s.mapJoints JState.forgetStats = s'.mapJoints JState.forgetStats

/-- A plugin call that does not look at joint statistics (what it does to them does not matter). -/
def Blind {F : Type} [Zero F] (f : RState F → RState F) : Prop := ∀ s s', RState.SameButStats s s' → RState.SameButStats (f s) (f s')

section
variable {F : Type} [FCmp F] [Zero F] [Add F] [Sub F] [Mul F] [iDiv : Div F] [Neg F] [FLit F] [iTrig : FTrig F]

/-- One event of the plain control loop: the robot, and what has been sent so far. -/
def CtlEv.apply (big : F) (x : RState F × List (RState F)) : CtlEv F → Option (RState F × List (RState F))
  | .begin hw => ({ x.1 with acts := hw x.1.acts } : RState F).propagatePosition.map fun t => (t.zeroCommands, x.2)
  | .call f => some (f x.1, x.2)
  | .send => (x.1.enforceSafety big).propagateEffort.map fun t => (t, x.2 ++ [t])

/-- The plain control loop: no services, no locks, no publishers, no statistics messages. -/
def controlLoop (big : F) (x : RState F × List (RState F)) (es : List (CtlEv F)) : Option (RState F × List (RState F)) :=
  es.foldlM (CtlEv.apply big) x

/-- What a step of the machine means to the control loop.  Service steps and publishing: nothing. -/
def Plant.ctl (big : F) (p : Plant F) (a : PAct F) : List (CtlEv F) :=
  if p.dead then [] else
  match a with
  | .rt i =>
    match p.mgr.rt with
    | .pre => [.begin i.hw]
    | .publish => []
    | _ =>
      ((((p.step big a).mgr.log.drop p.mgr.log.length).filter Ev.isCall).map fun _ => .call i.plug) ++
        if p.cycles.length < (p.step big a).cycles.length then [.send] else []
  | _ => []

/-- What an execution means to the control loop. -/
def ctlOf (big : F) (l : List (Plant F × PAct F)) : List (CtlEv F) := l.flatMap fun x => x.1.ctl big x.2

/-! ## Proof -/

theorem position_blind (b : Body F) (as : List (Actuator F)) (js : List (JState F)) :
    b.propagatePosition as (js.map JState.forgetStats) = (b.propagatePosition as js).map (fun r => (r.1, r.2.1, r.2.2.map JState.forgetStats)) := by
  cases b with
  | simple t =>
    obtain ⟨r, sr, us, cl, cal⟩ := t
    rcases as with _ | ⟨a, _ | ⟨a', as⟩⟩ <;> rcases js with _ | ⟨j, _ | ⟨k, _ | ⟨l, js⟩⟩⟩ <;> cases us <;> rfl
  | wrist t =>
    unfold Body.propagatePosition WristT.propagatePosition
    rcases as with _ | ⟨a, _ | ⟨a', _ | ⟨a'', as⟩⟩⟩ <;> rcases js with _ | ⟨j, _ | ⟨k, _ | ⟨l, js⟩⟩⟩ <;> rfl
  | gripper t =>
    unfold Body.propagatePosition GripperT.propagatePosition
    rcases as with _ | ⟨a, _ | ⟨a', as⟩⟩ <;> rcases js with _ | ⟨j, js⟩
    · rfl
    · rfl
    · rfl
    · simp only [List.map_cons, List.length_map]
      by_cases hc : js.length = t.passive.length + (if t.hasPassive then 2 else 1)
      · rw [if_pos hc, if_pos hc]
        simp only [Option.map_some, List.map_cons, List.map_append, List.map_map, ← List.map_take, ← List.map_drop, List.cons_append]
        rfl
      · rw [if_neg hc, if_neg hc]; rfl
    · rfl
    · rfl
  | belt t =>
    unfold Body.propagatePosition BeltT.propagatePosition
    rcases as with _ | ⟨a, _ | ⟨a', as⟩⟩ <;> rcases js with _ | ⟨j, _ | ⟨k, js⟩⟩ <;> rfl

theorem effort_blind (b : Body F) (as : List (Actuator F)) (js : List (JState F)) :
    b.propagateEffort as (js.map JState.forgetStats) = (b.propagateEffort as js).map (fun r => (r.1, r.2.1, r.2.2.map JState.forgetStats)) := by
  cases b with
  | simple t =>
    obtain ⟨r, sr, us, cl, cal⟩ := t
    rcases as with _ | ⟨a, _ | ⟨a', as⟩⟩ <;> rcases js with _ | ⟨j, _ | ⟨k, _ | ⟨l, js⟩⟩⟩ <;> cases us <;> rfl
  | wrist t =>
    unfold Body.propagateEffort WristT.propagateEffort
    rcases as with _ | ⟨a, _ | ⟨a', _ | ⟨a'', as⟩⟩⟩ <;> rcases js with _ | ⟨j, _ | ⟨k, _ | ⟨l, js⟩⟩⟩ <;> rfl
  | gripper t =>
    unfold Body.propagateEffort GripperT.propagateEffort
    rcases as with _ | ⟨a, _ | ⟨a', as⟩⟩ <;> rcases js with _ | ⟨j, js⟩
    · rfl
    · rfl
    · rfl
    · simp only [List.map_cons, List.length_map]
      by_cases hc : js.length = t.passive.length + (if t.hasPassive then 2 else 1)
      · rw [if_pos hc, if_pos hc]; rfl
      · rw [if_neg hc, if_neg hc]; rfl
    · rfl
    · rfl
  | belt t =>
    unfold Body.propagateEffort BeltT.propagateEffort
    rcases as with _ | ⟨a, _ | ⟨a', as⟩⟩ <;> rcases js with _ | ⟨j, _ | ⟨k, js⟩⟩ <;> rfl

/-- Equality but for statistics, field by field. -/
theorem sameButStats_iff {s s' : RState F} :
    s.SameButStats s' ↔ s.conns = s'.conns ∧ s.joints.map JState.forgetStats = s'.joints.map JState.forgetStats ∧ s.jmap = s'.jmap ∧ s.acts = s'.acts := by
  unfold RState.SameButStats RState.mapJoints
  rw [RState.mk.injEq]

theorem RState.SameButStats.map {s s' : RState F} (h : s.SameButStats s') (f : JState F → JState F)
    (hf : ∀ j, (f j).forgetStats = (f j.forgetStats).forgetStats) :
    RState.SameButStats { s with joints := s.joints.map f } { s' with joints := s'.joints.map f } := by
  obtain ⟨h1, h2, h3, h4⟩ := sameButStats_iff.1 h
  refine sameButStats_iff.2 ⟨h1, ?_, h3, h4⟩
  have key : ∀ l : List (JState F), (l.map f).map JState.forgetStats = (l.map JState.forgetStats).map fun j => (f j).forgetStats := by
    intro l
    rw [List.map_map, List.map_map]
    exact List.map_congr_left fun j _ => hf j
  dsimp only
  rw [key, key, h2]

theorem RState.SameButStats.sweep {s s' t : RState F} (h : s.SameButStats s') {f : Prop' F}
    (hf : ∀ b as js, f b as (js.map JState.forgetStats) = (f b as js).map (fun r => (r.1, r.2.1, r.2.2.map JState.forgetStats))) (ht : s.sweep f = some t) :
    ∃ t', s'.sweep f = some t' ∧ t.SameButStats t' := by
  have e1 := RState.sweep_erase f JState.forgetStats hf s
  have e2 := RState.sweep_erase f JState.forgetStats hf s'
  rw [show s.mapJoints JState.forgetStats = s'.mapJoints JState.forgetStats from h, e2, ht] at e1
  rcases hs' : s'.sweep f with _ | t'
  · rw [hs'] at e1; cases e1
  · rw [hs'] at e1
    simp only [Option.map_some, Option.some.injEq] at e1
    exact ⟨t', rfl, e1.symm⟩

theorem RState.SameButStats.position {s s' t : RState F} (h : s.SameButStats s') (ht : s.propagatePosition = some t) :
    ∃ t', s'.propagatePosition = some t' ∧ t.SameButStats t' := by
  unfold RState.propagatePosition at ht ⊢
  rcases hs : s.sweep Body.propagatePosition with _ | u
  · rw [hs] at ht; cases ht
  rw [hs] at ht; cases ht
  obtain ⟨u', hu', hm⟩ := h.sweep position_blind hs
  rw [hu']
  exact ⟨_, rfl, hm.map _ fun j => rfl⟩

theorem RState.SameButStats.zero {s s' : RState F} (h : s.SameButStats s') : s.zeroCommands.SameButStats s'.zeroCommands := h.map _ fun j => rfl

theorem RState.SameButStats.effort {big : F} {s s' t : RState F} (h : s.SameButStats s') (ht : (s.enforceSafety big).propagateEffort = some t) :
    ∃ t', (s'.enforceSafety big).propagateEffort = some t' ∧ t.SameButStats t' :=
  RState.SameButStats.sweep (h.map (·.enforceLimits big) fun j => rfl) effort_blind ht

theorem RState.SameButStats.symm {s s' : RState F} (h : s.SameButStats s') : s'.SameButStats s := Eq.symm h
theorem RState.SameButStats.trans {s s' s'' : RState F} (h : s.SameButStats s') (h' : s'.SameButStats s'') : s.SameButStats s'' := Eq.trans h h'

theorem RState.SameButStats.reset (s : RState F) : s.SameButStats s.resetStats := by
  refine sameButStats_iff.2 ⟨rfl, ?_, rfl, rfl⟩
  unfold RState.resetStats
  rw [List.map_map]
  refine List.map_congr_left fun j _ => ?_
  rw [Function.comp_apply]
  split <;> rfl

theorem publishStats_control {now : Int} {free : Bool} {sp : Pub (List (SRow F) × List (ARow F))} {s : RState F} {r : Pub (List (SRow F) × List (ARow F)) × RState F × Bool}
    (h : publishStats now free sp s = some r) : s.SameButStats r.2.1 := by
  unfold publishStats at h
  rcases ht : pubTick sp.period now free sp.last with _ | t
  · rw [ht] at h; cases h
  rw [ht] at h
  simp only [Option.bind_eq_bind, Option.bind_some] at h
  by_cases hb : t.2 = true
  · rw [if_pos hb] at h
    rcases h1 : fillRows (JState.srow now) s.joints 0 sp.msg.1 with _ | x
    · rw [h1] at h; cases h
    rcases h2 : fillActs s.acts 0 sp.msg.2 with _ | y
    · rw [h1, h2] at h; cases h
    rw [h1, h2] at h
    cases h
    exact RState.SameButStats.reset s
  · rw [if_neg hb] at h
    cases h
    rfl

theorem calls_loop (big : F) {f : RState F → RState F} (hf : Blind f) (evs : List Ev) {s t : RState F} (o : List (RState F)) (h : s.SameButStats t) :
    ∃ t', controlLoop big (t, o) (evs.map fun _ => .call f) = some (t', o) ∧ (applyCalls (evs.map fun e => PlugCall.mk e f) s).SameButStats t' := by
  induction evs generalizing s t with
  | nil => exact ⟨t, rfl, h⟩
  | cons e evs ih => exact ih (hf _ _ h)

/-- Machine and control loop at the same point. -/
def InStep (p : Plant F) (x : RState F × List (RState F)) : Prop :=
  p.data.robot.SameButStats x.1 ∧ List.Forall₂ (fun (r : CycleRec F) t => r.sent.SameButStats t) p.cycles x.2

theorem InStep.advance {big : F} {p : Plant F} {x : RState F × List (RState F)} (h : InStep p x) {f : RState F → RState F} (hf : Blind f) (m : State) :
    ∃ y, controlLoop big x ((((m.log.drop p.mgr.log.length).filter Ev.isCall).map fun _ => .call f)) = some y ∧ InStep (p.advance m f) y := by
  obtain ⟨t, h1, h2⟩ := calls_loop big hf ((m.log.drop p.mgr.log.length).filter Ev.isCall) x.2 h.1
  exact ⟨_, h1, h2, h.2⟩

theorem InStep.called {big : F} {p : Plant F} {x : RState F × List (RState F)} (h : InStep p x) {f : RState F → RState F} (hf : Blind f) {m : State} {q : Plant F}
    (hm : q.mgr = m) (hr : q.data.robot = (p.advance m f).data.robot) (hc : q.cycles = p.cycles) :
    ∃ y, controlLoop big x (if false = true then [] else
      (((q.mgr.log.drop p.mgr.log.length).filter Ev.isCall).map fun _ => .call f) ++ if p.cycles.length < q.cycles.length then [.send] else []) = some y ∧
      InStep q y := by
  obtain ⟨y, h1, h2⟩ := h.advance (big := big) hf m
  refine ⟨y, ?_, ?_, ?_⟩
  · rw [hc, hm, if_neg (Nat.lt_irrefl _), List.append_nil]; exact h1
  · rw [hr]; exact h2.1
  · rw [hc]; exact h2.2

/-- A step of the realtime thread that does not kill the machine. -/
theorem InStep.rt {big : F} {p : Plant F} {x : RState F × List (RState F)} (h : InStep p x) {i : PlantIn F} (hi : Blind i.plug) (hp : p.dead = false)
    (hq : (p.step big (.rt i)).dead = false) : ∃ y, controlLoop big x (p.ctl big (.rt i)) = some y ∧ InStep (p.step big (.rt i)) y := by
  have hs : p.step big (.rt i) = p.rtStep big i := by unfold Plant.step; rw [hp]; rfl
  unfold Plant.ctl
  rw [hp]
  rw [hs] at hq ⊢
  dsimp only
  cases hrt : p.mgr.rt with
  | pre =>
    unfold Plant.rtStep at hq ⊢
    rw [hrt] at hq ⊢
    dsimp only at hq ⊢
    rcases ht : ({ p.data.robot with acts := i.hw p.data.robot.acts } : RState F).propagatePosition with _ | t
    · rw [ht] at hq; cases hq
    have hb : RState.SameButStats { p.data.robot with acts := i.hw p.data.robot.acts } { x.1 with acts := i.hw x.1.acts } := by
      obtain ⟨h1, h2, h3, h4⟩ := sameButStats_iff.1 h.1
      exact sameButStats_iff.2 ⟨h1, h2, h3, by dsimp only; rw [h4]⟩
    obtain ⟨t', h1, h2⟩ := hb.position ht
    refine ⟨(t'.zeroCommands, x.2), ?_, h2.zero, h.2⟩
    simp only [controlLoop, Bool.false_eq_true, if_false, List.foldlM_cons, List.foldlM_nil, CtlEv.apply, h1]
    rfl
  | publish =>
    unfold Plant.rtStep at hq ⊢
    rw [hrt] at hq ⊢
    dsimp only at hq ⊢
    rcases h1 : publishStats i.statNow (i.turn && p.mgr.pubLock == none) p.data.statPub p.data.robot with _ | ⟨sp, robot, b⟩
    · rw [h1] at hq; cases hq
    rw [h1] at hq
    dsimp only at hq ⊢
    rcases h2 : publishJoints i.jointNow i.jointFree p.data.jointPub robot with _ | ⟨jp, b'⟩
    · rw [h2] at hq; cases hq
    refine ⟨x, rfl, (publishStats_control h1).symm.trans h.1, h.2⟩
  | sweep k =>
    have hlog : (p.mgr.step (.rt ⟨false, false, false⟩)).rt = .publish → (p.mgr.step (.rt ⟨false, false, false⟩)).log = p.mgr.log := by
      unfold State.step State.rtStep State.fail
      rw [hrt]
      intro hr
      split at hr <;> rename_i hb
      · rw [if_pos hb]
      · rw [if_neg hb]
        dsimp only at hr ⊢
        cases hu : p.mgr.used with
        | none => rfl
        | some u =>
          rw [hu] at hr
          dsimp only at hr ⊢
          split at hr
          · rename_i h1; rw [if_pos h1]
          · rename_i h1
            rw [if_neg h1]
            split at hr
            · rename_i h2
              rw [if_pos h2]
              cases he : p.mgr.rtEntry u k with
              | none => rfl
              | some e => rw [he] at hr; cases hr
            · rename_i h2; rw [if_neg h2]
    by_cases hm : (p.mgr.step (.rt ⟨false, false, false⟩)).rt = .publish
    · unfold Plant.rtStep at hq ⊢
      rw [hrt] at hq ⊢
      dsimp only at hq ⊢
      generalize p.mgr.step (.rt ⟨false, false, false⟩) = m at hlog hq hm ⊢
      rw [hm] at hq
      simp only [hm]
      dsimp only at hq
      rcases ht : (p.data.robot.enforceSafety big).propagateEffort with _ | t
      · rw [ht] at hq; cases hq
      obtain ⟨t', h1, h2⟩ := h.1.effort ht
      refine ⟨(t', x.2 ++ [t']), ?_, h2, List.rel_append h.2 (.cons h2 .nil)⟩
      have hc : p.cycles.length < (p.cycles ++ [CycleRec.mk p.begun p.entry p.calls p.timed t]).length := by simp
      have hd : m.log.drop p.mgr.log.length = [] := by rw [hlog hm, List.drop_length]
      simp only [Bool.false_eq_true, if_false, if_pos hc, hd, List.filter_nil, List.map_nil, List.nil_append]
      simp only [controlLoop, List.foldlM_cons, List.foldlM_nil, CtlEv.apply, h1]
      rfl
    · have e : (p.rtStep big i).mgr = p.mgr.step (.rt ⟨false, false, false⟩) ∧
          (p.rtStep big i).data.robot = (p.advance (p.mgr.step (.rt ⟨false, false, false⟩)) i.plug).data.robot ∧ (p.rtStep big i).cycles = p.cycles := by
        unfold Plant.rtStep
        rw [hrt]
        dsimp only
        generalize p.mgr.step (.rt ⟨false, false, false⟩) = m at hm ⊢
        split
        · rename_i e; exact absurd e hm
        · cases p.updated k with
          | none => exact ⟨rfl, rfl, rfl⟩
          | some id => exact ⟨rfl, rfl, rfl⟩
      exact h.called hi e.1 e.2.1 e.2.2
  | _ =>
    unfold Plant.rtStep
    rw [hrt]
    exact h.called hi rfl rfl rfl

/-- **C124.**  Whatever is published when, and whatever the services do: the efforts the machine sends, and the rest of what it sends, are those of the plain
control loop, which does nothing of it, on the same readings and plugin calls - provided that the plugins do not look at joint statistics. -/
theorem C124_loop {big : F} {m : Bool} {d : RtData F} {l : List (Plant F × PAct F)} {p : Plant F} (h : Plant.Trace big m d (fun i => Blind i.plug) l p)
    (hp : p.dead = false) :
    ∃ s sent, controlLoop big (d.robot, []) (ctlOf big l) = some (s, sent) ∧ p.data.robot.SameButStats s ∧
      List.Forall₂ (fun (r : CycleRec F) t => r.sent.SameButStats t) p.cycles sent := by
  suffices ∃ y, controlLoop big (d.robot, []) (ctlOf big l) = some y ∧ InStep p y from let ⟨y, h1, h2⟩ := this; ⟨y.1, y.2, h1, h2.1, h2.2⟩
  induction h with
  | init => exact ⟨(d.robot, []), rfl, rfl, .nil⟩
  | @step l p h a ha ih =>
    have hd : p.dead = false := by
      rcases hd : p.dead with _ | _
      · rfl
      · unfold Plant.step at hp; rw [hd] at hp; simp [hd] at hp
    obtain ⟨y, h1, h2⟩ := ih hd
    have happ : ctlOf big (l ++ [(p, a)]) = ctlOf big l ++ p.ctl big a := by simp [ctlOf]
    have hl : ∀ z, controlLoop big y (p.ctl big a) = some z → controlLoop big (d.robot, []) (ctlOf big (l ++ [(p, a)])) = some z := by
      intro z hz
      rw [happ]
      unfold controlLoop at h1 hz ⊢
      rw [List.foldlM_append, h1]
      exact hz
    cases a with
    | rt i =>
      obtain ⟨z, h3, h4⟩ := h2.rt ha hd hp
      exact ⟨z, hl z h3, h4⟩
    | nrt =>
      refine ⟨y, hl y ?_, ?_⟩
      · unfold Plant.ctl; rw [hd]; rfl
      · unfold Plant.step; rw [hd]; exact h2
    | call op =>
      refine ⟨y, hl y ?_, ?_⟩
      · unfold Plant.ctl; rw [hd]; rfl
      · unfold Plant.step; rw [hd]; exact h2

theorem same_sent {cs cs' : List (CycleRec F)} {o : List (RState F)} (h2 : List.Forall₂ (fun (r : CycleRec F) t => r.sent.SameButStats t) cs o)
    (h2' : List.Forall₂ (fun (r : CycleRec F) t => r.sent.SameButStats t) cs' o) :
    List.Forall₂ (fun (r r' : CycleRec F) => r.sent.acts = r'.sent.acts ∧
      List.Forall₂ (fun j j' => j.joint = j'.joint ∧ j.position = j'.position ∧ j.velocity = j'.velocity ∧ j.measured = j'.measured ∧ j.commanded = j'.commanded ∧
        j.calibrated = j'.calibrated ∧ j.reference = j'.reference) r.sent.joints r'.sent.joints) cs cs' := by
  induction h2 generalizing cs' with
  | nil => cases h2'; exact .nil
  | @cons r t rs ts hr _ ih =>
    cases h2' with
    | @cons r' _ rs' _ hr' h2' =>
      refine .cons ?_ (ih h2')
      obtain ⟨_, e, _, ea⟩ := sameButStats_iff.1 (hr.trans hr'.symm)
      refine ⟨ea, ?_⟩
      generalize r.sent.joints = a at e ⊢
      generalize r'.sent.joints = b at e ⊢
      induction a generalizing b with
      | nil => cases b with
        | nil => exact .nil
        | cons y b => cases e
      | cons x a iha => cases b with
        | nil => cases e
        | cons y b =>
          rw [List.map_cons, List.map_cons] at e
          injection e with e1 e2
          refine .cons ?_ (iha b e2)
          obtain ⟨j1, j2, j3, j4, j5, j6, j7, j8⟩ := x
          obtain ⟨k1, k2, k3, k4, k5, k6, k7, k8⟩ := y
          unfold JState.forgetStats at e1
          simp only [JState.mk.injEq] at e1 ⊢
          exact ⟨e1.1, e1.2.1, e1.2.2.1, e1.2.2.2.1, e1.2.2.2.2.2.1, e1.2.2.2.2.2.2.1, e1.2.2.2.2.2.2.2⟩

/-- **C124.**  Two executions with the same readings and the same plugin calls - whatever is published in either, at whatever rate, with whatever messages and
whatever statistics before - send all motors the same in every cycle, and the joints have the same commands, positions, velocities and efforts. -/
theorem C124_publishing {big : F} {m m' : Bool} {d d' : RtData F} {l l' : List (Plant F × PAct F)} {p p' : Plant F}
    (h : Plant.Trace big m d (fun i => Blind i.plug) l p) (h' : Plant.Trace big m' d' (fun i => Blind i.plug) l' p') (hp : p.dead = false) (hp' : p'.dead = false)
    (hd : d'.robot = d.robot) (he : ctlOf big l = ctlOf big l') :
    List.Forall₂ (fun (r r' : CycleRec F) => r.sent.acts = r'.sent.acts ∧
      List.Forall₂ (fun j j' => j.joint = j'.joint ∧ j.position = j'.position ∧ j.velocity = j'.velocity ∧ j.measured = j'.measured ∧ j.commanded = j'.commanded ∧
        j.calibrated = j'.calibrated ∧ j.reference = j'.reference) r.sent.joints r'.sent.joints) p.cycles p'.cycles := by
  obtain ⟨s, o, h1, _, h2⟩ := C124_loop h hp
  obtain ⟨s', o', h1', _, h2'⟩ := C124_loop h' hp'
  rw [hd, ← he, h1] at h1'
  cases h1'
  exact same_sent h2 h2'

end

/-! ## A spring controller, with and without publishing -/

section
variable {F : Type} [FCmp F] [Zero F] [Add F] [Sub F] [Mul F] [iDiv : Div F] [Neg F] [FLit F] [iTrig : FTrig F]

/-- The steps of a run, with the states in which they were made. -/
def Plant.trace (big : F) (p : Plant F) : List (PAct F) → List (Plant F × PAct F)
  | [] => []
  | a :: as => (p, a) :: Plant.trace big (p.step big a) as

theorem Plant.Trace.runs {big : F} {m : Bool} {d : RtData F} {ok : PlantIn F → Prop} (as : List (PAct F)) {l : List (Plant F × PAct F)} {p : Plant F}
    (h : Plant.Trace big m d ok l p) (hok : ∀ i, PAct.rt i ∈ as → ok i)
    (hs : ∀ pre, pre <+: as → (∀ i, as[pre.length]? ≠ some (.rt i)) → pre ≠ as → (Plant.runs big p pre).mgr.used.isSome = true) :
    Plant.Trace big m d ok (l ++ p.trace big as) (p.runs big as) := by
  induction as generalizing l p with
  | nil => rw [Plant.trace, List.append_nil]; exact h
  | cons a as ih =>
    have ha : a.Allowed ok p := by
      have h0 : (∀ i, a ≠ .rt i) → p.mgr.used ≠ none := fun hi => by
        have := hs [] (List.nil_prefix) (fun i => by simpa using hi i) (by simp)
        intro e; rw [show Plant.runs big p [] = p from rfl, e] at this; cases this
      cases a with
      | rt i => exact hok i (by simp)
      | nrt => exact h0 fun i => by simp
      | call op => exact h0 fun i => by simp
    have := ih (h.step a ha) (fun i hi => hok i (by simp [hi])) (fun pre hp hi hne => hs (a :: pre) (by simpa using hp) (by simpa using hi) (by simpa using hne))
    rw [List.append_assoc] at this
    exact this

/-- Which kind of event it is. -/
def CtlEv.kind : CtlEv F → Nat
  | .begin _ => 0
  | .call _ => 1
  | .send => 2

/-- With the same readings and plugin in every step, the events are given by their kinds. -/
def CtlEv.ofKind (hw : List (Actuator F) → List (Actuator F)) (f : RState F → RState F) : Nat → CtlEv F
  | 0 => .begin hw
  | 1 => .call f
  | _ => .send

theorem ctl_kinds {big : F} {hw : List (Actuator F) → List (Actuator F)} {f : RState F → RState F} (as : List (PAct F)) (p : Plant F)
    (h : ∀ i, PAct.rt i ∈ as → i.hw = hw ∧ i.plug = f) :
    ctlOf big (p.trace big as) = ((ctlOf big (p.trace big as)).map CtlEv.kind).map (CtlEv.ofKind hw f) := by
  induction as generalizing p with
  | nil => rfl
  | cons a as ih =>
    have e : ctlOf big (p.trace big (a :: as)) = p.ctl big a ++ ctlOf big ((p.step big a).trace big as) := rfl
    rw [e, List.map_append, List.map_append, ← ih _ fun i hi => h i (by simp [hi])]
    congr 1
    unfold Plant.ctl
    split
    · rfl
    · cases a with
      | nrt => rfl
      | call op => rfl
      | rt i =>
        obtain ⟨rfl, rfl⟩ := h i (by simp)
        dsimp only
        split
        · rfl
        · rfl
        · rw [List.map_append, List.map_append, List.map_map, List.map_map]
          congr 1
          split <;> rfl

end

section demo
attribute [local instance] exactCmp demoTrig demoLit

theorem spring_blind (k : ℚ) : Blind (springController k) := by
  intro s s' h
  obtain ⟨h1, h2, h3, h4⟩ := sameButStats_iff.1 h
  refine sameButStats_iff.2 ⟨h1, ?_, h3, h4⟩
  unfold springController
  dsimp only
  generalize s.joints = a at h2 ⊢
  generalize s'.joints = b at h2 ⊢
  cases a with
  | nil => cases b with
    | nil => rfl
    | cons y b => cases h2
  | cons x a => cases b with
    | nil => cases h2
    | cons y b =>
      rw [List.map_cons, List.map_cons] at h2
      injection h2 with e1 e2
      rw [List.modify_zero_cons, List.modify_zero_cons, List.map_cons, List.map_cons, e2]
      congr 1
      unfold JState.forgetStats at e1 ⊢
      simp only [JState.mk.injEq] at e1 ⊢
      simp [e1]

/-- The statistics are due in every cycle, the publishers' threads are always done. -/
def loudIn (n : Nat) : PlantIn ℚ := { demoIn with statNow := 100 * n, turn := true, jointNow := 100 * n, jointFree := true }
/-- Load and start the spring, then run for a while; never anything to publish. -/
def quietActs : List (PAct ℚ) := .rt demoIn :: .rt demoIn :: demoActs ++ List.replicate 60 (.rt demoIn)
/-- The same with messages published all the time, which takes more steps. -/
def loudActs : List (PAct ℚ) := .rt demoIn :: .rt demoIn :: demoActs ++ (List.range 74).map fun k => .rt (loudIn k)

/-- The robot's statistics of an earlier life, another rate, other messages. -/
def loudRt : RtData ℚ := { demoRt with jointPub := { demoRt.jointPub with period := 20 }, stats := fun _ => ⟨[1], 1, 1⟩ }

theorem controlActs_in {i : PlantIn ℚ} (h : PAct.rt i ∈ quietActs ∨ PAct.rt i ∈ loudActs) : i.hw = demoIn.hw ∧ i.plug = demoIn.plug := by
  have hb : ∀ n, PAct.rt i ∈ demoBoth n → i = demoIn := by
    intro n hi
    induction n with
    | zero => cases hi
    | succ n ih =>
      simp only [demoBoth, List.mem_cons, reduceCtorEq, false_or, PAct.rt.injEq] at hi
      exact hi.elim id ih
  have hd : PAct.rt i ∈ PAct.rt demoIn :: PAct.rt demoIn :: demoActs → i = demoIn := by
    intro h
    simp only [demoActs, List.cons_append, List.mem_cons, reduceCtorEq, false_or, List.mem_append, PAct.rt.injEq] at h
    rcases h with h | h | h | h
    · exact h
    · exact h
    · exact hb _ h
    · exact hb _ h
  rcases h with h | h
  · rcases List.mem_append.1 h with h | h
    · rw [hd h]; exact ⟨rfl, rfl⟩
    · have := List.eq_of_mem_replicate h
      cases this; exact ⟨rfl, rfl⟩
  · rcases List.mem_append.1 h with h | h
    · rw [hd h]; exact ⟨rfl, rfl⟩
    · obtain ⟨k, _, e⟩ := List.mem_map.1 h
      cases e; exact ⟨rfl, rfl⟩

theorem control_used : (∀ pre ∈ (PAct.rt demoIn :: PAct.rt demoIn :: demoActs).inits, 2 ≤ pre.length →
    (Plant.runs 1000 (Plant.init false demoRt) pre).mgr.used.isSome = true) ∧
    (∀ pre ∈ (PAct.rt demoIn :: PAct.rt demoIn :: demoActs).inits, 2 ≤ pre.length → (Plant.runs 1000 (Plant.init false loudRt) pre).mgr.used.isSome = true) := by
  decide +kernel

theorem control_trace (d : RtData ℚ) (rest : List (PAct ℚ)) (hr : ∀ a ∈ rest, ∃ i, a = .rt i)
    (hi : ∀ i, PAct.rt i ∈ PAct.rt demoIn :: PAct.rt demoIn :: demoActs ++ rest → i.hw = demoIn.hw ∧ i.plug = demoIn.plug)
    (hu : ∀ pre ∈ (PAct.rt demoIn :: PAct.rt demoIn :: demoActs).inits, 2 ≤ pre.length → (Plant.runs 1000 (Plant.init false d) pre).mgr.used.isSome = true) :
    Plant.Trace 1000 false d (fun i => Blind i.plug) ((Plant.init false d).trace 1000 (PAct.rt demoIn :: PAct.rt demoIn :: demoActs ++ rest))
      (Plant.runs 1000 (Plant.init false d) (PAct.rt demoIn :: PAct.rt demoIn :: demoActs ++ rest)) := by
  have h0 : Plant.Trace 1000 false d (fun i : PlantIn ℚ => Blind i.plug) [] (Plant.init false d) := .init
  refine h0.runs (PAct.rt demoIn :: PAct.rt demoIn :: demoActs ++ rest) (fun i h => by rw [(hi i h).2]; exact spring_blind 4) fun pre hp hn hne => ?_
  have h2 : 2 ≤ pre.length := by
    rcases pre with _ | ⟨x, _ | ⟨y, pre⟩⟩
    · exact absurd rfl (hn demoIn)
    · exact absurd rfl (hn demoIn)
    · simp
  refine hu pre ((List.mem_inits _ _).2 ?_) h2
  by_cases hl : pre.length ≤ (PAct.rt demoIn :: PAct.rt demoIn :: demoActs).length
  · exact List.prefix_of_prefix_length_le hp (List.prefix_append _ _) hl
  · exfalso
    have hlt : pre.length < (PAct.rt demoIn :: PAct.rt demoIn :: demoActs ++ rest).length := by
      rcases Nat.lt_or_ge pre.length (PAct.rt demoIn :: PAct.rt demoIn :: demoActs ++ rest).length with h | h
      · exact h
      · exact absurd (List.IsPrefix.eq_of_length_le hp h) hne
    rw [List.getElem?_append_right (by omega)] at hn
    rw [List.length_append] at hlt
    obtain ⟨i, e⟩ := hr _ (List.getElem_mem (show pre.length - (PAct.rt demoIn :: PAct.rt demoIn :: demoActs).length < rest.length by omega))
    exact hn i (by rw [List.getElem?_eq_getElem (by omega), e])

/-- All of C124: the machine that publishes all the time sends the motor the same in every cycle. -/
theorem demo_control : (Plant.runs 1000 (Plant.init false demoRt) quietActs).cycles.map (·.sent.acts) =
    (Plant.runs 1000 (Plant.init false loudRt) loudActs).cycles.map (·.sent.acts) := by
  have hq := control_trace demoRt (List.replicate 60 (.rt demoIn)) (fun a ha => ⟨demoIn, List.eq_of_mem_replicate ha⟩) (fun i h => controlActs_in (Or.inl h)) control_used.1
  have hl := control_trace loudRt ((List.range 74).map fun k => .rt (loudIn k)) (fun a ha => by obtain ⟨k, _, e⟩ := List.mem_map.1 ha; exact ⟨_, e.symm⟩)
    (fun i h => controlActs_in (Or.inr h)) control_used.2
  have hk : (ctlOf 1000 ((Plant.init false demoRt).trace 1000 quietActs)).map CtlEv.kind = (ctlOf 1000 ((Plant.init false loudRt).trace 1000 loudActs)).map CtlEv.kind := by
    decide +kernel
  have he : ctlOf 1000 ((Plant.init false demoRt).trace 1000 quietActs) = ctlOf 1000 ((Plant.init false loudRt).trace 1000 loudActs) := by
    rw [ctl_kinds (hw := demoIn.hw) (f := demoIn.plug) quietActs _ (fun i h => controlActs_in (Or.inl h)), hk,
      ← ctl_kinds (hw := demoIn.hw) (f := demoIn.plug) loudActs _ (fun i h => controlActs_in (Or.inr h))]
  have h := C124_publishing hq hl (by decide +kernel) (by decide +kernel) rfl he
  have key : ∀ {a b : List (CycleRec ℚ)}, List.Forall₂ (fun r r' => r.sent.acts = r'.sent.acts) a b → a.map (·.sent.acts) = b.map (·.sent.acts) := by
    intro a b h
    induction h with
    | nil => rfl
    | cons e _ ih => rw [List.map_cons, List.map_cons, e, ih]
  exact key (h.imp fun _ _ h => h.1)

/-- Efforts different from zero; and the second machine has published something. -/
example : (Plant.runs 1000 (Plant.init false demoRt) quietActs).cycles.getLast?.map (·.sent.acts.map (·.effort)) = some [-3 / 2] ∧
    (Plant.runs 1000 (Plant.init false demoRt) quietActs).data.statPub.last = 0 ∧
    0 < (Plant.runs 1000 (Plant.init false loudRt) loudActs).data.statPub.last := by decide +kernel

/-- A plugin that looks at the statistics notices when they are published; hence the hypothesis. -/
def nosy (s : RState ℚ) : RState ℚ := { s with joints := s.joints.map fun j => { j with commanded := if j.stats.minPos = 3 / 2 then 0 else 1 } }
def nosyIn (n : Nat) : PlantIn ℚ := { demoIn with plug := nosy, hw := fun as => as.map fun a => { a with position := a.position + 1 }, statNow := n, turn := true }
example : ((Plant.runs 1000 (Plant.init false demoRt) (.rt demoIn :: .rt demoIn :: demoActs ++ List.replicate 60 (.rt (nosyIn 0)))).cycles.getLast?.map
      (·.sent.acts.map (·.effort))) = some [0] ∧
    ((Plant.runs 1000 (Plant.init false demoRt) (.rt demoIn :: .rt demoIn :: demoActs ++ (List.range 74).map fun k => .rt (nosyIn (100 * k)))).cycles.getLast?.map
      (·.sent.acts.map (·.effort))) = some [1 / 2] := by decide +kernel

end demo

end Pr2
