import Verif.Props.PlantStats
import Verif.Props.Enable
import Verif.Props.Joint

/-!
# C89, C90: what the running system publishes
-/

namespace Pr2
set_option linter.unusedVariables false
set_option linter.unusedSectionVars false

section
variable {F : Type}

/-- The same readings, maybe other commands. -/
def Actuator.SameReadings (a a' : Actuator F) : Prop := ∃ e b, a' = { a with effort := e, enable := b }

theorem Actuator.SameReadings.refl (a : Actuator F) : a.SameReadings a := ⟨a.effort, a.enable, rfl⟩
theorem Actuator.SameReadings.trans {a b c : Actuator F} (h : a.SameReadings b) (k : b.SameReadings c) : a.SameReadings c := by
  obtain ⟨e, b1, rfl⟩ := h
  obtain ⟨e', b2, rfl⟩ := k
  exact ⟨e', b2, rfl⟩

/-- Samples since the last report. -/
def sinceReset (h : List (StatEv F)) : List (JSample F) :=
  h.foldl (fun xs e => match e with | .sample x => xs ++ [x] | .reset => []) []

end

section
variable {F : Type} [FCmp F] [Zero F] [Add F] [Sub F] [Mul F] [iDiv : Div F] [Neg F] [FLit F] [iTrig : FTrig F]

/-! ## Specification -/

/-- It is time for a statistics message, the publisher's thread is done with the previous one, and no service holds the message (to resize it). -/
def Plant.StatsDue (p : Plant F) (i : PlantIn F) : Prop :=
  p.data.statPub.last + p.data.statPub.period < i.statNow ∧ i.turn = true ∧ p.mgr.pubLock = none

/-- It is time for a joint state message and the publisher is free. -/
def Plant.JointsDue (p : Plant F) (i : PlantIn F) : Prop :=
  p.data.jointPub.last + p.data.jointPub.period < i.jointNow ∧ i.jointFree = true

/-- Plugins do not write what the actuators report. -/
structure PlantIn.ReadsOnly (i : PlantIn F) : Prop where
  tame : i.Tame
  plug : ∀ s, List.Forall₂ Actuator.SameReadings s.acts (i.plug s).acts

/-- Plugins do not touch the joints' statistics. -/
structure PlantIn.Reports (i : PlantIn F) : Prop where
  tame : i.Tame
  plug : ∀ s, List.Forall₂ (fun j j' => j'.stats = j.stats) s.joints (i.plug s).joints

/-- May this happen now? -/
def PAct.Allowed (ok : PlantIn F → Prop) (p : Plant F) : PAct F → Prop
  | .rt i => ok i
  | .nrt | .call _ => p.mgr.used ≠ none

/-- An execution, with the states in which its steps were made. -/
inductive Plant.Trace (big : F) (m : Bool) (d : RtData F) (ok : PlantIn F → Prop) : List (Plant F × PAct F) → Plant F → Prop
  | init : Plant.Trace big m d ok [] (Plant.init m d)
  | step {l : List (Plant F × PAct F)} {p : Plant F} (h : Plant.Trace big m d ok l p) (a : PAct F) (ha : a.Allowed ok p) :
      Plant.Trace big m d ok (l ++ [(p, a)]) (p.step big a)

open Classical in
/-- What a step means to the statistics of joint `k`: a cycle begins and the joint is sampled - the new position, velocity and measured effort, and the effort
commanded before - or a statistics message is published. -/
noncomputable def Plant.statEvs (big : F) (k : Nat) (p : Plant F) (a : PAct F) : List (StatEv F) :=
  match a, p.mgr.rt with
  | .rt i, .pre =>
    match p.data.robot.joints[k]?, (p.step big a).data.robot.joints[k]? with
    | some j, some j' => [.sample ⟨j.joint.safety.isSome && j.joint.limits.isSome, j'.position, j'.velocity, j'.measured, j.commanded⟩]
    | _, _ => []
  | .rt i, .publish => if p.StatsDue i then [.reset] else []
  | _, _ => []

/-- The statistics after a history. -/
def JStats.lived (st : JStats F) (h : List (StatEv F)) : JStats F :=
  h.foldl (fun st e => match e with | .sample x => st.update x | .reset => st.reset) st

/-- The history of joint `k`'s statistics in an execution. -/
noncomputable def statHistory (big : F) (k : Nat) (l : List (Plant F × PAct F)) : List (StatEv F) := l.flatMap (fun x => x.1.statEvs big k x.2)

/-! ## Proof -/

theorem Plant.Trace.reach {big : F} {m : Bool} {d : RtData F} {ok : PlantIn F → Prop} {l : List (Plant F × PAct F)} {p : Plant F}
    (h : Plant.Trace big m d ok l p) : Plant.Reach big m d ok p := by
  induction h with
  | init => exact .init
  | step h a ha ih =>
    cases a with
    | rt i => exact ih.rt i ha
    | nrt => exact ih.nrt ha
    | call op => exact ih.call ha op

theorem Plant.Reach.trace {big : F} {m : Bool} {d : RtData F} {ok : PlantIn F → Prop} {p : Plant F}
    (h : Plant.Reach big m d ok p) : ∃ l, Plant.Trace big m d ok l p := by
  induction h with
  | init => exact ⟨_, .init⟩
  | rt h i hi ih => obtain ⟨l, ih⟩ := ih; exact ⟨_, ih.step (.rt i) hi⟩
  | nrt h hu ih => obtain ⟨l, ih⟩ := ih; exact ⟨_, ih.step .nrt hu⟩
  | call h hu op ih => obtain ⟨l, ih⟩ := ih; exact ⟨_, ih.step (.call op) hu⟩

/-- while the efforts just sent have not been touched -/
def LastSent (p : Plant F) : Prop := p.mgr.rt = .publish → ∃ r, p.cycles.getLast? = some r ∧ p.data.robot = r.sent

theorem step_publish {m : Bool} {s : State} (h : MgrOk m s) (i : RtIn) (hs : ∀ k, s.rt ≠ .sweep k) : (s.step (.rt i)).rt ≠ .publish := by
  rcases h with rfl | rfl | h
  · simp [State.step, State.rtStep, State.init]
  · simp [State.step, State.rtStep, State.init]
  · rw [plantStep_rt h.inv.1]
    intro hq
    cases hrt : s.rt with
    | sweep k => exact hs k hrt
    | publish =>
      unfold State.rtStep at hq
      rw [hrt] at hq
      dsimp only at hq
      split at hq <;> cases hq
    | _ =>
      unfold State.rtStep at hq
      rw [hrt] at hq
      dsimp only at hq
      repeat' split at hq
      all_goals first | cases hq | (simp [State.fail, hrt] at hq)

theorem LastSent.of_not {p : Plant F} (h : p.mgr.rt ≠ .publish) : LastSent p := fun e => absurd e h

theorem Plant.Reach.lastSent {big : F} {m : Bool} {d : RtData F} {ok : PlantIn F → Prop} {p : Plant F} (h : Plant.Reach big m d ok p) : LastSent p := by
  induction h with
  | init => exact .of_not (by simp [Plant.init, State.init])
  | @rt p h i hi ih =>
    unfold Plant.step
    split
    · exact ih
    · have hm := h.pinv.mgr
      dsimp only
      unfold Plant.rtStep
      cases hrt : p.mgr.rt with
      | pre =>
        dsimp only
        split
        · exact .of_not (by rw [hrt]; simp)
        · exact .of_not (step_publish hm _ (by rw [hrt]; simp))
      | sweep k =>
        dsimp only
        split
        · split
          · exact .of_not (by dsimp only; rw [hrt]; simp)
          · exact fun _ => ⟨⟨p.begun, p.entry, p.calls, p.timed, _⟩, by simp, rfl⟩
        · rename_i hn
          split
          · exact .of_not hn
          · exact .of_not hn
      | publish =>
        dsimp only
        split
        · exact ih
        · split
          · exact ih
          · exact .of_not (step_publish hm _ (by rw [hrt]; simp))
      | _ => exact .of_not (step_publish hm _ (by rw [hrt]; simp))
  | @nrt p h hu ih =>
    unfold Plant.step
    split
    · exact ih
    · have hR := h.pinv.mgr.reach hu
      have hk : NrtKeeps p.mgr (p.mgr.step .nrt) := by
        unfold State.step
        rw [if_neg (by rw [hR.inv.1.notbad]; simp)]
        exact nrtKeeps hR.inv.1
      intro hq
      dsimp only at hq
      rw [hk.rt] at hq
      exact ih hq
  | @call p h hu op ih =>
    unfold Plant.step
    split
    · exact ih
    · have hR := h.pinv.mgr.reach hu
      have hk : NrtKeeps p.mgr (p.mgr.step (.call op)) := by
        unfold State.step
        rw [if_neg (by rw [hR.inv.1.notbad]; simp)]
        exact callKeeps _ _
      intro hq
      dsimp only at hq
      rw [hk.rt] at hq
      exact ih hq

/-- the publishing step -/
theorem publish_step {big : F} {m : Bool} {d : RtData F} (hd : d.Good) {p : Plant F} (h : Plant.Reach big m d PlantIn.Tame p) (hp : p.mgr.rt = .publish)
    (i : PlantIn F) :
    ∃ sp robot b jp b', publishStats i.statNow (i.turn && p.mgr.pubLock == none) p.data.statPub p.data.robot = some (sp, robot, b) ∧
      publishJoints i.jointNow i.jointFree p.data.jointPub robot = some (jp, b') ∧
      (p.step big (.rt i)).data = { p.data with robot := robot, statPub := sp, jointPub := jp } ∧ (p.step big (.rt i)).cycles = p.cycles := by
  have g := h.ginv hd
  obtain ⟨sp, robot, b, h1, k1, h2, h3, h4⟩ := publishStats_good g.good i.statNow (i.turn && p.mgr.pubLock == none)
  have g1 := g.good.same k1 (st := p.data.stats)
  obtain ⟨jp, b', j1, j2, j3⟩ := publishJoints_good g1 i.jointNow i.jointFree
  dsimp only at j1 j2 j3
  refine ⟨sp, robot, b, jp, b', h1, j1, ?_⟩
  unfold Plant.step
  rw [if_neg (by rw [g.alive]; simp)]
  dsimp only
  unfold Plant.rtStep
  rw [hp]
  dsimp only
  rw [h1]
  dsimp only
  rw [j1]
  exact ⟨rfl, rfl⟩

theorem stats_due {p : Plant F} {i : PlantIn F} : p.StatsDue i ↔ p.data.statPub.last + p.data.statPub.period < i.statNow ∧ (i.turn && p.mgr.pubLock == none) = true := by
  unfold Plant.StatsDue
  cases i.turn <;> cases p.mgr.pubLock <;> simp

/-- **C89.**  At the end of a cycle, if it is time and the publisher is free, a statistics message is published with one row per joint and per motor, in order, showing
what was sent to the hardware in this cycle; the joints' statistics restart and nothing else about the robot changes.  If not, the message, its clock and the
robot are left alone.  Whatever services are called meanwhile. -/
theorem C89_statistics {big : F} {m : Bool} {d : RtData F} (hd : d.Good) {p : Plant F} (h : Plant.Reach big m d PlantIn.Tame p) (hp : p.mgr.rt = .publish)
    (i : PlantIn F) :
    ∃ r, p.cycles.getLast? = some r ∧
      (p.StatsDue i →
        List.Forall₂ (fun row j => row.Shows i.statNow j) (p.step big (.rt i)).data.statPub.msg.1 r.sent.joints ∧
        List.Forall₂ (fun row a => row.Shows a) (p.step big (.rt i)).data.statPub.msg.2 r.sent.acts ∧
        (∃ k : Nat, (p.step big (.rt i)).data.statPub.last = p.data.statPub.last + k * p.data.statPub.period) ∧
        (p.step big (.rt i)).data.statPub.last < i.statNow ∧ i.statNow ≤ (p.step big (.rt i)).data.statPub.last + p.data.statPub.period ∧
        ∃ js, List.Forall₂ (fun j j' => ∃ st, JStats.Restarted j.stats st ∧ j' = { j with stats := st }) r.sent.joints js ∧
          (p.step big (.rt i)).data.robot = { r.sent with joints := js }) ∧
      (¬ p.StatsDue i → (p.step big (.rt i)).data.statPub = p.data.statPub ∧ (p.step big (.rt i)).data.robot = r.sent) := by
  obtain ⟨r, hr, hs⟩ := h.lastSent hp
  refine ⟨r, hr, ?_⟩
  have g := h.ginv hd
  obtain ⟨sp, robot, b, jp, b', h1, j1, hda, _⟩ := publish_step hd h hp i
  rw [hda]
  rw [← hs]
  constructor
  · intro hdue
    rw [stats_due] at hdue
    rw [hdue.2] at h1
    obtain ⟨l, hl⟩ := pubTick_true g.good.statPeriod hdue.1
    unfold publishStats at h1
    rw [hl] at h1
    simp only [Option.bind_eq_bind, Option.bind_some, if_true] at h1
    rw [fillRows_spec _ _ _ _ (fun j hj => published_of (g.good.types j hj)) (by rw [g.good.statRows]; simp), fillActs_spec _ _ _ (by rw [g.good.actRows]; simp)] at h1
    simp only [Option.bind_some, Option.some.injEq, Prod.mk.injEq, List.take_zero, List.nil_append] at h1
    obtain ⟨rfl, rfl, _⟩ := h1
    obtain ⟨l1, l2, k, _, l3⟩ := C25_after_publishing _ _ _ _ g.good.statPeriod _ hl
    refine ⟨?_, ?_, ⟨k, l3⟩, l1, l2, _, ?_, rfl⟩
    · exact rows_of_map (fun j => ⟨rfl, rfl, rfl, rfl, rfl, rfl, rfl, rfl, rfl, rfl, rfl, rfl, rfl⟩) _
    · exact rows_of_map (fun j => ⟨rfl, rfl, rfl, rfl, rfl, rfl, rfl, rfl, rfl, rfl, rfl, rfl, rfl, rfl, rfl, rfl, rfl, rfl, rfl, rfl, rfl, rfl, rfl⟩) _
    · rw [List.forall₂_map_right_iff]
      refine List.forall₂_same.2 (fun j hj => ⟨j.stats.reset, ⟨rfl, rfl, rfl, rfl, rfl, rfl, rfl, rfl⟩, ?_⟩)
      rw [if_pos (published_of (g.good.types j hj))]
  · intro hdue
    rw [stats_due] at hdue
    unfold publishStats at h1
    rw [pubTick_false hdue] at h1
    simp only [Option.bind_eq_bind, Option.bind_some, Bool.false_eq_true, if_false, Option.some.injEq, Prod.mk.injEq] at h1
    obtain ⟨rfl, rfl, _⟩ := h1
    exact ⟨rfl, rfl⟩

/-- **C89.**  At the end of a cycle, if it is time and the publisher is free, a joint state message is published with the name, position, velocity and measured
effort of every joint, in order, as of this cycle; if not, the message and its clock are left alone. -/
theorem C89_joint_states {big : F} {m : Bool} {d : RtData F} (hd : d.Good) {p : Plant F} (h : Plant.Reach big m d PlantIn.Tame p) (hp : p.mgr.rt = .publish)
    (i : PlantIn F) :
    ∃ r, p.cycles.getLast? = some r ∧
      (p.JointsDue i →
        List.Forall₂ (fun row j => row.Shows j) (p.step big (.rt i)).data.jointPub.msg r.sent.joints ∧
        (∃ k : Nat, (p.step big (.rt i)).data.jointPub.last = p.data.jointPub.last + k * p.data.jointPub.period) ∧
        (p.step big (.rt i)).data.jointPub.last < i.jointNow ∧ i.jointNow ≤ (p.step big (.rt i)).data.jointPub.last + p.data.jointPub.period) ∧
      (¬ p.JointsDue i → (p.step big (.rt i)).data.jointPub = p.data.jointPub) := by
  obtain ⟨r, hr, hstat⟩ := C89_statistics hd h hp i
  refine ⟨r, hr, ?_⟩
  have g := h.ginv hd
  obtain ⟨sp, robot, b, jp, b', h1, j1, hda, _⟩ := publish_step hd h hp i
  rw [hda] at hstat ⊢
  dsimp only at hstat ⊢
  -- the joints but for their statistics
  have hrob : List.Forall₂ (fun j j' => ∃ st, j' = ({ j with stats := st } : JState F)) r.sent.joints robot.joints := by
    by_cases hdue : p.StatsDue i
    · obtain ⟨_, _, _, _, _, js, hjs, e⟩ := hstat.1 hdue
      rw [e]
      exact hjs.imp fun _ _ ⟨st, _, e⟩ => ⟨st, e⟩
    · rw [(hstat.2 hdue).2]
      exact List.forall₂_same.2 fun j _ => ⟨j.stats, rfl⟩
  obtain ⟨r', hr', hs'⟩ := h.lastSent hp
  rw [hr] at hr'; cases hr'
  constructor
  · intro hdue
    obtain ⟨l, hl⟩ := pubTick_true g.good.jointPeriod hdue.1
    unfold publishJoints at j1
    rw [hdue.2, hl] at j1
    simp only [Option.bind_eq_bind, Option.bind_some, if_true] at j1
    rw [fillRows_spec _ _ _ _ ?types (by rw [g.good.jointRows, hs']; simp [hrob.length_eq])] at j1
    case types =>
      intro j hj
      obtain ⟨j0, hj0, st, e⟩ := Ready.sweep.forall2_right hrob hj
      rw [e]
      exact published_of (g.good.types j0 (by rw [hs']; exact hj0))
    simp only [Option.bind_some, Option.some.injEq, Prod.mk.injEq, List.take_zero, List.nil_append] at j1
    obtain ⟨rfl, _⟩ := j1
    obtain ⟨l1, l2, k, _, l3⟩ := C25_after_publishing _ _ _ _ g.good.jointPeriod _ hl
    refine ⟨?_, ⟨k, l3⟩, l1, l2⟩
    rw [List.forall₂_map_left_iff]
    refine hrob.flip.imp ?_
    rintro _ j ⟨st, rfl⟩
    exact ⟨rfl, rfl, rfl, rfl⟩
  · intro hdue
    unfold publishJoints at j1
    rw [pubTick_false hdue] at j1
    simp only [Option.bind_eq_bind, Option.bind_some, Bool.false_eq_true, if_false, Option.some.injEq, Prod.mk.injEq] at j1
    obtain ⟨rfl, _⟩ := j1
    rfl

/-- **C89.**  Nothing else touches these messages: no other part of the cycle, no controller and no service. -/
theorem C89_only_then {big : F} {m : Bool} {d : RtData F} {ok : PlantIn F → Prop} {p : Plant F} (h : Plant.Reach big m d ok p) (a : PAct F)
    (ha : p.mgr.rt ≠ .publish ∨ ∀ i, a ≠ .rt i) : (p.step big a).data.statPub = p.data.statPub ∧ (p.step big a).data.jointPub = p.data.jointPub := by
  unfold Plant.step
  split
  · exact ⟨rfl, rfl⟩
  · cases a with
    | nrt => exact ⟨rfl, rfl⟩
    | call op => exact ⟨rfl, rfl⟩
    | rt i =>
      dsimp only
      have hp : p.mgr.rt ≠ .publish := by
        rcases ha with ha | ha
        · exact ha
        · exact absurd rfl (ha i)
      unfold Plant.rtStep
      cases hrt : p.mgr.rt with
      | publish => exact absurd hrt hp
      | pre => dsimp only; split <;> exact ⟨rfl, rfl⟩
      | sweep k =>
        dsimp only
        split
        · split <;> exact ⟨rfl, rfl⟩
        · split <;> exact ⟨rfl, rfl⟩
      | _ => exact ⟨rfl, rfl⟩

/-! ### The motors' rows are the hardware's readings -/

/-- the readings within a cycle -/
structure RInv (p : Plant F) : Prop where
  now : p.mgr.rt.inCycle = true → List.Forall₂ Actuator.SameReadings p.entry.acts p.data.robot.acts
  sent : ∀ r ∈ p.cycles, List.Forall₂ Actuator.SameReadings r.entry.acts r.sent.acts

theorem applyCalls_readings {plug : RState F → RState F} (hp : ∀ s, List.Forall₂ Actuator.SameReadings s.acts (plug s).acts) (l : List Ev) (s : RState F) :
    List.Forall₂ Actuator.SameReadings s.acts (applyCalls (l.map (fun e => PlugCall.mk e plug)) s).acts := by
  induction l generalizing s with
  | nil => exact List.forall₂_same.2 fun a _ => .refl a
  | cons e l ih => exact forall2_trans' (R := Actuator.SameReadings) (fun _ _ _ h k => h.trans k) (hp s) (ih _)

theorem RInv.advance {p : Plant F} (h : RInv p) (hc : p.mgr.rt.inCycle = true) (s : State) {plug : RState F → RState F}
    (hp : ∀ s, List.Forall₂ Actuator.SameReadings s.acts (plug s).acts) : RInv (p.advance s plug) :=
  ⟨fun _ => forall2_trans' (R := Actuator.SameReadings) (fun _ _ _ h k => h.trans k) (h.now hc) (applyCalls_readings hp _ _), h.sent⟩

theorem RInv.rtStep {big : F} {m : Bool} {d : RtData F} {p : Plant F} (g : GInv big d p) (hp : PInv big m p) (h : RInv p) {i : PlantIn F} (hi : i.ReadsOnly) :
    RInv (p.rtStep big i) := by
  unfold Plant.rtStep
  cases hrt : p.mgr.rt with
  | pre =>
    dsimp only
    have k0 := SameRobot.of_acts p.data.robot _ (hi.tame.hw p.data.robot.acts)
    have hr0 := k0.ready g.good.ready
    obtain ⟨s', hs', _⟩ := C67_position_never_aborts _ hr0
    rw [hs']
    refine ⟨fun _ => ?_, h.sent⟩
    change List.Forall₂ _ (i.hw p.data.robot.acts) s'.acts
    rw [position_acts _ _ hr0 hs']
    exact List.forall₂_same.2 fun a _ => .refl a
  | sweep k =>
    have hc : p.mgr.rt.inCycle = true := by rw [hrt]; rfl
    dsimp only
    split
    · have k1 := SameRobot.safety big p.data.robot
      have hr1 := k1.ready g.good.ready
      obtain ⟨s', hs', _⟩ := C67_effort_never_aborts _ hr1
      rw [hs']
      have hcmd := (C48_effort_only_commands _ _ hr1 hs').1
      have hall : List.Forall₂ Actuator.SameReadings p.entry.acts s'.acts :=
        forall2_trans' (R := Actuator.SameReadings) (fun _ _ _ h k => h.trans k) (h.now hc) (hcmd.imp fun _ _ ⟨e, b, he, _⟩ => ⟨e, b, he⟩)
      refine ⟨fun _ => hall, ?_⟩
      intro r hr
      rcases List.mem_append.1 hr with hr | hr
      · exact h.sent r hr
      · rw [List.mem_singleton] at hr; subst hr; exact hall
    · split
      · exact h.advance hc _ hi.plug
      · have := h.advance hc (p.mgr.step (.rt ⟨false, false, false⟩)) hi.plug
        exact ⟨this.now, this.sent⟩
  | publish =>
    dsimp only
    split
    · exact ⟨h.now, h.sent⟩
    · split
      · exact ⟨h.now, h.sent⟩
      · have hout := outside_step hp.mgr ⟨false, decide (i.statNow > p.data.statPub.last + p.data.statPub.period), i.turn⟩ (by rw [hrt]; simp) (by rw [hrt]; rfl)
        refine ⟨fun hc => ?_, h.sent⟩
        dsimp only at hc
        rw [hout.1] at hc; cases hc
  | restart k => exact h.advance (by rw [hrt]; rfl) _ hi.plug
  | restartMid k id => exact h.advance (by rw [hrt]; rfl) _ hi.plug
  | _ =>
    have hout := outside_step hp.mgr ⟨false, false, false⟩ (by rw [hrt]; simp) (by rw [hrt]; rfl)
    refine ⟨fun hc => ?_, h.sent⟩
    change (p.mgr.step (.rt ⟨false, false, false⟩)).rt.inCycle = true at hc
    rw [hout.1] at hc; cases hc

theorem Plant.Reach.rinv {big : F} {m : Bool} {d : RtData F} (hd : d.Good) {p : Plant F} (h : Plant.Reach big m d PlantIn.ReadsOnly p) : RInv p := by
  induction h with
  | init =>
    constructor
    · intro hc; cases hc
    · intro r hr; cases hr
  | rt h i hi ih =>
    have g := (h.mono fun i hi => hi.tame).ginv hd
    unfold Plant.step
    rw [if_neg (by rw [g.alive]; simp)]
    exact ih.rtStep g h.pinv hi
  | @nrt p h hu ih =>
    unfold Plant.step
    split
    · exact ih
    · have hR := h.pinv.mgr.reach hu
      have hk : NrtKeeps p.mgr (p.mgr.step .nrt) := by
        unfold State.step
        rw [if_neg (by rw [hR.inv.1.notbad]; simp)]
        exact nrtKeeps hR.inv.1
      refine ⟨fun hc => ih.now ?_, ih.sent⟩
      dsimp only at hc
      rwa [hk.rt] at hc
  | @call p h hu op ih =>
    unfold Plant.step
    split
    · exact ih
    · have hR := h.pinv.mgr.reach hu
      have hk : NrtKeeps p.mgr (p.mgr.step (.call op)) := by
        unfold State.step
        rw [if_neg (by rw [hR.inv.1.notbad]; simp)]
        exact callKeeps _ _
      refine ⟨fun hc => ih.now ?_, ih.sent⟩
      dsimp only at hc
      rwa [hk.rt] at hc

/-- **C89.**  If plugins do not write what the motors report, the motors' rows of a statistics message are what the hardware reported at the beginning of the cycle. -/
theorem C89_readings {big : F} {m : Bool} {d : RtData F} (hd : d.Good) {p : Plant F} (h : Plant.Reach big m d PlantIn.ReadsOnly p) (hp : p.mgr.rt = .publish)
    (i : PlantIn F) (hdue : p.StatsDue i) :
    ∃ r, p.cycles.getLast? = some r ∧ List.Forall₂ (fun row a => row.Shows a) (p.step big (.rt i)).data.statPub.msg.2 r.entry.acts := by
  obtain ⟨r, hr, h1, _⟩ := C89_statistics hd (h.mono fun i hi => hi.tame) hp i
  refine ⟨r, hr, ?_⟩
  have h2 := (h1 hdue).2.1
  have h3 := (h.rinv hd).sent r (List.mem_of_getLast? hr)
  generalize (p.step big (.rt i)).data.statPub.msg.2 = rows at h2 ⊢
  generalize r.sent.acts = as at h2 h3
  generalize r.entry.acts = as' at h3 ⊢
  induction h2 generalizing as' with
  | nil => cases h3; exact .nil
  | cons hs _ ih =>
    cases h3 with
    | cons hs' h3 =>
      refine .cons ?_ (ih _ h3)
      obtain ⟨e, b, rfl⟩ := hs'
      exact ⟨hs.1, hs.2, hs.3, hs.4, hs.5, hs.6, hs.7, hs.8, hs.9, hs.10, hs.11, hs.12, hs.13, hs.14, hs.15, hs.16, hs.17, hs.18, hs.19, hs.20, hs.21, hs.22, hs.23⟩

/-! ### C90: the joints' statistics -/

theorem applyCalls_stats {plug : RState F → RState F} (hp : ∀ s, List.Forall₂ (fun j j' => j'.stats = j.stats) s.joints (plug s).joints) (l : List Ev) (s : RState F) :
    List.Forall₂ (fun j j' => j'.stats = j.stats) s.joints (applyCalls (l.map (fun e => PlugCall.mk e plug)) s).joints := by
  induction l generalizing s with
  | nil => exact List.forall₂_same.2 fun a _ => rfl
  | cons e l ih => exact forall2_trans' (fun _ _ _ h k => k.trans h) (hp s) (ih _)

theorem forall2_getElem? {α : Type} {R : α → α → Prop} {l l' : List α} (h : List.Forall₂ R l l') {k : Nat} {a : α} (ha : l[k]? = some a) :
    ∃ a', l'[k]? = some a' ∧ R a a' := by
  induction h generalizing k with
  | nil => simp at ha
  | cons h _ ih =>
    cases k with
    | zero => simp at ha; subst ha; exact ⟨_, rfl, h⟩
    | succ k => exact ih (by simpa using ha)


theorem sweep_rel_joints (f : Prop' F) (R : JState F → JState F → Prop) (hrefl : ∀ j, R j j) (htr : ∀ a b c, R a b → R b c → R a c)
    (hf : ∀ b as js r, f b as js = some r → List.Forall₂ R js r.2.2) :
    ∀ (conns : List (Conn F)) (as : List (Actuator F)) (js : List (JState F)) (conns' : List (Conn F)) (as' : List (Actuator F))
      (js' : List (JState F)), Wired conns as.length js.length → sweep f conns as js = some (conns', as', js') → List.Forall₂ R js js' := by
  intro conns
  induction conns with
  | nil => intro as js _ _ _ _ h; cases h; exact List.forall₂_same.2 (fun _ _ => hrefl _)
  | cons c cs ih =>
    intro as js conns' as' js' hw h
    unfold sweep at h
    rcases hr : f c.trans.body (gather as c.ins) (gather js c.outs) with _ | r
    · rw [hr] at h; cases h
    rw [hr] at h
    rcases hs : sweep f cs (scatter c.ins r.2.1 as) (scatter c.outs r.2.2 js) with _ | ⟨cs', as2, js2⟩
    · simp only [hs, Option.bind_eq_bind, Option.bind_some, Option.bind_none] at h; cases h
    simp only [hs, Option.bind_eq_bind, Option.bind_some, Option.some.injEq, Prod.mk.injEq] at h
    obtain ⟨rfl, rfl, rfl⟩ := h
    have hno : c.outs.Nodup := by
      have := hw.nodup; rw [List.flatMap_cons, List.nodup_append] at this; exact this.1
    have h1 := scatter_rel R hrefl htr c.outs r.2.2 js hno (hf _ _ _ _ hr) (hw.outs c (by simp))
    have h2 := ih _ _ _ _ _ (by rw [scatter_length, scatter_length]; exact hw.tail) hs
    exact forall2_trans' htr h1 h2

/-- what the position sweep does to a joint -/
theorem position_joints (s s' : RState F) (h : s.Ready) (hs : s.propagatePosition = some s') :
    List.Forall₂ (fun j j' => j'.joint = j.joint ∧ j'.stats = j.stats.update
      ⟨j.joint.safety.isSome && j.joint.limits.isSome, j'.position, j'.velocity, j'.measured, j.commanded⟩) s.joints s'.joints := by
  unfold RState.propagatePosition RState.sweep at hs
  rcases hr : Pr2.sweep Body.propagatePosition s.conns s.acts s.joints with _ | ⟨c, a, j⟩
  · rw [hr] at hs; cases hs
  rw [hr] at hs; cases hs
  have := sweep_rel_joints Body.propagatePosition JMoved (fun _ => ⟨rfl, rfl, rfl⟩)
    (fun _ _ _ h k => ⟨k.1.trans h.1, k.2.1.trans h.2.1, k.2.2.trans h.2.2⟩) (fun b as js r hr => (position_frame hr).2.1) _ _ _ _ _ _ h.wired hr
  rw [List.forall₂_map_right_iff]
  refine this.imp ?_
  rintro j j' ⟨h1, h2, h3⟩
  refine ⟨h1, ?_⟩
  dsimp only
  unfold JState.sample
  rw [h1, h2, h3]

theorem lived_append (st : JStats F) (a b : List (StatEv F)) : st.lived (a ++ b) = (st.lived a).lived b := by
  unfold JStats.lived; rw [List.foldl_append]

/-- **C90.**  Whatever is loaded, unloaded and switched: the statistics of a joint are those of its history - sampled once per cycle, restarted exactly when a
statistics message was published - and nothing else has touched them. -/
theorem C90_history {big : F} {m : Bool} {d : RtData F} (hd : d.Good) {l : List (Plant F × PAct F)} {p : Plant F} (h : Plant.Trace big m d PlantIn.Reports l p)
    (k : Nat) (j0 : JState F) (hk : d.robot.joints[k]? = some j0) :
    ∃ j, p.data.robot.joints[k]? = some j ∧ j.joint = j0.joint ∧ j.stats = j0.stats.lived (statHistory big k l) := by
  induction h with
  | init => exact ⟨j0, hk, rfl, rfl⟩
  | @step l p h a ha ih =>
    obtain ⟨j, hj, hjj, hst⟩ := ih
    have hreach := h.reach.mono (ok' := PlantIn.Tame) fun i hi => hi.tame
    have g := hreach.ginv hd
    have happ : statHistory big k (l ++ [(p, a)]) = statHistory big k l ++ p.statEvs big k a := by simp [statHistory]
    rw [happ]
    have suff : ∀ {js : List (JState F)} {R : JState F → JState F → Prop}, List.Forall₂ R p.data.robot.joints js →
        (∀ j', js[k]? = some j' → R j j' → j'.joint = j.joint ∧ j'.stats = j.stats.lived (p.statEvs big k a)) →
        ∃ j, js[k]? = some j ∧ j.joint = j0.joint ∧ j.stats = j0.stats.lived (statHistory big k l ++ p.statEvs big k a) := by
      intro js R hR hr
      obtain ⟨j', hj', hjr⟩ := forall2_getElem? hR hj
      obtain ⟨e1, e2⟩ := hr j' hj' hjr
      exact ⟨j', hj', e1.trans hjj, by rw [e2, lived_append, hst]⟩
    have same : List.Forall₂ (fun a b => b = a) p.data.robot.joints p.data.robot.joints := List.forall₂_same.2 fun _ _ => rfl
    cases a with
    | nrt =>
      unfold Plant.step
      rw [if_neg (by rw [g.alive]; simp)]
      exact suff same fun j' _ e => by subst e; exact ⟨rfl, rfl⟩
    | call op =>
      unfold Plant.step
      rw [if_neg (by rw [g.alive]; simp)]
      exact suff same fun j' _ e => by subst e; exact ⟨rfl, rfl⟩
    | rt i =>
      have hi : i.Reports := ha
      -- steps in which plugins may act
      have adv : ∀ s, p.statEvs big k (.rt i) = [] → ∃ j, (p.advance s i.plug).data.robot.joints[k]? = some j ∧ j.joint = j0.joint ∧
          j.stats = j0.stats.lived (statHistory big k l ++ p.statEvs big k (.rt i)) := by
        intro s he
        have k1 := applyCalls_stats hi.plug ((s.log.drop p.mgr.log.length).filter Ev.isCall) p.data.robot
        have k2 := (applyCalls_same hi.tame.plug ((s.log.drop p.mgr.log.length).filter Ev.isCall) p.data.robot).joints
        obtain ⟨j', hj', e1⟩ := forall2_getElem? k1 hj
        obtain ⟨j'', hj'', e2⟩ := forall2_getElem? k2 hj
        rw [hj'] at hj''; cases hj''
        refine ⟨j', hj', e2.trans hjj, ?_⟩
        rw [he, List.append_nil, e1, hst]
      cases hrt : p.mgr.rt with
      | pre =>
        have k0 := SameRobot.of_acts p.data.robot _ (hi.tame.hw p.data.robot.acts)
        have hr0 := k0.ready g.good.ready
        obtain ⟨s', hs', _⟩ := C67_position_never_aborts _ hr0
        have hpj := position_joints _ _ hr0 hs'
        have hstep : (p.step big (.rt i)).data.robot = s'.zeroCommands := by
          unfold Plant.step
          rw [if_neg (by rw [g.alive]; simp)]
          dsimp only
          unfold Plant.rtStep
          rw [hrt]
          dsimp only
          rw [hs']
        rw [hstep]
        have hz : List.Forall₂ (fun j j' => ∃ j1 : JState F, j' = { j1 with commanded := 0 } ∧ j1.joint = j.joint ∧ j1.stats = j.stats.update
            ⟨j.joint.safety.isSome && j.joint.limits.isSome, j1.position, j1.velocity, j1.measured, j.commanded⟩) p.data.robot.joints s'.zeroCommands.joints := by
          unfold RState.zeroCommands
          rw [List.forall₂_map_right_iff]
          exact hpj.imp fun j j' hh => ⟨j', rfl, hh.1, hh.2⟩
        refine suff hz ?_
        rintro j' hj' ⟨j1, rfl, e1, e2⟩
        refine ⟨e1, ?_⟩
        have hev : p.statEvs big k (.rt i) = [.sample ⟨j.joint.safety.isSome && j.joint.limits.isSome, j1.position, j1.velocity, j1.measured, j.commanded⟩] := by
          unfold Plant.statEvs
          rw [hrt]
          dsimp only
          rw [hj, hstep, hj']
        rw [hev]
        exact e2
      | sweep n =>
        have hev : p.statEvs big k (.rt i) = [] := by unfold Plant.statEvs; rw [hrt]
        unfold Plant.step
        rw [if_neg (by rw [g.alive]; simp)]
        dsimp only
        unfold Plant.rtStep
        rw [hrt]
        dsimp only
        split
        · have k1 := SameRobot.safety big p.data.robot
          have hr1 := k1.ready g.good.ready
          obtain ⟨s', hs', _⟩ := C67_effort_never_aborts _ hr1
          rw [hs']
          have hjs := (C48_effort_only_commands _ _ hr1 hs').2
          dsimp only
          rw [hjs]
          have : List.Forall₂ (fun j j' => j' = JState.enforceLimits big j) p.data.robot.joints (p.data.robot.enforceSafety big).joints := by
            unfold RState.enforceSafety
            rw [List.forall₂_map_right_iff]
            exact List.forall₂_same.2 fun _ _ => rfl
          refine suff this ?_
          rintro j' _ rfl
          rw [hev]
          refine ⟨?_, ?_⟩
          · rfl
          · rfl
        · split
          · exact adv _ hev
          · exact adv _ hev
      | publish =>
        obtain ⟨r, hr, hdue, hnot⟩ := C89_statistics hd hreach hrt i
        obtain ⟨r', hr', hs'⟩ := hreach.lastSent hrt
        rw [hr] at hr'; cases hr'
        by_cases hD : p.StatsDue i
        · obtain ⟨_, _, _, _, _, js, hjs, e⟩ := hdue hD
          rw [e]
          rw [← hs'] at hjs
          refine suff hjs ?_
          rintro j' _ ⟨st, hres, rfl⟩
          refine ⟨rfl, ?_⟩
          have hev : p.statEvs big k (.rt i) = [.reset] := by unfold Plant.statEvs; rw [hrt]; dsimp only; rw [if_pos hD]
          rw [hev]
          change st = j.stats.reset
          obtain ⟨a1, a2, a3, a4, a5, a6, a7, a8⟩ := hres
          rcases st with ⟨⟩
          simp only at a1 a2 a3 a4 a5 a6 a7 a8
          subst a1 a2 a3 a4 a5 a6 a7 a8
          rfl
        · rw [(hnot hD).2, ← hs']
          have hev : p.statEvs big k (.rt i) = [] := by unfold Plant.statEvs; rw [hrt]; dsimp only; rw [if_neg hD]
          exact suff same fun j' _ e => by subst e; rw [hev]; exact ⟨rfl, rfl⟩
      | _ =>
        have hev : p.statEvs big k (.rt i) = [] := by unfold Plant.statEvs; rw [hrt]
        unfold Plant.step
        rw [if_neg (by rw [g.alive]; simp)]
        dsimp only
        unfold Plant.rtStep
        rw [hrt]
        exact adv _ hev

theorem sinceReset_append (a b : List (StatEv F)) :
    sinceReset (a ++ [.reset] ++ b) = sinceReset b := by
  unfold sinceReset
  rw [List.foldl_append, List.foldl_append]
  rfl

/-- the history begins with a sample, and ends with one while a cycle is executed -/
theorem history_shape {big : F} {m : Bool} {d : RtData F} (hd : d.Good) {l : List (Plant F × PAct F)} {p : Plant F} (h : Plant.Trace big m d PlantIn.Reports l p)
    (k : Nat) (j0 : JState F) (hk : d.robot.joints[k]? = some j0) :
    (statHistory big k l = [] ∨ ∃ x t, statHistory big k l = .sample x :: t) ∧
    (p.mgr.rt.inCycle = true ∨ p.mgr.rt = .publish → ∃ x t, statHistory big k l = t ++ [.sample x]) := by
  induction h with
  | init =>
    refine ⟨Or.inl rfl, ?_⟩
    rintro (h | h) <;> cases h
  | @step l p h a ha ih =>
    have hreach := h.reach.mono (ok' := PlantIn.Tame) fun i hi => hi.tame
    have g := hreach.ginv hd
    have hm := hreach.pinv.mgr
    have happ : statHistory big k (l ++ [(p, a)]) = statHistory big k l ++ p.statEvs big k a := by simp [statHistory]
    rw [happ]
    have quiet : p.statEvs big k a = [] → ((p.step big a).mgr.rt.inCycle = true ∨ (p.step big a).mgr.rt = .publish → p.mgr.rt.inCycle = true ∨ p.mgr.rt = .publish) →
        (statHistory big k l ++ p.statEvs big k a = [] ∨ ∃ x t, statHistory big k l ++ p.statEvs big k a = .sample x :: t) ∧
        ((p.step big a).mgr.rt.inCycle = true ∨ (p.step big a).mgr.rt = .publish → ∃ x t, statHistory big k l ++ p.statEvs big k a = t ++ [.sample x]) := by
      intro he hp
      rw [he, List.append_nil]
      exact ⟨ih.1, fun h => ih.2 (hp h)⟩
    have svc : ∀ b, NrtKeeps p.mgr (p.mgr.step b) → (({ p with mgr := p.mgr.step b } : Plant F).mgr.rt.inCycle = true ∨ ({ p with mgr := p.mgr.step b } : Plant F).mgr.rt = .publish →
        p.mgr.rt.inCycle = true ∨ p.mgr.rt = .publish) := by
      intro b hb
      dsimp only
      rw [hb.rt]
      exact id
    cases a with
    | nrt =>
      refine quiet rfl ?_
      have hR := hm.reach ha
      unfold Plant.step
      rw [if_neg (by rw [g.alive]; simp)]
      refine svc _ ?_
      unfold State.step
      rw [if_neg (by rw [hR.inv.1.notbad]; simp)]
      exact nrtKeeps hR.inv.1
    | call op =>
      refine quiet rfl ?_
      have hR := hm.reach ha
      unfold Plant.step
      rw [if_neg (by rw [g.alive]; simp)]
      refine svc _ ?_
      unfold State.step
      rw [if_neg (by rw [hR.inv.1.notbad]; simp)]
      exact callKeeps _ _
    | rt i =>
      have hi : i.Reports := ha
      by_cases hc : p.mgr.rt.inCycle = true
      · refine quiet ?_ (fun _ => Or.inl hc)
        unfold Plant.statEvs
        split
        · rename_i hrt; rw [hrt] at hc; cases hc
        · rename_i hrt; rw [hrt] at hc; cases hc
        · rfl
      · have hcf : p.mgr.rt.inCycle = false := by simpa using hc
        cases hrt : p.mgr.rt with
        | pre =>
          obtain ⟨j, hj, _⟩ := C90_history hd h k j0 hk
          obtain ⟨j', hj', _⟩ := C90_history hd (h.step (.rt i) ha) k j0 hk
          have hev : ∃ x, p.statEvs big k (.rt i) = [.sample x] := by
            unfold Plant.statEvs
            rw [hrt]
            dsimp only
            rw [hj, hj']
            exact ⟨_, rfl⟩
          obtain ⟨x, hx⟩ := hev
          rw [hx]
          refine ⟨Or.inr ?_, fun _ => ⟨x, _, rfl⟩⟩
          rcases ih.1 with e | ⟨y, t, e⟩
          · rw [e]; exact ⟨x, [], rfl⟩
          · rw [e]; exact ⟨y, t ++ [.sample x], rfl⟩
        | publish =>
          obtain ⟨sp, robot, b, jp, b', h1, j1, hda, _⟩ := publish_step hd hreach hrt i
          have hmgr : (p.step big (.rt i)).mgr = p.mgr.step (.rt ⟨false, decide (i.statNow > p.data.statPub.last + p.data.statPub.period), i.turn⟩) := by
            unfold Plant.step
            rw [if_neg (by rw [g.alive]; simp)]
            dsimp only
            unfold Plant.rtStep
            rw [hrt]
            dsimp only
            rw [h1]
            dsimp only
            rw [j1]
          have n1 := (outside_step hm ⟨false, decide (i.statNow > p.data.statPub.last + p.data.statPub.period), i.turn⟩ (by rw [hrt]; simp) hcf).1
          have n2 := step_publish hm ⟨false, decide (i.statNow > p.data.statPub.last + p.data.statPub.period), i.turn⟩ (by rw [hrt]; simp)
          refine ⟨?_, ?_⟩
          · obtain ⟨x, t, e⟩ := ih.2 (Or.inr hrt)
            rcases ih.1 with e' | ⟨y, t', e'⟩
            · rw [e'] at e; simp at e
            · rw [e']; exact Or.inr ⟨y, _, rfl⟩
          · rw [hmgr, n1]
            rintro (hh | hh)
            · cases hh
            · exact absurd hh n2
        | restart n => rw [hrt] at hcf; cases hcf
        | restartMid n id => rw [hrt] at hcf; cases hcf
        | sweep n => rw [hrt] at hcf; cases hcf
        | _ =>
          have hev : p.statEvs big k (.rt i) = [] := by unfold Plant.statEvs; rw [hrt]
          refine quiet hev ?_
          have hmgr : (p.step big (.rt i)).mgr = p.mgr.step (.rt ⟨false, false, false⟩) := by
            unfold Plant.step
            rw [if_neg (by rw [g.alive]; simp)]
            dsimp only
            unfold Plant.rtStep
            rw [hrt]
            rfl
          rw [hmgr, (outside_step hm ⟨false, false, false⟩ (by rw [hrt]; simp) hcf).1]
          rintro (hh | hh)
          · cases hh
          · exact absurd hh (step_publish hm _ (by rw [hrt]; simp))

end

section exact
variable {F : Type} [Field F] [LinearOrder F] [IsStrictOrderedRing F] [FLit F] [iTrig : FTrig F]
attribute [local instance] exactCmp

theorem sinceReset_samples (xs : List (JSample F)) : sinceReset (samples xs) = xs := by
  induction xs using List.reverseRecOn with
  | nil => rfl
  | append_singleton xs x ih =>
    have : samples (xs ++ [x]) = samples xs ++ [.sample x] := by simp [samples]
    rw [this]
    unfold sinceReset at ih ⊢
    rw [List.foldl_append, ih]
    rfl

theorem sinceReset_split (h : List (StatEv F)) : h = samples (sinceReset h) ∨ ∃ h', h = h' ++ [.reset] ++ samples (sinceReset h) := by
  induction h using List.reverseRecOn with
  | nil => exact Or.inl rfl
  | append_singleton h e ih =>
    cases e with
    | reset => exact Or.inr ⟨h, by simp [sinceReset, samples]⟩
    | sample x =>
      have e1 : sinceReset (h ++ [.sample x]) = sinceReset h ++ [x] := by unfold sinceReset; rw [List.foldl_append]; rfl
      have e2 : samples (sinceReset h ++ [x]) = samples (sinceReset h) ++ [.sample x] := by simp [samples]
      rw [e1, e2]
      rcases ih with ih | ⟨h', ih⟩
      · left; rw [← ih]
      · right; exact ⟨h', by rw [← List.append_assoc, ← ih]⟩

/-- **C90, with C34-C36.**  Exact arithmetic, whatever is loaded, unloaded and switched: when a statistics message is published, the row of a joint has the total distance
travelled since the start; the largest speed and measured effort of all cycles since the last message (except for the very first cycle); `violated_limits` exactly if in
one of these cycles the commanded effort exceeded the measured one (of a joint with limits and safety parameters); and a position range that covers all these
cycles, the present one included. -/
theorem C90_report {big : F} {m : Bool} {d : RtData F} (hd : d.Good) {l : List (Plant F × PAct F)} {p : Plant F} (h : Plant.Trace big m d PlantIn.Reports l p)
    (hp : p.mgr.rt = .publish) (i : PlantIn F) (hdue : p.StatsDue i) (k : Nat) (j0 : JState F) (hk : d.robot.joints[k]? = some j0) (old : F)
    (hf : j0.stats = JStats.fresh old) :
    ∃ row, (p.step big (.rt i)).data.statPub.msg.1[k]? = some row ∧ row.name = j0.joint.name ∧
      row.odometer = travelled (sampled (statHistory big k l)) ∧
      IsMaxOf row.maxVel ((sinceReset (statHistory big k l).tail).map (fun x => |x.velocity|)) ∧
      IsMaxOf row.maxEff ((sinceReset (statHistory big k l).tail).map (fun x => |x.measured|)) ∧
      (row.violated = true ↔ ∃ x ∈ sinceReset (statHistory big k l).tail, x.guarded = true ∧ |x.measured| < |x.commanded|) ∧
      (∀ x ∈ sinceReset (statHistory big k l), row.minPos ≤ x.position ∧ x.position ≤ row.maxPos) ∧
      sinceReset (statHistory big k l) ≠ [] := by
  have hreach := h.reach.mono (ok' := PlantIn.Tame) fun i hi => hi.tame
  obtain ⟨r, hr, hdue', _⟩ := C89_statistics hd hreach hp i
  obtain ⟨r', hr', hs'⟩ := hreach.lastSent hp
  rw [hr] at hr'; cases hr'
  have hrows := (hdue' hdue).1
  rw [← hs'] at hrows
  obtain ⟨j, hj, hjj, hst⟩ := C90_history hd h k j0 hk
  obtain ⟨hfirst, hlast⟩ := history_shape hd h k j0 hk
  obtain ⟨xl, tl, hend⟩ := hlast (Or.inr hp)
  have hrow : ∃ row, (p.step big (.rt i)).data.statPub.msg.1[k]? = some row ∧ row.Shows i.statNow j := by
    have : ∀ (rows : List (SRow F)) (js : List (JState F)) (n : Nat), List.Forall₂ (fun row j => row.Shows i.statNow j) rows js → js[n]? = some j →
        ∃ row, rows[n]? = some row ∧ row.Shows i.statNow j := by
      intro rows js n hh
      induction hh generalizing n with
      | nil => intro e; simp at e
      | cons h1 _ ih =>
        intro e
        cases n with
        | zero => simp at e; subst e; exact ⟨_, rfl, h1⟩
        | succ n => exact ih n (by simpa using e)
    exact this _ _ k hrows hj
  obtain ⟨row, hrow, hshow⟩ := hrow
  refine ⟨row, hrow, by rw [hshow.name, hjj], ?_⟩
  rw [hshow.odometer, hshow.maxVel, hshow.maxEff, hshow.violated, hshow.minPos, hshow.maxPos, hst, hf]
  generalize statHistory big k l = H at *
  have hne : sinceReset H ≠ [] := by
    rw [hend]
    unfold sinceReset
    rw [List.foldl_append]
    simp
  change (JStats.after (JStats.fresh old) H).odometer = _ ∧ IsMaxOf (JStats.after (JStats.fresh old) H).maxVel _ ∧ IsMaxOf (JStats.after (JStats.fresh old) H).maxEff _ ∧
    ((JStats.after (JStats.fresh old) H).violated = true ↔ _) ∧
    (∀ x ∈ sinceReset H, (JStats.after (JStats.fresh old) H).minPos ≤ x.position ∧ x.position ≤ (JStats.after (JStats.fresh old) H).maxPos) ∧ _
  refine ⟨C34_odometer old H, ?_⟩
  rcases hfirst with e | ⟨x0, t, e⟩
  · rw [e] at hend; simp at hend
  · rw [e, List.tail_cons]
    rw [e] at hne
    rcases sinceReset_split t with ht | ⟨h', ht⟩
    · generalize hxs : sinceReset t = xs at ht ⊢
      subst ht
      have e1 : StatEv.sample x0 :: samples xs = samples (x0 :: xs) := rfl
      rw [e1, sinceReset_samples]
      obtain ⟨a1, a2, a3, a4, _⟩ := C35_first_report old x0 xs
      exact ⟨a1, a2, a3, a4, by simp⟩
    · generalize hxs : sinceReset t = xs at ht ⊢
      subst ht
      have e1 : StatEv.sample x0 :: (h' ++ [.reset] ++ samples xs) = (StatEv.sample x0 :: h') ++ [.reset] ++ samples xs := rfl
      rw [e1] at hne ⊢
      rw [sinceReset_append, sinceReset_samples] at hne ⊢
      obtain ⟨a1, a2, a3, a4, _⟩ := C35_report old (StatEv.sample x0 :: h') xs (by simp [sampled])
      exact ⟨a1, a2, a3, a4, hne⟩

end exact

/-! ## A concrete execution meeting the hypotheses: the one of `Verif.Props.PlantStats` -/

section demo
attribute [local instance] exactCmp demoTrig demoLit

theorem demoReach_ok (ok : PlantIn ℚ → Prop) (hok : ok demoIn) : Plant.Reach 1000 false demoRt ok (demoStart.runs 1000 demoPublish) := by
  have h : Plant.Reach 1000 false demoRt ok demoStart := (Plant.Reach.init.rt demoIn hok).rt demoIn hok
  have h2 : ∀ pre ∈ demoPublish.inits, (Plant.runs 1000 demoStart pre).mgr.used.isSome = true := by decide +kernel
  refine h.runs (h2 [] (by simp)) ?_ (fun pre hpre => h2 pre ((List.mem_inits _ _).2 hpre))
  have : ∀ n i, PAct.rt i ∈ demoBoth n → i = demoIn := by
    intro n i hi
    induction n with
    | zero => cases hi
    | succ n ih =>
      simp only [demoBoth, List.mem_cons, reduceCtorEq, false_or, PAct.rt.injEq] at hi
      exact hi.elim id ih
  intro i hi
  simp only [demoPublish, List.cons_append, List.mem_cons, reduceCtorEq, false_or, List.mem_append] at hi
  rcases hi with hi | hi <;> (rw [this _ i hi]; exact hok)

/-- C89, C90: a cycle has just sent its commands, and a message is due. -/
theorem demo_publishes : ∃ (l : List (Plant ℚ × PAct ℚ)) (p : Plant ℚ), Plant.Trace 1000 false demoRt PlantIn.Reports l p ∧
    Plant.Reach 1000 false demoRt PlantIn.ReadsOnly p ∧ p.mgr.rt = .publish ∧ p.StatsDue { demoIn with statNow := 11, turn := true } ∧
    p.JointsDue { demoIn with jointNow := 11, jointFree := true } ∧ ∃ j0, demoRt.robot.joints[0]? = some j0 ∧ j0.stats = JStats.fresh 0 := by
  have tame : demoIn.Tame := ⟨fun as => List.forall₂_same.2 fun _ _ => rfl, (springController_tame 4).1⟩
  have h1 : demoIn.Reports := by
    refine ⟨tame, fun s => ?_⟩
    change List.Forall₂ _ s.joints (springController 4 s).joints
    rcases s with ⟨conns, joints, jmap, acts⟩
    cases joints with
    | nil => exact .nil
    | cons j js => exact .cons rfl (List.forall₂_same.2 fun _ _ => rfl)
  have h2 : demoIn.ReadsOnly := ⟨tame, fun s => List.forall₂_same.2 fun a _ => .refl a⟩
  obtain ⟨l, hl⟩ := (demoReach_ok _ h1).trace
  exact ⟨l, _, hl, demoReach_ok _ h2, by decide +kernel, ⟨by decide +kernel, rfl, by decide +kernel⟩, ⟨by decide +kernel, rfl⟩, _, rfl, rfl⟩

end demo

end Pr2
