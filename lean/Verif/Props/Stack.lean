import Verif.Props.Recovery
import Verif.Props.Readings

/-!
# C98: from the description to the motors, in every cycle

C95 says what one sweep does, in the units of the robot description.  Here the whole control loop runs (C84): in every cycle, whatever is loaded, unloaded and switched
and whatever the controllers do.  The result is a statement about the motors: if they move like inertias under the efforts they are sent, the joints stay inside the soft
limits of the description.
-/

namespace Pr2
open FLit
set_option linter.unusedVariables false
set_option linter.unusedSectionVars false

/-! ## Specification -/

section
variable {F : Type}

/-- The same motor at the same place. -/
structure Actuator.SameMotion (a a' : Actuator F) : Prop where
  name : a'.name = a.name
  position : a'.position = a.position
  velocity : a'.velocity = a.velocity

/-- The same joint at the same place. -/
structure JState.SameMotion (j j' : JState F) : Prop where
  joint : j'.joint = j.joint
  position : j'.position = j.position
  velocity : j'.velocity = j.velocity

/-- A plugin that leaves the positions and velocities, the motors' names, the joints' descriptions and the transmissions alone.  It may change anything else: commands,
reference positions, whether a joint is calibrated. -/
structure Mannered (f : RState F → RState F) : Prop where
  conns : ∀ s, (f s).conns = s.conns
  jmap : ∀ s, (f s).jmap = s.jmap
  joints : ∀ s, List.Forall₂ JState.SameMotion s.joints (f s).joints
  acts : ∀ s, List.Forall₂ Actuator.SameMotion s.acts (f s).acts

/-- The hardware may report anything; plugins are well-mannered. -/
structure PlantIn.Mannered (i : PlantIn F) : Prop where
  hw : ∀ as, List.Forall₂ (fun a a' => a'.name = a.name) as (i.hw as)
  plug : Pr2.Mannered i.plug

end

/-! ## Well-mannered plugins -/

section
variable {F : Type}

theorem Actuator.SameMotion.refl (a : Actuator F) : a.SameMotion a := ⟨rfl, rfl, rfl⟩
theorem Actuator.SameMotion.trans {a b c : Actuator F} (h : a.SameMotion b) (k : b.SameMotion c) : a.SameMotion c :=
  ⟨k.name.trans h.name, k.position.trans h.position, k.velocity.trans h.velocity⟩
theorem JState.SameMotion.refl (a : JState F) : a.SameMotion a := ⟨rfl, rfl, rfl⟩
theorem JState.SameMotion.trans {a b c : JState F} (h : a.SameMotion b) (k : b.SameMotion c) : a.SameMotion c :=
  ⟨k.joint.trans h.joint, k.position.trans h.position, k.velocity.trans h.velocity⟩

theorem Mannered.id : Mannered (fun s : RState F => s) :=
  ⟨fun _ => rfl, fun _ => rfl, fun _ => List.forall₂_same.2 fun a _ => .refl a, fun _ => List.forall₂_same.2 fun a _ => .refl a⟩
theorem Mannered.comp {f g : RState F → RState F} (hf : Mannered f) (hg : Mannered g) : Mannered (fun s => g (f s)) :=
  ⟨fun s => (hg.conns _).trans (hf.conns s), fun s => (hg.jmap _).trans (hf.jmap s),
    fun s => forall2_trans' (R := JState.SameMotion) (fun _ _ _ h k => h.trans k) (hf.joints s) (hg.joints _),
    fun s => forall2_trans' (R := Actuator.SameMotion) (fun _ _ _ h k => h.trans k) (hf.acts s) (hg.acts _)⟩

theorem applyCalls_mannered (cs : List (PlugCall F)) (h : ∀ c ∈ cs, Mannered c.eff) : Mannered (applyCalls cs) := by
  induction cs with
  | nil => exact .id
  | cons c cs ih => exact (h c (by simp)).comp (ih fun c hc => h c (by simp [hc]))

theorem RState.Joint.unique {s : RState F} {n : String} {j j' : JState F} (h : s.Joint n j) (h' : s.Joint n j') : j = j' := by
  obtain ⟨i, h1, h2⟩ := h
  obtain ⟨i', h1', h2'⟩ := h'
  rw [h1] at h1'; cases h1'
  rw [h2] at h2'; exact Option.some.inj h2'

theorem RState.Motor.unique {s : RState F} {n : String} {a a' : Actuator F} (h : s.Motor n a) (h' : s.Motor n a') : a = a' := by
  obtain ⟨pre, post, h1, h2, h3⟩ := h
  obtain ⟨pre', post', h1', h2', h3'⟩ := h'
  rw [h1] at h1'
  clear h1
  induction pre generalizing pre' with
  | nil =>
    cases pre' with
    | nil => exact (List.cons.inj h1').1
    | cons b pre' => exact absurd h2 (by rw [(List.cons.inj h1').1]; exact h3' b (by simp))
  | cons b pre ih =>
    cases pre' with
    | nil => exact absurd h2' (by rw [← (List.cons.inj h1').1]; exact h3 b (by simp))
    | cons c pre' =>
      exact ih (fun x hx => h3 x (List.mem_cons_of_mem _ hx)) pre' (List.cons.inj h1').2 (fun x hx => h3' x (List.mem_cons_of_mem _ hx))

theorem forall2_get {α : Type} {R : α → α → Prop} {l l' : List α} (h : List.Forall₂ R l l') {i : Nat} {a : α} (ha : l[i]? = some a) : ∃ a', l'[i]? = some a' ∧ R a a' := by
  induction h generalizing i with
  | nil => simp at ha
  | cons h1 _ ih =>
    cases i with
    | zero => simp at ha; subst ha; exact ⟨_, rfl, h1⟩
    | succ i => exact ih (by simpa using ha)

theorem RState.Joint.move {R : JState F → JState F → Prop} {s s' : RState F} (hm : s'.jmap = s.jmap) (h : List.Forall₂ R s.joints s'.joints) {n : String} {j : JState F} (hj : s.Joint n j) :
    ∃ j', s'.Joint n j' ∧ R j j' := by
  obtain ⟨i, h1, h2⟩ := hj
  obtain ⟨j', h3, h4⟩ := forall2_get h h2
  refine ⟨j', ⟨i, ?_, h3⟩, h4⟩
  unfold RState.getJointState at h1 ⊢
  rw [hm]; exact h1

theorem RState.Motor.move {R : Actuator F → Actuator F → Prop} {s s' : RState F} (h : List.Forall₂ R s.acts s'.acts) (hR : ∀ a b, R a b → b.name = a.name) {n : String} {a : Actuator F}
    (ha : s.Motor n a) : ∃ a', s'.Motor n a' ∧ R a a' := by
  obtain ⟨pre, post, h1, h2, h3⟩ := ha
  rw [h1] at h
  unfold RState.Motor
  generalize s'.acts = l at h
  clear h1
  induction pre generalizing l with
  | nil =>
    cases h with
    | cons h4 h5 => exact ⟨_, ⟨[], _, rfl, (hR _ _ h4).trans h2, by simp⟩, h4⟩
  | cons b pre ih =>
    cases h with
    | cons h4 h5 =>
      obtain ⟨a', ⟨p', q', rfl, h6, h7⟩, h8⟩ := ih (fun b hb => h3 b (by simp [hb])) _ h5
      refine ⟨a', ⟨_ :: p', q', rfl, h6, ?_⟩, h8⟩
      intro c hc
      rcases List.mem_cons.1 hc with rfl | hc
      · rw [hR _ _ h4]; exact h3 b (by simp)
      · exact h7 c hc

end

/-! ## The loop keeps the robot of the description -/

section
variable {F : Type} [FCmp F] [Zero F] [Add F] [Sub F] [Mul F] [iDiv : Div F] [Neg F] [FLit F] [iTrig : FTrig F]

theorem Later.mannered {s0 s : RState F} (h : Later s0 s) {f : RState F → RState F} (hf : Mannered f) : Later s0 (f s) :=
  h.touch (hf.conns s) (hf.jmap s) ((hf.joints s).imp fun _ _ h => h.joint) ((hf.acts s).imp fun _ _ h => h.name)

theorem safety_mannered (big : F) : Mannered (F := F) (·.enforceSafety big) :=
  ⟨fun _ => rfl, fun _ => rfl, fun s => by
    change List.Forall₂ _ s.joints (s.joints.map _)
    rw [List.forall₂_map_right_iff]
    exact List.forall₂_same.2 fun a _ => ⟨rfl, rfl, rfl⟩, fun _ => List.forall₂_same.2 fun a _ => .refl a⟩

theorem zero_mannered : Mannered (F := F) RState.zeroCommands :=
  ⟨fun _ => rfl, fun _ => rfl, fun s => by
    change List.Forall₂ _ s.joints (s.joints.map _)
    rw [List.forall₂_map_right_iff]
    exact List.forall₂_same.2 fun a _ => ⟨rfl, rfl, rfl⟩, fun _ => List.forall₂_same.2 fun a _ => .refl a⟩

theorem reset_mannered : Mannered (F := F) RState.resetStats :=
  ⟨fun _ => rfl, fun _ => rfl, fun s => by
    change List.Forall₂ _ s.joints (s.joints.map _)
    rw [List.forall₂_map_right_iff]
    exact List.forall₂_same.2 fun a _ => by split <;> exact ⟨rfl, rfl, rfl⟩, fun _ => List.forall₂_same.2 fun a _ => .refl a⟩

theorem publishStats_robot {now : Int} {free : Bool} {p : Pub (List (SRow F) × List (ARow F))} {s : RState F} {r : Pub (List (SRow F) × List (ARow F)) × RState F × Bool}
    (h : publishStats now free p s = some r) : r.2.1 = s ∨ r.2.1 = s.resetStats := by
  unfold publishStats at h
  simp only [Option.bind_eq_bind, Option.bind_eq_some_iff] at h
  obtain ⟨t, _, h⟩ := h
  split at h
  · simp only [Option.bind_eq_some_iff] at h
    obtain ⟨rows, _, as, _, h⟩ := h
    cases h; exact Or.inr rfl
  · cases h; exact Or.inl rfl

theorem PlantIn.Mannered.tame {i : PlantIn F} (h : i.Mannered) : i.Tame :=
  ⟨h.hw, fun s => ⟨by rw [h.plug.conns s]; exact (SameRobot.refl s).conns, h.plug.jmap s, (h.plug.joints s).imp fun _ _ k => k.joint, (h.plug.acts s).imp fun _ _ k => k.name⟩⟩

/-- What is known of the robot throughout a run. -/
structure StackInv (s0 : RState F) (p : Plant F) : Prop where
  now : Later s0 p.data.robot
  entry : Later s0 p.entry
  calls : ∀ c ∈ p.calls, Mannered c.eff
  recs : ∀ r ∈ p.cycles, Later s0 r.entry ∧ ∀ c ∈ r.calls, Mannered c.eff

theorem StackInv.advance {s0 : RState F} {p : Plant F} (h : StackInv s0 p) (m : State) {plug : RState F → RState F} (hp : Mannered plug) : StackInv s0 (p.advance m plug) := by
  have hc : ∀ c ∈ ((m.log.drop p.mgr.log.length).filter Ev.isCall).map (fun e => PlugCall.mk e plug), Mannered c.eff := by
    intro c hc
    obtain ⟨e, _, rfl⟩ := List.mem_map.1 hc
    exact hp
  refine ⟨h.now.mannered (applyCalls_mannered _ hc), h.entry, ?_, h.recs⟩
  intro c hc'
  rcases List.mem_append.1 hc' with hc' | hc'
  · exact h.calls c hc'
  · exact hc c hc'

theorem StackInv.rtStep {big : F} {s0 : RState F} {p : Plant F} (h : StackInv s0 p) {i : PlantIn F} (hi : i.Mannered) : StackInv s0 (p.rtStep big i) := by
  unfold Plant.rtStep
  cases hrt : p.mgr.rt with
  | pre =>
    dsimp only
    have h1 : Later s0 { p.data.robot with acts := i.hw p.data.robot.acts } := h.now.touch rfl rfl (List.forall₂_same.2 fun _ _ => rfl) (hi.hw _)
    split
    · exact ⟨h.now, h.entry, h.calls, h.recs⟩
    · rename_i moved hmv
      exact ⟨(Later.position h1 hmv).mannered zero_mannered, h1, by simp, h.recs⟩
  | sweep k =>
    dsimp only
    split
    · split
      · exact ⟨h.now, h.entry, h.calls, h.recs⟩
      · rename_i sent hs
        refine ⟨Later.effort (h.now.mannered (safety_mannered big)) hs, h.entry, h.calls, ?_⟩
        intro r hr
        rcases List.mem_append.1 hr with hr | hr
        · exact h.recs r hr
        · rw [List.mem_singleton] at hr; subst hr; exact ⟨h.entry, h.calls⟩
    · split
      · exact h.advance _ hi.plug
      · have := h.advance (p.mgr.step (.rt ⟨false, false, false⟩)) hi.plug
        exact ⟨this.now, this.entry, this.calls, this.recs⟩
  | publish =>
    dsimp only
    split
    · exact ⟨h.now, h.entry, h.calls, h.recs⟩
    · rename_i sp robot _ hps
      split
      · exact ⟨h.now, h.entry, h.calls, h.recs⟩
      · refine ⟨?_, h.entry, h.calls, h.recs⟩
        change Later s0 robot
        rcases publishStats_robot hps with e | e <;> (dsimp only at e; rw [e])
        · exact h.now
        · exact h.now.mannered reset_mannered
  | _ => exact h.advance _ hi.plug

theorem Plant.Reach.stack {big : F} {m : Bool} {d : RtData F} {s0 : RState F} (hs : Later s0 d.robot) {p : Plant F} (h : Plant.Reach big m d PlantIn.Mannered p) : StackInv s0 p := by
  induction h with
  | init => exact ⟨hs, hs, by simp [Plant.init], by simp [Plant.init]⟩
  | rt h i hi ih =>
    unfold Plant.step
    split
    · exact ih
    · exact ih.rtStep hi
  | nrt h hu ih =>
    unfold Plant.step
    split
    · exact ih
    · exact ⟨ih.now, ih.entry, ih.calls, ih.recs⟩
  | call h hu op ih =>
    unfold Plant.step
    split
    · exact ih
    · exact ⟨ih.now, ih.entry, ih.calls, ih.recs⟩

/-- A cycle of a run, from the readings to the efforts that are sent. -/
theorem Plant.Reach.cycle {big : F} {m : Bool} {d : RtData F} {s0 : RState F} (hs : Later s0 d.robot) {p : Plant F} (h : Plant.Reach big m d PlantIn.Mannered p) {r : CycleRec F}
    (hr : r ∈ p.cycles) :
    Later s0 r.entry ∧ ∃ moved x, r.entry.propagatePosition = some moved ∧ Later s0 x ∧ x.propagateEffort = some r.sent ∧
      x.jmap = moved.jmap ∧ List.Forall₂ JState.SameMotion moved.joints x.joints ∧ List.Forall₂ Actuator.SameMotion moved.acts x.acts := by
  obtain ⟨h1, h2⟩ := (h.stack hs).recs r hr
  obtain ⟨order, moved, _, h3, _, _, h4⟩ := C84_faithful h r hr
  have hm := (zero_mannered.comp (applyCalls_mannered r.calls h2)).comp (safety_mannered big)
  exact ⟨h1, moved, _, h3, (Later.position h1 h3).mannered hm, h4, hm.jmap moved, hm.joints moved, hm.acts moved⟩

/-! ## C98: every cycle, in the units of the description -/

variable [Parse F]
variable {l : TransLoader F} {urdf : Xml → Option (String → Option (UJoint F))} {root : Xml} {joint : String → Option (UJoint F)} {acts : List (Actuator F)}
  {ts : List (Trans F)} {s0 : RState F} {t : Trans F} {x : Xml}

/-- **C98, simple transmissions.**  In every cycle of every run of a robot loaded from a description: the position the limiter and the controllers find for the joint is
what the motor reported at the beginning of the cycle, divided by the described reduction, plus the joint's reference position; and at the end the motor is enabled and
sent the joint's limited command divided by the described reduction. -/
theorem C98_simple_cycle (h : Loaded l urdf root joint acts ts s0) (hm : (ts.flatMap (·.actNames)).Nodup) {big : F} {sim : Bool} {d : RtData F} (hs : Later s0 d.robot)
    {p : Plant F} (hp : Plant.Reach big sim d PlantIn.Mannered p) {r : CycleRec F} (hr : r ∈ p.cycles) (ht : t ∈ ts) {t0 : SimpleT F} (hd : Described (.simple t0) x joint acts t)
    {jel ael mel : Xml} {jn an red : String} (h1 : x.FirstChild "joint" jel) (h2 : jel.Says "name" jn) (h3 : x.FirstChild "actuator" ael) (h4 : ael.Says "name" an)
    (h5 : ReductionElement x ael mel) (h6 : mel.text = some red) :
    ∃ a j a' j', r.entry.Motor an a ∧ r.entry.Joint jn j ∧ r.sent.Motor an a' ∧ r.sent.Joint jn j' ∧ joint jn = some j'.joint ∧
      j'.position = a.position / Parse.atof red + j.reference ∧ j'.velocity = a.velocity / Parse.atof red ∧
      a'.position = a.position ∧ a'.velocity = a.velocity ∧ a'.enable = true ∧ a'.effort = j'.commanded / Parse.atof red := by
  obtain ⟨l1, moved, y, hmv, l2, he, q1, q2, q3⟩ := hp.cycle hs hr
  obtain ⟨a, j, j1, a1, a2, a3, a4, a5, a6, _⟩ := C95_simple_reading h l1 hmv ht hd h1 h2 h3 h4 h5 h6
  obtain ⟨a', j2, b1, b2, b3, b4⟩ := C95_simple_command h hm l2 he ht hd h1 h2 h3 h4 h5 h6
  obtain ⟨j2', c1, c2⟩ := a3.move q1 q2
  cases b1.unique c1
  have hr1 := (h.conn l1 ht).1
  have hr2 := (h.conn l2 ht).1
  obtain ⟨f1, f2⟩ := C48_effort_only_commands _ _ hr2 he
  have hsent : r.sent.Joint jn j2 := by
    obtain ⟨j3, g1, g2⟩ := b1.move (s' := r.sent) (R := fun a b => b = a) (SameRobot.effort hr2 he).jmap (by rw [f2]; exact List.forall₂_same.2 fun _ _ => rfl)
    cases g2; exact g1
  have hact : List.Forall₂ Actuator.SameMotion r.entry.acts r.sent.acts := by
    rw [← position_acts _ _ hr1 hmv]
    refine forall2_trans' (R := Actuator.SameMotion) (fun _ _ _ h k => h.trans k) q3 (f1.imp ?_)
    rintro u v ⟨e, b, rfl, _⟩
    exact ⟨rfl, rfl, rfl⟩
  obtain ⟨a'', g1, g2⟩ := a1.move hact fun _ _ h => h.name
  cases g1.unique b2
  exact ⟨a, j, a', j2, a1, a2, b2, hsent, by rw [c2.joint]; exact a4, by rw [c2.position]; exact a5, by rw [c2.velocity]; exact a6, g2.position, g2.velocity, b3, b4⟩

/-- **C98, wrists.**  The same for the two motors and the two joints of a wrist. -/
theorem C98_wrist_cycle (h : Loaded l urdf root joint acts ts s0) (hm : (ts.flatMap (·.actNames)).Nodup) {big : F} {sim : Bool} {d : RtData F} (hs : Later s0 d.robot)
    {p : Plant F} (hp : Plant.Reach big sim d PlantIn.Mannered p) {r : CycleRec F} (hr : r ∈ p.cycles) (ht : t ∈ ts) {t0 : WristT F} (hd : Described (.wrist t0) x joint acts t)
    {rn ln fn on : String} {kr kl kf ko of oo : F} (h1 : WristMotor x "rightActuator" acts rn kr) (h2 : WristMotor x "leftActuator" acts ln kl)
    (h3 : WristAxis x "flexJoint" joint fn kf of) (h4 : WristAxis x "rollJoint" joint on ko oo) :
    ∃ ar al jf jo ar' al' jf' jo', r.entry.Motor rn ar ∧ r.entry.Motor ln al ∧ r.entry.Joint fn jf ∧ r.entry.Joint on jo ∧
      r.sent.Motor rn ar' ∧ r.sent.Motor ln al' ∧ r.sent.Joint fn jf' ∧ r.sent.Joint on jo' ∧ joint fn = some jf'.joint ∧ joint on = some jo'.joint ∧
      jf'.position = (ar.position / kr - al.position / kl) / (lit 2 * kf) + jf.reference + of ∧
      jo'.position = (-ar.position / kr - al.position / kl) / (lit 2 * ko) + jo.reference + oo ∧
      jf'.velocity = (ar.velocity / kr - al.velocity / kl) / (lit 2 * kf) ∧ jo'.velocity = (-ar.velocity / kr - al.velocity / kl) / (lit 2 * ko) ∧
      (ar'.position = ar.position ∧ ar'.velocity = ar.velocity ∧ ar'.enable = true ∧ ar'.effort = (jf'.commanded / kf - jo'.commanded / ko) / (lit 2 * kr)) ∧
      (al'.position = al.position ∧ al'.velocity = al.velocity ∧ al'.enable = true ∧ al'.effort = (-jf'.commanded / kf - jo'.commanded / ko) / (lit 2 * kl)) := by
  obtain ⟨l1, moved, y, hmv, l2, he, q1, q2, q3⟩ := hp.cycle hs hr
  obtain ⟨ar, al, jf, jo, f', o', a1, a2, a3, a4, a5, a6, a7, a8, a9, a10, a11, a12, _⟩ := C95_wrist_reading h l1 hmv ht hd h1 h2 h3 h4
  obtain ⟨ar', al', f2, o2, b1, b2, b3, b4, b5, b6, b7, b8⟩ := C95_wrist_command h hm l2 he ht hd h1 h2 h3 h4
  obtain ⟨f3, c1, c2⟩ := a5.move q1 q2
  cases b1.unique c1
  obtain ⟨o3, c3, c4⟩ := a6.move q1 q2
  cases b2.unique c3
  have hr1 := (h.conn l1 ht).1
  have hr2 := (h.conn l2 ht).1
  obtain ⟨e1, e2⟩ := C48_effort_only_commands _ _ hr2 he
  have hsent : ∀ n j, y.Joint n j → r.sent.Joint n j := by
    intro n j hj
    obtain ⟨j3, g1, g2⟩ := hj.move (s' := r.sent) (R := fun a b => b = a) (SameRobot.effort hr2 he).jmap (by rw [e2]; exact List.forall₂_same.2 fun _ _ => rfl)
    cases g2; exact g1
  have hact : List.Forall₂ Actuator.SameMotion r.entry.acts r.sent.acts := by
    rw [← position_acts _ _ hr1 hmv]
    refine forall2_trans' (R := Actuator.SameMotion) (fun _ _ _ h k => h.trans k) q3 (e1.imp ?_)
    rintro u v ⟨e, b, rfl, _⟩
    exact ⟨rfl, rfl, rfl⟩
  obtain ⟨ar'', g1, g2⟩ := a1.move hact fun _ _ h => h.name
  cases g1.unique b3
  obtain ⟨al'', g3, g4⟩ := a2.move hact fun _ _ h => h.name
  cases g3.unique b4
  exact ⟨ar, al, jf, jo, ar', al', f2, o2, a1, a2, a3, a4, b3, b4, hsent _ _ b1, hsent _ _ b2, by rw [c2.joint]; exact a7, by rw [c4.joint]; exact a8,
    by rw [c2.position]; exact a9, by rw [c4.position]; exact a10, by rw [c2.velocity]; exact a11, by rw [c4.velocity]; exact a12,
    ⟨g2.position, g2.velocity, b5, b7⟩, ⟨g4.position, g4.velocity, b6, b8⟩⟩

end

/-! ## C98: the motors are held back -/

section exact
variable {F : Type} [Field F] [LinearOrder F] [IsStrictOrderedRing F]
attribute [local instance] exactCmp
variable [FLit F] [iTrig : FTrig F]

/-- From cycle `n0` on, motor `an` moves like an inertia (`I n` in cycle `n`) under the effort it is sent. -/
def Plant.MotorMoves (p : Plant F) (n0 : Nat) (an : String) (I dt : Nat → F) : Prop :=
  ∀ n r r', n0 ≤ n → p.cycles[n]? = some r → p.cycles[n + 1]? = some r' → ∀ a a', r.sent.Motor an a → r'.entry.Motor an a' →
    a'.position = posAfter (I n) (dt n) a.effort a.position a.velocity ∧ a'.velocity = velAfter (I n) (dt n) a.effort a.velocity

/-- From cycle `n0` on, joint `jn` is calibrated, with the reference position `ρ`. -/
def Plant.CalibratedFrom (p : Plant F) (n0 : Nat) (jn : String) (ρ : F) : Prop :=
  ∀ n r, n0 ≤ n → p.cycles[n]? = some r → (∀ j, r.entry.Joint jn j → j.reference = ρ) ∧ ∀ j, r.sent.Joint jn j → j.calibrated = true

/-- What the limiter makes of a joint, by name. -/
theorem sent_bounds {big : F} {sim : Bool} {d : RtData F} (hd : d.Good) {p : Plant F} (h : Plant.Reach big sim d PlantIn.Tame p) {r : CycleRec F} (hr : r ∈ p.cycles) {n : String}
    {j : JState F} (hj : r.sent.Joint n j) {lim : JLimits F} {saf : JSafety F} (g : Guarded j.joint lim saf) : j.InBounds big := by
  obtain ⟨i, _, h2⟩ := hj
  have hs := ((h.ginv hd).sent r hr).joints
  obtain ⟨j0, h3, _⟩ := forall2_get (R := fun a b => a.joint = b.joint) (hs.flip) h2
  exact (sent_inBounds hd h hr h3 h2).2 lim saf g

/-- A joint of a run, cycle after cycle from `n0` on. -/
structure Follows (p : Plant F) (n0 : Nat) (jn : String) (u : UJoint F) (mass dt : Nat → F) : Prop where
  found : ∀ r ∈ p.cycles, ∃ j, r.sent.Joint jn j
  desc : ∀ r ∈ p.cycles, ∀ j, r.sent.Joint jn j → j.joint = u
  cal : ∀ n r j, n0 ≤ n → p.cycles[n]? = some r → r.sent.Joint jn j → j.calibrated = true
  driven : ∀ n r r' j j', n0 ≤ n → p.cycles[n]? = some r → p.cycles[n + 1]? = some r' → r.sent.Joint jn j → r'.sent.Joint jn j' → Driven (mass n) (dt n) j j'

theorem Follows.inside {big : F} {sim : Bool} {d : RtData F} (hd : d.Good) {p : Plant F} (h : Plant.Reach big sim d PlantIn.Tame p) {n0 : Nat} {jn : String} {u : UJoint F}
    {mass dt : Nat → F} (f : Follows p n0 jn u mass dt) {lim : JLimits F} {saf : JSafety F} (g : Guarded u lim saf) (hty : u.type = .revolute ∨ u.type = .prismatic)
    (hs : ∀ n, Suits lim saf (mass n) (dt n)) (h0 : ∀ r j, p.cycles[n0]? = some r → r.sent.Joint jn j → Safe lim saf j.position j.velocity) (n : Nat) (r : CycleRec F) (j : JState F)
    (hn : n0 ≤ n) (hr : p.cycles[n]? = some r) (hj : r.sent.Joint jn j) (τ : F) (hτ0 : 0 ≤ τ) (hτ : τ ≤ dt n) :
    Safe lim saf (posAfter (mass n) τ j.commanded j.position j.velocity) (velAfter (mass n) τ j.commanded j.velocity) := by
  have stp : ∀ n r j, n0 ≤ n → p.cycles[n]? = some r → r.sent.Joint jn j → Safe lim saf j.position j.velocity → ∀ τ, 0 ≤ τ → τ ≤ dt n →
      Safe lim saf (posAfter (mass n) τ j.commanded j.position j.velocity) (velAfter (mass n) τ j.commanded j.velocity) := by
    intro n r j hn hr hj hsf τ h1 h2
    have hmem := List.mem_of_getElem? hr
    have e := f.desc r hmem j hj
    have g' : Guarded j.joint lim saf := by rw [e]; exact g
    exact closed_step g' ⟨f.cal n r j hn hr hj, by rw [e]; exact hty⟩ (hs n) (sent_bounds hd h hmem hj g') hsf h1 h2
  have key : ∀ k r j, p.cycles[n0 + k]? = some r → r.sent.Joint jn j → Safe lim saf j.position j.velocity := by
    intro k
    induction k with
    | zero => exact h0
    | succ k ih =>
      intro r j hr hj
      have hlt : n0 + k < p.cycles.length := by
        have := (List.getElem?_eq_some_iff.1 hr).1
        omega
      have hr' := List.getElem?_eq_getElem hlt
      obtain ⟨j1, hj1⟩ := f.found _ (List.mem_of_getElem? hr')
      have dr := f.driven (n0 + k) _ r j1 j (by omega) hr' hr hj1 hj
      rw [dr.position, dr.velocity]
      exact stp (n0 + k) _ j1 (by omega) hr' hj1 (ih _ _ hr' hj1) _ (hs _).time (le_refl _)
  refine stp n r j hn hr hj (key (n - n0) r j ?_ hj) τ hτ0 hτ
  rw [show n0 + (n - n0) = n by omega]; exact hr

theorem Follows.limited {big : F} {sim : Bool} {d : RtData F} (hd : d.Good) {p : Plant F} (h : Plant.Reach big sim d PlantIn.Tame p) {n0 : Nat} {jn : String} {u : UJoint F}
    {mass dt : Nat → F} (f : Follows p n0 jn u mass dt) {lim : JLimits F} {saf : JSafety F} (g : Guarded u lim saf) (hty : u.type = .revolute ∨ u.type = .prismatic)
    (hs : ∀ n, Suits lim saf (mass n) (dt n)) {M δ : F} (hM : ∀ n, mass n ≤ M) (hδ : ∀ n, δ ≤ dt n) :
    ∃ j : Nat → JState F, (∀ i r, p.cycles[n0 + i]? = some r → r.sent.Joint jn (j i)) ∧
      Limited big lim saf δ M (p.cycles.length - n0) (fun i => mass (n0 + i)) (fun i => dt (n0 + i)) j ∧ ∀ i, i < p.cycles.length - n0 → (j i).posLimited := by
  have : ∀ i, ∃ j : JState F, ∀ r, p.cycles[n0 + i]? = some r → r.sent.Joint jn j := by
    intro i
    cases hr : p.cycles[n0 + i]? with
    | none => exact ⟨JState.fresh u 0, fun r h => by cases h⟩
    | some r =>
      obtain ⟨j, hj⟩ := f.found r (List.mem_of_getElem? hr)
      exact ⟨j, fun r' h => by cases h; exact hj⟩
  choose j hj using this
  have at_ : ∀ i, i < p.cycles.length - n0 → ∃ r, p.cycles[n0 + i]? = some r ∧ r ∈ p.cycles ∧ r.sent.Joint jn (j i) := by
    intro i hi
    have hr := List.getElem?_eq_getElem (l := p.cycles) (i := n0 + i) (by omega)
    exact ⟨_, hr, List.getElem_mem _, hj i _ hr⟩
  have hg : ∀ i, i < p.cycles.length - n0 → Guarded (j i).joint lim saf := by
    intro i hi
    obtain ⟨r, _, h2, h3⟩ := at_ i hi
    rw [f.desc r h2 _ h3]; exact g
  refine ⟨j, hj, ⟨hg, ?_, ?_, fun i _ => ⟨(hs _).mass, hM _⟩, fun i _ => hδ _, fun i _ => (hs _).slow⟩, ?_⟩
  · intro i hi
    obtain ⟨r, _, h2, h3⟩ := at_ i hi
    exact sent_bounds hd h h2 h3 (hg i hi)
  · intro i hi
    obtain ⟨r, h1, h2, h3⟩ := at_ i (by omega)
    obtain ⟨r', h1', h2', h3'⟩ := at_ (i + 1) hi
    exact f.driven (n0 + i) r r' _ _ (by omega) h1 h1' h3 h3'
  · intro i hi
    obtain ⟨r, h1, h2, h3⟩ := at_ i hi
    exact ⟨f.cal (n0 + i) r _ (by omega) h1 h3, by rw [f.desc r h2 _ h3]; exact hty⟩

/-! ### From the motors to the joints -/

theorem simple_pos {I k τ c q v ρ : F} (hI : I ≠ 0) (hk : k ≠ 0) : posAfter I τ (c / k) q v / k + ρ = posAfter (I * k ^ 2) τ c (q / k + ρ) (v / k) := by
  unfold posAfter; field_simp; ring
theorem simple_vel {I k τ c v : F} (hI : I ≠ 0) (hk : k ≠ 0) : velAfter I τ (c / k) v / k = velAfter (I * k ^ 2) τ c (v / k) := by
  unfold velAfter; field_simp

variable [Parse F]
variable {l : TransLoader F} {urdf : Xml → Option (String → Option (UJoint F))} {root : Xml} {joint : String → Option (UJoint F)} {acts : List (Actuator F)}
  {ts : List (Trans F)} {s0 : RState F} {t : Trans F} {x : Xml}

theorem simple_follows (h : Loaded l urdf root joint acts ts s0) (hm : (ts.flatMap (·.actNames)).Nodup) {big : F} {sim : Bool} {d : RtData F} (hs : Later s0 d.robot)
    {p : Plant F} (hp : Plant.Reach big sim d PlantIn.Mannered p) (ht : t ∈ ts) {t0 : SimpleT F} (hd : Described (.simple t0) x joint acts t)
    {jel ael mel : Xml} {jn an red : String} (h1 : x.FirstChild "joint" jel) (h2 : jel.Says "name" jn) (h3 : x.FirstChild "actuator" ael) (h4 : ael.Says "name" an)
    (h5 : ReductionElement x ael mel) (h6 : mel.text = some red) (hk : (Parse.atof red : F) ≠ 0) {u : UJoint F} (hu : joint jn = some u) {n0 : Nat} {ρ : F}
    (hc : p.CalibratedFrom n0 jn ρ) {I dt : Nat → F} (hI : ∀ n, I n ≠ 0) (hmv : p.MotorMoves n0 an I dt) :
    Follows p n0 jn u (fun n => I n * Parse.atof red ^ 2) dt := by
  have cyc := fun r (hr : r ∈ p.cycles) => C98_simple_cycle h hm hs hp hr ht hd h1 h2 h3 h4 h5 h6
  refine ⟨?_, ?_, fun n r j hn hr hj => (hc n r hn hr).2 j hj, ?_⟩
  · intro r hr
    obtain ⟨a, j, a', j', _, _, _, e, _⟩ := cyc r hr
    exact ⟨j', e⟩
  · intro r hr j hj
    obtain ⟨a, _, a', j', _, _, _, e, e2, _⟩ := cyc r hr
    cases hj.unique e
    rw [hu] at e2; exact (Option.some.inj e2).symm
  · intro n r r' j j' hn hr hr' hj hj'
    obtain ⟨a, i, b, j1, a1, a2, a3, a4, a5, a6, a7, a8, a9, _, a10⟩ := cyc r (List.mem_of_getElem? hr)
    obtain ⟨a', i', b', j1', b1, b2, b3, b4, b5, b6, b7, _⟩ := cyc r' (List.mem_of_getElem? hr')
    cases hj.unique a4
    cases hj'.unique b4
    obtain ⟨m1, m2⟩ := hmv n r r' hn hr hr' b a' a3 b1
    have r1 := (hc n r hn hr).1 i a2
    have r2 := (hc (n + 1) r' (by omega) hr').1 i' b2
    rw [hu] at a5 b5
    refine ⟨?_, ?_, ?_, ?_⟩
    · rw [← Option.some.inj a5, ← Option.some.inj b5]
    · rw [(hc n r hn hr).2 j hj, (hc (n + 1) r' (by omega) hr').2 j' hj']
    · rw [b6, m1, a10, a8, a9, r2, simple_pos (hI n) hk, a6, a7, r1]
    · rw [b7, m2, a10, a9, simple_vel (hI n) hk, a7]

/-- **C98, simple transmissions, safety.**  A robot loaded from a description runs, whatever is loaded, unloaded and switched and whatever the controllers command.  Joint `jn` is
moved by motor `an` with the described reduction `k`; from cycle `n0` on it is calibrated and its motor moves like an inertia under the efforts it is sent; limits
and safety parameters of the joint suit that inertia, seen from the joint (`I k²`).  If the joint, as told by its motor, is safe in cycle `n0`, then it is safe in all later
cycles and at every moment between them: it never leaves the soft limits of the description. -/
theorem C98_simple_inside (h : Loaded l urdf root joint acts ts s0) (hm : (ts.flatMap (·.actNames)).Nodup) {big : F} {sim : Bool} {d : RtData F} (hg : d.Good) (hs : Later s0 d.robot)
    {p : Plant F} (hp : Plant.Reach big sim d PlantIn.Mannered p) (ht : t ∈ ts) {t0 : SimpleT F} (hd : Described (.simple t0) x joint acts t)
    {jel ael mel : Xml} {jn an red : String} (h1 : x.FirstChild "joint" jel) (h2 : jel.Says "name" jn) (h3 : x.FirstChild "actuator" ael) (h4 : ael.Says "name" an)
    (h5 : ReductionElement x ael mel) (h6 : mel.text = some red) {k : F} (hk : k = Parse.atof red) (hk0 : k ≠ 0) {u : UJoint F} (hu : joint jn = some u) {lim : JLimits F} {saf : JSafety F}
    (g : Guarded u lim saf) (hty : u.type = .revolute ∨ u.type = .prismatic) {n0 : Nat} {ρ : F} (hc : p.CalibratedFrom n0 jn ρ) {I dt : Nat → F} (hI : ∀ n, 0 < I n)
    (hmv : p.MotorMoves n0 an I dt) (hsu : ∀ n, Suits lim saf (I n * k ^ 2) (dt n))
    (h0 : ∀ r a, p.cycles[n0]? = some r → r.entry.Motor an a → Safe lim saf (a.position / k + ρ) (a.velocity / k))
    (n : Nat) (r : CycleRec F) (a : Actuator F) (hn : n0 ≤ n) (hr : p.cycles[n]? = some r) (ha : r.sent.Motor an a) (τ : F) (hτ0 : 0 ≤ τ) (hτ : τ ≤ dt n) :
    Safe lim saf (posAfter (I n) τ a.effort a.position a.velocity / k + ρ) (velAfter (I n) τ a.effort a.velocity / k) := by
  subst hk
  have cyc := fun r (hr : r ∈ p.cycles) => C98_simple_cycle h hm hs hp hr ht hd h1 h2 h3 h4 h5 h6
  have f := simple_follows h hm hs hp ht hd h1 h2 h3 h4 h5 h6 hk0 hu hc (fun n => (hI n).ne') hmv
  obtain ⟨a0, i, b, j, a1, a2, a3, a4, a5, a6, a7, a8, a9, _, a10⟩ := cyc r (List.mem_of_getElem? hr)
  cases ha.unique a3
  have := f.inside hg (hp.mono fun i hi => hi.tame) g hty hsu (fun r j hr hj => by
    obtain ⟨c0, i, b, j', c1, c2, c3, c4, c5, c6, c7, _⟩ := cyc r (List.mem_of_getElem? hr)
    cases hj.unique c4
    rw [c6, c7, (hc n0 r (le_refl _) hr).1 i c2]
    exact h0 r c0 hr c1) n r j hn hr a4 τ hτ0 hτ
  rw [a10, simple_pos (hI n).ne' hk0, simple_vel (hI n).ne' hk0, a8, a9, ← (hc n r hn hr).1 i a2, ← a6, ← a7]
  exact this

/-- **C98, simple transmissions, recovery.**  The same, but the joint is anywhere and has any velocity in cycle `n0`: for every margin there is a number `N` of cycles,
which does not depend on what happens in the run, after which the joint is within the soft limits and the speed limit of the description, up to the margin. -/
theorem C98_simple_returns [Archimedean F] (h : Loaded l urdf root joint acts ts s0) (hm : (ts.flatMap (·.actNames)).Nodup) (ht : t ∈ ts) {t0 : SimpleT F}
    (hd : Described (.simple t0) x joint acts t) {jel ael mel : Xml} {jn an red : String} (h1 : x.FirstChild "joint" jel) (h2 : jel.Says "name" jn) (h3 : x.FirstChild "actuator" ael)
    (h4 : ael.Says "name" an) (h5 : ReductionElement x ael mel) (h6 : mel.text = some red) {k : F} (hk : k = Parse.atof red) (hk0 : k ≠ 0) {u : UJoint F} (hu : joint jn = some u)
    {lim : JLimits F} {saf : JSafety F} (g : Guarded u lim saf) (hty : u.type = .revolute ∨ u.type = .prismatic) (hkp : 0 < saf.kPosition) (hkv : 0 < saf.kVelocity)
    (hvm : 0 < lim.velocity) (hE : 0 < lim.effort) {M δ : F} (hδ : 0 < δ) (x0 v0 ε : F) (hε : 0 < ε) :
    ∃ N : Nat, ∀ (big : F) (sim : Bool) (d : RtData F), d.Good → Later s0 d.robot → ∀ p : Plant F, Plant.Reach big sim d PlantIn.Mannered p →
      ∀ (n0 : Nat) (ρ : F), p.CalibratedFrom n0 jn ρ → ∀ I dt : Nat → F, (∀ n, 0 < I n ∧ I n ≤ M) → (∀ n, δ ≤ dt n) → p.MotorMoves n0 an I dt →
      (∀ n, Suits lim saf (I n * k ^ 2) (dt n)) → (∀ r a, p.cycles[n0]? = some r → r.entry.Motor an a → a.position / k + ρ = x0 ∧ a.velocity / k = v0) →
      ∀ n r a, n0 + N ≤ n → p.cycles[n]? = some r → r.sent.Motor an a → ∀ τ, 0 ≤ τ → τ ≤ dt n →
        Safe lim (saf.widened ε) (posAfter (I n) τ a.effort a.position a.velocity / k + ρ) (velAfter (I n) τ a.effort a.velocity / k) ∧
        |velAfter (I n) τ a.effort a.velocity / k| ≤ lim.velocity + ε := by
  subst hk
  obtain ⟨N1, r1⟩ := limited_returns (M := M * Parse.atof red ^ 2) x0 v0 hkp hkv hvm hδ hε
  obtain ⟨N2, r2⟩ := limited_slows (M := M * Parse.atof red ^ 2) v0 hkv hE hδ hε
  refine ⟨max N1 N2, fun big sim d hg hs p hp n0 ρ hc I dt hI hdt hmv hsu h0 n r a hn hr ha τ hτ0 hτ => ?_⟩
  have cyc := fun r (hr : r ∈ p.cycles) => C98_simple_cycle h hm hs hp hr ht hd h1 h2 h3 h4 h5 h6
  have f := simple_follows h hm hs hp ht hd h1 h2 h3 h4 h5 h6 hk0 hu hc (fun n => (hI n).1.ne') hmv
  obtain ⟨a0, i, b, j', a1, a2, a3, a4, a5, a6, a7, a8, a9, _, a10⟩ := cyc r (List.mem_of_getElem? hr)
  cases ha.unique a3
  obtain ⟨j, hj, hl, hpl⟩ := f.limited hg (hp.mono fun i hi => hi.tame) g hty hsu (M := M * Parse.atof red ^ 2) (δ := δ)
    (fun n => mul_le_mul_of_nonneg_right (hI n).2 (sq_nonneg _)) hdt
  have hlen := (List.getElem?_eq_some_iff.1 hr).1
  have hstart : (j 0).position = x0 ∧ (j 0).velocity = v0 := by
    have hr0 := List.getElem?_eq_getElem (l := p.cycles) (i := n0) (by omega)
    obtain ⟨c0, i, b, j'', c1, c2, c3, c4, c5, c6, c7, _⟩ := cyc _ (List.mem_of_getElem? hr0)
    cases (hj 0 _ hr0).unique c4
    rw [c6, c7, (hc n0 _ (le_refl _) hr0).1 i c2]
    exact h0 _ c0 hr0 c1
  have e : n0 + (n - n0) = n := by omega
  have hjn : j (n - n0) = j' := (hj (n - n0) r (by rw [e]; exact hr)).unique a4
  have q1 := r1 _ _ _ _ _ hl hpl (fun i _ => hsu _) hstart.1 hstart.2 (n - n0) (by have := le_max_left N1 N2; omega) (by omega) τ hτ0 (by rw [e]; exact hτ)
  have q2 := r2 _ _ _ _ _ hl hstart.2 (n - n0) (by have := le_max_right N1 N2; omega) (by omega) τ hτ0 (by rw [e]; exact hτ)
  simp only [e, hjn] at q1 q2
  rw [a10, simple_pos (hI n).1.ne' hk0, simple_vel (hI n).1.ne' hk0, a8, a9, ← (hc n r (by omega) hr).1 i a2, ← a6, ← a7]
  exact ⟨q1, q2⟩

/-! ### Wrists -/

theorem flex_pos {Ir Il J kr kl kf ko τ cf co qr ql vr vl ρ o : F} (hr : kr ≠ 0) (hl : kl ≠ 0) (hf : kf ≠ 0) (ho : ko ≠ 0) (hJ : J ≠ 0) (h1 : Ir * kr ^ 2 = J) (h2 : Il * kl ^ 2 = J) :
    (posAfter Ir τ ((cf / kf - co / ko) / (2 * kr)) qr vr / kr - posAfter Il τ ((-cf / kf - co / ko) / (2 * kl)) ql vl / kl) / (2 * kf) + ρ + o =
      posAfter (2 * kf ^ 2 * J) τ cf ((qr / kr - ql / kl) / (2 * kf) + ρ + o) ((vr / kr - vl / kl) / (2 * kf)) := by
  have e1 : Ir = J / kr ^ 2 := by field_simp; exact h1
  have e2 : Il = J / kl ^ 2 := by field_simp; exact h2
  rw [e1, e2]; unfold posAfter; field_simp; ring
theorem flex_vel {Ir Il J kr kl kf ko τ cf co vr vl : F} (hr : kr ≠ 0) (hl : kl ≠ 0) (hf : kf ≠ 0) (ho : ko ≠ 0) (hJ : J ≠ 0) (h1 : Ir * kr ^ 2 = J) (h2 : Il * kl ^ 2 = J) :
    (velAfter Ir τ ((cf / kf - co / ko) / (2 * kr)) vr / kr - velAfter Il τ ((-cf / kf - co / ko) / (2 * kl)) vl / kl) / (2 * kf) =
      velAfter (2 * kf ^ 2 * J) τ cf ((vr / kr - vl / kl) / (2 * kf)) := by
  have e1 : Ir = J / kr ^ 2 := by field_simp; exact h1
  have e2 : Il = J / kl ^ 2 := by field_simp; exact h2
  rw [e1, e2]; unfold velAfter; field_simp; ring
theorem roll_pos {Ir Il J kr kl kf ko τ cf co qr ql vr vl ρ o : F} (hr : kr ≠ 0) (hl : kl ≠ 0) (hf : kf ≠ 0) (ho : ko ≠ 0) (hJ : J ≠ 0) (h1 : Ir * kr ^ 2 = J) (h2 : Il * kl ^ 2 = J) :
    (-posAfter Ir τ ((cf / kf - co / ko) / (2 * kr)) qr vr / kr - posAfter Il τ ((-cf / kf - co / ko) / (2 * kl)) ql vl / kl) / (2 * ko) + ρ + o =
      posAfter (2 * ko ^ 2 * J) τ co ((-qr / kr - ql / kl) / (2 * ko) + ρ + o) ((-vr / kr - vl / kl) / (2 * ko)) := by
  have e1 : Ir = J / kr ^ 2 := by field_simp; exact h1
  have e2 : Il = J / kl ^ 2 := by field_simp; exact h2
  rw [e1, e2]; unfold posAfter; field_simp; ring
theorem roll_vel {Ir Il J kr kl kf ko τ cf co vr vl : F} (hr : kr ≠ 0) (hl : kl ≠ 0) (hf : kf ≠ 0) (ho : ko ≠ 0) (hJ : J ≠ 0) (h1 : Ir * kr ^ 2 = J) (h2 : Il * kl ^ 2 = J) :
    (-velAfter Ir τ ((cf / kf - co / ko) / (2 * kr)) vr / kr - velAfter Il τ ((-cf / kf - co / ko) / (2 * kl)) vl / kl) / (2 * ko) =
      velAfter (2 * ko ^ 2 * J) τ co ((-vr / kr - vl / kl) / (2 * ko)) := by
  have e1 : Ir = J / kr ^ 2 := by field_simp; exact h1
  have e2 : Il = J / kl ^ 2 := by field_simp; exact h2
  rw [e1, e2]; unfold velAfter; field_simp; ring

/-- The motors of a wrist are balanced: seen from the joints they have the same inertia `J`. -/
def Balanced (kr kl : F) (Ir Il J : Nat → F) : Prop := ∀ n, 0 < J n ∧ Ir n * kr ^ 2 = J n ∧ Il n * kl ^ 2 = J n

theorem flex_follows (h : Loaded l urdf root joint acts ts s0) (hm : (ts.flatMap (·.actNames)).Nodup) {big : F} {sim : Bool} {d : RtData F} (hs : Later s0 d.robot)
    {p : Plant F} (hp : Plant.Reach big sim d PlantIn.Mannered p) (ht : t ∈ ts) {t0 : WristT F} (hd : Described (.wrist t0) x joint acts t)
    {rn ln fn on : String} {kr kl kf ko of oo : F} (h1 : WristMotor x "rightActuator" acts rn kr) (h2 : WristMotor x "leftActuator" acts ln kl)
    (h3 : WristAxis x "flexJoint" joint fn kf of) (h4 : WristAxis x "rollJoint" joint on ko oo) (h2' : (lit 2 : F) = 2) (hk : kr ≠ 0 ∧ kl ≠ 0 ∧ kf ≠ 0 ∧ ko ≠ 0) {u : UJoint F} (hu : joint fn = some u) {n0 : Nat} {ρ : F}
    (hc : p.CalibratedFrom n0 fn ρ) {Ir Il J dt : Nat → F} (hb : Balanced kr kl Ir Il J) (hmr : p.MotorMoves n0 rn Ir dt) (hml : p.MotorMoves n0 ln Il dt) :
    Follows p n0 fn u (fun n => 2 * kf ^ 2 * J n) dt := by
  have cyc := fun r (hr : r ∈ p.cycles) => C98_wrist_cycle h hm hs hp hr ht hd h1 h2 h3 h4
  obtain ⟨k1, k2, k3, k4⟩ := hk
  refine ⟨?_, ?_, fun n r j hn hr hj => (hc n r hn hr).2 j hj, ?_⟩
  · intro r hr
    obtain ⟨ar0, al0, i, io, br, bl, j, jo, a1, a2, a3, ao1, a4, a4l, a5, ao2, a6, ao3, a7, ao4, a8, ao5, ⟨a9, a10, _, a11⟩, ⟨a12, a13, _, a14⟩⟩ := cyc r hr
    exact ⟨j, a5⟩
  · intro r hr y hj
    obtain ⟨ar0, al0, i, io, br, bl, j, jo, a1, a2, a3, ao1, a4, a4l, a5, ao2, a6, ao3, a7, ao4, a8, ao5, ⟨a9, a10, _, a11⟩, ⟨a12, a13, _, a14⟩⟩ := cyc r hr
    cases hj.unique a5
    rw [hu] at a6; exact (Option.some.inj a6).symm
  · intro n r r' y y' hn hr hr' hj hj'
    obtain ⟨ar0, al0, i, io, br, bl, j, jo, a1, a2, a3, ao1, a4, a4l, a5, ao2, a6, ao3, a7, ao4, a8, ao5, ⟨a9, a10, _, a11⟩, ⟨a12, a13, _, a14⟩⟩ := cyc r (List.mem_of_getElem? hr)
    obtain ⟨ar0', al0', i', io', br', bl', j', jo', a1', a2', a3', ao1', a4', a4l', a5', ao2', a6', ao3', a7', ao4', a8', ao5', ⟨a9', a10', _, a11'⟩, ⟨a12', a13', _, a14'⟩⟩ := cyc r' (List.mem_of_getElem? hr')
    cases hj.unique a5
    cases hj'.unique a5'
    obtain ⟨m1, m2⟩ := hmr n r r' hn hr hr' br ar0' a4 a1'
    obtain ⟨m3, m4⟩ := hml n r r' hn hr hr' bl al0' a4l a2'
    have r1 := (hc n r hn hr).1 i a3
    have r2 := (hc (n + 1) r' (by omega) hr').1 i' a3'
    rw [hu] at a6 a6'
    obtain ⟨b0, b1, b2⟩ := hb n
    refine ⟨?_, ?_, ?_, ?_⟩
    · rw [← Option.some.inj a6, ← Option.some.inj a6']
    · rw [(hc n r hn hr).2 _ hj, (hc (n + 1) r' (by omega) hr').2 _ hj']
    · rw [a7', m1, m3, a11, a14, a9, a10, a12, a13, r2, h2', flex_pos k1 k2 k3 k4 b0.ne' b1 b2, a7, a8, r1, h2']
    · rw [a8', m2, m4, a11, a14, a10, a13, h2', flex_vel k1 k2 k3 k4 b0.ne' b1 b2, a8, h2']

/-- **C98, wrists, safety of the flex joint.**  As `C98_simple_inside`, for the flex joint of a wrist whose motors have the same inertia `J` as seen from the joints: its
inertia is then `2 kf² J`, and what the other joint of the wrist is commanded does not matter. -/
theorem C98_flex_inside (h : Loaded l urdf root joint acts ts s0) (hm : (ts.flatMap (·.actNames)).Nodup) {big : F} {sim : Bool} {d : RtData F} (hg : d.Good) (hs : Later s0 d.robot)
    {p : Plant F} (hp : Plant.Reach big sim d PlantIn.Mannered p) (ht : t ∈ ts) {t0 : WristT F} (hd : Described (.wrist t0) x joint acts t)
    {rn ln fn on : String} {kr kl kf ko of oo : F} (h1 : WristMotor x "rightActuator" acts rn kr) (h2 : WristMotor x "leftActuator" acts ln kl)
    (h3 : WristAxis x "flexJoint" joint fn kf of) (h4 : WristAxis x "rollJoint" joint on ko oo) (h2' : (lit 2 : F) = 2) (hk : kr ≠ 0 ∧ kl ≠ 0 ∧ kf ≠ 0 ∧ ko ≠ 0) {u : UJoint F} (hu : joint fn = some u)
    {lim : JLimits F} {saf : JSafety F} (g : Guarded u lim saf) (hty : u.type = .revolute ∨ u.type = .prismatic) {n0 : Nat} {ρ : F} (hc : p.CalibratedFrom n0 fn ρ)
    {Ir Il J dt : Nat → F} (hb : Balanced kr kl Ir Il J) (hmr : p.MotorMoves n0 rn Ir dt) (hml : p.MotorMoves n0 ln Il dt) (hsu : ∀ n, Suits lim saf (2 * kf ^ 2 * J n) (dt n))
    (h0 : ∀ r ar al, p.cycles[n0]? = some r → r.entry.Motor rn ar → r.entry.Motor ln al →
      Safe lim saf ((ar.position / kr - al.position / kl) / (2 * kf) + ρ + of) ((ar.velocity / kr - al.velocity / kl) / (2 * kf)))
    (n : Nat) (r : CycleRec F) (ar al : Actuator F) (hn : n0 ≤ n) (hr : p.cycles[n]? = some r) (har : r.sent.Motor rn ar) (hal : r.sent.Motor ln al) (τ : F) (hτ0 : 0 ≤ τ) (hτ : τ ≤ dt n) :
    Safe lim saf ((posAfter (Ir n) τ ar.effort ar.position ar.velocity / kr - posAfter (Il n) τ al.effort al.position al.velocity / kl) / (2 * kf) + ρ + of)
      ((velAfter (Ir n) τ ar.effort ar.velocity / kr - velAfter (Il n) τ al.effort al.velocity / kl) / (2 * kf)) := by
  have cyc := fun r (hr : r ∈ p.cycles) => C98_wrist_cycle h hm hs hp hr ht hd h1 h2 h3 h4
  have f := flex_follows h hm hs hp ht hd h1 h2 h3 h4 h2' hk hu hc hb hmr hml
  obtain ⟨k1, k2, k3, k4⟩ := hk
  obtain ⟨ar0, al0, i, io, br, bl, j, jo, a1, a2, a3, ao1, a4, a4l, a5, ao2, a6, ao3, a7, ao4, a8, ao5, ⟨a9, a10, _, a11⟩, ⟨a12, a13, _, a14⟩⟩ := cyc r (List.mem_of_getElem? hr)
  cases har.unique a4
  cases hal.unique a4l
  have := f.inside hg (hp.mono fun i hi => hi.tame) g hty hsu (fun r y hr hj => by
    obtain ⟨ar0', al0', i', io', br', bl', j', jo', a1', a2', a3', ao1', a4', a4l', a5', ao2', a6', ao3', a7', ao4', a8', ao5', ⟨a9', a10', _, a11'⟩, ⟨a12', a13', _, a14'⟩⟩ := cyc r (List.mem_of_getElem? hr)
    cases hj.unique a5'
    rw [a7', a8', (hc n0 r (le_refl _) hr).1 i' a3', h2']
    exact h0 r _ _ hr a1' a2') n r j hn hr a5 τ hτ0 hτ
  obtain ⟨b0, b1, b2⟩ := hb n
  rw [a11, a14, h2', flex_pos k1 k2 k3 k4 b0.ne' b1 b2, flex_vel k1 k2 k3 k4 b0.ne' b1 b2, a9, a10, a12, a13, ← (hc n r hn hr).1 i a3, ← h2', ← a7, ← a8, h2']
  exact this

/-- **C98, wrists, recovery of the flex joint.** -/
theorem C98_flex_returns [Archimedean F] (h : Loaded l urdf root joint acts ts s0) (hm : (ts.flatMap (·.actNames)).Nodup) (ht : t ∈ ts) {t0 : WristT F} (hd : Described (.wrist t0) x joint acts t)
    {rn ln fn on : String} {kr kl kf ko of oo : F} (h1 : WristMotor x "rightActuator" acts rn kr) (h2 : WristMotor x "leftActuator" acts ln kl)
    (h3 : WristAxis x "flexJoint" joint fn kf of) (h4 : WristAxis x "rollJoint" joint on ko oo) (h2' : (lit 2 : F) = 2) (hk : kr ≠ 0 ∧ kl ≠ 0 ∧ kf ≠ 0 ∧ ko ≠ 0) {u : UJoint F} (hu : joint fn = some u)
    {lim : JLimits F} {saf : JSafety F} (g : Guarded u lim saf) (hty : u.type = .revolute ∨ u.type = .prismatic) (hkp : 0 < saf.kPosition) (hkv : 0 < saf.kVelocity)
    (hvm : 0 < lim.velocity) (hE : 0 < lim.effort) {M δ : F} (hδ : 0 < δ) (x0 v0 ε : F) (hε : 0 < ε) :
    ∃ N : Nat, ∀ (big : F) (sim : Bool) (d : RtData F), d.Good → Later s0 d.robot → ∀ p : Plant F, Plant.Reach big sim d PlantIn.Mannered p →
      ∀ (n0 : Nat) (ρ : F), p.CalibratedFrom n0 fn ρ → ∀ Ir Il J dt : Nat → F, Balanced kr kl Ir Il J → (∀ n, J n ≤ M) → (∀ n, δ ≤ dt n) →
      p.MotorMoves n0 rn Ir dt → p.MotorMoves n0 ln Il dt → (∀ n, Suits lim saf (2 * kf ^ 2 * J n) (dt n)) →
      (∀ r ar al, p.cycles[n0]? = some r → r.entry.Motor rn ar → r.entry.Motor ln al →
        (ar.position / kr - al.position / kl) / (2 * kf) + ρ + of = x0 ∧ (ar.velocity / kr - al.velocity / kl) / (2 * kf) = v0) →
      ∀ n r ar al, n0 + N ≤ n → p.cycles[n]? = some r → r.sent.Motor rn ar → r.sent.Motor ln al → ∀ τ, 0 ≤ τ → τ ≤ dt n →
        Safe lim (saf.widened ε) ((posAfter (Ir n) τ ar.effort ar.position ar.velocity / kr - posAfter (Il n) τ al.effort al.position al.velocity / kl) / (2 * kf) + ρ + of)
          ((velAfter (Ir n) τ ar.effort ar.velocity / kr - velAfter (Il n) τ al.effort al.velocity / kl) / (2 * kf)) ∧
        |(velAfter (Ir n) τ ar.effort ar.velocity / kr - velAfter (Il n) τ al.effort al.velocity / kl) / (2 * kf)| ≤ lim.velocity + ε := by
  obtain ⟨N1, r1⟩ := limited_returns (M := 2 * kf ^ 2 * M) x0 v0 hkp hkv hvm hδ hε
  obtain ⟨N2, r2⟩ := limited_slows (M := 2 * kf ^ 2 * M) v0 hkv hE hδ hε
  refine ⟨max N1 N2, fun big sim d hg hs p hp n0 ρ hc Ir Il J dt hb hM hdt hmr hml hsu h0 n r ar al hn hr har hal τ hτ0 hτ => ?_⟩
  have cyc := fun r (hr : r ∈ p.cycles) => C98_wrist_cycle h hm hs hp hr ht hd h1 h2 h3 h4
  have f := flex_follows h hm hs hp ht hd h1 h2 h3 h4 h2' hk hu hc hb hmr hml
  obtain ⟨k1, k2, k3, k4⟩ := hk
  obtain ⟨ar0, al0, i, io, br, bl, j, jo, a1, a2, a3, ao1, a4, a4l, a5, ao2, a6, ao3, a7, ao4, a8, ao5, ⟨a9, a10, _, a11⟩, ⟨a12, a13, _, a14⟩⟩ := cyc r (List.mem_of_getElem? hr)
  cases har.unique a4
  cases hal.unique a4l
  obtain ⟨q, hq, hl, hpl⟩ := f.limited hg (hp.mono fun i hi => hi.tame) g hty hsu (M := 2 * kf ^ 2 * M) (δ := δ)
    (fun n => mul_le_mul_of_nonneg_left (hM n) (mul_nonneg (by norm_num) (sq_nonneg _))) hdt
  have hlen := (List.getElem?_eq_some_iff.1 hr).1
  have hstart : (q 0).position = x0 ∧ (q 0).velocity = v0 := by
    have hr0 := List.getElem?_eq_getElem (l := p.cycles) (i := n0) (by omega)
    obtain ⟨ar0', al0', i', io', br', bl', j', jo', a1', a2', a3', ao1', a4', a4l', a5', ao2', a6', ao3', a7', ao4', a8', ao5', ⟨a9', a10', _, a11'⟩, ⟨a12', a13', _, a14'⟩⟩ := cyc _ (List.mem_of_getElem? hr0)
    cases (hq 0 _ hr0).unique a5'
    rw [a7', a8', (hc n0 _ (le_refl _) hr0).1 i' a3', h2']
    exact h0 _ _ _ hr0 a1' a2'
  have e : n0 + (n - n0) = n := by omega
  have hjn : q (n - n0) = j := (hq (n - n0) r (by rw [e]; exact hr)).unique a5
  have q1 := r1 _ _ _ _ _ hl hpl (fun i _ => hsu _) hstart.1 hstart.2 (n - n0) (by have := le_max_left N1 N2; omega) (by omega) τ hτ0 (by rw [e]; exact hτ)
  have q2 := r2 _ _ _ _ _ hl hstart.2 (n - n0) (by have := le_max_right N1 N2; omega) (by omega) τ hτ0 (by rw [e]; exact hτ)
  simp only [e, hjn] at q1 q2
  obtain ⟨b0, b1, b2⟩ := hb n
  rw [a11, a14, h2', flex_pos k1 k2 k3 k4 b0.ne' b1 b2, flex_vel k1 k2 k3 k4 b0.ne' b1 b2, a9, a10, a12, a13, ← (hc n r (by omega) hr).1 i a3, ← h2', ← a7, ← a8, h2']
  exact ⟨q1, q2⟩

theorem roll_follows (h : Loaded l urdf root joint acts ts s0) (hm : (ts.flatMap (·.actNames)).Nodup) {big : F} {sim : Bool} {d : RtData F} (hs : Later s0 d.robot)
    {p : Plant F} (hp : Plant.Reach big sim d PlantIn.Mannered p) (ht : t ∈ ts) {t0 : WristT F} (hd : Described (.wrist t0) x joint acts t)
    {rn ln fn on : String} {kr kl kf ko of oo : F} (h1 : WristMotor x "rightActuator" acts rn kr) (h2 : WristMotor x "leftActuator" acts ln kl)
    (h3 : WristAxis x "flexJoint" joint fn kf of) (h4 : WristAxis x "rollJoint" joint on ko oo) (h2' : (lit 2 : F) = 2) (hk : kr ≠ 0 ∧ kl ≠ 0 ∧ kf ≠ 0 ∧ ko ≠ 0) {u : UJoint F} (hu : joint on = some u) {n0 : Nat} {ρ : F}
    (hc : p.CalibratedFrom n0 on ρ) {Ir Il J dt : Nat → F} (hb : Balanced kr kl Ir Il J) (hmr : p.MotorMoves n0 rn Ir dt) (hml : p.MotorMoves n0 ln Il dt) :
    Follows p n0 on u (fun n => 2 * ko ^ 2 * J n) dt := by
  have cyc := fun r (hr : r ∈ p.cycles) => C98_wrist_cycle h hm hs hp hr ht hd h1 h2 h3 h4
  obtain ⟨k1, k2, k3, k4⟩ := hk
  refine ⟨?_, ?_, fun n r j hn hr hj => (hc n r hn hr).2 j hj, ?_⟩
  · intro r hr
    obtain ⟨ar0, al0, io, i, br, bl, jo, j, a1, a2, ao1, a3, a4, a4l, ao2, a5, ao3, a6, ao4, a7, ao5, a8, ⟨a9, a10, _, a11⟩, ⟨a12, a13, _, a14⟩⟩ := cyc r hr
    exact ⟨j, a5⟩
  · intro r hr y hj
    obtain ⟨ar0, al0, io, i, br, bl, jo, j, a1, a2, ao1, a3, a4, a4l, ao2, a5, ao3, a6, ao4, a7, ao5, a8, ⟨a9, a10, _, a11⟩, ⟨a12, a13, _, a14⟩⟩ := cyc r hr
    cases hj.unique a5
    rw [hu] at a6; exact (Option.some.inj a6).symm
  · intro n r r' y y' hn hr hr' hj hj'
    obtain ⟨ar0, al0, io, i, br, bl, jo, j, a1, a2, ao1, a3, a4, a4l, ao2, a5, ao3, a6, ao4, a7, ao5, a8, ⟨a9, a10, _, a11⟩, ⟨a12, a13, _, a14⟩⟩ := cyc r (List.mem_of_getElem? hr)
    obtain ⟨ar0', al0', io', i', br', bl', jo', j', a1', a2', ao1', a3', a4', a4l', ao2', a5', ao3', a6', ao4', a7', ao5', a8', ⟨a9', a10', _, a11'⟩, ⟨a12', a13', _, a14'⟩⟩ := cyc r' (List.mem_of_getElem? hr')
    cases hj.unique a5
    cases hj'.unique a5'
    obtain ⟨m1, m2⟩ := hmr n r r' hn hr hr' br ar0' a4 a1'
    obtain ⟨m3, m4⟩ := hml n r r' hn hr hr' bl al0' a4l a2'
    have r1 := (hc n r hn hr).1 i a3
    have r2 := (hc (n + 1) r' (by omega) hr').1 i' a3'
    rw [hu] at a6 a6'
    obtain ⟨b0, b1, b2⟩ := hb n
    refine ⟨?_, ?_, ?_, ?_⟩
    · rw [← Option.some.inj a6, ← Option.some.inj a6']
    · rw [(hc n r hn hr).2 _ hj, (hc (n + 1) r' (by omega) hr').2 _ hj']
    · rw [a7', m1, m3, a11, a14, a9, a10, a12, a13, r2, h2', roll_pos k1 k2 k3 k4 b0.ne' b1 b2, a7, a8, r1, h2']
    · rw [a8', m2, m4, a11, a14, a10, a13, h2', roll_vel k1 k2 k3 k4 b0.ne' b1 b2, a8, h2']

/-- **C98, wrists, safety of the roll joint.** -/
theorem C98_roll_inside (h : Loaded l urdf root joint acts ts s0) (hm : (ts.flatMap (·.actNames)).Nodup) {big : F} {sim : Bool} {d : RtData F} (hg : d.Good) (hs : Later s0 d.robot)
    {p : Plant F} (hp : Plant.Reach big sim d PlantIn.Mannered p) (ht : t ∈ ts) {t0 : WristT F} (hd : Described (.wrist t0) x joint acts t)
    {rn ln fn on : String} {kr kl kf ko of oo : F} (h1 : WristMotor x "rightActuator" acts rn kr) (h2 : WristMotor x "leftActuator" acts ln kl)
    (h3 : WristAxis x "flexJoint" joint fn kf of) (h4 : WristAxis x "rollJoint" joint on ko oo) (h2' : (lit 2 : F) = 2) (hk : kr ≠ 0 ∧ kl ≠ 0 ∧ kf ≠ 0 ∧ ko ≠ 0) {u : UJoint F} (hu : joint on = some u)
    {lim : JLimits F} {saf : JSafety F} (g : Guarded u lim saf) (hty : u.type = .revolute ∨ u.type = .prismatic) {n0 : Nat} {ρ : F} (hc : p.CalibratedFrom n0 on ρ)
    {Ir Il J dt : Nat → F} (hb : Balanced kr kl Ir Il J) (hmr : p.MotorMoves n0 rn Ir dt) (hml : p.MotorMoves n0 ln Il dt) (hsu : ∀ n, Suits lim saf (2 * ko ^ 2 * J n) (dt n))
    (h0 : ∀ r ar al, p.cycles[n0]? = some r → r.entry.Motor rn ar → r.entry.Motor ln al →
      Safe lim saf ((-ar.position / kr - al.position / kl) / (2 * ko) + ρ + oo) ((-ar.velocity / kr - al.velocity / kl) / (2 * ko)))
    (n : Nat) (r : CycleRec F) (ar al : Actuator F) (hn : n0 ≤ n) (hr : p.cycles[n]? = some r) (har : r.sent.Motor rn ar) (hal : r.sent.Motor ln al) (τ : F) (hτ0 : 0 ≤ τ) (hτ : τ ≤ dt n) :
    Safe lim saf ((-posAfter (Ir n) τ ar.effort ar.position ar.velocity / kr - posAfter (Il n) τ al.effort al.position al.velocity / kl) / (2 * ko) + ρ + oo)
      ((-velAfter (Ir n) τ ar.effort ar.velocity / kr - velAfter (Il n) τ al.effort al.velocity / kl) / (2 * ko)) := by
  have cyc := fun r (hr : r ∈ p.cycles) => C98_wrist_cycle h hm hs hp hr ht hd h1 h2 h3 h4
  have f := roll_follows h hm hs hp ht hd h1 h2 h3 h4 h2' hk hu hc hb hmr hml
  obtain ⟨k1, k2, k3, k4⟩ := hk
  obtain ⟨ar0, al0, io, i, br, bl, jo, j, a1, a2, ao1, a3, a4, a4l, ao2, a5, ao3, a6, ao4, a7, ao5, a8, ⟨a9, a10, _, a11⟩, ⟨a12, a13, _, a14⟩⟩ := cyc r (List.mem_of_getElem? hr)
  cases har.unique a4
  cases hal.unique a4l
  have := f.inside hg (hp.mono fun i hi => hi.tame) g hty hsu (fun r y hr hj => by
    obtain ⟨ar0', al0', io', i', br', bl', jo', j', a1', a2', ao1', a3', a4', a4l', ao2', a5', ao3', a6', ao4', a7', ao5', a8', ⟨a9', a10', _, a11'⟩, ⟨a12', a13', _, a14'⟩⟩ := cyc r (List.mem_of_getElem? hr)
    cases hj.unique a5'
    rw [a7', a8', (hc n0 r (le_refl _) hr).1 i' a3', h2']
    exact h0 r _ _ hr a1' a2') n r j hn hr a5 τ hτ0 hτ
  obtain ⟨b0, b1, b2⟩ := hb n
  rw [a11, a14, h2', roll_pos k1 k2 k3 k4 b0.ne' b1 b2, roll_vel k1 k2 k3 k4 b0.ne' b1 b2, a9, a10, a12, a13, ← (hc n r hn hr).1 i a3, ← h2', ← a7, ← a8, h2']
  exact this

/-- **C98, wrists, recovery of the roll joint.** -/
theorem C98_roll_returns [Archimedean F] (h : Loaded l urdf root joint acts ts s0) (hm : (ts.flatMap (·.actNames)).Nodup) (ht : t ∈ ts) {t0 : WristT F} (hd : Described (.wrist t0) x joint acts t)
    {rn ln fn on : String} {kr kl kf ko of oo : F} (h1 : WristMotor x "rightActuator" acts rn kr) (h2 : WristMotor x "leftActuator" acts ln kl)
    (h3 : WristAxis x "flexJoint" joint fn kf of) (h4 : WristAxis x "rollJoint" joint on ko oo) (h2' : (lit 2 : F) = 2) (hk : kr ≠ 0 ∧ kl ≠ 0 ∧ kf ≠ 0 ∧ ko ≠ 0) {u : UJoint F} (hu : joint on = some u)
    {lim : JLimits F} {saf : JSafety F} (g : Guarded u lim saf) (hty : u.type = .revolute ∨ u.type = .prismatic) (hkp : 0 < saf.kPosition) (hkv : 0 < saf.kVelocity)
    (hvm : 0 < lim.velocity) (hE : 0 < lim.effort) {M δ : F} (hδ : 0 < δ) (x0 v0 ε : F) (hε : 0 < ε) :
    ∃ N : Nat, ∀ (big : F) (sim : Bool) (d : RtData F), d.Good → Later s0 d.robot → ∀ p : Plant F, Plant.Reach big sim d PlantIn.Mannered p →
      ∀ (n0 : Nat) (ρ : F), p.CalibratedFrom n0 on ρ → ∀ Ir Il J dt : Nat → F, Balanced kr kl Ir Il J → (∀ n, J n ≤ M) → (∀ n, δ ≤ dt n) →
      p.MotorMoves n0 rn Ir dt → p.MotorMoves n0 ln Il dt → (∀ n, Suits lim saf (2 * ko ^ 2 * J n) (dt n)) →
      (∀ r ar al, p.cycles[n0]? = some r → r.entry.Motor rn ar → r.entry.Motor ln al →
        (-ar.position / kr - al.position / kl) / (2 * ko) + ρ + oo = x0 ∧ (-ar.velocity / kr - al.velocity / kl) / (2 * ko) = v0) →
      ∀ n r ar al, n0 + N ≤ n → p.cycles[n]? = some r → r.sent.Motor rn ar → r.sent.Motor ln al → ∀ τ, 0 ≤ τ → τ ≤ dt n →
        Safe lim (saf.widened ε) ((-posAfter (Ir n) τ ar.effort ar.position ar.velocity / kr - posAfter (Il n) τ al.effort al.position al.velocity / kl) / (2 * ko) + ρ + oo)
          ((-velAfter (Ir n) τ ar.effort ar.velocity / kr - velAfter (Il n) τ al.effort al.velocity / kl) / (2 * ko)) ∧
        |(-velAfter (Ir n) τ ar.effort ar.velocity / kr - velAfter (Il n) τ al.effort al.velocity / kl) / (2 * ko)| ≤ lim.velocity + ε := by
  obtain ⟨N1, r1⟩ := limited_returns (M := 2 * ko ^ 2 * M) x0 v0 hkp hkv hvm hδ hε
  obtain ⟨N2, r2⟩ := limited_slows (M := 2 * ko ^ 2 * M) v0 hkv hE hδ hε
  refine ⟨max N1 N2, fun big sim d hg hs p hp n0 ρ hc Ir Il J dt hb hM hdt hmr hml hsu h0 n r ar al hn hr har hal τ hτ0 hτ => ?_⟩
  have cyc := fun r (hr : r ∈ p.cycles) => C98_wrist_cycle h hm hs hp hr ht hd h1 h2 h3 h4
  have f := roll_follows h hm hs hp ht hd h1 h2 h3 h4 h2' hk hu hc hb hmr hml
  obtain ⟨k1, k2, k3, k4⟩ := hk
  obtain ⟨ar0, al0, io, i, br, bl, jo, j, a1, a2, ao1, a3, a4, a4l, ao2, a5, ao3, a6, ao4, a7, ao5, a8, ⟨a9, a10, _, a11⟩, ⟨a12, a13, _, a14⟩⟩ := cyc r (List.mem_of_getElem? hr)
  cases har.unique a4
  cases hal.unique a4l
  obtain ⟨q, hq, hl, hpl⟩ := f.limited hg (hp.mono fun i hi => hi.tame) g hty hsu (M := 2 * ko ^ 2 * M) (δ := δ)
    (fun n => mul_le_mul_of_nonneg_left (hM n) (mul_nonneg (by norm_num) (sq_nonneg _))) hdt
  have hlen := (List.getElem?_eq_some_iff.1 hr).1
  have hstart : (q 0).position = x0 ∧ (q 0).velocity = v0 := by
    have hr0 := List.getElem?_eq_getElem (l := p.cycles) (i := n0) (by omega)
    obtain ⟨ar0', al0', io', i', br', bl', jo', j', a1', a2', ao1', a3', a4', a4l', ao2', a5', ao3', a6', ao4', a7', ao5', a8', ⟨a9', a10', _, a11'⟩, ⟨a12', a13', _, a14'⟩⟩ := cyc _ (List.mem_of_getElem? hr0)
    cases (hq 0 _ hr0).unique a5'
    rw [a7', a8', (hc n0 _ (le_refl _) hr0).1 i' a3', h2']
    exact h0 _ _ _ hr0 a1' a2'
  have e : n0 + (n - n0) = n := by omega
  have hjn : q (n - n0) = j := (hq (n - n0) r (by rw [e]; exact hr)).unique a5
  have q1 := r1 _ _ _ _ _ hl hpl (fun i _ => hsu _) hstart.1 hstart.2 (n - n0) (by have := le_max_left N1 N2; omega) (by omega) τ hτ0 (by rw [e]; exact hτ)
  have q2 := r2 _ _ _ _ _ hl hstart.2 (n - n0) (by have := le_max_right N1 N2; omega) (by omega) τ hτ0 (by rw [e]; exact hτ)
  simp only [e, hjn] at q1 q2
  obtain ⟨b0, b1, b2⟩ := hb n
  rw [a11, a14, h2', roll_pos k1 k2 k3 k4 b0.ne' b1 b2, roll_vel k1 k2 k3 k4 b0.ne' b1 b2, a9, a10, a12, a13, ← (hc n r (by omega) hr).1 i a3, ← h2', ← a7, ← a8, h2']
  exact ⟨q1, q2⟩

end exact

/-! ## A concrete run -/

section examples
attribute [local instance] exactCmp demoTrig demoLit

/-- The numbers that occur in the description. -/
def stackNumber (s : String) : ℚ :=
  if s = "1" then 1 else if s = "2" then 2 else if s = "3" then 3 else if s = "-3" then -3 else 0
@[reducible] def stackParse : Parse ℚ := ⟨stackNumber, fun s => some (stackNumber s), fun s => some (stackNumber s)⟩
attribute [local instance] stackParse

/-- An elbow and a wrist. -/
def stackRoot : Xml := .node "robot" [] none
  [.node "transmission" [("type", "pr2_simple"), ("name", "e")] none
    [.node "joint" [("name", "elbow")] none [], .node "actuator" [("name", "m")] none [.node "mechanicalReduction" [] (some "2") []]],
   .node "transmission" [("type", "pr2_wrist"), ("name", "w")] none
    [.node "rightActuator" [("name", "r"), ("mechanicalReduction", "3")] none [],
     .node "leftActuator" [("name", "l"), ("mechanicalReduction", "-3")] none [],
     .node "flexJoint" [("name", "flex"), ("mechanicalReduction", "1")] none [],
     .node "rollJoint" [("name", "roll"), ("mechanicalReduction", "2")] none []]]

/-- Their joints. -/
def stackJoint (n : String) : Option (UJoint ℚ) :=
  if n = "roll" then some ⟨n, .revolute, some ⟨0, 2, 30, 3⟩, some ⟨1/10, 19/10, 5, 4⟩, none⟩
  else some ⟨n, .revolute, some ⟨0, 2, 30, 3⟩, some ⟨1/10, 19/10, 20, 4⟩, none⟩

def stackSimple : SimpleT ℚ := ⟨0, 0, false, ⟨false, 0⟩, CalSim.fresh 0 0 0 0 false false⟩
def stackWrist : WristT ℚ := ⟨0, 0, 0, 0, 0, 0, ⟨false, 0⟩, CalSim.fresh 0 0 0 0 false false, CalSim.fresh 0 0 0 0 false false⟩
def stackTrans : List (Trans ℚ) :=
  [⟨"e", ["m"], ["elbow"], .simple { stackSimple with reduction := 2 }⟩,
   ⟨"w", ["r", "l"], ["flex", "roll"], .wrist { stackWrist with ar0 := 3, ar1 := -3, jr0 := 1, jr1 := 2 }⟩]
def stackActs0 : List (Actuator ℚ) := [.fresh "r", .fresh "m", .fresh "l"]
def stackState0 : RState ℚ := (RState.mk' stackTrans stackJoint (stackActs0.map fun a => { a with enable := true }) (fun _ => 0)).getD ⟨[], [], [], []⟩

/-- C98: the description is loaded. -/
theorem stack_loaded : Loaded (armLoader stackSimple stackWrist) (fun _ => some stackJoint) stackRoot stackJoint stackActs0 stackTrans stackState0 := by
  refine ⟨⟨true, _, fun _ => 0, by rfl, rfl⟩, rfl, ?_, by decide⟩
  intro k x _ ty b hx _ _ _ hb
  have hb : (if ty = "pr2_simple" then some (Body.simple stackSimple) else if ty = "pr2_wrist" then some (.wrist stackWrist) else none) = some b := hb
  split at hb
  · cases hb
    refine ⟨rfl, ?_⟩
    have hx : x ∈ stackRoot.childrenTagged "transmission" := List.mem_of_getElem? hx
    change x ∈ [_, _] at hx
    simp only [List.mem_cons, List.not_mem_nil, or_false] at hx
    rcases hx with rfl | rfl <;> exact Nat.zero_le _
  · split at hb
    · cases hb; exact ⟨⟨rfl, rfl⟩, trivial⟩
    · cases hb

theorem stack_simple : ∃ jel ael mel, stackRoot.kids[0].FirstChild "joint" jel ∧ jel.Says "name" "elbow" ∧ stackRoot.kids[0].FirstChild "actuator" ael ∧ ael.Says "name" "m" ∧
    ReductionElement stackRoot.kids[0] ael mel ∧ mel.text = some "2" ∧ Described (.simple stackSimple) stackRoot.kids[0] stackJoint stackActs0 stackTrans[0] := by
  have e1 : stackRoot.kids[0].FirstChild "joint" (stackRoot.kids[0].kids[0]) := ⟨[], _, rfl, rfl, by simp⟩
  have e2 : (stackRoot.kids[0].kids[0]).Says "name" "elbow" := ⟨[], _, rfl, by simp⟩
  have e3 : stackRoot.kids[0].FirstChild "actuator" (stackRoot.kids[0].kids[1]) := ⟨[_], _, rfl, rfl, by intro z hz; simp at hz; subst hz; decide⟩
  have e4 : (stackRoot.kids[0].kids[1]).Says "name" "m" := ⟨[], _, rfl, by simp⟩
  have e5 : ReductionElement stackRoot.kids[0] (stackRoot.kids[0].kids[1]) ((stackRoot.kids[0].kids[1]).kids[0]) := Or.inl ⟨[], _, rfl, rfl, by simp⟩
  exact ⟨_, _, _, e1, e2, e3, e4, e5, rfl, _, _, _, _, _, _, [], _, e1, e2, ⟨_, rfl⟩, e3, e4, ⟨.fresh "m", by simp [stackActs0], rfl⟩, e5, rfl, .nil, Or.inl ⟨[("type", "pr2_simple")], _, rfl, by simp⟩,
    rfl, rfl, rfl, rfl, rfl, rfl, rfl, rfl⟩
theorem stack_wrist :
    WristMotor stackRoot.kids[1] "rightActuator" stackActs0 "r" (3 : ℚ) ∧ WristMotor stackRoot.kids[1] "leftActuator" stackActs0 "l" (-3 : ℚ) ∧
    WristAxis stackRoot.kids[1] "flexJoint" stackJoint "flex" (1 : ℚ) 0 ∧ WristAxis stackRoot.kids[1] "rollJoint" stackJoint "roll" (2 : ℚ) 0 ∧
    Described (.wrist stackWrist) stackRoot.kids[1] stackJoint stackActs0 stackTrans[1] := by
  have w1 : WristMotor stackRoot.kids[1] "rightActuator" stackActs0 "r" (3 : ℚ) :=
    ⟨_, "3", ⟨[], _, rfl, rfl, by simp⟩, ⟨[], _, rfl, by simp⟩, ⟨.fresh "r", by simp [stackActs0], rfl⟩, ⟨[("name", "r")], _, rfl, by simp⟩, by decide +kernel⟩
  have w2 : WristMotor stackRoot.kids[1] "leftActuator" stackActs0 "l" (-3 : ℚ) :=
    ⟨_, "-3", ⟨[_], _, rfl, rfl, by intro z hz; simp at hz; subst hz; decide⟩, ⟨[], _, rfl, by simp⟩, ⟨.fresh "l", by simp [stackActs0], rfl⟩, ⟨[("name", "l")], _, rfl, by simp⟩, by decide +kernel⟩
  have w3 : WristAxis stackRoot.kids[1] "flexJoint" stackJoint "flex" (1 : ℚ) 0 :=
    ⟨_, "1", ⟨[_, _], _, rfl, rfl, by intro z hz; simp at hz; rcases hz with rfl | rfl <;> decide⟩, ⟨[], _, rfl, by simp⟩, ⟨_, rfl⟩, ⟨[("name", "flex")], _, rfl, by simp⟩, by decide +kernel,
      Or.inl ⟨by intro p hp; simp [Xml.attrs] at hp; rcases hp with rfl | rfl <;> decide, rfl⟩⟩
  have w4 : WristAxis stackRoot.kids[1] "rollJoint" stackJoint "roll" (2 : ℚ) 0 :=
    ⟨_, "2", ⟨[_, _, _], _, rfl, rfl, by intro z hz; simp at hz; rcases hz with rfl | rfl | rfl <;> decide⟩, ⟨[], _, rfl, by simp⟩, ⟨_, rfl⟩, ⟨[("name", "roll")], _, rfl, by simp⟩,
      by decide +kernel, Or.inl ⟨by intro p hp; simp [Xml.attrs] at hp; rcases hp with rfl | rfl <;> decide, rfl⟩⟩
  exact ⟨w1, w2, w3, w4, "r", "l", "flex", "roll", _, w1, w2, w3, w4, Or.inl ⟨[("type", "pr2_wrist")], _, rfl, by simp⟩, rfl, rfl, rfl, rfl, rfl, rfl⟩

/-- The robot when it starts: calibrated, and moving. -/
def stackActs : List (Actuator ℚ) :=
  [{ Actuator.fresh "r" with position := -3, velocity := 1 }, { Actuator.fresh "m" with position := 3, velocity := 1 }, { Actuator.fresh "l" with position := 9, velocity := 1 }]
def stackRobot : RState ℚ := { stackState0 with joints := stackState0.joints.map fun j => { j with calibrated := true }, acts := stackActs }
/-- The motors have inertias 1/80 (elbow) and 1/360 (wrist). -/
def stackInertia (n : String) : ℚ := if n = "m" then 1/80 else 1/360
def stackHw (as : List (Actuator ℚ)) : List (Actuator ℚ) :=
  as.map fun a => { a with position := posAfter (stackInertia a.name) (1/100) a.effort a.position a.velocity, velocity := velAfter (stackInertia a.name) (1/100) a.effort a.velocity }
/-- The controller commands 30 to all joints. -/
def stackIn : PlantIn ℚ := ⟨stackHw, loopPlug, 0, 2000000, 0, false, 0, false⟩
def stackRt : RtData ℚ :=
  ⟨stackRobot, fun _ => CStat.fresh, ⟨0, 10, (stackRobot.joints.map (·.srow 0), stackRobot.acts.map (·.arow))⟩, ⟨0, 10, stackRobot.joints.map (·.jrow)⟩⟩
def stackBoth : Nat → List (PAct ℚ)
  | 0 => []
  | n + 1 => .nrt :: .rt stackIn :: stackBoth n
def stackScript : List (PAct ℚ) := .call (.load demoReq) :: stackBoth 20 ++ .call (.switch ["spring"] [] 2) :: stackBoth 60
def stackStart : Plant ℚ := Plant.runs 1000 (Plant.init false stackRt) [.rt stackIn, .rt stackIn]
def stackRun : Plant ℚ := stackStart.runs 1000 stackScript

theorem stack_later : Later stackState0 stackRobot := by
  refine Later.start.touch rfl rfl ?_ ?_
  · change List.Forall₂ _ stackState0.joints (stackState0.joints.map fun j : JState ℚ => { j with calibrated := true })
    rw [List.forall₂_map_right_iff]
    exact List.forall₂_same.2 fun _ _ => rfl
  · exact .cons rfl (.cons rfl (.cons rfl .nil))

theorem stackIn_mannered : stackIn.Mannered := by
  refine ⟨?_, fun _ => rfl, fun _ => rfl, ?_, fun _ => List.forall₂_same.2 fun _ _ => .refl _⟩
  · intro as
    change List.Forall₂ _ as (as.map _)
    rw [List.forall₂_map_right_iff]
    exact List.forall₂_same.2 fun _ _ => rfl
  · intro s
    change List.Forall₂ _ s.joints (s.joints.map _)
    rw [List.forall₂_map_right_iff]
    exact List.forall₂_same.2 fun _ _ => ⟨rfl, rfl, rfl⟩

theorem stackReach : Plant.Reach 1000 false stackRt PlantIn.Mannered stackRun := by
  have h : Plant.Reach 1000 false stackRt PlantIn.Mannered stackStart := (Plant.Reach.init.rt stackIn stackIn_mannered).rt stackIn stackIn_mannered
  have h2 : ∀ pre ∈ stackScript.inits, (Plant.runs 1000 stackStart pre).mgr.used.isSome = true := by decide +kernel
  refine h.runs (h2 [] (by simp)) ?_ (fun pre hpre => h2 pre ((List.mem_inits _ _).2 hpre))
  have : ∀ n i, PAct.rt i ∈ stackBoth n → i = stackIn := by
    intro n i hi
    induction n with
    | zero => cases hi
    | succ n ih =>
      simp only [stackBoth, List.mem_cons, reduceCtorEq, false_or, PAct.rt.injEq] at hi
      exact hi.elim id ih
  intro i hi
  simp only [stackScript, List.cons_append, List.mem_cons, reduceCtorEq, false_or, List.mem_append] at hi
  rcases hi with hi | hi <;> (rw [this _ i hi]; exact stackIn_mannered)

theorem stackGood : stackRt.Good := by
  refine ⟨⟨⟨?_, ?_, ?_⟩, ?_, ?_⟩, ?_, rfl, rfl, rfl, by decide, by decide⟩
  all_goals first | decide +kernel | skip
  intro c hc
  have hc : c ∈ [_, _] := hc
  simp only [List.mem_cons, List.not_mem_nil, or_false] at hc
  rcases hc with rfl | rfl
  · exact ⟨rfl, by decide⟩
  · exact ⟨rfl, rfl⟩

/-- Motor `n` moves as said between cycles `k` and `k + 1`. -/
def stackStep (n : String) (k : Nat) : Bool :=
  match ((stackRun.cycles[k]?).bind (·.sent.acts.find? (·.name == n))), ((stackRun.cycles[k + 1]?).bind (·.entry.acts.find? (·.name == n))) with
  | some a, some a' => a'.position == posAfter (stackInertia n) (1/100) a.effort a.position a.velocity && a'.velocity == velAfter (stackInertia n) (1/100) a.effort a.velocity
  | _, _ => false

theorem motor_find {s : RState ℚ} {n : String} {a : Actuator ℚ} (h : s.Motor n a) : s.acts.find? (·.name == n) = some a := by
  obtain ⟨pre, post, h1, h2, h3⟩ := h
  exact (find?_split _ _ _).2 ⟨pre, post, h1, by simpa using h2, fun z hz => by simpa using h3 z hz⟩

theorem stackLength : stackRun.cycles.length = 10 := by decide +kernel
theorem stackSteps : ∀ k < 9, stackStep "m" k = true ∧ stackStep "r" k = true ∧ stackStep "l" k = true := by decide +kernel
theorem stackCal : ∀ r ∈ stackRun.cycles, (∀ j ∈ r.entry.joints, j.reference = 0) ∧ ∀ j ∈ r.sent.joints, j.calibrated = true := by decide +kernel

theorem stack_moves (n : String) (h : ∀ k < 9, stackStep n k = true) : stackRun.MotorMoves 0 n (fun _ => stackInertia n) (fun _ => 1/100) := by
  intro k r r' _ hr hr' a a' ha ha'
  have hk : k < 9 := by
    have := (List.getElem?_eq_some_iff.1 hr').1
    rw [stackLength] at this; omega
  have := h k hk
  unfold stackStep at this
  rw [hr, hr'] at this
  dsimp only [Option.bind_some] at this
  rw [motor_find ha, motor_find ha'] at this
  simpa using this

theorem stack_calibrated (jn : String) : stackRun.CalibratedFrom 0 jn 0 := by
  intro k r _ hr
  obtain ⟨h1, h2⟩ := stackCal r (List.mem_of_getElem? hr)
  exact ⟨fun j ⟨i, _, hj⟩ => h1 j (List.mem_of_getElem? hj), fun j ⟨i, _, hj⟩ => h2 j (List.mem_of_getElem? hj)⟩

/-- The motors in the first cycle. -/
theorem stack_first {r : CycleRec ℚ} (hr : stackRun.cycles[0]? = some r) {n : String} {a : Actuator ℚ} (ha : r.entry.Motor n a) :
    (n = "m" → a.position = 301/100 ∧ a.velocity = 1) ∧ (n = "r" → a.position = -299/100 ∧ a.velocity = 1) ∧ (n = "l" → a.position = 901/100 ∧ a.velocity = 1) := by
  have h : (stackRun.cycles[0]?).map (fun r => r.entry.acts.map fun a => (a.name, a.position, a.velocity)) =
      some [("r", (-299/100 : ℚ), (1 : ℚ)), ("m", 301/100, 1), ("l", 901/100, 1)] := by decide +kernel
  rw [hr] at h
  have h := Option.some.inj h
  obtain ⟨pre, post, e, rfl, _⟩ := ha
  have hm : (a.name, a.position, a.velocity) ∈ r.entry.acts.map fun a => (a.name, a.position, a.velocity) := List.mem_map.2 ⟨a, by rw [e]; simp, rfl⟩
  beta_reduce at h
  rw [h] at hm
  simp only [List.mem_cons, List.not_mem_nil, or_false, Prod.mk.injEq] at hm
  rcases hm with ⟨h1, h2, h3⟩ | ⟨h1, h2, h3⟩ | ⟨h1, h2, h3⟩ <;> rw [h1, h2, h3] <;> simp

theorem stack_balanced : Balanced (3 : ℚ) (-3) (fun _ => 1/360) (fun _ => 1/360) (fun _ => 1/40) := by
  intro n
  norm_num

/-- C98: the hypotheses are met by a run with a load and a switch call in which the controller pushes all joints with all it has.  The elbow stays inside ... -/
example (n : Nat) (r : CycleRec ℚ) (a : Actuator ℚ) (hr : stackRun.cycles[n]? = some r) (ha : r.sent.Motor "m" a) (τ : ℚ) (h0 : 0 ≤ τ) (h1 : τ ≤ 1/100) :
    posAfter (1/80) τ a.effort a.position a.velocity / 2 ≤ 19/10 := by
  obtain ⟨jel, ael, mel, e1, e2, e3, e4, e5, e6, e7⟩ := stack_simple
  have := (C98_simple_inside stack_loaded (by decide) stackGood stack_later stackReach (t := stackTrans[0]) (by simp [stackTrans]) e7 e1 e2 e3 e4 e5 e6 (k := 2) rfl (by norm_num) (jn := "elbow") rfl
    (lim := ⟨0, 2, 30, 3⟩) (saf := ⟨1/10, 19/10, 20, 4⟩) (by refine ⟨rfl, rfl, ?_, ?_, ?_, ?_, ?_⟩ <;> norm_num) (Or.inl rfl) (stack_calibrated _) (I := fun _ => 1/80) (dt := fun _ => 1/100) (fun _ => by norm_num)
    (stack_moves "m" fun k hk => (stackSteps k hk).1) (fun _ => by refine ⟨?_, ?_, ?_, ?_, ?_⟩ <;> norm_num) ?_ n r a (Nat.zero_le _) hr ha τ h0 h1).upper
  · simpa using this
  · intro r a hr ha
    obtain ⟨e1, e2⟩ := (stack_first hr ha).1 rfl
    rw [e1, e2]
    refine ⟨?_, ?_, ?_, ?_, ?_⟩ <;> norm_num

/-- ... and so do both joints of the wrist. -/
example (n : Nat) (r : CycleRec ℚ) (ar al : Actuator ℚ) (hr : stackRun.cycles[n]? = some r) (har : r.sent.Motor "r" ar) (hal : r.sent.Motor "l" al) (τ : ℚ) (h0 : 0 ≤ τ) (h1 : τ ≤ 1/100) :
    (posAfter (1/360) τ ar.effort ar.position ar.velocity / 3 - posAfter (1/360) τ al.effort al.position al.velocity / -3) / (2 * 1) + 0 + 0 ≤ 19/10 ∧
    (-posAfter (1/360) τ ar.effort ar.position ar.velocity / 3 - posAfter (1/360) τ al.effort al.position al.velocity / -3) / (2 * 2) + 0 + 0 ≤ 19/10 := by
  obtain ⟨w1, w2, w3, w4, hd⟩ := stack_wrist
  constructor
  · refine (C98_flex_inside stack_loaded (by decide) stackGood stack_later stackReach (t := stackTrans[1]) (by simp [stackTrans]) hd w1 w2 w3 w4 (by decide +kernel) (by norm_num) rfl
      (lim := ⟨0, 2, 30, 3⟩) (saf := ⟨1/10, 19/10, 20, 4⟩) (by refine ⟨rfl, rfl, ?_, ?_, ?_, ?_, ?_⟩ <;> norm_num) (Or.inl rfl) (stack_calibrated _) stack_balanced
      (stack_moves "r" fun k hk => (stackSteps k hk).2.1) (stack_moves "l" fun k hk => (stackSteps k hk).2.2) (fun _ => by refine ⟨?_, ?_, ?_, ?_, ?_⟩ <;> norm_num) ?_ n r ar al (Nat.zero_le _) hr har hal
      τ h0 h1).upper
    intro r ar al hr har hal
    obtain ⟨e1, e2⟩ := (stack_first hr har).2.1 rfl
    obtain ⟨e3, e4⟩ := (stack_first hr hal).2.2 rfl
    rw [e1, e2, e3, e4]
    refine ⟨?_, ?_, ?_, ?_, ?_⟩ <;> norm_num
  · refine (C98_roll_inside stack_loaded (by decide) stackGood stack_later stackReach (t := stackTrans[1]) (by simp [stackTrans]) hd w1 w2 w3 w4 (by decide +kernel) (by norm_num) rfl
      (lim := ⟨0, 2, 30, 3⟩) (saf := ⟨1/10, 19/10, 5, 4⟩) (by refine ⟨rfl, rfl, ?_, ?_, ?_, ?_, ?_⟩ <;> norm_num) (Or.inl rfl) (stack_calibrated _) stack_balanced
      (stack_moves "r" fun k hk => (stackSteps k hk).2.1) (stack_moves "l" fun k hk => (stackSteps k hk).2.2) (fun _ => by refine ⟨?_, ?_, ?_, ?_, ?_⟩ <;> norm_num) ?_ n r ar al (Nat.zero_le _) hr har hal
      τ h0 h1).upper
    intro r ar al hr har hal
    obtain ⟨e1, e2⟩ := (stack_first hr har).2.1 rfl
    obtain ⟨e3, e4⟩ := (stack_first hr hal).2.2 rfl
    rw [e1, e2, e3, e4]
    refine ⟨?_, ?_, ?_, ?_, ?_⟩ <;> norm_num

/-- The hypotheses of the recovery theorems are met, too. -/
example : ∃ N : Nat, ∀ n r a, 0 + N ≤ n → stackRun.cycles[n]? = some r → r.sent.Motor "m" a → |velAfter (1/80) 0 a.effort a.velocity / 2| ≤ 3 + 1/10 := by
  obtain ⟨jel, ael, mel, e1, e2, e3, e4, e5, e6, e7⟩ := stack_simple
  obtain ⟨N, hN⟩ := C98_simple_returns stack_loaded (by decide) (t := stackTrans[0]) (by simp [stackTrans]) e7 e1 e2 e3 e4 e5 e6 (k := 2) rfl (by norm_num) (jn := "elbow") rfl
    (lim := ⟨0, 2, 30, 3⟩) (saf := ⟨1/10, 19/10, 20, 4⟩) (by refine ⟨rfl, rfl, ?_, ?_, ?_, ?_, ?_⟩ <;> norm_num) (Or.inl rfl) (by norm_num) (by norm_num) (by norm_num) (by norm_num)
    (M := 1/80) (δ := 1/100) (by norm_num) (301/200) (1/2) (1/10) (by norm_num)
  refine ⟨N, fun n r a hn hr ha => ?_⟩
  refine (hN 1000 false stackRt stackGood stack_later stackRun stackReach 0 0 (stack_calibrated _) (fun _ => 1/80) (fun _ => 1/100) (fun _ => by norm_num) (fun _ => le_refl _)
    (stack_moves "m" fun k hk => (stackSteps k hk).1) (fun _ => by refine ⟨?_, ?_, ?_, ?_, ?_⟩ <;> norm_num) ?_ n r a hn hr ha 0 (le_refl _) (by norm_num)).2
  intro r a hr ha
  obtain ⟨e1, e2⟩ := (stack_first hr ha).1 rfl
  rw [e1, e2]
  norm_num

/-- The joints move and the limiter acts: in the tenth cycle the commands of 30 have become almost nothing. -/
example : (stackRun.cycles[9]?).map (fun r => r.sent.joints.map fun j => (j.position, j.commanded)) =
    some [(25879/15625, 2/625), (537503/468750, 32/9375), (662023/625000, 12288/3125)] := by decide +kernel

end examples

end Pr2
