import Verif.Props.Plant

/-!
# C87: motors the robot description does not mention are never enabled, and motors without transmission are never commanded
-/

namespace Pr2
open Init
set_option linter.unusedVariables false

/-! ## Specification -/

/-- A transmission element of the robot description names the motor `n`. -/
def Mentioned (root : Xml) (n : String) : Prop :=
  ∃ k ∈ root.kids, k.tag = "transmission" ∧
    ∃ c ∈ k.kids, (c.tag = "actuator" ∨ c.tag = "rightActuator" ∨ c.tag = "leftActuator") ∧ c.attr "name" = some n

/-- The second list of motors is the first with some more motors enabled, all of them satisfying `S`. -/
def EnabledWithin {F : Type} (S : String → Prop) (s s' : List (Actuator F)) : Prop :=
  List.Forall₂ (fun a b => b = a ∨ (b = { a with enable := true } ∧ S a.name)) s s'

/-- The motors' commands are the same, name by name; readings may differ. -/
def SameCommands {F : Type} (s s' : List (Actuator F)) : Prop :=
  List.Forall₂ (fun a b => b.name = a.name ∧ b.effort = a.effort ∧ b.enable = a.enable) s s'

/-- Hardware and plugins leave the motors' commands alone (controllers command joints). -/
structure PlantIn.JointsOnly {F : Type} (i : PlantIn F) : Prop where
  tame : i.Tame
  hw : ∀ as, SameCommands as (i.hw as)
  plug : ∀ s, SameCommands s.acts (i.plug s).acts

/-! ## Initialisation -/

section
variable {F α β : Type}

/-- `m` enables only motors in `S`. -/
def OnlyOf (S : String → Prop) (m : Init F α) : Prop := ∀ s, EnabledWithin S s (m s).1

theorem EnabledWithin.refl (S : String → Prop) (s : List (Actuator F)) : EnabledWithin S s s := List.forall₂_same.2 fun _ _ => Or.inl rfl

theorem EnabledWithin.trans {S : String → Prop} {s t u : List (Actuator F)} (h : EnabledWithin S s t) (k : EnabledWithin S t u) : EnabledWithin S s u :=
  forall2_trans' (fun a b c h k => by
    rcases h with rfl | ⟨rfl, h⟩
    · exact k
    · rcases k with rfl | ⟨rfl, _⟩
      · exact Or.inr ⟨rfl, h⟩
      · exact Or.inr ⟨rfl, h⟩) h k

variable {S : String → Prop}

theorem onlyOf_pure (a : α) : OnlyOf S (pure a : Init F α) := fun s => .refl S s
theorem onlyOf_need (o : Option α) : OnlyOf S (need o : Init F α) := by cases o <;> exact fun s => .refl S s
theorem onlyOf_deref (o : Option α) : OnlyOf S (deref o : Init F α) := by cases o <;> exact fun s => .refl S s

theorem onlyOf_enable {n : String} (h : S n) : OnlyOf S (enable n : Init F Unit) := by
  intro s
  unfold enable
  split
  · rename_i i hi
    rw [List.findIdx?_eq_some_iff_getElem] at hi
    obtain ⟨hl, hn, _⟩ := hi
    unfold EnabledWithin
    rw [List.forall₂_iff_get]
    refine ⟨by simp, fun k h1 h2 => ?_⟩
    simp only [List.get_eq_getElem, List.getElem_modify]
    split
    · rename_i hk; subst hk
      refine Or.inr ⟨rfl, ?_⟩
      have : s[i].name = n := by simpa using hn
      rw [this]; exact h
    · exact Or.inl rfl
  · exact .refl S s

theorem OnlyOf.bind' {m : Init F α} {f : α → Init F β} (hm : OnlyOf S m) (hf : ∀ s s' a, m s = (s', .ok a) → OnlyOf S (f a)) : OnlyOf S (m >>= f) := by
  intro s
  rw [bind_def]
  have := hm s
  rcases hms : m s with ⟨s', _ | _ | a⟩ <;> rw [hms] at this
  · exact this
  · exact this
  · exact this.trans (hf s s' a hms s')

theorem OnlyOf.bind {m : Init F α} {f : α → Init F β} (hm : OnlyOf S m) (hf : ∀ a, OnlyOf S (f a)) : OnlyOf S (m >>= f) := hm.bind' fun _ _ a _ => hf a

theorem OnlyOf.needBind {o : Option α} {f : α → Init F β} (hf : ∀ a, o = some a → OnlyOf S (f a)) : OnlyOf S (need o >>= f) :=
  (onlyOf_need o).bind' fun _ _ a h => hf a (need_ok.1 h).2

theorem onlyOf_foldlM {γ : Type} (f : β → γ → Init F β) (hf : ∀ b c, OnlyOf S (f b c)) (l : List γ) (b : β) : OnlyOf S (l.foldlM f b) := by
  induction l generalizing b with
  | nil => exact onlyOf_pure b
  | cons c l ih => rw [List.foldlM_cons]; exact (hf b c).bind (fun b => ih b)

theorem onlyOf_forM {γ : Type} (f : γ → Init F Unit) (hf : ∀ c, OnlyOf S (f c)) (l : List γ) : OnlyOf S (l.forM f) := by
  induction l with
  | nil => exact onlyOf_pure _
  | cons c l ih => exact (hf c).bind (fun _ => ih)

theorem onlyOf_attempt {m : Init F α} (hm : OnlyOf S m) : OnlyOf S (attempt m) := by
  intro s
  unfold attempt
  have := hm s
  rcases hms : m s with ⟨s', _ | _ | a⟩ <;> rw [hms] at this <;> exact this

end

macro "onlyof" : tactic => `(tactic| repeat' first
  | exact onlyOf_pure _ | exact onlyOf_need _ | exact onlyOf_deref _ | assumption
  | (refine OnlyOf.bind ?_ (fun _ => ?_)) | (refine onlyOf_foldlM _ (fun _ _ => ?_) _ _) | (refine onlyOf_forM _ (fun _ => ?_) _) | split)

section
variable {F : Type} [FCmp F] [Zero F] [Add F] [Sub F] [Mul F] [iDiv : Div F] [Neg F] [FLit F] [iTrig : FTrig F] [Parse F]

/-- The element names the motor. -/
def Xml.Names (x : Xml) (n : String) : Prop :=
  ∃ c ∈ x.kids, (c.tag = "actuator" ∨ c.tag = "rightActuator" ∨ c.tag = "leftActuator") ∧ c.attr "name" = some n

theorem names_of_first {x c : Xml} {tag n : String} (h : x.first tag = some c) (ht : tag = "actuator" ∨ tag = "rightActuator" ∨ tag = "leftActuator")
    (hn : c.attr "name" = some n) : x.Names n := by
  have hc := List.find?_some h
  have hc' : c.tag = tag := by simpa using hc
  exact ⟨c, List.mem_of_find?_eq_some h, by rw [hc']; exact ht, hn⟩

theorem simple_onlyOf (t : SimpleT F) (x : Xml) (joint : String → Option (UJoint F)) : OnlyOf x.Names (t.initXml x joint) := by
  unfold SimpleT.initXml
  refine (onlyOf_need _).bind fun jn => (onlyOf_need _).bind fun _ => OnlyOf.needBind fun ael ha => OnlyOf.needBind fun an hn =>
    (onlyOf_enable (names_of_first ha (Or.inl rfl) hn)).bind fun _ => ?_
  unfold SimpleT.simJoint simpleReduction
  onlyof

theorem wristActuator_onlyOf (x : Xml) (tag : String) (ht : tag = "actuator" ∨ tag = "rightActuator" ∨ tag = "leftActuator") :
    OnlyOf x.Names (wristActuator x tag : Init F (String × F)) := by
  unfold wristActuator
  exact OnlyOf.needBind fun ael ha => OnlyOf.needBind fun an hn => (onlyOf_enable (names_of_first ha ht hn)).bind fun _ => by onlyof

theorem wrist_onlyOf (t : WristT F) (x : Xml) (joint : String → Option (UJoint F)) : OnlyOf x.Names (t.initXml x joint) := by
  unfold WristT.initXml
  refine (wristActuator_onlyOf x _ (Or.inr (Or.inl rfl))).bind fun _ => (wristActuator_onlyOf x _ (Or.inr (Or.inr rfl))).bind fun _ => ?_
  unfold wristJoint wristOffset
  onlyof

theorem belt_onlyOf (t : BeltT F) (x : Xml) (joint : String → Option (UJoint F)) : OnlyOf x.Names (t.initXml x joint) := by
  unfold BeltT.initXml
  refine (onlyOf_need _).bind fun jn => (onlyOf_need _).bind fun _ => OnlyOf.needBind fun ael ha => OnlyOf.needBind fun an hn =>
    (onlyOf_enable (names_of_first ha (Or.inl rfl) hn)).bind fun _ => ?_
  onlyof

theorem gripper_onlyOf (t : GripperT F) (x : Xml) (joint : String → Option (UJoint F)) : OnlyOf x.Names (t.initXml x joint) := by
  unfold GripperT.initXml
  refine OnlyOf.bind' ?_ fun s s' r hr => (onlyOf_enable ?_).bind fun _ => by onlyof
  · unfold GripperT.initXml1 GripperT.gapJoint GripperT.passiveJoint GripperT.simJoint gripperCoeff
    onlyof
  · unfold GripperT.initXml1 at hr
    obtain ⟨_, ael, h1, hr⟩ := bind_ok.1 hr
    obtain ⟨_, an, h2, hr⟩ := bind_ok.1 hr
    obtain ⟨_, _, _, hr⟩ := bind_ok.1 hr
    obtain ⟨_, _, _, hr⟩ := bind_ok.1 hr
    obtain ⟨_, _, _, hr⟩ := bind_ok.1 hr
    obtain ⟨_, rfl⟩ := pure_ok.1 hr
    exact names_of_first (need_ok.1 h1).2 (Or.inl rfl) (need_ok.1 h2).2

theorem body_onlyOf (b : Body F) (x : Xml) (joint : String → Option (UJoint F)) : OnlyOf x.Names (b.initXml x joint) := by
  cases b
  · exact simple_onlyOf _ _ _
  · exact wrist_onlyOf _ _ _
  · exact gripper_onlyOf _ _ _
  · exact belt_onlyOf _ _ _

theorem OnlyOf.mono {α : Type} {S T : String → Prop} {m : Init F α} (h : OnlyOf S m) (hst : ∀ n, S n → T n) : OnlyOf T m :=
  fun s => (h s).imp fun _ _ h => h.imp_right fun ⟨e, h⟩ => ⟨e, hst _ h⟩

theorem element_onlyOf (l : TransLoader F) (joint : String → Option (UJoint F)) (k : Nat) (x : Xml) : OnlyOf x.Names (robotElement l joint k x) := by
  unfold robotElement
  refine OnlyOf.bind ?_ (fun ty => ?_)
  · unfold Xml.transType; onlyof
  split
  · exact onlyOf_pure _
  · split
    · split
      · exact onlyOf_pure _
      · exact onlyOf_attempt (body_onlyOf _ _ _)
    · exact onlyOf_pure _

theorem loop_onlyOf (l : TransLoader F) (joint : String → Option (UJoint F)) (k : Nat) (xs : List Xml) :
    OnlyOf (fun n => ∃ x ∈ xs, x.Names n) (robotLoop l joint k xs) := by
  induction xs generalizing k with
  | nil => exact onlyOf_pure _
  | cons x xs ih =>
    unfold robotLoop
    refine ((element_onlyOf l joint k x).mono fun n h => ⟨x, by simp, h⟩).bind fun _ =>
      ((ih _).mono fun n ⟨y, hy, h⟩ => ⟨y, by simp [hy], h⟩).bind fun _ => onlyOf_pure _

/-- **C87, initialisation.**  However loading the robot description ends (also with a failure or a crash half-way), it has changed nothing about the motors but
enabled some, and only motors which a transmission element of the description names. -/
theorem C87_init (l : TransLoader F) (urdf : Xml → Option (String → Option (UJoint F))) (root : Xml) (hw : Bool) (acts : List (Actuator F)) :
    EnabledWithin (Mentioned root) acts (Robot.initXml hw urdf l root acts).1 := by
  have : OnlyOf (Mentioned root) (Robot.initXml hw urdf l root) := by
    unfold Robot.initXml
    refine (onlyOf_need _).bind fun _ => (onlyOf_need _).bind fun joint => (loop_onlyOf l joint 0 _).mono ?_
    rintro n ⟨x, hx, h⟩
    unfold Xml.all at hx
    rw [List.mem_filter] at hx
    exact ⟨x, hx.1, by simpa using hx.2, h⟩
  exact this acts

end

/-! ## The running system -/

section
variable {F : Type}

theorem SameCommands.refl (s : List (Actuator F)) : SameCommands s s := List.forall₂_same.2 fun _ _ => ⟨rfl, rfl, rfl⟩

/-- The motors not named by `U` have the same commands. -/
def Uncommanded (U : String → Prop) (s s' : List (Actuator F)) : Prop :=
  List.Forall₂ (fun a b => b.name = a.name ∧ (¬ U a.name → b.effort = a.effort ∧ b.enable = a.enable)) s s'

theorem SameCommands.un {U : String → Prop} {s s' : List (Actuator F)} (h : SameCommands s s') : Uncommanded U s s' :=
  h.imp fun _ _ h => ⟨h.1, fun _ => h.2⟩

theorem Uncommanded.refl (U : String → Prop) (s : List (Actuator F)) : Uncommanded U s s := (SameCommands.refl s).un

theorem Uncommanded.trans {U : String → Prop} {s t u : List (Actuator F)} (h : Uncommanded U s t) (k : Uncommanded U t u) : Uncommanded U s u :=
  forall2_trans' (fun a b c h k => ⟨k.1.trans h.1, fun n => by
    have h2 := h.2 n
    have k2 := k.2 (by rw [h.1]; exact n)
    exact ⟨k2.1.trans h2.1, k2.2.trans h2.2⟩⟩) h k

/-- A sweep touches only connected actuators. -/
theorem sweep_notin (f : Prop' F) (conns : List (Conn F)) (as : List (Actuator F)) (js : List (JState F))
    {conns' : List (Conn F)} {as' : List (Actuator F)} {js' : List (JState F)} (h : sweep f conns as js = some (conns', as', js')) (i : Nat)
    (hi : ∀ c ∈ conns, i ∉ c.ins) : as'[i]? = as[i]? := by
  induction conns generalizing as js conns' as' js' with
  | nil => cases h; rfl
  | cons c cs ih =>
    unfold sweep at h
    rcases hr : f c.trans.body (gather as c.ins) (gather js c.outs) with _ | r
    · rw [hr] at h; cases h
    rw [hr] at h
    rcases hs : sweep f cs (scatter c.ins r.2.1 as) (scatter c.outs r.2.2 js) with _ | ⟨cs', as2, js2⟩
    · simp only [hs, Option.bind_eq_bind, Option.bind_some, Option.bind_none] at h; cases h
    simp only [hs, Option.bind_eq_bind, Option.bind_some, Option.some.injEq, Prod.mk.injEq] at h
    obtain ⟨rfl, rfl, rfl⟩ := h
    rw [ih _ _ hs (fun c hc => hi c (by simp [hc])), scatter_get_notin _ _ _ _ (hi c (by simp))]

/-- The motors named by the robot's transmissions. -/
def RState.Uses (s : RState F) (n : String) : Prop := ∃ c ∈ s.conns, n ∈ c.trans.actNames

theorem SameRobot.uses {s s' : RState F} (h : SameRobot s s') (n : String) : s'.Uses n ↔ s.Uses n := by
  have : s'.conns.map (fun c => c.trans.actNames) = s.conns.map (fun c => c.trans.actNames) := by
    have := h.conns
    generalize s.conns = l at this
    generalize s'.conns = l' at this
    induction this with
    | nil => rfl
    | cons h _ ih => obtain ⟨b, rfl, _⟩ := h; simp [ih]
  unfold RState.Uses
  have k : ∀ l : List (Conn F), (∃ c ∈ l, n ∈ c.trans.actNames) ↔ ∃ ns ∈ l.map (fun c => c.trans.actNames), n ∈ ns := fun l => by simp
  rw [k, k, this]

variable [FCmp F] [Zero F] [Add F] [Sub F] [Mul F] [iDiv : Div F] [Neg F] [FLit F] [iTrig : FTrig F]

theorem effort_uncommanded {s s' : RState F} (h : s.Ready) (hs : s.propagateEffort = some s') : Uncommanded s.Uses s.acts s'.acts := by
  have hc := (C48_effort_only_commands s s' h hs).1
  unfold RState.propagateEffort RState.sweep at hs
  rcases hr : Pr2.sweep Body.propagateEffort s.conns s.acts s.joints with _ | ⟨c, a, j⟩
  · rw [hr] at hs; cases hs
  rw [hr] at hs; cases hs
  unfold Uncommanded
  dsimp only at hc ⊢
  rw [List.forall₂_iff_get] at hc ⊢
  refine ⟨hc.1, fun k h1 h2 => ?_⟩
  obtain ⟨e, x, hx, _⟩ := hc.2 k h1 h2
  refine ⟨by rw [hx], fun hn => ?_⟩
  have hg : a[k]? = s.acts[k]? := by
    refine sweep_notin _ _ _ _ hr k fun c hc hk => hn ?_
    obtain ⟨n, hn, hi⟩ := Ready.sweep.forall2_right (h.named c hc) hk
    rw [List.findIdx?_eq_some_iff_getElem] at hi
    obtain ⟨_, hi, _⟩ := hi
    have : s.acts[k].name = n := by simpa using hi
    refine ⟨c, hc, ?_⟩
    simp only [List.get_eq_getElem]
    rw [this]; exact hn
  rw [List.getElem?_eq_getElem h2, List.getElem?_eq_getElem h1] at hg
  have hg := Option.some.inj hg
  simp only [List.get_eq_getElem]
  rw [hg]; exact ⟨rfl, rfl⟩

theorem applyCalls_commands {plug : RState F → RState F} (hp : ∀ s, SameCommands s.acts (plug s).acts) (U : String → Prop) (l : List Ev) (s : RState F) :
    Uncommanded U s.acts (applyCalls (l.map (fun e => PlugCall.mk e plug)) s).acts := by
  induction l generalizing s with
  | nil => exact .refl U _
  | cons e l ih => exact (hp s).un.trans (ih _)

/-- Commands of unconnected motors have not changed. -/
structure UInv (d : RtData F) (p : Plant F) : Prop where
  now : Uncommanded d.robot.Uses d.robot.acts p.data.robot.acts
  sent : ∀ r ∈ p.cycles, Uncommanded d.robot.Uses d.robot.acts r.sent.acts

theorem UInv.rtStep {big : F} {d : RtData F} {p : Plant F} (g : GInv big d p) (h : UInv d p) {i : PlantIn F} (hi : i.JointsOnly) : UInv d (p.rtStep big i) := by
  have adv : ∀ m, UInv d (p.advance m i.plug) := fun m =>
    ⟨h.now.trans (applyCalls_commands hi.plug _ _ _), h.sent⟩
  unfold Plant.rtStep
  cases hrt : p.mgr.rt with
  | pre =>
    dsimp only
    have k0 := SameRobot.of_acts p.data.robot _ (hi.tame.hw p.data.robot.acts)
    have hr0 := k0.ready g.good.ready
    obtain ⟨s', hs', _⟩ := C67_position_never_aborts _ hr0
    rw [hs']
    refine ⟨?_, h.sent⟩
    change Uncommanded _ _ s'.acts
    rw [position_acts _ _ hr0 hs']
    exact h.now.trans (hi.hw _).un
  | sweep k =>
    dsimp only
    split
    · have k1 := SameRobot.safety big p.data.robot
      have hr1 := k1.ready g.good.ready
      obtain ⟨s', hs', _⟩ := C67_effort_never_aborts _ hr1
      rw [hs']
      have hu : Uncommanded d.robot.Uses d.robot.acts s'.acts := by
        refine h.now.trans ?_
        have := effort_uncommanded hr1 hs'
        have e : (p.data.robot.enforceSafety big).Uses = d.robot.Uses := by
          funext n
          exact propext ((k1.uses n).trans (g.same.uses n))
        rw [e] at this
        exact this
      refine ⟨hu, fun r hr => ?_⟩
      rcases List.mem_append.1 hr with hr | hr
      · exact h.sent r hr
      · rw [List.mem_singleton] at hr; subst hr; exact hu
    · split
      · exact adv _
      · exact ⟨(adv _).now, h.sent⟩
  | publish =>
    dsimp only
    rcases hps : publishStats i.statNow (i.turn && p.mgr.pubLock == none) p.data.statPub p.data.robot with _ | ⟨sp, robot, b⟩
    · exact ⟨h.now, h.sent⟩
    · dsimp only
      have ha : robot.acts = p.data.robot.acts := by
        unfold publishStats at hps
        rcases ht : pubTick p.data.statPub.period i.statNow (i.turn && p.mgr.pubLock == none) p.data.statPub.last with _ | t
        · rw [ht] at hps; cases hps
        · rw [ht] at hps
          simp only [Option.bind_eq_bind, Option.bind_some] at hps
          split at hps
          · rcases h1 : fillRows (JState.srow i.statNow) p.data.robot.joints 0 p.data.statPub.msg.1 with _ | z
            · rw [h1] at hps; cases hps
            · rcases h2 : fillActs p.data.robot.acts 0 p.data.statPub.msg.2 with _ | z'
              · rw [h1, h2] at hps; cases hps
              · rw [h1, h2] at hps; cases hps; rfl
          · cases hps; rfl
      rcases publishJoints i.jointNow i.jointFree p.data.jointPub robot with _ | ⟨jp, b'⟩
      · exact ⟨h.now, h.sent⟩
      · refine ⟨?_, h.sent⟩
        change Uncommanded _ _ robot.acts
        rw [ha]; exact h.now
  | _ => exact adv _

theorem Plant.Reach.mono {big : F} {m : Bool} {d : RtData F} {ok ok' : PlantIn F → Prop} (hk : ∀ i, ok i → ok' i) {p : Plant F}
    (h : Plant.Reach big m d ok p) : Plant.Reach big m d ok' p := by
  induction h with
  | init => exact .init
  | rt h i hi ih => exact ih.rt i (hk i hi)
  | nrt h hu ih => exact ih.nrt hu
  | call h hu op ih => exact ih.call hu op

theorem Plant.Reach.uinv {big : F} {m : Bool} {d : RtData F} (hd : d.Good) {p : Plant F} (h : Plant.Reach big m d PlantIn.JointsOnly p) : UInv d p := by
  induction h with
  | init => exact ⟨.refl _ _, fun r hr => by cases hr⟩
  | rt h i hi ih =>
    have g := (h.mono fun i hi => hi.tame).ginv hd
    unfold Plant.step
    rw [if_neg (by rw [g.alive]; simp)]
    exact ih.rtStep g hi
  | nrt h hu ih =>
    have g := (h.mono fun i hi => hi.tame).ginv hd
    unfold Plant.step
    rw [if_neg (by rw [g.alive]; simp)]
    exact ⟨ih.now, ih.sent⟩
  | call h hu op ih =>
    have g := (h.mono fun i hi => hi.tame).ginv hd
    unfold Plant.step
    rw [if_neg (by rw [g.alive]; simp)]
    exact ⟨ih.now, ih.sent⟩

/-- **C87, running.**  Whatever controllers are loaded, unloaded, switched and updated: the commands of a motor that no transmission names are what they were at the
beginning, now and in everything that was sent to the hardware. -/
theorem C87_uncommanded {big : F} {m : Bool} {d : RtData F} (hd : d.Good) {p : Plant F} (h : Plant.Reach big m d PlantIn.JointsOnly p)
    (s : RState F) (hs : s = p.data.robot ∨ ∃ r ∈ p.cycles, s = r.sent) (k : Nat) (a : Actuator F) (ha : d.robot.acts[k]? = some a)
    (hn : ∀ c ∈ d.robot.conns, a.name ∉ c.trans.actNames) :
    ∃ b, s.acts[k]? = some b ∧ b.name = a.name ∧ b.effort = a.effort ∧ b.enable = a.enable := by
  have hu : Uncommanded d.robot.Uses d.robot.acts s.acts := by
    rcases hs with rfl | ⟨r, hr, rfl⟩
    · exact (h.uinv hd).now
    · exact (h.uinv hd).sent r hr
  unfold Uncommanded at hu
  rw [List.forall₂_iff_get] at hu
  obtain ⟨hl, hk⟩ := List.getElem?_eq_some_iff.1 ha
  have hl' : k < s.acts.length := by rw [← hu.1]; exact hl
  have := hu.2 k hl hl'
  simp only [List.get_eq_getElem, hk] at this
  exact ⟨s.acts[k], List.getElem?_eq_getElem hl', this.1, this.2 fun ⟨c, hc, h⟩ => hn c hc h⟩

/-- **C87.**  From the construction of the motors on, through the loading of the robot description and every cycle: a motor which the description does not name is
never enabled and never commanded an effort, and a motor which no loaded transmission names is never commanded an effort. -/
theorem C87_always [Parse F] (l : TransLoader F) (urdf : Xml → Option (String → Option (UJoint F))) (root : Xml) (motors : List String) (hw : Bool)
    (acts' : List (Actuator F)) (ts : List (Trans F)) (hi : Robot.initXml hw urdf l root (motors.map Actuator.fresh) = (acts', .ok ts)) (old : Nat → F)
    (joint : String → Option (UJoint F)) {d : RtData F} (hs : RState.mk' ts joint acts' old = some d.robot) (hd : d.Good)
    {big : F} {m : Bool} {p : Plant F} (h : Plant.Reach big m d PlantIn.JointsOnly p) (s : RState F) (hp : s = p.data.robot ∨ ∃ r ∈ p.cycles, s = r.sent)
    (a : Actuator F) (ha : a ∈ s.acts) :
    (¬ Mentioned root a.name → a.enable = false ∧ a.effort = 0) ∧ ((∀ t ∈ ts, a.name ∉ t.actNames) → a.effort = 0) := by
  have he := C87_init l urdf root hw (motors.map (Actuator.fresh (F := F)))
  rw [hi] at he
  have hfresh : ∀ b ∈ acts', b.effort = 0 ∧ (b.enable = true → Mentioned root b.name) := by
    intro b hb
    obtain ⟨b0, h0, e⟩ := Ready.sweep.forall2_right he hb
    obtain ⟨n, _, rfl⟩ := List.mem_map.1 h0
    rcases e with rfl | ⟨rfl, e⟩
    · exact ⟨rfl, fun h => by cases h⟩
    · exact ⟨rfl, fun _ => e⟩
  obtain ⟨js, hwire, _, _, _, hacts⟩ := mk'_inv hs
  obtain ⟨w1, _, _, _⟩ := wire_spec hwire
  have husesT : ∀ n, d.robot.Uses n → ∃ t ∈ ts, n ∈ t.actNames := by
    rintro n ⟨c, hc, hn⟩
    exact ⟨c.trans, by rw [← w1]; exact List.mem_map.2 ⟨c, hc, rfl⟩, hn⟩
  have hment : ∀ n, d.robot.Uses n → Mentioned root n := by
    intro n hn
    obtain ⟨t, ht, hn⟩ := husesT n hn
    obtain ⟨b, hb, hbe⟩ := (C48_initially_enabled l urdf root _ _ hw ts hi).2 t ht n hn
    have hbn : b.name = n := by simpa using List.find?_some hb
    rw [← hbn]
    exact (hfresh b (List.mem_of_find?_eq_some hb)).2 hbe
  have hu : Uncommanded d.robot.Uses d.robot.acts s.acts := by
    rcases hp with rfl | ⟨r, hr, rfl⟩
    · exact (h.uinv hd).now
    · exact (h.uinv hd).sent r hr
  obtain ⟨b, hb, e1, e2⟩ := Ready.sweep.forall2_right hu ha
  rw [hacts] at hb
  have hf := hfresh b hb
  constructor
  · intro hn
    rw [e1] at hn
    obtain ⟨e3, e4⟩ := e2 fun hu => hn (hment _ hu)
    refine ⟨?_, by rw [e3]; exact hf.1⟩
    rw [e4]
    cases hbe : b.enable with
    | false => rfl
    | true => exact absurd (hf.2 hbe) hn
  · intro hn
    obtain ⟨e3, _⟩ := e2 fun hu => by
      obtain ⟨t, ht, hn'⟩ := husesT _ hu
      exact hn t ht (by rw [e1]; exact hn')
    rw [e3]; exact hf.1

/-- A wrist whose second actuator lacks its reduction: the element is rejected. -/
def brokenWrist : Xml := .node "robot" [] none
  [.node "transmission" [("type", "pr2_wrist"), ("name", "w")] none
    [.node "rightActuator" [("name", "r"), ("mechanicalReduction", "60")] none [], .node "leftActuator" [("name", "l")] none []]]

/-- **C87, counterexample to more.**  A rejected transmission leaves its motors enabled although nothing will ever control them. -/
theorem C87_rejected_counterexample [Parse F] (t : WristT F) (u : UJoint F) :
    ∃ (lo : TransLoader F) (acts' : List (Actuator F)),
      Robot.initXml true (fun _ => some (fun _ => some u)) lo brokenWrist (["r", "l"].map Actuator.fresh) = (acts', .ok []) ∧
      ∀ a ∈ acts', a.enable = true := by
  refine ⟨⟨fun _ => true, [], id, fun _ _ => some (.wrist t)⟩, [{ Actuator.fresh "r" with enable := true }, { Actuator.fresh "l" with enable := true }], rfl, ?_⟩
  intro a ha
  simp only [List.mem_cons, List.not_mem_nil, or_false] at ha
  rcases ha with rfl | rfl <;> rfl

end

/-! ## A concrete case: the elbow robot, with a second motor "spare" that nothing mentions -/

section
variable {F : Type} [FCmp F] [Zero F] [Add F] [Sub F] [Mul F] [iDiv : Div F] [Neg F] [FLit F] [iTrig : FTrig F]

/-- `C87_init`, `C87_uncommanded`, `C87_always`. -/
example [Parse F] (t : SimpleT F) (ht : t.useSim = false) (u : UJoint F) (hu : u.type = .revolute) (old : Nat → F) (k : F) :
    ∃ (d : RtData F) (acts' : List (Actuator F)) (ts : List (Trans F)) (joint : String → Option (UJoint F)) (i : PlantIn F),
      Robot.initXml true (demoUrdf u) (demoLoader t) demoRoot (["m", "spare"].map Actuator.fresh) = (acts', .ok ts) ∧
      RState.mk' ts joint acts' old = some d.robot ∧ d.Good ∧ i.JointsOnly ∧ ¬ Mentioned demoRoot "spare" ∧ Mentioned demoRoot "m" ∧
      (∀ c ∈ d.robot.conns, "spare" ∉ c.trans.actNames) := by
  have hi : Robot.initXml true (demoUrdf u) (demoLoader t) demoRoot (["m", "spare"].map Actuator.fresh) =
      ([{ Actuator.fresh "m" with enable := true }, Actuator.fresh "spare"], .ok [⟨"t", ["m"], ["elbow"], .simple { t with reduction := Parse.atof "2" }⟩]) := rfl
  have hm : RState.mk' [⟨"t", ["m"], ["elbow"], .simple { t with reduction := Parse.atof "2" }⟩] (fun n => if n = "elbow" then some u else none)
      [{ Actuator.fresh "m" with enable := true }, Actuator.fresh "spare"] old =
      some ⟨[⟨⟨"t", ["m"], ["elbow"], .simple { t with reduction := Parse.atof "2" }⟩, [0], [0]⟩], [JState.fresh u (old 0)], [("elbow", 0)],
        [{ Actuator.fresh "m" with enable := true }, Actuator.fresh "spare"]⟩ := rfl
  refine ⟨⟨_, _, _, _⟩, _, _, _, ⟨id, springController k, 0, 0, 0, true, 0, true⟩, hi, hm,
    C69_init (demoLoader t) (demoUrdf u) demoRoot _ _ _ hi old ?_ _ _ rfl hm 1 ?_ 1 100 (by norm_num) (by norm_num) 0
      ([(JState.fresh u 0).srow 0], [(Actuator.fresh "m").arow, (Actuator.fresh "spare").arow]) [(JState.fresh u 0).jrow] rfl rfl rfl, ?_, ?_, ?_, ?_⟩
  · intro k x _ ty b hk _ _ _ hb
    unfold demoLoader at hb
    dsimp only at hb
    split at hb
    · cases hb
      refine ⟨ht, ?_⟩
      change (x.all "simulated_actuated_joint").length ≤ 1
      have hall : ∀ y ∈ demoRoot.all "transmission", (y.all "simulated_actuated_joint").length ≤ 1 := by decide +kernel
      exact hall x (List.mem_of_getElem? hk)
    · cases hb
  · change messageSize [JState.fresh u (old 0)] = some 1
    simp [messageSize, JState.fresh, JType.published, hu]
  · exact ⟨⟨fun as => List.forall₂_same.2 fun _ _ => rfl, (springController_tame k).1⟩, fun as => .refl as, fun s => .refl s.acts⟩
  · rintro ⟨x, hx, _, c, hc, _, hn⟩
    have hall : ∀ y ∈ demoRoot.kids, ∀ c ∈ y.kids, c.attr "name" ≠ some "spare" := by decide +kernel
    exact hall x hx c hc hn
  · exact ⟨_, List.mem_cons_self, rfl, .node "actuator" [("name", "m")] none [], List.mem_cons_of_mem _ List.mem_cons_self, Or.inl rfl, rfl⟩
  · intro c hc
    rw [List.mem_singleton] at hc
    subst hc
    dsimp only
    decide +kernel

end

end Pr2
