import Verif.Props.Twin
import Verif.Props.SimCalib

/-!
# C123: the order of the transmissions in the description does not matter

The joint states, their statistics and the transmissions are numbered in the order of the description's `<transmission>` elements.  Two robots that differ in this
order only, driven by the same services, readings and controllers (which find joints by name), send the motors the same efforts in every cycle.
-/

namespace Pr2
set_option linter.unusedVariables false
set_option linter.unusedSectionVars false

section
variable {F : Type}

/-! ## Specification -/

/-- Specification: a robot state without its numbering: each transmission with the numbers of its motors (which the hardware gives) and its joints' states. -/
def RState.parts (s : RState F) : List (Trans F × List Nat × List (JState F)) := s.conns.map fun c => (c.trans, c.ins, gather s.joints c.outs)

/-- Specification: joint states are numbered by transmission, and looking up a joint's name finds its joint state and no other. -/
structure RState.Keyed (s : RState F) : Prop where
  laid : s.conns.flatMap (·.outs) = List.range s.joints.length
  key : ∀ c ∈ s.conns, List.Forall₂ (fun n k => ∀ n', s.getJointState n' = some k ↔ n' = n) c.trans.jointNames c.outs
  found : ∀ n k, s.getJointState n = some k → k < s.joints.length

/-- Specification: the same robot, its transmissions maybe in another order. -/
structure Reordered (s s' : RState F) : Prop where
  acts : s'.acts = s.acts
  parts : s.parts.Perm s'.parts
  keyed : s.Keyed
  keyed' : s'.Keyed

/-- Specification: what a controller gets for a joint's name. -/
def RState.lookup (s : RState F) (n : String) : Option (JState F) := (s.getJointState n).bind (s.joints[·]?)

/-- Specification: a controller's write to the joint of this name. -/
def RState.onJoint (n : String) (f : JState F → JState F) (s : RState F) : RState F :=
  match s.getJointState n with
  | some k => { s with joints := s.joints.modify k f }
  | none => s

/-- Specification: inputs of a step of two robots that differ in the order: the same, and the plugin does the same to both. -/
structure SameInputs (i i' : PlantIn F) : Prop where
  hw : i'.hw = i.hw
  plug : ∀ s s', Reordered s s' → Reordered (i.plug s) (i'.plug s')
  start : i.start = i'.start
  fin : i.fin = i'.fin
  statNow : i.statNow = i'.statNow
  turn : i.turn = i'.turn
  jointNow : i.jointNow = i'.jointNow
  jointFree : i.jointFree = i'.jointFree

/-! ## Names and numbers -/

theorem RState.Keyed.outs {s : RState F} (h : s.Keyed) {c : Conn F} (hc : c ∈ s.conns) : ∀ i ∈ c.outs, i < s.joints.length := by
  intro i hi
  have : i ∈ s.conns.flatMap (·.outs) := List.mem_flatMap.2 ⟨c, hc, hi⟩
  rw [h.laid] at this
  exact List.mem_range.1 this

theorem RState.Keyed.same {s s' : RState F} (h : s.Keyed) (k : SameRobot s s') : s'.Keyed := by
  have hl := List.Forall₂.length_eq k.joints
  refine ⟨?_, ?_, ?_⟩
  · rw [← hl, ← h.laid]
    have := k.conns
    generalize s.conns = l at this
    generalize s'.conns = l' at this
    induction this with
    | nil => rfl
    | cons e _ ih => obtain ⟨b, rfl, _⟩ := e; simp [ih]
  · intro c' hc'
    obtain ⟨c, hc, b, rfl, _⟩ := Ready.sweep.forall2_right k.conns hc'
    unfold RState.getJointState
    rw [k.jmap]
    exact h.key c hc
  · intro n i hi
    unfold RState.getJointState at hi
    rw [k.jmap] at hi
    rw [← hl]
    exact h.found n i hi

theorem lookup_parts {s : RState F} (h : s.Keyed) (n : String) (j : JState F) :
    s.lookup n = some j ↔ ∃ e ∈ s.parts, (n, j) ∈ e.1.jointNames.zip e.2.2 := by
  unfold RState.lookup RState.parts
  constructor
  · intro hl
    obtain ⟨k, hk, hj⟩ := Option.bind_eq_some_iff.1 hl
    have : k ∈ s.conns.flatMap (·.outs) := by rw [h.laid]; exact List.mem_range.2 (h.found n k hk)
    obtain ⟨c, hc, hko⟩ := List.mem_flatMap.1 this
    obtain ⟨p, hp⟩ := List.mem_iff_getElem?.1 hko
    refine ⟨_, List.mem_map_of_mem hc, ?_⟩
    dsimp only
    rw [List.mem_iff_getElem?]
    refine ⟨p, ?_⟩
    rw [List.getElem?_zip_eq_some]
    refine ⟨?_, ?_⟩
    · obtain ⟨n0, hn0, hx⟩ := forall2_get_right (h.key c hc) hp
      rw [hn0, (hx n).1 hk]
    · dsimp only
      rw [gather_getElem? _ _ (h.outs hc), hp]
      exact hj
  · rintro ⟨e, he, hm⟩
    obtain ⟨c, hc, rfl⟩ := List.mem_map.1 he
    obtain ⟨p, hp⟩ := List.mem_iff_getElem?.1 hm
    rw [List.getElem?_zip_eq_some] at hp
    obtain ⟨h1, h2⟩ := hp
    dsimp only at h1 h2
    rw [gather_getElem? _ _ (h.outs hc)] at h2
    obtain ⟨k, hk, hj⟩ := Option.bind_eq_some_iff.1 h2
    obtain ⟨n0, hn0, hx⟩ := forall2_get_right (h.key c hc) hk
    rw [h1] at hn0
    rw [(hx n).2 (by simpa using hn0)]
    exact hj
where
  forall2_get_right {α β : Type} {R : α → β → Prop} {l : List α} {l' : List β} (h : List.Forall₂ R l l') {p : Nat} {b : β} (hb : l'[p]? = some b) :
      ∃ a, l[p]? = some a ∧ R a b := by
    induction h generalizing p with
    | nil => simp at hb
    | cons e _ ih =>
      cases p with
      | zero => simp at hb; subst hb; exact ⟨_, rfl, e⟩
      | succ p => simpa using ih (by simpa using hb)

/-- A controller gets the same joint for a name, whatever the order. -/
theorem Reordered.lookup {s s' : RState F} (h : Reordered s s') (n : String) : s'.lookup n = s.lookup n := by
  apply Option.ext
  intro j
  rw [lookup_parts h.keyed, lookup_parts h.keyed']
  exact ⟨fun ⟨e, he, hm⟩ => ⟨e, h.parts.mem_iff.2 he, hm⟩, fun ⟨e, he, hm⟩ => ⟨e, h.parts.mem_iff.1 he, hm⟩⟩

theorem onJoint_same (n : String) (f : JState F → JState F) (hf : ∀ j, (f j).joint = j.joint) (s : RState F) : SameRobot s (s.onJoint n f) := by
  unfold RState.onJoint
  split
  · rename_i k hk
    refine ⟨(SameRobot.refl s).conns, rfl, ?_, (SameRobot.refl s).acts⟩
    rw [List.forall₂_iff_get]
    refine ⟨by simp, fun p h1 h2 => ?_⟩
    simp only [List.get_eq_getElem, List.getElem_modify]
    split
    · exact hf _
    · rfl
  · exact SameRobot.refl s

theorem onJoint_acts (n : String) (f : JState F → JState F) (s : RState F) : (s.onJoint n f).acts = s.acts := by
  unfold RState.onJoint; split <;> rfl

theorem onJoint_parts (n : String) (f : JState F → JState F) {s : RState F} (h : s.Keyed) :
    (s.onJoint n f).parts = s.parts.map fun e => (e.1, e.2.1, List.zipWith (fun n' j => if n' = n then f j else j) e.1.jointNames e.2.2) := by
  have hc : (s.onJoint n f).conns = s.conns := by unfold RState.onJoint; split <;> rfl
  unfold RState.parts
  rw [hc, List.map_map]
  refine List.map_congr_left fun c hc => ?_
  simp only [Function.comp, Prod.mk.injEq, true_and]
  have hl : (s.onJoint n f).joints.length = s.joints.length := by unfold RState.onJoint; split <;> simp
  apply List.ext_getElem?
  intro p
  rw [gather_getElem? _ _ (fun i hi => by rw [hl]; exact h.outs hc i hi), List.getElem?_zipWith, gather_getElem? _ _ (h.outs hc)]
  rcases hp : c.outs[p]? with _ | i
  · have : c.trans.jointNames[p]? = none := by
      rw [List.getElem?_eq_none_iff] at hp ⊢
      rw [List.Forall₂.length_eq (h.key c hc)]; exact hp
    rw [this]; rfl
  · obtain ⟨n0, hn0, hx⟩ := lookup_parts.forall2_get_right (h.key c hc) hp
    rw [hn0]
    have hi : i < s.joints.length := h.outs hc i (List.mem_of_getElem? hp)
    simp only [Option.bind_some]
    rw [List.getElem?_eq_getElem hi]
    dsimp only
    unfold RState.onJoint
    split
    · rename_i k hk
      dsimp only
      rw [List.getElem?_modify, List.getElem?_eq_getElem hi]
      have : k = i ↔ n0 = n := by
        constructor
        · rintro rfl; exact ((hx n).1 hk).symm
        · rintro rfl
          have := (hx n0).2 rfl
          rw [hk] at this; exact Option.some.inj this
      simp only [this]
      rfl
    · rename_i hk
      have : ¬n0 = n := by
        rintro rfl
        rw [(hx n0).2 rfl] at hk; cases hk
      rw [if_neg this, List.getElem?_eq_getElem hi]

/-- A write to the joint of a name does the same to both. -/
theorem Reordered.onJoint {s s' : RState F} (h : Reordered s s') (n : String) (f : JState F → JState F) (hf : ∀ j, (f j).joint = j.joint) :
    Reordered (s.onJoint n f) (s'.onJoint n f) := by
  refine ⟨by rw [onJoint_acts, onJoint_acts, h.acts], ?_, h.keyed.same (onJoint_same n f hf s), h.keyed'.same (onJoint_same n f hf s')⟩
  rw [onJoint_parts n f h.keyed, onJoint_parts n f h.keyed']
  exact h.parts.map _

/-! ## Sweeps -/

theorem gather_map {α β : Type} (f : α → β) (l : List α) (is : List Nat) : gather (l.map f) is = (gather l is).map f := by
  unfold gather
  rw [List.map_filterMap]
  exact List.filterMap_congr fun i _ => by rw [List.getElem?_map]

theorem parts_map (s : RState F) (f : JState F → JState F) :
    RState.parts { s with joints := s.joints.map f } = s.parts.map fun e => (e.1, e.2.1, e.2.2.map f) := by
  unfold RState.parts
  rw [List.map_map]
  exact List.map_congr_left fun c _ => by simp [gather_map]

theorem Reordered.mapJoints {s s' : RState F} (h : Reordered s s') (f : JState F → JState F) (hf : ∀ j, (f j).joint = j.joint) :
    Reordered { s with joints := s.joints.map f } { s' with joints := s'.joints.map f } := by
  refine ⟨h.acts, ?_, h.keyed.same (SameRobot.of_joints s f hf), h.keyed'.same (SameRobot.of_joints s' f hf)⟩
  rw [parts_map, parts_map]
  exact h.parts.map _

/-- What a sweep does to one transmission. -/
def partStep (f : Prop' F) (as : List (Actuator F)) (e : Trans F × List Nat × List (JState F)) : Trans F × List Nat × List (JState F) :=
  match f e.1.body (gather as e.2.1) e.2.2 with
  | some r => ({ e.1 with body := r.1 }, e.2.1, r.2.2)
  | none => e

theorem sweep_parts (f : Prop' F) (hk : KeepsLen f) {s t : RState F} (hr : s.Ready) (hu : Unshared s.conns) (hs : s.sweep f = some t) :
    t.parts = s.parts.map (partStep f s.acts) ∧ t.acts.length = s.acts.length ∧
      (∀ i, (∀ e ∈ s.parts, i ∉ e.2.1) → t.acts[i]? = s.acts[i]?) ∧
      ∀ e ∈ s.parts, ∃ r, f e.1.body (gather s.acts e.2.1) e.2.2 = some r ∧ gather t.acts e.2.1 = r.2.1 := by
  unfold RState.sweep at hs
  rcases h : Pr2.sweep f s.conns s.acts s.joints with _ | ⟨cs, as, js⟩
  · rw [h] at hs; cases hs
  rw [h] at hs; cases hs
  obtain ⟨h1, _, h3, _, h5⟩ := sweep_local f hk s.conns s.acts s.joints hr.wired (Or.inr hu) h
  refine ⟨?_, h1, fun i hi => h3 i fun c hc => hi _ (List.mem_map_of_mem hc), ?_⟩
  · unfold RState.parts
    dsimp only
    clear h
    generalize s.conns = l0 at h5
    induction h5 with
    | nil => rfl
    | @cons c c' l l' e _ ih =>
      obtain ⟨r, e1, rfl, e3, e4⟩ := e
      rw [List.map_cons, List.map_cons, List.map_cons, ih]
      congr 1
      unfold partStep
      dsimp only
      rw [e1]
      dsimp only
      rw [e4]
  · intro e he
    obtain ⟨c, hc, rfl⟩ := List.mem_map.1 he
    dsimp only
    have : ∀ (l l' : List (Conn F)), List.Forall₂ (fun c c' => ∃ r, f c.trans.body (gather s.acts c.ins) (gather s.joints c.outs) = some r ∧
        c' = { c with trans := { c.trans with body := r.1 } } ∧ gather as c.ins = r.2.1 ∧ gather js c.outs = r.2.2) l l' → c ∈ l →
        ∃ r, f c.trans.body (gather s.acts c.ins) (gather s.joints c.outs) = some r ∧ gather as c.ins = r.2.1 := by
      intro l l' hl
      induction hl with
      | nil => intro hc; cases hc
      | cons e _ ih =>
        intro hc
        rcases List.mem_cons.1 hc with rfl | hc
        · obtain ⟨r, e1, _, e3, _⟩ := e; exact ⟨r, e1, e3⟩
        · exact ih hc
    exact this _ _ h5 hc

theorem Reordered.sweep (f : Prop' F) (hk : KeepsLen f) {s s' t t' : RState F} (h : Reordered s s') (hr : s.Ready) (hr' : s'.Ready) (hu : Unshared s.conns)
    (hu' : Unshared s'.conns) (hs : s.sweep f = some t) (hs' : s'.sweep f = some t') (k : SameRobot s t) (k' : SameRobot s' t') : Reordered t t' := by
  obtain ⟨a1, a2, a3, a4⟩ := sweep_parts f hk hr hu hs
  obtain ⟨b1, b2, b3, b4⟩ := sweep_parts f hk hr' hu' hs'
  refine ⟨?_, ?_, h.keyed.same k, h.keyed'.same k'⟩
  · have hl : t'.acts.length = t.acts.length := by rw [b2, a2, h.acts]
    apply List.ext_getElem?
    intro i
    by_cases hi : ∃ e ∈ s.parts, i ∈ e.2.1
    · obtain ⟨e, he, hi⟩ := hi
      obtain ⟨r, e1, e2⟩ := a4 e he
      obtain ⟨r', e1', e2'⟩ := b4 e (h.parts.mem_iff.1 he)
      rw [h.acts, e1] at e1'
      cases e1'
      obtain ⟨c, hc, rfl⟩ := List.mem_map.1 he
      have rin : ∀ j ∈ c.ins, j < t.acts.length := fun j hj => by rw [a2]; exact hr.wired.ins c hc j hj
      obtain ⟨p, hp⟩ := List.mem_iff_getElem?.1 hi
      have g1 := gather_getElem? t.acts c.ins rin p
      have g2 := gather_getElem? t'.acts c.ins (fun j hj => by rw [hl]; exact rin j hj) p
      dsimp only at hp e2 e2'
      rw [hp, e2] at g1
      rw [hp, e2'] at g2
      exact g2.symm.trans g1
    · have hi' : ∀ e ∈ s.parts, i ∉ e.2.1 := fun e he hm => hi ⟨e, he, hm⟩
      rw [a3 i hi', b3 i (fun e he => hi' e (h.parts.mem_iff.2 he)), h.acts]
  · rw [a1, b1, h.acts]
    exact h.parts.map _

theorem Reordered.halted {s s' : RState F} (h : Reordered s s') : s.isHalted = s'.isHalted := by
  have e : ∀ s : RState F, s.isHalted = s.parts.any fun e => (gather s.acts e.2.1).any (·.halted) := by
    intro s
    unfold RState.isHalted RState.parts
    rw [List.any_map]
    rfl
  rw [e, e, h.acts]
  exact h.parts.any_eq

theorem Reordered.joints {s s' : RState F} (h : Reordered s s') : s.joints.Perm s'.joints := by
  have e : ∀ s : RState F, s.Keyed → s.joints = s.parts.flatMap (·.2.2) := by
    intro s hs
    have : s.parts.flatMap (·.2.2) = gather s.joints (s.conns.flatMap (·.outs)) := by
      unfold RState.parts
      rw [List.flatMap_map]
      unfold gather
      rw [List.filterMap_flatMap]
    rw [this, hs.laid]
    unfold gather
    apply List.ext_getElem?
    intro i
    have := gather_getElem? s.joints (List.range s.joints.length) (fun j hj => List.mem_range.1 hj) i
    unfold gather at this
    rw [this]
    by_cases hi : i < s.joints.length
    · rw [List.getElem?_range hi]; rfl
    · rw [List.getElem?_eq_none (by simpa using hi), List.getElem?_eq_none (by simpa using hi)]; rfl
  rw [e s h.keyed, e s' h.keyed']
  exact h.parts.flatMap_right _

end

section
variable {F : Type} [FCmp F] [Zero F] [Add F] [Sub F] [Mul F] [iDiv : Div F] [Neg F] [FLit F] [iTrig : FTrig F]

theorem keeps_position : KeepsLen (F := F) Body.propagatePosition := fun b as js r hr =>
  ⟨by rw [(position_frame hr).1], (List.Forall₂.length_eq (position_frame hr).2.1).symm⟩

theorem keeps_effort : KeepsLen (F := F) Body.propagateEffort := fun b as js r hr =>
  ⟨(List.Forall₂.length_eq (effort_frame hr).2.1).symm, by rw [(effort_frame hr).1]⟩

/-- working relation -/
def Order (d d' : RtData F) (s s' : RState F) : Prop := Reordered s s' ∧ SameRobot d.robot s ∧ SameRobot d'.robot s'

variable {big : F} {m : Bool} {d d' : RtData F}

theorem order_relates (hu : Unshared d.robot.conns) (hu' : Unshared d'.robot.conns) : Relates big (Order d d') where
  pos := by
    rintro s s' t t' ⟨h, k, k'⟩ hr hr' hs hs'
    refine ⟨?_, k.trans (SameRobot.position hr hs), k'.trans (SameRobot.position hr' hs')⟩
    unfold RState.propagatePosition at hs hs'
    rcases e1 : RState.sweep s Body.propagatePosition with _ | u
    · rw [e1] at hs; cases hs
    rcases e2 : RState.sweep s' Body.propagatePosition with _ | u'
    · rw [e2] at hs'; cases hs'
    rw [e1] at hs
    rw [e2] at hs'
    cases hs; cases hs'
    have q : ∀ (s u : RState F), s.Ready → s.sweep Body.propagatePosition = some u → SameRobot s u := fun s u hr hs =>
      SameRobot.of_sweep hr Body.propagatePosition (fun b as js r hr => (position_frame hr).2.2.2)
        (fun b as js r hr => by rw [(position_frame hr).1]; exact List.forall₂_same.2 (fun _ _ => rfl))
        (fun b as js r hr => (position_frame hr).2.1.imp fun _ _ h => h.1) hs
    exact (h.sweep _ keeps_position hr hr' (k.unshared hu) (k'.unshared hu') e1 e2 (q _ _ hr e1) (q _ _ hr' e2)).mapJoints _ (fun _ => rfl)
  zero := fun s s' ⟨h, k, k'⟩ => ⟨h.mapJoints _ (fun _ => rfl), k.trans (SameRobot.zero s), k'.trans (SameRobot.zero s')⟩
  safety := fun s s' ⟨h, k, k'⟩ => ⟨h.mapJoints _ (fun _ => rfl), k.trans (SameRobot.safety big s), k'.trans (SameRobot.safety big s')⟩
  effort := by
    rintro s s' t t' ⟨h, k, k'⟩ hr hr' hs hs'
    exact ⟨h.sweep _ keeps_effort hr hr' (k.unshared hu) (k'.unshared hu') hs hs' (SameRobot.effort hr hs) (SameRobot.effort hr' hs'),
      k.trans (SameRobot.effort hr hs), k'.trans (SameRobot.effort hr' hs')⟩
  reset := fun s s' ⟨h, k, k'⟩ => ⟨h.mapJoints _ (fun j => by split <;> rfl), k.trans (SameRobot.reset s), k'.trans (SameRobot.reset s')⟩

/-- Tame inputs that are the same but for the order. -/
def OrderIn (i i' : PlantIn F) : Prop := i.Tame ∧ i'.Tame ∧ SameInputs i i'

theorem OrderIn.twin {i i' : PlantIn F} (h : OrderIn i i') : TwinIn (Order d d') i i' where
  tame := h.1
  tame' := h.2.1
  hw := by
    rintro s s' ⟨r, k, k'⟩
    have q : Reordered { s with acts := i.hw s.acts } { s' with acts := i'.hw s'.acts } :=
      ⟨by rw [h.2.2.hw, r.acts], r.parts, r.keyed.same (SameRobot.of_acts s _ (h.1.hw s.acts)), r.keyed'.same (SameRobot.of_acts s' _ (h.2.1.hw s'.acts))⟩
    exact ⟨⟨q, k.trans (SameRobot.of_acts s _ (h.1.hw s.acts)), k'.trans (SameRobot.of_acts s' _ (h.2.1.hw s'.acts))⟩, q.halted⟩
  plug := fun s s' ⟨r, k, k'⟩ => ⟨h.2.2.plug s s' r, k.trans (h.1.plug s), k'.trans (h.2.1.plug s')⟩
  start := h.2.2.start
  fin := h.2.2.fin
  statNow := h.2.2.statNow
  turn := h.2.2.turn
  jointNow := h.2.2.jointNow
  jointFree := h.2.2.jointFree

/-- Specification: the data of two managers, but for the robot and the messages' contents. -/
structure SameRest (d d' : RtData F) : Prop where
  stats : d'.stats = d.stats
  statPub : d'.statPub.last = d.statPub.last ∧ d'.statPub.period = d.statPub.period
  jointPub : d'.jointPub.last = d.jointPub.last ∧ d'.jointPub.period = d.jointPub.period

theorem ordered (hd : d.Good) (hd' : d'.Good) (hu : Unshared d.robot.conns) (hu' : Unshared d'.robot.conns) (h0 : Reordered d.robot d'.robot)
    (hr : SameRest d d') {p p' : Plant F} (h : TwinRun big m d d' OrderIn p p') : TwinInv (Order d d') p p' :=
  (h.both (order_relates hu hu') (fun _ _ h => h.twin) hd hd'
    ⟨rfl, ⟨h0, SameRobot.refl _, SameRobot.refl _⟩, hr.stats, hr.statPub, hr.jointPub, rfl, rfl, rfl, .nil⟩).2.2

/-- **C123.** Two robots that differ in the order of their transmissions, with the same services, readings and controllers: the manager does the same and answers the
same, and in every cycle the same plugin calls are made and the actuators are sent the same commands. -/
theorem C123_order (hd : d.Good) (hd' : d'.Good) (hu : Unshared d.robot.conns) (hu' : Unshared d'.robot.conns) (h0 : Reordered d.robot d'.robot)
    (hr : SameRest d d') {p p' : Plant F} (h : TwinRun big m d d' OrderIn p p') :
    p'.mgr.log = p.mgr.log ∧ p'.mgr.nlog = p.mgr.nlog ∧
      List.Forall₂ (fun r r' => r.begun = r'.begun ∧ r.calls.map (·.ev) = r'.calls.map (·.ev) ∧ r.timed = r'.timed ∧ r.sent.acts = r'.sent.acts) p.cycles p'.cycles := by
  have k := ordered hd hd' hu hu' h0 hr h
  exact ⟨by rw [k.mgr], by rw [k.mgr], k.cycles.imp fun r r' q => ⟨q.begun, q.calls, q.timed, q.sent.1.acts.symm⟩⟩

/-- **C123.** At any time every joint name stands for the same joint state, and the joint states are the same up to their order. -/
theorem C123_joints (hd : d.Good) (hd' : d'.Good) (hu : Unshared d.robot.conns) (hu' : Unshared d'.robot.conns) (h0 : Reordered d.robot d'.robot)
    (hr : SameRest d d') {p p' : Plant F} (h : TwinRun big m d d' OrderIn p p') :
    (∀ n, p'.data.robot.lookup n = p.data.robot.lookup n) ∧ p.data.robot.joints.Perm p'.data.robot.joints :=
  ⟨fun n => (ordered hd hd' hu hu' h0 hr h).robot.1.lookup n, (ordered hd hd' hu hu' h0 hr h).robot.1.joints⟩

/-- **C123.** A controller that finds its joints by name, reads some and writes others, does the same to both robots. -/
theorem C123_controller (reads : List String) (n : String) (law : List (Option (JState F)) → JState F → JState F) (hl : ∀ x j, (law x j).joint = j.joint)
    {s s' : RState F} (h : Reordered s s') :
    Reordered (s.onJoint n (law (reads.map s.lookup))) (s'.onJoint n (law (reads.map s'.lookup))) := by
  have e : s'.lookup = s.lookup := funext fun n => h.lookup n
  rw [e]
  exact h.onJoint n _ (hl _)

end

/-! ## The constructor -/

section
variable {F : Type} [Zero F]

/-- the states of a transmission's joints when they are made -/
def madeJoints (joint : String → Option (UJoint F)) (g : String → F) (ns : List String) : List (JState F) :=
  ns.filterMap fun n => (joint n).map fun u => JState.fresh u (g n)

theorem made_joints {joint : String → Option (UJoint F)} {g : String → F} {ns : List String} {js : List (UJoint F)}
    (h : List.Forall₂ (fun n u => joint n = some u) ns js) {old : Nat → F} (ho : ∀ i n, ns[i]? = some n → old i = g n) :
    js.mapIdx (fun i j => JState.fresh j (old i)) = madeJoints joint g ns := by
  induction h generalizing old with
  | nil => rfl
  | @cons n u ns js e _ ih =>
    rw [List.mapIdx_cons]
    have h1 := ih (old := fun i => old (i + 1)) (fun i n hi => ho (i + 1) n (by simpa using hi))
    have h2 := ho 0 n rfl
    unfold madeJoints at h1 ⊢
    rw [List.filterMap_cons, e, ← h1, ← h2]
    rfl

theorem madeJoints_length {joint : String → Option (UJoint F)} {g : String → F} {ns : List String} (h : ∀ n ∈ ns, (joint n).isSome = true) :
    (madeJoints joint g ns).length = ns.length := by
  induction ns with
  | nil => rfl
  | cons n ns ih =>
    obtain ⟨u, hu⟩ := Option.isSome_iff_exists.1 (h n (by simp))
    have := ih (fun n hn => h n (by simp [hn]))
    unfold madeJoints at this ⊢
    rw [List.filterMap_cons, hu]
    simpa using this

theorem gather_mid {α : Type} (pre a b : List α) : gather (pre ++ a ++ b) (List.range' pre.length a.length) = a := by
  induction a generalizing pre with
  | nil => rfl
  | cons x a ih =>
    rw [List.length_cons, List.range'_succ]
    have := ih (pre ++ [x])
    unfold gather at this ⊢
    rw [List.filterMap_cons]
    have e : (pre ++ x :: a ++ b)[pre.length]? = some x := by simp
    rw [e]
    dsimp only
    congr 1
    simpa using this

/-- a transmission with its joints, when they are made -/
def madePart (joint : String → Option (UJoint F)) (g : String → F) (acts : List (Actuator F)) (t : Trans F) : Trans F × List Nat × List (JState F) :=
  (t, (wireIns acts t).getD [], madeJoints joint g t.jointNames)

theorem wire_parts {joint : String → Option (UJoint F)} {g : String → F} {acts : List (Actuator F)} (ts : List (Trans F)) (pre : List (JState F)) {cs : List (Conn F)}
    (h : wire acts pre.length ts = some cs) (hn : ∀ t ∈ ts, ∀ n ∈ t.jointNames, (joint n).isSome = true) :
    cs.map (fun c => (c.trans, c.ins, gather (pre ++ madeJoints joint g (allJointNames ts)) c.outs)) = ts.map (madePart joint g acts) := by
  induction ts generalizing pre cs with
  | nil => cases h; rfl
  | cons t ts ih =>
    unfold wire at h
    rcases hi : wireIns acts t with _ | ins
    · rw [hi] at h; cases h
    have hl : (madeJoints joint g t.jointNames).length = t.jointNames.length := madeJoints_length (hn t (by simp))
    rcases hw : wire acts (pre.length + t.jointNames.length) ts with _ | rest
    · simp only [hi, hw, Option.bind_eq_bind, Option.bind_some, Option.bind_none] at h; cases h
    simp only [hi, hw, Option.bind_eq_bind, Option.bind_some, Option.some.injEq] at h
    subst h
    have ea : madeJoints joint g (allJointNames (t :: ts)) = madeJoints joint g t.jointNames ++ madeJoints joint g (allJointNames ts) := by
      unfold madeJoints allJointNames
      rw [List.flatMap_cons, List.filterMap_append]
    rw [ea, ← List.append_assoc, List.map_cons, List.map_cons]
    have hw' : wire acts (pre ++ madeJoints joint g t.jointNames).length ts = some rest := by rw [List.length_append, hl]; exact hw
    rw [ih _ hw' (fun t ht => hn t (by simp [ht]))]
    congr 1
    unfold madePart
    rw [hi]
    dsimp only
    rw [← hl, gather_mid]
    rfl

theorem wire_laid {acts : List (Actuator F)} (ts : List (Trans F)) (id : Nat) {cs : List (Conn F)} (h : wire acts id ts = some cs) :
    cs.flatMap (·.outs) = List.range' id (allJointNames ts).length := by
  induction ts generalizing id cs with
  | nil => cases h; rfl
  | cons t ts ih =>
    unfold wire at h
    rcases hi : wireIns acts t with _ | ins
    · rw [hi] at h; cases h
    rcases hw : wire acts (id + t.jointNames.length) ts with _ | rest
    · simp only [hi, hw, Option.bind_eq_bind, Option.bind_some, Option.bind_none] at h; cases h
    simp only [hi, hw, Option.bind_eq_bind, Option.bind_some, Option.some.injEq] at h
    subst h
    rw [List.flatMap_cons, ih _ hw]
    unfold allJointNames
    rw [List.flatMap_cons, List.length_append, List.range'_append_1]

theorem wire_key {acts : List (Actuator F)} (ts : List (Trans F)) (pre : List String) {cs : List (Conn F)} (h : wire acts pre.length ts = some cs) :
    ∀ c ∈ cs, List.Forall₂ (fun n k => (pre ++ allJointNames ts)[k]? = some n) c.trans.jointNames c.outs := by
  induction ts generalizing pre cs with
  | nil => cases h; intro c hc; cases hc
  | cons t ts ih =>
    unfold wire at h
    rcases hi : wireIns acts t with _ | ins
    · rw [hi] at h; cases h
    rcases hw : wire acts (pre.length + t.jointNames.length) ts with _ | rest
    · simp only [hi, hw, Option.bind_eq_bind, Option.bind_some, Option.bind_none] at h; cases h
    simp only [hi, hw, Option.bind_eq_bind, Option.bind_some, Option.some.injEq] at h
    subst h
    have ea : pre ++ allJointNames (t :: ts) = (pre ++ t.jointNames) ++ allJointNames ts := by
      unfold allJointNames
      rw [List.flatMap_cons, List.append_assoc]
    rw [ea]
    intro c hc
    rcases List.mem_cons.1 hc with rfl | hc
    · dsimp only
      rw [List.forall₂_iff_get]
      refine ⟨by simp, fun p h1 h2 => ?_⟩
      simp only [List.get_eq_getElem, List.getElem_range', one_mul]
      rw [List.append_assoc, List.getElem?_append_right (by omega), List.getElem?_append_left (by omega)]
      rw [show pre.length + p - pre.length = p by omega, List.getElem?_eq_getElem h1]
    · exact ih (pre ++ t.jointNames) (by rw [List.length_append]; exact hw) c hc

theorem made_keyed {ts : List (Trans F)} {joint : String → Option (UJoint F)} {acts : List (Actuator F)} {old : Nat → F} {s : RState F}
    (h : RState.mk' ts joint acts old = some s) (hn : (allJointNames ts).Nodup) : s.Keyed := by
  have look : ∀ n k, s.getJointState n = some k ↔ (allJointNames ts)[k]? = some n := by
    intro n k
    rw [C50_lookup h]
    refine ⟨fun x => x.1, fun x => ⟨x, fun k' hk hc => ?_⟩⟩
    change (allJointNames ts)[k']? = some n at hc
    obtain ⟨l1, e1⟩ := List.getElem?_eq_some_iff.1 x
    obtain ⟨l2, e2⟩ := List.getElem?_eq_some_iff.1 hc
    have := (List.Nodup.getElem_inj_iff (hi := l1) (hj := l2) hn).1 (e1.trans e2.symm)
    omega
  obtain ⟨js, hw, hj, hs, _, _⟩ := mk'_inv h
  have hl : s.joints.length = (allJointNames ts).length := by rw [hs, List.length_mapIdx]; exact (List.Forall₂.length_eq hj).symm
  refine ⟨?_, ?_, ?_⟩
  · rw [wire_laid ts 0 hw, hl, List.range_eq_range']
  · intro c hc
    refine (wire_key ts [] hw c hc).imp fun n k hk n' => ?_
    rw [look]
    rw [List.nil_append] at hk
    rw [hk]
    exact ⟨fun e => (Option.some.inj e).symm, fun e => by rw [e]⟩
  · intro n k hk
    rw [hl]
    exact (List.getElem?_eq_some_iff.1 ((look n k).1 hk)).1

theorem made_parts {ts : List (Trans F)} {joint : String → Option (UJoint F)} {acts : List (Actuator F)} {old : Nat → F} {g : String → F} {s : RState F}
    (h : RState.mk' ts joint acts old = some s) (ho : ∀ i n, (allJointNames ts)[i]? = some n → old i = g n) : s.parts = ts.map (madePart joint g acts) := by
  obtain ⟨js, hw, hj, hs, _, _⟩ := mk'_inv h
  have hx : ∀ t ∈ ts, ∀ n ∈ t.jointNames, (joint n).isSome = true := by
    intro t ht n hn
    have : n ∈ allJointNames ts := List.mem_flatMap.2 ⟨t, ht, hn⟩
    have q : ∀ (ns : List String) (js : List (UJoint F)), List.Forall₂ (fun n u => joint n = some u) ns js → n ∈ ns → (joint n).isSome = true := by
      intro ns js hf
      induction hf with
      | nil => intro h; cases h
      | cons e _ ih =>
        intro h
        rcases List.mem_cons.1 h with rfl | h
        · rw [e]; rfl
        · exact ih h
    exact q _ _ hj this
  have := wire_parts (g := g) ts [] hw hx
  unfold RState.parts
  rw [hs, made_joints hj ho]
  exact this

theorem wire_isSome {acts : List (Actuator F)} (ts : List (Trans F)) (id : Nat) : (wire acts id ts).isSome = true ↔ ∀ t ∈ ts, (wireIns acts t).isSome = true := by
  induction ts generalizing id with
  | nil => simp [wire]
  | cons t ts ih =>
    unfold wire
    rcases hi : wireIns acts t with _ | ins
    · simp [hi]
    · have := ih (id + t.jointNames.length)
      rcases hw : wire acts (id + t.jointNames.length) ts with _ | rest
      · rw [hw] at this
        simp only [Option.bind_eq_bind, Option.bind_some, Option.bind_none, List.mem_cons, forall_eq_or_imp, hi, Option.isSome_some, true_and]
        exact this
      · rw [hw] at this
        simp only [Option.bind_eq_bind, Option.bind_some, List.mem_cons, forall_eq_or_imp, hi, Option.isSome_some, true_and, true_iff]
        exact this.1 rfl

theorem mapM_isSome {α β : Type} (f : α → Option β) (l : List α) : (l.mapM f).isSome = true ↔ ∀ a ∈ l, (f a).isSome = true := by
  induction l with
  | nil => simp
  | cons a l ih =>
    rw [List.mapM_cons]
    rcases ha : f a with _ | b
    · simp [ha]
    · rcases hl : l.mapM f with _ | bs
      · rw [hl] at ih
        simp only [Option.bind_eq_bind, Option.bind_some, Option.bind_none, List.mem_cons, forall_eq_or_imp, ha, Option.isSome_some, true_and]
        exact ih
      · rw [hl] at ih
        simp only [Option.bind_eq_bind, Option.bind_some, List.mem_cons, forall_eq_or_imp, ha, Option.isSome_some, true_and]
        exact ⟨fun _ => ih.1 rfl, fun _ => rfl⟩

/-- **C123, construction.** From transmissions in another order a robot state is made if and only if one is made from these, and they are the same robot.  `g` is what
the uninitialised memory of a joint's statistics holds; no joint has two transmissions. -/
theorem C123_made {ts ts' : List (Trans F)} (hp : ts.Perm ts') (hn : (allJointNames ts).Nodup) {joint : String → Option (UJoint F)} {acts : List (Actuator F)}
    {old old' : Nat → F} {g : String → F} (ho : ∀ i n, (allJointNames ts)[i]? = some n → old i = g n)
    (ho' : ∀ i n, (allJointNames ts')[i]? = some n → old' i = g n) {s : RState F} (h : RState.mk' ts joint acts old = some s) :
    ∃ s', RState.mk' ts' joint acts old' = some s' ∧ Reordered s s' := by
  have hpn : (allJointNames ts).Perm (allJointNames ts') := hp.flatMap_right _
  have hn' : (allJointNames ts').Nodup := hpn.nodup_iff.1 hn
  obtain ⟨js, hw, hj, hs, _, ha⟩ := mk'_inv h
  have e1 : (wire acts 0 ts').isSome = true := by
    rw [wire_isSome]
    intro t ht
    exact (wire_isSome ts 0).1 (by rw [hw]; rfl) t (hp.mem_iff.2 ht)
  have e2 : ((allJointNames ts').mapM joint).isSome = true := by
    rw [mapM_isSome]
    intro n hn
    have : ((allJointNames ts).mapM joint).isSome = true := by
      unfold RState.mk' at h
      rcases hm : (allJointNames ts).mapM joint with _ | x
      · rw [hw, hm] at h; cases h
      · rfl
    exact (mapM_isSome _ _).1 this n (hpn.mem_iff.2 hn)
  obtain ⟨conns', hw'⟩ := Option.isSome_iff_exists.1 e1
  obtain ⟨js', hj'⟩ := Option.isSome_iff_exists.1 e2
  have h' : RState.mk' ts' joint acts old' =
      some ⟨conns', js'.mapIdx (fun i j => JState.fresh j (old' i)), wireMap 0 (allJointNames ts') [], acts⟩ := by
    unfold RState.mk'
    rw [hw', hj']
    rfl
  refine ⟨_, h', ?_, ?_, made_keyed h hn, made_keyed h' hn'⟩
  · rw [ha]
  · rw [made_parts h ho, made_parts h' ho']
    exact hp.map _

end

/-! ## Two elbows, described in either order -/

section demo
attribute [local instance] exactCmp demoTrig demoLit

def ordT1 : Trans ℚ := ⟨"t", ["m"], ["elbow"], .simple ⟨2, 0, false, ⟨false, 0⟩, CalSim.fresh 0 0 0 0 false false⟩⟩
def ordT2 : Trans ℚ := ⟨"t2", ["m2"], ["wheel"], .simple ⟨5, 0, false, ⟨false, 0⟩, CalSim.fresh 0 0 0 0 false false⟩⟩
def ordWheel : UJoint ℚ := { demoElbow with name := "wheel", type := .continuous }
def ordJoint : String → Option (UJoint ℚ)
  | "elbow" => some demoElbow
  | "wheel" => some ordWheel
  | _ => none
def ordActs : List (Actuator ℚ) := [demoMotor, { demoMotor with name := "m2", position := 7 }]
def ordRobot (ts : List (Trans ℚ)) : RState ℚ := (RState.mk' ts ordJoint ordActs (fun _ => 0)).getD ⟨[], [], [], []⟩
def ordRt (ts : List (Trans ℚ)) : RtData ℚ :=
  ⟨ordRobot ts, fun _ => CStat.fresh, ⟨0, 10, ([(JState.fresh demoElbow 0).srow 0, (JState.fresh demoElbow 0).srow 0], [demoMotor.arow, demoMotor.arow])⟩,
    ⟨0, 10, [(JState.fresh demoElbow 0).jrow, (JState.fresh demoElbow 0).jrow]⟩⟩

theorem ordGood : (ordRt [ordT1, ordT2]).Good ∧ (ordRt [ordT2, ordT1]).Good := by
  constructor
  all_goals
    refine ⟨⟨⟨?_, ?_, ?_⟩, ?_, ?_⟩, ?_, rfl, rfl, rfl, by decide, by decide⟩
    all_goals first
      | decide +kernel
      | (intro c hc
         have : c = ⟨ordT1, [0], [0]⟩ ∨ c = ⟨ordT2, [1], [1]⟩ ∨ c = ⟨ordT2, [1], [0]⟩ ∨ c = ⟨ordT1, [0], [1]⟩ := by
           first
             | exact (List.mem_cons.1 (show c ∈ [⟨ordT1, [0], [0]⟩, ⟨ordT2, [1], [1]⟩] from hc)).elim Or.inl (fun h => Or.inr (Or.inl (List.mem_singleton.1 h)))
             | exact (List.mem_cons.1 (show c ∈ [⟨ordT2, [1], [0]⟩, ⟨ordT1, [0], [1]⟩] from hc)).elim (fun h => Or.inr (Or.inr (Or.inl h)))
                 (fun h => Or.inr (Or.inr (Or.inr (List.mem_singleton.1 h))))
         rcases this with rfl | rfl | rfl | rfl <;> exact ⟨rfl, rfl⟩)

theorem ordSame : Reordered (ordRobot [ordT1, ordT2]) (ordRobot [ordT2, ordT1]) := by
  obtain ⟨s', h1, h2⟩ := C123_made (ts := [ordT1, ordT2]) (ts' := [ordT2, ordT1]) (List.Perm.swap _ _ _) (by decide +kernel) (joint := ordJoint) (acts := ordActs)
    (old := fun _ => 0) (old' := fun _ => 0) (g := fun _ => 0) (fun _ _ _ => rfl) (fun _ _ _ => rfl) (s := ordRobot [ordT1, ordT2]) rfl
  unfold ordRobot at h2 ⊢
  rw [h1]
  exact h2

/-- A spring at the elbow whose strength is the wheel's position; it finds both by name. -/
def ordLaw (x : List (Option (JState ℚ))) (j : JState ℚ) : JState ℚ := { j with commanded := -((x.headD none).elim 0 (·.position) * j.position) }
def ordPlug (s : RState ℚ) : RState ℚ := s.onJoint "elbow" (ordLaw (["wheel"].map s.lookup))
def ordIn : PlantIn ℚ := { demoIn with plug := ordPlug }

theorem ordIn_ok : OrderIn ordIn ordIn := by
  have tame : ordIn.Tame := ⟨fun as => List.forall₂_same.2 fun _ _ => rfl, fun s => onJoint_same "elbow" (ordLaw (["wheel"].map s.lookup)) (fun _ => rfl) s⟩
  exact ⟨tame, tame, rfl, fun s s' h => C123_controller ["wheel"] "elbow" ordLaw (fun _ _ => rfl) h, rfl, rfl, rfl, rfl, rfl, rfl⟩

def ordBoth : Nat → List (PAct ℚ)
  | 0 => []
  | n + 1 => .nrt :: .rt ordIn :: ordBoth n
def ordActions : List (PAct ℚ) := .call (.load demoReq) :: ordBoth 20 ++ .call (.switch ["spring"] [] 2) :: ordBoth 30
def ordStart (ts : List (Trans ℚ)) : Plant ℚ := Plant.runs 1000 (Plant.init false (ordRt ts)) [.rt ordIn, .rt ordIn, .rt ordIn]
def ordEnd (ts : List (Trans ℚ)) : Plant ℚ := Plant.runs 1000 (ordStart ts) ordActions

theorem ordRun : TwinRun 1000 false (ordRt [ordT1, ordT2]) (ordRt [ordT2, ordT1]) OrderIn (ordEnd [ordT1, ordT2]) (ordEnd [ordT2, ordT1]) := by
  have h : TwinRun 1000 false (ordRt [ordT1, ordT2]) (ordRt [ordT2, ordT1]) OrderIn (ordStart [ordT1, ordT2]) (ordStart [ordT2, ordT1]) :=
    ((TwinRun.init.rt _ _ ordIn_ok).rt _ _ ordIn_ok).rt _ _ ordIn_ok
  have k := h.runs (ordActions.map fun a => (a, a)) ?_ ?_
  · unfold ordEnd
    simpa [List.map_map, Function.comp_def] using k
  · have hb : ∀ n a, a ∈ ordBoth n → a = .nrt ∨ a = .rt ordIn := by
      intro n a ha
      induction n with
      | zero => cases ha
      | succ n ih =>
        simp only [ordBoth, List.mem_cons] at ha
        rcases ha with h | h | h
        · exact Or.inl h
        · exact Or.inr h
        · exact ih h
    intro x hx
    obtain ⟨a, ha, rfl⟩ := List.mem_map.1 hx
    have hb' : ∀ n, a ∈ ordBoth n → (∃ i i', (a, a) = (PAct.rt i, PAct.rt i') ∧ OrderIn i i') ∨ (a, a) = (.nrt, .nrt) ∨ ∃ op, (a, a) = (PAct.call op, PAct.call op) := by
      intro n hn
      rcases hb n a hn with e | e
      · exact Or.inr (Or.inl (by rw [e]))
      · exact Or.inl ⟨_, _, by rw [e], ordIn_ok⟩
    simp only [ordActions, List.cons_append, List.mem_cons, List.mem_append] at ha
    rcases ha with e | e | e | e
    · exact Or.inr (Or.inr ⟨_, by rw [e]⟩)
    · exact hb' _ e
    · exact Or.inr (Or.inr ⟨_, by rw [e]⟩)
    · exact hb' _ e
  · have : ∀ pre ∈ ordActions.inits, (Plant.runs 1000 (ordStart [ordT1, ordT2]) pre).mgr.used.isSome = true := by decide +kernel
    intro pre hpre
    obtain ⟨l, hl, rfl⟩ := List.prefix_map_iff.1 hpre
    rw [List.map_map]
    have := this l ((List.mem_inits _ _).2 hl)
    simpa [Function.comp_def] using this

/-- All of C123: the numbering differs, the efforts do not (the elbow is at 3/2, the wheel at 7/5). -/
example : List.Forall₂ (fun r r' => r.begun = r'.begun ∧ r.calls.map (·.ev) = r'.calls.map (·.ev) ∧ r.timed = r'.timed ∧ r.sent.acts = r'.sent.acts)
    (ordEnd [ordT1, ordT2]).cycles (ordEnd [ordT2, ordT1]).cycles :=
  (C123_order ordGood.1 ordGood.2 (by unfold Unshared; decide +kernel) (by unfold Unshared; decide +kernel) ordSame ⟨rfl, ⟨rfl, rfl⟩, ⟨rfl, rfl⟩⟩ ordRun).2.2
example : ((ordEnd [ordT1, ordT2]).cycles.getLast?.map (fun r => (r.calls.map (·.ev), r.sent.acts.map (·.effort), r.sent.joints.map (·.position)))) =
    some ([.update 0], [-21 / 20, 0], [3 / 2, 7 / 5]) := by decide +kernel
example : ((ordEnd [ordT2, ordT1]).cycles.getLast?.map (fun r => (r.calls.map (·.ev), r.sent.acts.map (·.effort), r.sent.joints.map (·.position)))) =
    some ([.update 0], [-21 / 20, 0], [7 / 5, 3 / 2]) := by decide +kernel

/-- `Unshared` is needed: with two transmissions on one motor the later one wins, so the order matters. -/
def ordT3 : Trans ℚ := { ordT2 with actNames := ["m"] }
def setBoth (s : RState ℚ) : RState ℚ := { s with joints := s.joints.map fun j => { j with commanded := 1 } }
example : (((setBoth (ordRobot [ordT1, ordT3])).propagateEffort.map fun s => s.acts.map (·.effort)),
    ((setBoth (ordRobot [ordT3, ordT1])).propagateEffort.map fun s => s.acts.map (·.effort))) = (some [1 / 5, 0], some [1 / 2, 0]) := by decide +kernel

end demo

end Pr2
