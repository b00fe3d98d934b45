import Verif.Lemmas.Init

/-! # Properties of `Robot::initXml`: C48 (initialisation), C49, C65 -/

namespace Pr2
open Init

section
variable {F : Type} [FCmp F] [Zero F] [Add F] [Sub F] [Mul F] [iDiv : Div F] [Neg F] [FLit F] [iTrig : FTrig F] [Parse F]

/-! ## Every initialisation is tame -/

macro "tame" : tactic => `(tactic| repeat' first
  | exact tame_pure _ | exact tame_need _ | exact tame_deref _ | exact tame_enable _ | assumption
  | (refine Tame.bind ?_ (fun _ => ?_)) | (refine tame_foldlM _ (fun _ _ => ?_) _ _) | (refine tame_forM _ (fun _ => ?_) _) | split)

theorem simple_tame (t : SimpleT F) (x : Xml) (joint : String → Option (UJoint F)) : Tame (t.initXml x joint) := by
  unfold SimpleT.initXml SimpleT.simJoint simpleReduction; tame

theorem wrist_tame (t : WristT F) (x : Xml) (joint : String → Option (UJoint F)) : Tame (t.initXml x joint) := by
  unfold WristT.initXml wristJoint wristActuator wristOffset; tame

theorem gripper_tame (t : GripperT F) (x : Xml) (joint : String → Option (UJoint F)) : Tame (t.initXml x joint) := by
  unfold GripperT.initXml GripperT.initXml1 GripperT.gapJoint GripperT.passiveJoint GripperT.simJoint gripperCoeff; tame

theorem belt_tame (t : BeltT F) (x : Xml) (joint : String → Option (UJoint F)) : Tame (t.initXml x joint) := by
  unfold BeltT.initXml; tame

theorem body_tame (b : Body F) (x : Xml) (joint : String → Option (UJoint F)) : Tame (b.initXml x joint) := by
  cases b
  · exact simple_tame _ _ _
  · exact wrist_tame _ _ _
  · exact gripper_tame _ _ _
  · exact belt_tame _ _ _

theorem transType_tame (x : Xml) : Tame (x.transType : Init F (Option String)) := by
  unfold Xml.transType; tame

theorem element_tame (l : TransLoader F) (joint : String → Option (UJoint F)) (k : Nat) (x : Xml) : Tame (robotElement l joint k x) := by
  unfold robotElement
  refine (transType_tame x).bind (fun ty => ?_)
  split
  · exact tame_pure _
  · split
    · split
      · exact tame_pure _
      · exact tame_attempt (body_tame _ _ _)
    · exact tame_pure _

theorem loop_tame (l : TransLoader F) (joint : String → Option (UJoint F)) (k : Nat) (xs : List Xml) : Tame (robotLoop l joint k xs) := by
  induction xs generalizing k with
  | nil => exact tame_pure _
  | cons x xs ih =>
    unfold robotLoop
    exact (element_tame l joint k x).bind (fun _ => (ih _).bind (fun _ => tame_pure _))

/-! ## Specification -/

/-- The type of an element: attribute, else text of the `<type>` child. -/
def Xml.HasType (x : Xml) (ty : String) : Prop :=
  x.attr "type" = some ty ∨ (x.attr "type" = none ∧ ∃ e, x.first "type" = some e ∧ e.text = some ty)

/-- The class made for a type: the type itself if there is such a class, otherwise the first class with that short name, otherwise the type itself. -/
def TransLoader.Picks (l : TransLoader F) (type cls : String) : Prop :=
  (l.available type = true ∧ cls = type) ∨
  (l.available type = false ∧
    ((∃ a b, l.classes = a ++ cls :: b ∧ l.getName cls = type ∧ ∀ c ∈ a, l.getName c ≠ type) ∨
     ((∀ c ∈ l.classes, l.getName c ≠ type) ∧ cls = type)))

/-- Element `k` of the document makes transmission `t`: its type starts with "pr2", its plugin can be created, and the transmission's own
initialisation (with the actuators as they are before) succeeds. -/
def Accepted (l : TransLoader F) (joint : String → Option (UJoint F)) (acts : List (Actuator F)) (k : Nat) (x : Xml) (t : Trans F) : Prop :=
  ∃ ty cls b, x.HasType ty ∧ (∃ rest, ty = "pr2" ++ rest) ∧ l.Picks ty cls ∧ l.create k cls = some b ∧ (b.initXml x joint acts).2 = .ok t

/-- Element `k` of the document crashes the process. -/
def Crashes (l : TransLoader F) (joint : String → Option (UJoint F)) (acts : List (Actuator F)) (k : Nat) (x : Xml) : Prop :=
  (x.attr "type" = none ∧ ∃ e, x.first "type" = some e ∧ e.text = none) ∨
  ∃ ty cls b, x.HasType ty ∧ (∃ rest, ty = "pr2" ++ rest) ∧ l.Picks ty cls ∧ l.create k cls = some b ∧ (b.initXml x joint acts).2 = .crash

/-! ## Proofs: the same with the model's choice of the class -/

/-- Element `k` of the document makes transmission `t`: its type starts with "pr2", its plugin can be created, and the transmission's own
initialisation (with the actuators as they are before) succeeds. -/
def AcceptedM (l : TransLoader F) (joint : String → Option (UJoint F)) (acts : List (Actuator F)) (k : Nat) (x : Xml) (t : Trans F) : Prop :=
  ∃ ty b, x.HasType ty ∧ (∃ rest, ty = "pr2" ++ rest) ∧ l.create k (l.resolve ty) = some b ∧ (b.initXml x joint acts).2 = .ok t

/-- Element `k` of the document crashes the process. -/
def CrashesM (l : TransLoader F) (joint : String → Option (UJoint F)) (acts : List (Actuator F)) (k : Nat) (x : Xml) : Prop :=
  (x.attr "type" = none ∧ ∃ e, x.first "type" = some e ∧ e.text = none) ∨
  ∃ ty b, x.HasType ty ∧ (∃ rest, ty = "pr2" ++ rest) ∧ l.create k (l.resolve ty) = some b ∧ (b.initXml x joint acts).2 = .crash

theorem take_pr2 (ty : String) : ty.toList.take 3 = "pr2".toList ↔ ∃ rest, ty = "pr2" ++ rest := by
  constructor
  · intro h
    refine ⟨String.ofList (ty.toList.drop 3), ?_⟩
    apply String.toList_injective
    rw [String.toList_append, ← h, String.toList_ofList, List.take_append_drop]
  · rintro ⟨rest, rfl⟩
    rw [String.toList_append]
    rfl

/-- What an element contributes. -/
theorem element_cases (l : TransLoader F) (joint : String → Option (UJoint F)) (k : Nat) (x : Xml) (acts : List (Actuator F)) :
    ((robotElement l joint k x acts).2 = .crash ↔ CrashesM l joint acts k x) ∧ (robotElement l joint k x acts).2 ≠ .fail ∧
    ∀ r, (robotElement l joint k x acts).2 = .ok r → ∀ t, r = some t ↔ AcceptedM l joint acts k x t := by
  have key : ∀ ty, x.HasType ty →
      ((robotElement l joint k x acts) = (match (some ty : Option String) with
        | none => (pure none : Init F (Option (Trans F)))
        | some ty => if ty.toList.take 3 = "pr2".toList then
            match l.create k (l.resolve ty) with
            | none => pure none
            | some b => attempt (b.initXml x joint)
          else pure none) acts) := by
    intro ty h
    unfold robotElement Xml.transType
    rcases h with h | ⟨h, e, he, ht⟩
    · rw [h]; rfl
    · rw [h, he]
      dsimp only
      rw [ht]; rfl
  have uniq : ∀ ty ty', x.HasType ty → x.HasType ty' → ty = ty' := by
    rintro ty ty' (h | ⟨h, e, he, ht⟩) (h' | ⟨h', e', he', ht'⟩)
    · rw [h] at h'; exact Option.some.inj h'
    · rw [h] at h'; cases h'
    · rw [h] at h'; cases h'
    · rw [he] at he'; cases he'; rw [ht] at ht'; exact Option.some.inj ht'
  by_cases hty : ∃ ty, x.HasType ty
  · obtain ⟨ty, hty⟩ := hty
    rw [key ty hty]
    have nocr : ¬ (x.attr "type" = none ∧ ∃ e, x.first "type" = some e ∧ e.text = none) := by
      rintro ⟨h, e, he, ht⟩
      rcases hty with h' | ⟨_, e', he', ht'⟩
      · rw [h] at h'; cases h'
      · rw [he] at he'; cases he'; rw [ht] at ht'; cases ht'
    dsimp only
    by_cases hp : ty.toList.take 3 = "pr2".toList
    · rw [if_pos hp]
      rw [take_pr2] at hp
      rcases hc : l.create k (l.resolve ty) with _ | b
      · refine ⟨⟨fun h => (pure_crash.1 h).elim, ?_⟩, by change InitR.ok _ ≠ _; simp, ?_⟩
        · rintro (h | ⟨ty', b, h, _, hb, _⟩)
          · exact (nocr h).elim
          · rw [← uniq _ _ hty h, hc] at hb; cases hb
        · intro r hr t
          cases hr
          refine ⟨fun h => (by cases h), ?_⟩
          rintro ⟨ty', b, h, _, hb, _⟩
          rw [← uniq _ _ hty h, hc] at hb; cases hb
      · have iff : ∀ r, (∃ ty b, x.HasType ty ∧ (∃ rest, ty = "pr2" ++ rest) ∧ l.create k (l.resolve ty) = some b ∧ (b.initXml x joint acts).2 = r) ↔
            (b.initXml x joint acts).2 = r := by
          intro r
          constructor
          · rintro ⟨ty', b', h, _, hb, hr⟩
            rw [← uniq _ _ hty h, hc] at hb; cases hb; exact hr
          · intro hr; exact ⟨ty, b, hty, hp, hc, hr⟩
        unfold CrashesM AcceptedM
        simp only [nocr, false_or, iff]
        unfold attempt
        rcases hb : b.initXml x joint acts with ⟨s', _ | _ | t⟩
        · simp
        · simp
        · simp
    · rw [if_neg hp]
      rw [take_pr2] at hp
      refine ⟨⟨fun h => (pure_crash.1 h).elim, ?_⟩, by change InitR.ok _ ≠ _; simp, ?_⟩
      · rintro (h | ⟨ty', b, h, hp', _⟩)
        · exact (nocr h).elim
        · rw [← uniq _ _ hty h] at hp'; exact (hp hp').elim
      · intro r hr t
        cases hr
        refine ⟨fun h => (by cases h), ?_⟩
        rintro ⟨ty', b, h, hp', _⟩
        rw [← uniq _ _ hty h] at hp'; exact (hp hp').elim
  · have h1 : x.attr "type" = none := by
      rcases h : x.attr "type" with _ | ty
      · rfl
      · exact (hty ⟨ty, Or.inl h⟩).elim
    rcases h2 : x.first "type" with _ | e
    · have h3 : robotElement l joint k x acts = (acts, .ok none) := by
        unfold robotElement Xml.transType
        rw [h1, h2]; rfl
      rw [h3]
      refine ⟨⟨fun h => by simp at h, ?_⟩, by simp, ?_⟩
      · rintro (⟨_, e, he, _⟩ | ⟨ty, b, h, _⟩)
        · rw [h2] at he; cases he
        · exact (hty ⟨ty, h⟩).elim
      · intro r hr t
        cases hr
        refine ⟨fun h => (by cases h), ?_⟩
        rintro ⟨ty', b, h, _⟩
        exact (hty ⟨ty', h⟩).elim
    · have h4 : e.text = none := by
        rcases h : e.text with _ | ty
        · rfl
        · exact (hty ⟨ty, Or.inr ⟨h1, e, h2, h⟩⟩).elim
      have h3 : robotElement l joint k x acts = (acts, .crash) := by
        unfold robotElement Xml.transType
        rw [h1, h2]
        dsimp only
        rw [h4]; rfl
      rw [h3]
      refine ⟨⟨fun _ => Or.inl ⟨h1, e, h2, h4⟩, fun _ => rfl⟩, by simp, fun r hr => by simp at hr⟩

theorem loop_cases (l : TransLoader F) (joint : String → Option (UJoint F)) (k : Nat) (xs : List Xml) (acts : List (Actuator F)) :
    ((robotLoop l joint k xs acts).2 = .crash ↔ ∃ i x, xs[i]? = some x ∧ CrashesM l joint acts (k + i) x) ∧
    (robotLoop l joint k xs acts).2 ≠ .fail ∧
    ∀ ts, (robotLoop l joint k xs acts).2 = .ok ts → ∃ results : List (Option (Trans F)), results.length = xs.length ∧ ts = results.filterMap id ∧
      ∀ i x, xs[i]? = some x → ∀ t, results[i]? = some (some t) ↔ AcceptedM l joint acts (k + i) x t := by
  induction xs generalizing k with
  | nil =>
    refine ⟨⟨fun h => (pure_crash.1 h).elim, by rintro ⟨i, x, h, _⟩; simp at h⟩, by change InitR.ok _ ≠ _; simp, ?_⟩
    intro ts h
    cases h
    exact ⟨[], rfl, rfl, by simp⟩
  | cons x xs ih =>
    obtain ⟨e1, e2, e3⟩ := element_cases l joint k x acts
    obtain ⟨i1, i2, i3⟩ := ih (k + 1)
    have ht := element_tame l joint k x
    have hl := loop_tame l joint (k + 1) xs
    have run : robotLoop l joint k (x :: xs) acts = (robotElement l joint k x >>= fun r => robotLoop l joint (k + 1) xs >>= fun rs => pure (r.toList ++ rs)) acts := rfl
    rw [run, bind_def]
    have hfr := ht.frame acts
    have hin := fun s (h : s.map (·.name) = acts.map (·.name)) => hl.indep s acts h
    have shift : (∃ i y, (x :: xs)[i]? = some y ∧ CrashesM l joint acts (k + i) y) ↔
        CrashesM l joint acts k x ∨ ∃ i y, xs[i]? = some y ∧ CrashesM l joint acts (k + 1 + i) y := by
      constructor
      · rintro ⟨i, y, h, hc⟩
        cases i with
        | zero => simp at h; subst h; exact Or.inl hc
        | succ i => exact Or.inr ⟨i, y, by simpa using h, by rw [show k + 1 + i = k + (i + 1) by omega]; exact hc⟩
      · rintro (hc | ⟨i, y, h, hc⟩)
        · exact ⟨0, x, rfl, hc⟩
        · exact ⟨i + 1, y, by simpa using h, by rw [show k + (i + 1) = k + 1 + i by omega]; exact hc⟩
    rcases hx : robotElement l joint k x acts with ⟨s', _ | _ | r⟩
    · rw [hx] at e1
      dsimp only
      exact ⟨⟨fun _ => shift.2 (Or.inl (e1.1 rfl)), fun _ => rfl⟩, by simp, by simp⟩
    · rw [hx] at e2; exact (e2 rfl).elim
    · rw [hx] at e1 e3 hfr
      dsimp only at e1 e3 hfr ⊢
      have hin' := hin s' hfr.names
      rw [bind_def]
      rcases hy : robotLoop l joint (k + 1) xs s' with ⟨s'', _ | _ | rs⟩
      · rw [hy] at hin'
        dsimp only at hin' ⊢
        exact ⟨⟨fun _ => shift.2 (Or.inr (i1.1 hin'.symm)), fun _ => rfl⟩, by simp, by simp⟩
      · rw [hy] at hin'; exact (i2 hin'.symm).elim
      · rw [hy] at hin'
        dsimp only at hin' ⊢
        refine ⟨⟨fun h => (pure_crash.1 h).elim, fun h => ?_⟩, by change InitR.ok _ ≠ _; simp, ?_⟩
        · rcases shift.1 h with h | h
          · exact absurd (e1.2 h) (by simp)
          · rw [i1.2 h] at hin'; cases hin'
        · intro ts hts
          cases hts
          obtain ⟨results, hlen, hrs, hacc⟩ := i3 rs hin'.symm
          refine ⟨r :: results, by simp [hlen], ?_, ?_⟩
          · rw [hrs]; cases r <;> simp
          · intro i y hi t
            cases i with
            | zero =>
              simp at hi; subst hi
              simpa using e3 r rfl t
            | succ i =>
              have := hacc i y (by simpa using hi) t
              rw [show k + (i + 1) = k + 1 + i by omega]
              simpa using this

omit iDiv iTrig [FCmp F] [Zero F] [Add F] [Sub F] [Mul F] [Neg F] [FLit F] [Parse F] in
theorem picks_iff (l : TransLoader F) (t c : String) : l.Picks t c ↔ c = l.resolve t := by
  unfold TransLoader.Picks TransLoader.resolve
  by_cases h : l.available t = true
  · simp [h]
  · have h' : l.available t = false := by simpa using h
    rw [if_neg h]
    simp only [h', Bool.false_eq_true, false_and, true_and, false_or]
    rcases hf : l.classes.find? (fun c => l.getName c == t) with _ | d
    · have hn : ∀ c ∈ l.classes, l.getName c ≠ t := by
        rw [List.find?_eq_none] at hf
        intro c hc e
        exact hf c hc (by simp [e])
      constructor
      · rintro (⟨a, b, e, hc, _⟩ | ⟨_, rfl⟩)
        · exact (hn c (by rw [e]; simp) hc).elim
        · rfl
      · rintro rfl
        exact .inr ⟨hn, rfl⟩
    · obtain ⟨h1, a, b, h2, h3⟩ := List.find?_eq_some_iff_append.1 hf
      constructor
      · rintro (⟨a', b', e, hc, hl⟩ | ⟨hn, _⟩)
        · have : l.classes.find? (fun c => l.getName c == t) = some c :=
            List.find?_eq_some_iff_append.2 ⟨by simp [hc], a', b', e, fun x hx => by simpa using hl x hx⟩
          rw [hf] at this
          simpa using this.symm
        · exact (hn d (by rw [h2]; simp) (by simpa using h1)).elim
      · rintro rfl
        exact .inl ⟨a, b, h2, by simpa using h1, fun x hx => by simpa using h3 x hx⟩

theorem accepted_iff (l : TransLoader F) (joint : String → Option (UJoint F)) (acts : List (Actuator F)) (k : Nat) (x : Xml) (t : Trans F) :
    AcceptedM l joint acts k x t ↔ Accepted l joint acts k x t := by
  unfold AcceptedM Accepted
  simp only [picks_iff]
  constructor
  · rintro ⟨ty, b, h1, h2, h3, h4⟩; exact ⟨ty, _, b, h1, h2, rfl, h3, h4⟩
  · rintro ⟨ty, _, b, h1, h2, rfl, h3, h4⟩; exact ⟨ty, b, h1, h2, h3, h4⟩

theorem crashes_iff (l : TransLoader F) (joint : String → Option (UJoint F)) (acts : List (Actuator F)) (k : Nat) (x : Xml) :
    CrashesM l joint acts k x ↔ Crashes l joint acts k x := by
  unfold CrashesM Crashes
  simp only [picks_iff]
  apply or_congr Iff.rfl
  constructor
  · rintro ⟨ty, b, h1, h2, h3, h4⟩; exact ⟨ty, _, b, h1, h2, rfl, h3, h4⟩
  · rintro ⟨ty, _, b, h1, h2, rfl, h3, h4⟩; exact ⟨ty, b, h1, h2, h3, h4⟩

/-! ## C49 -/

/-- Specification: the direct children of an element with a given tag, in document order. -/
abbrev Xml.childrenTagged (x : Xml) (tag : String) : List Xml := x.kids.filter (fun k => decide (k.tag = tag))

theorem all_eq (x : Xml) (tag : String) : x.all tag = x.childrenTagged tag := by
  unfold Xml.all Xml.childrenTagged
  congr 1

/-- **C49.**  With a hardware interface and a parsable description the robot never fails because of a transmission; it crashes exactly if one
of the elements does. -/
theorem C49_never_fails (l : TransLoader F) (urdf : Xml → Option (String → Option (UJoint F))) (root : Xml) (acts : List (Actuator F))
    (joint : String → Option (UJoint F)) (hu : urdf root = some joint) :
    (Robot.initXml true urdf l root acts).2 ≠ .fail ∧
    ((Robot.initXml true urdf l root acts).2 = .crash ↔ 
      ∃ k x, (root.childrenTagged "transmission")[k]? = some x ∧ Crashes l joint acts k x) := by
  rw [← all_eq]
  have run : Robot.initXml true urdf l root acts = robotLoop l joint 0 (root.all "transmission") acts := by
    unfold Robot.initXml
    rw [hu]; rfl
  rw [run]
  obtain ⟨h1, h2, _⟩ := loop_cases l joint 0 (root.all "transmission") acts
  simp only [Nat.zero_add, crashes_iff] at h1
  exact ⟨h2, h1⟩

/-- **C49.**  The transmissions kept are, in document order, exactly those that initialise. -/
theorem C49_keeps_exactly (l : TransLoader F) (urdf : Xml → Option (String → Option (UJoint F))) (root : Xml) (acts : List (Actuator F))
    (hw : Bool) (ts : List (Trans F)) (h : (Robot.initXml hw urdf l root acts).2 = .ok ts) :
    hw = true ∧ ∃ joint, urdf root = some joint ∧
    ∃ results : List (Option (Trans F)), results.length = (root.childrenTagged "transmission").length ∧ ts = results.filterMap id ∧
      ∀ k x, (root.childrenTagged "transmission")[k]? = some x → ∀ t, results[k]? = some (some t) ↔ Accepted l joint acts k x t := by
  rw [← all_eq]
  cases hw
  · cases h
  refine ⟨rfl, ?_⟩
  rcases hu : urdf root with _ | joint
  · unfold Robot.initXml at h
    rw [hu] at h; cases h
  have run : Robot.initXml true urdf l root acts = robotLoop l joint 0 (root.all "transmission") acts := by
    unfold Robot.initXml
    rw [hu]; rfl
  rw [run] at h
  obtain ⟨_, _, h3⟩ := loop_cases l joint 0 (root.all "transmission") acts
  simp only [Nat.zero_add, accepted_iff] at h3
  exact ⟨joint, rfl, h3 ts h⟩

/-- **C49.**  Without a hardware interface, or if the description cannot be parsed, `initXml` returns false and touches no actuator. -/
theorem C49_rejects (l : TransLoader F) (urdf : Xml → Option (String → Option (UJoint F))) (root : Xml) (acts : List (Actuator F)) (hw : Bool)
    (h : hw = false ∨ urdf root = none) : Robot.initXml hw urdf l root acts = (acts, .fail) := by
  unfold Robot.initXml
  rcases h with rfl | h
  · rfl
  · cases hw
    · rfl
    · rw [h]; rfl

omit [FCmp F] [Zero F] [Add F] [Sub F] [Mul F] iDiv [Neg F] [FLit F] iTrig [Parse F] in
/-- **C49, lookup.**  `getTransmissionIndex` and `getTransmission` find the first loaded transmission of that name, and nothing exactly if there is none. -/
theorem C49_lookup (ts : List (Trans F)) (name : String) :
    (∀ t, Robot.getTransmission ts name = some t ↔ ∃ before after, ts = before ++ t :: after ∧ t.name = name ∧ (∀ u ∈ before, u.name ≠ name) ∧
      Robot.getTransmissionIndex ts name = some before.length) ∧
    (Robot.getTransmission ts name = none ↔ ∀ t ∈ ts, t.name ≠ name) ∧ (Robot.getTransmissionIndex ts name = none ↔ ∀ t ∈ ts, t.name ≠ name) := by
  have hn : Robot.getTransmissionIndex ts name = none ↔ ∀ t ∈ ts, t.name ≠ name := by
    unfold Robot.getTransmissionIndex
    rw [List.findIdx?_eq_none_iff]
    simp
  unfold Robot.getTransmission
  rcases hi : Robot.getTransmissionIndex ts name with _ | i
  · refine ⟨fun t => ?_, ?_, ?_⟩
    · constructor
      · intro h; cases h
      · rintro ⟨_, _, _, _, _, h⟩; cases h
    · rw [← hn, hi]; simp
    · rw [← hn, hi]
  · have hi' := hi
    unfold Robot.getTransmissionIndex at hi'
    rw [List.findIdx?_eq_some_iff_getElem] at hi'
    obtain ⟨hl, hm, hb⟩ := hi'
    have hm' : ts[i].name = name := by simpa using hm
    refine ⟨fun t => ?_, ?_, ?_⟩
    · simp only [Option.bind_some, List.getElem?_eq_getElem hl, Option.some.injEq]
      constructor
      · rintro rfl
        refine ⟨ts.take i, ts.drop (i + 1), ?_, hm', ?_, by simp [Nat.min_eq_left hl.le]⟩
        · rw [List.getElem_cons_drop, List.take_append_drop]
        · intro u hu
          obtain ⟨j, hj, rfl⟩ := List.getElem_of_mem hu
          have hj' : j < i := by simp at hj; omega
          rw [List.getElem_take]
          simpa using hb j hj'
      · rintro ⟨before, after, rfl, _, _, rfl⟩
        simp
    · simp only [Option.bind_some, List.getElem?_eq_getElem hl]
      constructor
      · intro h; cases h
      · intro h; exact absurd hm' (h _ (List.getElem_mem hl))
    · constructor
      · intro h; cases h
      · intro h; exact absurd hm' (h _ (List.getElem_mem hl))

omit [FCmp F] [Zero F] [Add F] [Sub F] [Mul F] iDiv [Neg F] [FLit F] iTrig [Parse F] in
/-- `C49_lookup`: two transmissions of the same name, the first is found. -/
example (b b' : Body F) : Robot.getTransmission [⟨"a", [], [], b⟩, ⟨"t", ["m"], [], b⟩, ⟨"t", ["n"], [], b'⟩] "t" = some ⟨"t", ["m"], [], b⟩ := rfl

/-! ## Inversion of the transmissions' initialisations -/

/-- A description of a transmission for which the assertions of the `propagate` functions hold. -/
def Body.WellDescribed : Body F → Xml → Prop
  | .simple _, x => (x.all "simulated_actuated_joint").length ≤ 1
  | .gripper _, x => (x.all "gap_joint").length = 1 ∧ (x.all "simulated_actuated_joint").length = 1
  | _, _ => True

/-- What a successfully initialised transmission guarantees. -/
structure InitOk (joint : String → Option (UJoint F)) (s' : List (Actuator F)) (t : Trans F) : Prop where
  enabled : ∀ n ∈ t.actNames, EnabledAct s' n
  joints : ∀ n ∈ t.jointNames, ∃ j, joint n = some j

theorem simple_ok (t : SimpleT F) (x : Xml) (joint : String → Option (UJoint F)) (s s' : List (Actuator F)) (r : Trans F)
    (h : t.initXml x joint s = (s', .ok r)) : InitOk joint s' r ∧
    (t.useSim = false → (x.all "simulated_actuated_joint").length ≤ 1 → r.body.Wants r.actNames.length r.jointNames.length) := by
  unfold SimpleT.initXml at h
  simp only [bind_ok, need_ok, pure_ok] at h
  obtain ⟨_, jn, ⟨rfl, _⟩, _, uj, ⟨rfl, huj⟩, _, ael, ⟨rfl, _⟩, _, an, ⟨rfl, _⟩, s1, u, hen, s2, red, hred, s3, st, hst, rfl, rfl⟩ := h
  have hen := enable_ok hen
  have t1 : EnableOnly s1 s2 := by
    have : Tame (simpleReduction x ael : Init F String) := by unfold simpleReduction; tame
    have := this.frame s1
    rw [hred] at this
    exact this
  have t2 : EnableOnly s2 s' := by
    have := (tame_foldlM (F := F) (SimpleT.simJoint joint) (fun b c => by unfold SimpleT.simJoint; tame)
      (x.all "simulated_actuated_joint") ({ t with reduction := Parse.atof red }, [jn])).frame s2
    rw [hst] at this
    exact this
  have inv := foldlM_ok (F := F) (SimpleT.simJoint joint)
    (fun done st => (∀ n ∈ st.2, ∃ j, joint n = some j) ∧ (t.useSim = false → done.length = 0 → st.2.length = 1 ∧ st.1.useSim = false) ∧
      (t.useSim = false → done.length = 1 → st.2.length = if st.1.useSim then 2 else 1))
    (by
      rintro done c ⟨t1, ns⟩ ⟨t2, ns'⟩ s s' ⟨i1, i2, i3⟩ hs
      unfold SimpleT.simJoint at hs
      dsimp only at *
      have l0 : (done ++ [c]).length ≠ 0 := by simp
      have l1 : (done ++ [c]).length = 1 → done.length = 0 := by simp
      rcases hn : c.attr "name" with _ | n
      · rw [hn] at hs
        obtain ⟨_, e⟩ := pure_ok.1 hs
        cases e
        refine ⟨i1, fun _ h => (l0 h).elim, fun u h => ?_⟩
        simpa using (i2 u (l1 h)).1
      · rw [hn] at hs
        dsimp only at hs
        rcases huj : joint n with _ | uj
        · rw [huj] at hs
          obtain ⟨_, e⟩ := pure_ok.1 hs
          cases e
          refine ⟨i1, fun _ h => (l0 h).elim, fun u h => ?_⟩
          simpa using (i2 u (l1 h)).1
        · rw [huj] at hs
          simp only [bind_ok, need_ok, pure_ok] at hs
          obtain ⟨_, _, _, _, _, _, _, e⟩ := hs
          cases e
          refine ⟨?_, fun _ h => (l0 h).elim, fun u h => ?_⟩
          · intro m hm
            rcases List.mem_append.1 hm with hm | hm
            · exact i1 m hm
            · rw [List.mem_singleton.1 hm]; exact ⟨uj, huj⟩
          · simp [(i2 u (l1 h)).1])
    (x.all "simulated_actuated_joint") [] _ st s2 s'
    ⟨by intro n hn; rw [List.mem_singleton.1 hn]; exact ⟨uj, huj⟩, fun u _ => ⟨rfl, u⟩, fun _ h => by simp at h⟩ hst
  obtain ⟨i1, i2, i3⟩ := inv
  rw [List.nil_append] at i2 i3
  refine ⟨⟨?_, i1⟩, ?_⟩
  · intro n hn
    rw [List.mem_singleton.1 hn]
    exact t2.enabled (t1.enabled hen)
  · intro u hl
    refine ⟨rfl, ?_⟩
    rcases Nat.lt_or_ge (x.all "simulated_actuated_joint").length 1 with h0 | h1
    · have := i2 u (by omega)
      simp [this.1, this.2]
    · exact i3 u (by omega)

theorem wristActuator_ok {x : Xml} {tag : String} {s s' : List (Actuator F)} {r : String × F} (h : wristActuator x tag s = (s', .ok r)) :
    EnabledAct s' r.1 := by
  unfold wristActuator at h
  simp only [bind_ok, need_ok, pure_ok] at h
  obtain ⟨_, _, ⟨rfl, _⟩, _, _, ⟨rfl, _⟩, s1, _, he, _, _, ⟨rfl, _⟩, rfl, rfl⟩ := h
  exact enable_ok he

theorem wristJoint_ok {x : Xml} {tag : String} {joint : String → Option (UJoint F)} {s s' : List (Actuator F)} {r : String × F × F}
    (h : wristJoint x tag joint s = (s', .ok r)) : ∃ j, joint r.1 = some j := by
  unfold wristJoint at h
  simp only [bind_ok, need_ok, deref_ok, pure_ok] at h
  obtain ⟨_, _, ⟨rfl, _⟩, _, jn, ⟨rfl, _⟩, s1, uj, ⟨rfl, hj⟩, _, _, ⟨rfl, _⟩, s2, off, _, rfl, rfl⟩ := h
  exact ⟨uj, hj⟩

theorem wristActuator_tame (x : Xml) (tag : String) : Tame (wristActuator x tag : Init F (String × F)) := by unfold wristActuator; tame
theorem wristJoint_tame (x : Xml) (tag : String) (joint : String → Option (UJoint F)) : Tame (wristJoint x tag joint : Init F (String × F × F)) := by
  unfold wristJoint wristOffset; tame

theorem wrist_ok (t : WristT F) (x : Xml) (joint : String → Option (UJoint F)) (s s' : List (Actuator F)) (r : Trans F)
    (h : t.initXml x joint s = (s', .ok r)) : InitOk joint s' r ∧ r.body.Wants r.actNames.length r.jointNames.length := by
  unfold WristT.initXml at h
  simp only [bind_ok, pure_ok] at h
  obtain ⟨s1, a, ha, s2, b, hb, s3, f, hf, s4, g, hg, rfl, rfl⟩ := h
  have f2 := (wristActuator_tame (F := F) x "leftActuator").frame s1
  have f3 := (wristJoint_tame (F := F) x "flexJoint" joint).frame s2
  have f4 := (wristJoint_tame (F := F) x "rollJoint" joint).frame s3
  rw [hb] at f2; rw [hf] at f3; rw [hg] at f4
  refine ⟨⟨?_, ?_⟩, rfl, rfl⟩
  · intro n hn
    simp only [List.mem_cons, List.not_mem_nil, or_false] at hn
    rcases hn with rfl | rfl
    · exact f4.enabled (f3.enabled (f2.enabled (wristActuator_ok ha)))
    · exact f4.enabled (f3.enabled (wristActuator_ok hb))
  · intro n hn
    simp only [List.mem_cons, List.not_mem_nil, or_false] at hn
    rcases hn with rfl | rfl
    · exact wristJoint_ok hf
    · exact wristJoint_ok hg

theorem gripper_counts (t : GripperT F) (x : Xml) (s s' : List (Actuator F)) (r : String × GripperT F × List String)
    (h : t.initXml1 x s = (s', .ok r)) (hp : t.hasPassive = false) (hq : t.passive = []) :
    r.2.1.passive.length = (x.all "passive_joint").length ∧
    (r.2.1.hasPassive = true ↔ ∃ j ∈ x.all "simulated_actuated_joint", (j.attr "passive_actuated_joint").isSome) ∧
    r.2.2.length = (x.all "gap_joint").length + (x.all "passive_joint").length + (x.all "simulated_actuated_joint").length +
      ((x.all "simulated_actuated_joint").filter (fun j => (j.attr "passive_actuated_joint").isSome)).length := by
  unfold GripperT.initXml1 at h
  simp only [bind_ok, need_ok, pure_ok] at h
  obtain ⟨_, ael, ⟨rfl, _⟩, _, an, ⟨rfl, _⟩, s1, st1, h1, s2, st2, h2, s3, st3, h3, rfl, rfl⟩ := h
  have i1 := foldlM_ok (F := F) GripperT.gapJoint
    (fun done st => st.1.hasPassive = false ∧ st.1.passive = [] ∧ st.2.length = done.length)
    (by
      rintro done c ⟨t1, ns⟩ ⟨t2, ns'⟩ s s' ⟨i1, i2, i3⟩ hs
      unfold GripperT.gapJoint at hs
      simp only [bind_ok, need_ok, pure_ok] at hs
      obtain ⟨_, _, _, _, _, _, _, _, _, _, _, _, _, _, _, _, _, _, _, _, _, _, _, _, _, _, _, _, _, _, _, _, _, _, _, _, _, _, _, _, e⟩ := hs
      cases e
      simp only at i1 i2 i3
      exact ⟨i1, i2, by simp [i3]⟩)
    _ [] _ _ _ _ ⟨hp, hq, rfl⟩ h1
  have i2 := foldlM_ok (F := F) GripperT.passiveJoint
    (fun done st => st.1.hasPassive = false ∧ st.1.passive.length = done.length ∧ st.2.length = (x.all "gap_joint").length + done.length)
    (by
      rintro done c ⟨t1, ns⟩ ⟨t2, ns'⟩ s s' ⟨i1, i2, i3⟩ hs
      unfold GripperT.passiveJoint at hs
      simp only [bind_ok, need_ok, pure_ok] at hs
      obtain ⟨_, _, _, _, e⟩ := hs
      cases e
      simp only at i1 i2 i3
      exact ⟨i1, by simp [i2], by simp [i3, Nat.add_assoc]⟩)
    _ [] _ _ _ _ ⟨i1.1, by rw [i1.2.1]; rfl, by rw [i1.2.2]; simp⟩ h2
  have i3 := foldlM_ok (F := F) GripperT.simJoint
    (fun done st => st.1.passive.length = (x.all "passive_joint").length ∧
      (st.1.hasPassive = true ↔ ∃ j ∈ done, (j.attr "passive_actuated_joint").isSome) ∧
      st.2.length = (x.all "gap_joint").length + (x.all "passive_joint").length + done.length +
        (done.filter (fun j => (j.attr "passive_actuated_joint").isSome)).length)
    (by
      rintro done c ⟨t1, ns⟩ ⟨t2, ns'⟩ s s' ⟨i1, i2, i3⟩ hs
      unfold GripperT.simJoint at hs
      simp only [bind_ok, need_ok] at hs
      obtain ⟨_, _, _, _, _, _, _, _, _, hs⟩ := hs
      simp only at i1 i2 i3
      rcases hn : c.attr "passive_actuated_joint" with _ | p
      · rw [hn] at hs
        obtain ⟨_, e⟩ := pure_ok.1 hs
        cases e
        refine ⟨i1, ?_, ?_⟩
        · simp only [i2, List.mem_append, List.mem_singleton, or_and_right, exists_or]
          simp [hn]
        · simp only [List.filter_append, List.length_append, i3]
          simp [hn]; omega
      · rw [hn] at hs
        obtain ⟨_, e⟩ := pure_ok.1 hs
        cases e
        refine ⟨i1, ?_, ?_⟩
        · simp only [List.mem_append, List.mem_singleton, or_and_right, exists_or]
          simp [hn]
        · simp only [List.filter_append, List.length_append, i3]
          simp [hn]; omega)
    _ [] _ _ _ _ ⟨i2.2.1, by simp [i2.1], by rw [i2.2.2]; simp⟩ h3
  simpa using i3

theorem gripper_ok (t : GripperT F) (x : Xml) (joint : String → Option (UJoint F)) (s s' : List (Actuator F)) (r : Trans F)
    (h : t.initXml x joint s = (s', .ok r)) : InitOk joint s' r ∧
    (t.hasPassive = false → t.passive = [] → (x.all "gap_joint").length = 1 → (x.all "simulated_actuated_joint").length = 1 →
      r.body.Wants r.actNames.length r.jointNames.length) := by
  unfold GripperT.initXml at h
  simp only [bind_ok, pure_ok] at h
  obtain ⟨s1, g, hg, s2, _, he, s3, u, hj, rfl, rfl⟩ := h
  have he := enable_ok he
  have f3 : EnableOnly s2 s' := by
    have := (tame_forM (F := F) (fun n => do let _ ← need (joint n); pure ()) (fun n => by tame) g.2.2).frame s2
    rw [hj] at this
    exact this
  refine ⟨⟨?_, ?_⟩, ?_⟩
  · intro n hn
    rw [List.mem_singleton.1 hn]
    exact f3.enabled he
  · exact forM_ok (F := F) _ (fun n => ∃ j, joint n = some j) (fun c s s' u hc => by
      simp only [bind_ok, need_ok] at hc
      obtain ⟨_, j, ⟨_, hj⟩, _⟩ := hc
      exact ⟨j, hj⟩) _ _ _ _ hj
  · intro hp hq hgap hsim
    obtain ⟨c1, c2, c3⟩ := gripper_counts t x s s1 g hg hp hq
    refine ⟨rfl, ?_⟩
    change g.2.2.length = _
    rw [c3, c1, hgap, hsim]
    obtain ⟨j, hj⟩ := List.length_eq_one_iff.1 hsim
    rw [hj] at c2 ⊢
    by_cases hs : (j.attr "passive_actuated_joint").isSome
    · rw [c2.2 ⟨j, by simp, hs⟩]
      simp [hs]
    · have : g.2.1.hasPassive = false := by
        rw [← Bool.not_eq_true, c2]; rintro ⟨k, hk, hk'⟩
        rw [List.mem_singleton.1 hk] at hk'; exact hs hk'
      rw [this]
      simp [hs]

theorem belt_ok (t : BeltT F) (x : Xml) (joint : String → Option (UJoint F)) (s s' : List (Actuator F)) (r : Trans F)
    (h : t.initXml x joint s = (s', .ok r)) : InitOk joint s' r ∧ r.body.Wants r.actNames.length r.jointNames.length := by
  unfold BeltT.initXml at h
  simp only [bind_ok, need_ok, deref_ok, pure_ok] at h
  obtain ⟨_, jn, ⟨rfl, _⟩, _, uj, ⟨rfl, huj⟩, _, ael, ⟨rfl, _⟩, _, an, ⟨rfl, _⟩, s1, u, hen, _, _, ⟨rfl, _⟩, _, _, ⟨rfl, _⟩,
    _, _, ⟨rfl, _⟩, _, _, ⟨rfl, _⟩, _, _, ⟨rfl, _⟩, _, _, ⟨rfl, _⟩, _, _, ⟨rfl, _⟩, _, _, ⟨rfl, _⟩, _, _, ⟨rfl, _⟩, rfl, rfl⟩ := h
  refine ⟨⟨?_, ?_⟩, rfl, rfl⟩
  · intro n hn
    rw [List.mem_singleton.1 hn]
    exact enable_ok hen
  · intro n hn
    rw [List.mem_singleton.1 hn]
    exact ⟨uj, huj⟩

theorem body_ok (b : Body F) (x : Xml) (joint : String → Option (UJoint F)) (s s' : List (Actuator F)) (r : Trans F)
    (h : b.initXml x joint s = (s', .ok r)) : InitOk joint s' r ∧
    (b.Constructed → b.WellDescribed x → r.body.Wants r.actNames.length r.jointNames.length) := by
  cases b with
  | simple t => obtain ⟨h1, h2⟩ := simple_ok t x joint s s' r h; exact ⟨h1, fun c w => h2 c w⟩
  | wrist t => obtain ⟨h1, h2⟩ := wrist_ok t x joint s s' r h; exact ⟨h1, fun _ _ => h2⟩
  | gripper t => obtain ⟨h1, h2⟩ := gripper_ok t x joint s s' r h; exact ⟨h1, fun c w => h2 c.1 c.2 w.1 w.2⟩
  | belt t => obtain ⟨h1, h2⟩ := belt_ok t x joint s s' r h; exact ⟨h1, fun _ _ => h2⟩

theorem InitOk.mono {joint : String → Option (UJoint F)} {s s' : List (Actuator F)} {t : Trans F} (h : InitOk joint s t) (e : EnableOnly s s') :
    InitOk joint s' t := ⟨fun n hn => e.enabled (h.enabled n hn), h.joints⟩

/-- The objects made by the plugin loader are as their constructors leave them, and the descriptions satisfy `Body.WellDescribed`. -/
def TransLoader.WellDescribed (l : TransLoader F) (xs : List Xml) : Prop :=
  ∀ k x ty cls b, xs[k]? = some x → x.HasType ty → (∃ rest, ty = "pr2" ++ rest) → l.Picks ty cls → l.create k cls = some b → b.Constructed ∧ b.WellDescribed x

theorem transType_ok {x : Xml} {s s' : List (Actuator F)} {ty : String} (h : x.transType s = (s', .ok (some ty))) : x.HasType ty := by
  unfold Xml.transType at h
  cases ha : x.attr "type" with
  | some t =>
    rw [ha] at h
    obtain ⟨_, e⟩ := pure_ok.1 h
    cases e; exact Or.inl ha
  | none =>
    rw [ha] at h
    cases hf : x.first "type" with
    | none => rw [hf] at h; obtain ⟨_, e⟩ := pure_ok.1 h; cases e
    | some el =>
      rw [hf] at h
      obtain ⟨s1, t, h1, h2⟩ := bind_ok.1 h
      obtain ⟨_, e⟩ := pure_ok.1 h2
      cases e
      unfold deref at h1
      cases ht : el.text with
      | none => rw [ht] at h1; cases h1
      | some t' => rw [ht] at h1; cases h1; exact Or.inr ⟨ha, el, hf, ht⟩

theorem element_ok (l : TransLoader F) (joint : String → Option (UJoint F)) (k : Nat) (x : Xml) (s s' : List (Actuator F)) (t : Trans F)
    (h : robotElement l joint k x s = (s', .ok (some t))) : InitOk joint s' t ∧
    ((∀ ty cls b, x.HasType ty → (∃ rest, ty = "pr2" ++ rest) → l.Picks ty cls → l.create k cls = some b → b.Constructed ∧ b.WellDescribed x) → t.body.Wants t.actNames.length t.jointNames.length) := by
  unfold robotElement at h
  obtain ⟨s1, ty, hty, h⟩ := bind_ok.1 h
  rcases ty with _ | ty
  · obtain ⟨_, e⟩ := pure_ok.1 h; cases e
  · dsimp only at h
    by_cases hp : ty.toList.take 3 = "pr2".toList
    · rw [if_pos hp] at h
      rcases hc : l.create k (l.resolve ty) with _ | b
      · rw [hc] at h
        obtain ⟨_, e⟩ := pure_ok.1 h; cases e
      · rw [hc] at h
        dsimp only at h
        unfold attempt at h
        rcases hb : b.initXml x joint s1 with ⟨s2, _ | _ | t'⟩ <;> rw [hb] at h
        · cases h
        · cases h
        · cases h
          obtain ⟨h1, h2⟩ := body_ok b x joint s1 s' t hb
          have hw' := fun hw : (∀ ty cls b, x.HasType ty → (∃ rest, ty = "pr2" ++ rest) → l.Picks ty cls → l.create k cls = some b → b.Constructed ∧ b.WellDescribed x) =>
            hw ty _ b (transType_ok hty) ((take_pr2 ty).1 hp) ((picks_iff l ty _).2 rfl) hc
          exact ⟨h1, fun hw => h2 (hw' hw).1 (hw' hw).2⟩
    · rw [if_neg hp] at h
      obtain ⟨_, e⟩ := pure_ok.1 h; cases e

theorem loop_ok (l : TransLoader F) (joint : String → Option (UJoint F)) (xs : List Xml) (k : Nat) (s s' : List (Actuator F)) (ts : List (Trans F))
    (h : robotLoop l joint k xs s = (s', .ok ts)) : ∀ t ∈ ts, InitOk joint s' t ∧
    ((∀ i x ty cls b, xs[i]? = some x → x.HasType ty → (∃ rest, ty = "pr2" ++ rest) → l.Picks ty cls → l.create (k + i) cls = some b → b.Constructed ∧ b.WellDescribed x) →
      t.body.Wants t.actNames.length t.jointNames.length) := by
  induction xs generalizing k s ts with
  | nil =>
    obtain ⟨_, rfl⟩ := pure_ok.1 h
    simp
  | cons x xs ih =>
    obtain ⟨s1, r, h1, h⟩ := bind_ok.1 h
    obtain ⟨s2, rs, h2, h⟩ := bind_ok.1 h
    obtain ⟨rfl, rfl⟩ := pure_ok.1 h
    intro t ht
    rcases List.mem_append.1 ht with ht | ht
    · cases r with
      | none => simp at ht
      | some t' =>
        have : t = t' := by simpa using ht
        subst this
        obtain ⟨h3, h4⟩ := element_ok l joint k x s s1 t h1
        have fr := (loop_tame l joint (k + 1) xs).frame s1
        rw [h2] at fr
        exact ⟨h3.mono fr, fun hw => h4 (fun ty cls b ht hp hc hb => hw 0 x ty cls b rfl ht hp hc hb)⟩
    · obtain ⟨h3, h4⟩ := ih (k + 1) s1 rs h2 t ht
      refine ⟨h3, fun hw => h4 (fun i y ty cls b hi ht hp hc hb => hw (i + 1) y ty cls b (by simpa using hi) ht hp hc ?_)⟩
      rw [show k + (i + 1) = k + 1 + i by omega]; exact hb

theorem init_run {l : TransLoader F} {urdf : Xml → Option (String → Option (UJoint F))} {root : Xml} {acts acts' : List (Actuator F)} {hw : Bool}
    {ts : List (Trans F)} (h : Robot.initXml hw urdf l root acts = (acts', .ok ts)) :
    ∃ joint, urdf root = some joint ∧ robotLoop l joint 0 (root.all "transmission") acts = (acts', .ok ts) := by
  unfold Robot.initXml at h
  obtain ⟨s1, u, h1, h'⟩ := bind_ok.1 h
  obtain ⟨s2, joint, h2, h3⟩ := bind_ok.1 h'
  obtain ⟨rfl, _⟩ := need_ok.1 h1
  obtain ⟨rfl, hj⟩ := need_ok.1 h2
  exact ⟨joint, hj, h3⟩

/-- **C48.**  After initialisation every actuator named by a kept transmission exists and is enabled; nothing else about the actuators has changed. -/
theorem C48_initially_enabled (l : TransLoader F) (urdf : Xml → Option (String → Option (UJoint F))) (root : Xml) (acts acts' : List (Actuator F)) (hw : Bool)
    (ts : List (Trans F)) (h : Robot.initXml hw urdf l root acts = (acts', .ok ts)) :
    EnableOnly acts acts' ∧ ∀ t ∈ ts, ∀ n ∈ t.actNames, EnabledAct acts' n := by
  obtain ⟨joint, _, h⟩ := init_run h
  constructor
  · have := (loop_tame l joint 0 (root.all "transmission")).frame acts
    rw [h] at this
    exact this
  · intro t ht
    exact (loop_ok l joint _ 0 acts acts' ts h t ht).1.enabled

/-! ## C65 -/

/-- The parts of a transmission element which the code uses without checking that they are there. -/
def Body.Complete : Body F → Xml → Prop
  | .simple _, x => ∀ a, x.first "actuator" = some a →
      ∃ m, (a.first "mechanicalReduction" = some m ∨ (a.first "mechanicalReduction" = none ∧ x.first "mechanicalReduction" = some m)) ∧ m.text.isSome
  | .wrist _, x => (x.first "flexJoint").isSome ∧ (x.first "rollJoint").isSome
  | .gripper _, _ => True
  | .belt _, x => ∃ m, x.first "mechanicalReduction" = some m ∧ m.text.isSome

theorem wristActuator_crash (x : Xml) (tag : String) (s : List (Actuator F)) : (wristActuator x tag s : _ × InitR (String × F)).2 ≠ .crash := by
  unfold wristActuator
  simp only [ne_eq, bind_crash, need_crash, enable_crash, pure_crash]
  simp

theorem wristJoint_crash (x : Xml) (tag : String) (joint : String → Option (UJoint F)) (s : List (Actuator F)) (h : (x.first tag).isSome) :
    (wristJoint x tag joint s : _ × InitR (String × F × F)).2 ≠ .crash := by
  have ho : ∀ (j : Xml) s, ((wristOffset j : Init F F) s).2 ≠ .crash := by
    intro j s
    unfold wristOffset
    cases j.attr "offset"
    · exact fun h => pure_crash.1 h
    · exact fun h => need_crash.1 h
  unfold wristJoint
  simp only [ne_eq, bind_crash, need_crash, deref_crash, pure_crash]
  intro hc
  rcases hc with hc | ⟨_, _, _, hc | ⟨_, _, _, hc | ⟨_, _, _, hc | ⟨_, _, _, hc | ⟨_, _, _, hc⟩⟩⟩⟩⟩
  · rw [hc] at h; simp at h
  · exact hc
  · exact hc
  · exact hc
  · exact ho _ _ hc
  · exact hc

/-- **C65.**  A transmission's initialisation crashes only if one of the parts used without check is missing. -/
theorem C65_complete_never_crashes (b : Body F) (x : Xml) (joint : String → Option (UJoint F)) (acts : List (Actuator F)) (h : b.Complete x) :
    (b.initXml x joint acts).2 ≠ .crash := by
  cases b with
  | simple t =>
    change (t.initXml x joint acts).2 ≠ .crash
    unfold SimpleT.initXml
    simp only [ne_eq, bind_crash, need_crash, enable_crash, pure_crash, need_ok, false_or, or_false]
    rintro ⟨_, _, _, _, _, _, _, ael, ⟨_, ha⟩, _, _, _, _, _, _, hc | ⟨s1, red, hr, hc⟩⟩
    · obtain ⟨m, hm, hmt⟩ := h ael ha
      unfold simpleReduction at hc
      rcases hm with hm | ⟨hm, hm'⟩
      · rw [hm] at hc
        dsimp only at hc
        rw [deref_crash] at hc; rw [hc] at hmt; simp at hmt
      · rw [hm, hm'] at hc
        dsimp only at hc
        rcases bind_crash.1 hc with hc | ⟨_, m', h1, hc⟩
        · rw [deref_crash] at hc; cases hc
        · obtain ⟨_, e⟩ := deref_ok.1 h1; cases e
          rw [deref_crash] at hc; rw [hc] at hmt; simp at hmt
    · simp only [and_false, exists_false, or_false] at hc
      refine foldlM_crash _ (fun b c s => ?_) _ _ _ hc
      unfold SimpleT.simJoint
      rcases c.attr "name" with _ | n
      · exact fun h => pure_crash.1 h
      · dsimp only
        rcases joint n with _ | uj
        · exact fun h => pure_crash.1 h
        · dsimp only
          simp only [ne_eq, bind_crash, need_crash, pure_crash]
          simp
  | wrist t =>
    change (t.initXml x joint acts).2 ≠ .crash
    unfold WristT.initXml
    simp only [ne_eq, bind_crash, pure_crash]
    rintro (hc | ⟨_, _, _, hc | ⟨_, _, _, hc | ⟨_, _, _, hc | ⟨_, _, _, hc⟩⟩⟩⟩)
    · exact wristActuator_crash _ _ _ hc
    · exact wristActuator_crash _ _ _ hc
    · exact wristJoint_crash _ _ _ _ h.1 hc
    · exact wristJoint_crash _ _ _ _ h.2 hc
    · exact hc
  | gripper t =>
    change (t.initXml x joint acts).2 ≠ .crash
    have hk : ∀ (j : Xml) (n : String) (d : F) s, ((gripperCoeff j n d : Init F F) s).2 = .crash ↔ False := by
      intro j n d s
      unfold gripperCoeff
      rcases j.attr n with _ | v
      · exact pure_crash
      · exact need_crash
    have h1 : ∀ b c s, ((GripperT.gapJoint b c : Init F (GripperT F × List String)) s).2 ≠ .crash := by
      intro b c s
      unfold GripperT.gapJoint
      simp only [ne_eq, bind_crash, need_crash, hk, pure_crash]
      simp
    have h2 : ∀ b c s, ((GripperT.passiveJoint b c : Init F (GripperT F × List String)) s).2 ≠ .crash := by
      intro b c s
      unfold GripperT.passiveJoint
      simp only [ne_eq, bind_crash, need_crash, pure_crash]
      simp
    have h3 : ∀ b c s, ((GripperT.simJoint b c : Init F (GripperT F × List String)) s).2 ≠ .crash := by
      intro b c s
      unfold GripperT.simJoint
      simp only [ne_eq, bind_crash, need_crash]
      rcases c.attr "passive_actuated_joint" with _ | v
      · simp only [pure_crash]; simp
      · simp only [pure_crash]; simp
    have h4 : ∀ (l : List String) s, ((l.forM (fun n => do let _ ← need (joint n); pure ()) : Init F Unit) s).2 ≠ .crash := by
      intro l s
      refine forM_crash _ (fun n s => ?_) l s
      simp only [ne_eq, bind_crash, need_crash, pure_crash]
      simp
    unfold GripperT.initXml GripperT.initXml1
    simp only [ne_eq, bind_crash, need_crash, enable_crash, pure_crash, false_or, and_false, exists_false, or_false]
    rintro (⟨_, _, _, _, _, _, hc | ⟨_, _, _, hc | ⟨_, _, _, hc⟩⟩⟩ | ⟨_, _, _, _, _, _, hc⟩)
    · exact foldlM_crash _ h1 _ _ _ hc
    · exact foldlM_crash _ h2 _ _ _ hc
    · exact foldlM_crash _ h3 _ _ _ hc
    · exact h4 _ _ hc
  | belt t =>
    obtain ⟨m, hm, hmt⟩ := h
    change (t.initXml x joint acts).2 ≠ .crash
    unfold BeltT.initXml
    simp only [ne_eq, bind_crash, need_crash, enable_crash, deref_crash, deref_ok, pure_crash, hm]
    rintro hc
    simp only [false_or, or_false, and_false, exists_false, reduceCtorEq, Option.some.injEq, ↓existsAndEq, and_true] at hc
    have ht : ∀ o : Option String, o.isSome = true → o ≠ none := by intro o h; cases o <;> simp_all
    simp only [ht _ hmt, and_false, exists_false] at hc

/-! ## Concrete robots -/

/-- A simple transmission between joint `j` and motor `m`. -/
def demoElement (type j : String) (kids : List Xml) : Xml :=
  .node "transmission" [("type", type), ("name", "t")] none
    ([.node "joint" [("name", j)] none [], .node "actuator" [("name", "m")] none []] ++ kids)

/-- A loader which knows only simple transmissions. -/
def demoLoader (t : SimpleT F) : TransLoader F where
  available ty := ty == "pr2_mechanism_model/SimpleTransmission"
  classes := ["pr2_mechanism_model/SimpleTransmission"]
  getName _ := "pr2_simple"
  create _ ty := if ty = "pr2_mechanism_model/SimpleTransmission" then some (.simple t) else none

/-- A description with one joint. -/
def demoUrdf (u : UJoint F) : Xml → Option (String → Option (UJoint F)) := fun _ => some (fun n => if n = "elbow" then some u else none)

/-- Four elements: an unknown joint, a foreign type, a good one with the deprecated type name, an unknown plugin. -/
def demoRoot : Xml := .node "robot" [] none
  [demoElement "pr2_mechanism_model/SimpleTransmission" "knee" [.node "mechanicalReduction" [] (some "2") []],
   demoElement "other" "elbow" [],
   demoElement "pr2_simple" "elbow" [.node "mechanicalReduction" [] (some "2") []],
   demoElement "pr2_unknown" "elbow" []]

/-- C49, C48, C65: the good element survives, the others do not matter. -/
example (t : SimpleT F) (u : UJoint F) (a : Actuator F) (hn : a.name = "m") :
    Robot.initXml true (demoUrdf u) (demoLoader t) demoRoot [a] =
      ([{ a with enable := true }], .ok [⟨"t", ["m"], ["elbow"], .simple { t with reduction := Parse.atof "2" }⟩]) := by
  cases a; subst hn; rfl

/-- **C65.**  The whole robot: if every transmission element whose type is given by a `type` child has text in it, and every element that a plugin is created for has the
parts its kind requires, then loading the robot does not crash, whatever else is in the description. -/
theorem C65_robot_never_crashes (l : TransLoader F) (urdf : Xml → Option (String → Option (UJoint F))) (root : Xml) (acts : List (Actuator F)) (hw : Bool)
    (h1 : ∀ x ∈ root.childrenTagged "transmission", x.attr "type" = none → ∀ e, x.first "type" = some e → e.text ≠ none)
    (h2 : ∀ k x ty cls b, (root.childrenTagged "transmission")[k]? = some x → x.HasType ty → (∃ rest, ty = "pr2" ++ rest) → l.Picks ty cls →
      l.create k cls = some b → b.Complete x) :
    (Robot.initXml hw urdf l root acts).2 ≠ .crash := by
  cases hu : urdf root with
  | none => rw [C49_rejects l urdf root acts hw (Or.inr hu)]; intro h; cases h
  | some joint =>
    cases hw with
    | false => rw [C49_rejects l urdf root acts false (Or.inl rfl)]; intro h; cases h
    | true =>
      intro h
      obtain ⟨k, x, hx, hc⟩ := ((C49_never_fails l urdf root acts joint hu).2).1 h
      rcases hc with ⟨ha, e, he, ht⟩ | ⟨ty, cls, b, ht, h2', hp, hb, hcr⟩
      · exact h1 x (List.mem_of_getElem? hx) ha e he ht
      · exact C65_complete_never_crashes b x joint acts (h2 k x ty cls b hx ht h2' hp hb) hcr

/-- C65: without a mechanical reduction the process crashes. -/
theorem C65_crash_counterexample (t : SimpleT F) (u : UJoint F) (a : Actuator F) (hn : a.name = "m") :
    ((Body.simple t).initXml (demoElement "pr2_simple" "elbow" []) (fun n => if n = "elbow" then some u else none) [a]).2 = .crash := by
  cases a; subst hn; rfl

/-- C65: the example satisfies the hypothesis. -/
example (t : SimpleT F) : (Body.simple t).Complete (demoElement "pr2_simple" "elbow" [.node "mechanicalReduction" [] (some "2") []]) := by
  intro a ha
  refine ⟨.node "mechanicalReduction" [] (some "2") [], ?_, rfl⟩
  cases ha
  exact Or.inr ⟨rfl, rfl⟩

/-- `C65_robot_never_crashes`: the demo description satisfies the hypotheses. -/
example (t : SimpleT F) (u : UJoint F) (acts : List (Actuator F)) : (Robot.initXml true (demoUrdf u) (demoLoader t) demoRoot acts).2 ≠ .crash := by
  have hc : ∀ x ∈ demoRoot.childrenTagged "transmission", (x.first "mechanicalReduction").isSome = true →
      ∃ m, x.first "mechanicalReduction" = some m ∧ m.text.isSome ∧ ∀ a, x.first "actuator" = some a → a.first "mechanicalReduction" = none := by
    intro x hx
    have : x ∈ [demoElement "pr2_mechanism_model/SimpleTransmission" "knee" [.node "mechanicalReduction" [] (some "2") []],
      demoElement "other" "elbow" [], demoElement "pr2_simple" "elbow" [.node "mechanicalReduction" [] (some "2") []], demoElement "pr2_unknown" "elbow" []] := hx
    simp only [List.mem_cons, List.not_mem_nil, or_false] at this
    rcases this with rfl | rfl | rfl | rfl
    · intro _; exact ⟨_, rfl, rfl, by intro a ha; cases ha; rfl⟩
    · intro h; cases h
    · intro _; exact ⟨_, rfl, rfl, by intro a ha; cases ha; rfl⟩
    · intro h; cases h
  apply C65_robot_never_crashes
  · intro x hx ha
    have : x ∈ [demoElement "pr2_mechanism_model/SimpleTransmission" "knee" [.node "mechanicalReduction" [] (some "2") []],
      demoElement "other" "elbow" [], demoElement "pr2_simple" "elbow" [.node "mechanicalReduction" [] (some "2") []], demoElement "pr2_unknown" "elbow" []] := hx
    simp only [List.mem_cons, List.not_mem_nil, or_false] at this
    rcases this with rfl | rfl | rfl | rfl <;> cases ha
  · intro k x ty cls b hx ht hp hpick hb
    obtain ⟨rfl, rfl⟩ : cls = "pr2_mechanism_model/SimpleTransmission" ∧ b = .simple t := by
      change (if cls = "pr2_mechanism_model/SimpleTransmission" then some (Body.simple t) else none) = some b at hb
      split at hb
      · cases hb; exact ⟨‹_›, rfl⟩
      · cases hb
    intro a ha
    have hm : (x.first "mechanicalReduction").isSome = true := by
      have hmem : x ∈ [demoElement "pr2_mechanism_model/SimpleTransmission" "knee" [.node "mechanicalReduction" [] (some "2") []],
        demoElement "other" "elbow" [], demoElement "pr2_simple" "elbow" [.node "mechanicalReduction" [] (some "2") []], demoElement "pr2_unknown" "elbow" []] :=
        List.mem_of_getElem? hx
      rw [picks_iff] at hpick
      have hty : ∀ s, x.attr "type" = some s → ty = s := by
        intro s hs
        unfold Xml.HasType at ht
        rw [hs] at ht
        simpa [eq_comm] using ht
      simp only [List.mem_cons, List.not_mem_nil, or_false] at hmem
      rcases hmem with rfl | rfl | rfl | rfl
      · rfl
      · cases hty "other" rfl; exact absurd (hpick.trans (show (demoLoader t).resolve "other" = "other" from rfl)) (by decide)
      · rfl
      · cases hty "pr2_unknown" rfl; exact absurd (hpick.trans (show (demoLoader t).resolve "pr2_unknown" = "pr2_unknown" from rfl)) (by decide)
    obtain ⟨m, h1, h2, h3⟩ := hc x (List.mem_of_getElem? hx) hm
    exact ⟨m, Or.inr ⟨h3 a ha, h1⟩, h2⟩

end
end Pr2
