import Verif.Props.Order
import Verif.Props.Robot

/-!
# C123 from the description: transmission elements in another order

`Robot::initXml` (robot.cpp:51-119) on two descriptions whose transmission elements are the same but for the order: the same motors are enabled, and the robots have
the same transmissions, in another order.
-/

namespace Pr2
open Init
set_option linter.unusedVariables false
set_option linter.unusedSectionVars false

/-- The motors with the marked numbers are enabled. -/
def markActs {F : Type} (I : Nat → Bool) (s : List (Actuator F)) : List (Actuator F) := s.mapIdx fun i a => if I i then { a with enable := true } else a

/-- What is enabled depends on the motors' names only. -/
structure Marks {F α : Type} (m : Init F α) : Prop where
  tame : Tame m
  marks : ∀ s : List (Actuator F), ∃ I : Nat → Bool, ∀ s' : List (Actuator F), s'.map (·.name) = s.map (·.name) → (m s').1 = markActs I s'

section
variable {F α β : Type}

theorem mark_none (s : List (Actuator F)) : markActs (fun _ => false) s = s := by
  unfold markActs
  apply List.ext_getElem?
  intro i
  simp

theorem mark_or (I J : Nat → Bool) (s : List (Actuator F)) : markActs J (markActs I s) = markActs (fun i => I i || J i) s := by
  unfold markActs
  apply List.ext_getElem?
  intro i
  simp only [List.getElem?_mapIdx, Option.map_map]
  cases s[i]? with
  | none => rfl
  | some a => by_cases hi : I i = true <;> by_cases hj : J i = true <;> simp [hi, hj]

theorem mark_names (I : Nat → Bool) (s : List (Actuator F)) : (markActs I s).map (·.name) = s.map (·.name) := by
  unfold markActs
  apply List.ext_getElem?
  intro i
  simp only [List.getElem?_map, List.getElem?_mapIdx, Option.map_map]
  cases s[i]? with
  | none => rfl
  | some a => by_cases hi : I i = true <;> simp [hi]

theorem mark_one (k : Nat) (s : List (Actuator F)) : s.modify k (fun a => { a with enable := true }) = markActs (fun i => k == i) s := by
  unfold markActs
  apply List.ext_getElem?
  intro i
  rw [List.getElem?_modify, List.getElem?_mapIdx]
  cases s[i]? with
  | none => rfl
  | some a => by_cases h : k = i <;> simp [h]

theorem marks_quiet {m : Init F α} (h : Tame m) (h' : ∀ s, (m s).1 = s) : Marks m :=
  ⟨h, fun s => ⟨fun _ => false, fun s' _ => by rw [mark_none, h']⟩⟩

theorem marks_pure (a : α) : Marks (pure a : Init F α) := marks_quiet (tame_pure a) fun _ => rfl
theorem marks_need (o : Option α) : Marks (need o : Init F α) := marks_quiet (tame_need o) (by cases o <;> exact fun _ => rfl)
theorem marks_deref (o : Option α) : Marks (deref o : Init F α) := marks_quiet (tame_deref o) (by cases o <;> exact fun _ => rfl)

theorem marks_enable (n : String) : Marks (enable n : Init F Unit) := by
  refine ⟨tame_enable n, fun s => ?_⟩
  unfold enable
  cases hf : s.findIdx? (fun a => a.name == n) with
  | none =>
    refine ⟨fun _ => false, fun s' h => ?_⟩
    rw [findIdx_names s' s n h, hf, mark_none]
  | some k =>
    refine ⟨fun i => k == i, fun s' h => ?_⟩
    rw [findIdx_names s' s n h, hf]
    exact mark_one k s'

theorem Marks.bind {m : Init F α} {f : α → Init F β} (hm : Marks m) (hf : ∀ a, Marks (f a)) : Marks (m >>= f) := by
  refine ⟨hm.tame.bind fun a => (hf a).tame, fun s => ?_⟩
  obtain ⟨I, hI⟩ := hm.marks s
  rcases hms : (m s).2 with _ | _ | a
  · refine ⟨I, fun s' h => ?_⟩
    have h2 := hm.tame.indep s' s h
    have h1 := hI s' h
    rw [bind_def]
    rcases hr : m s' with ⟨t, r⟩
    rw [hr] at h1 h2
    dsimp only at h1 h2 ⊢
    rw [h2, hms]
    exact h1
  · refine ⟨I, fun s' h => ?_⟩
    have h2 := hm.tame.indep s' s h
    have h1 := hI s' h
    rw [bind_def]
    rcases hr : m s' with ⟨t, r⟩
    rw [hr] at h1 h2
    dsimp only at h1 h2 ⊢
    rw [h2, hms]
    exact h1
  · obtain ⟨J, hJ⟩ := (hf a).marks s
    refine ⟨fun i => I i || J i, fun s' h => ?_⟩
    have h2 := hm.tame.indep s' s h
    have h1 := hI s' h
    rw [bind_def]
    rcases hr : m s' with ⟨t, r⟩
    rw [hr] at h1 h2
    dsimp only at h1 h2 ⊢
    rw [h2, hms]
    dsimp only
    rw [h1, hJ _ (by rw [mark_names, h]), mark_or]

theorem marks_attempt {m : Init F α} (hm : Marks m) : Marks (attempt m) := by
  refine ⟨tame_attempt hm.tame, fun s => ?_⟩
  obtain ⟨I, hI⟩ := hm.marks s
  refine ⟨I, fun s' h => ?_⟩
  rw [← hI s' h]
  unfold attempt
  rcases m s' with ⟨t, _ | _ | a⟩ <;> rfl

theorem marks_foldlM {γ : Type} (f : β → γ → Init F β) (hf : ∀ b c, Marks (f b c)) (l : List γ) (b : β) : Marks (l.foldlM f b) := by
  induction l generalizing b with
  | nil => exact marks_pure b
  | cons c l ih => rw [List.foldlM_cons]; exact (hf b c).bind (fun b => ih b)

theorem marks_forM {γ : Type} (f : γ → Init F Unit) (hf : ∀ c, Marks (f c)) (l : List γ) : Marks (l.forM f) := by
  induction l with
  | nil => exact marks_pure _
  | cons c l ih => exact (hf c).bind (fun _ => ih)

end

macro "marks" : tactic => `(tactic| repeat' first
  | exact marks_pure _ | exact marks_need _ | exact marks_deref _ | exact marks_enable _ | assumption
  | (refine Marks.bind ?_ (fun _ => ?_)) | (refine marks_foldlM _ (fun _ _ => ?_) _ _) | (refine marks_forM _ (fun _ => ?_) _) | split)

section
variable {F : Type} [FCmp F] [Zero F] [Add F] [Sub F] [Mul F] [iDiv : Div F] [Neg F] [FLit F] [iTrig : FTrig F] [Parse F]

theorem body_marks (b : Body F) (x : Xml) (joint : String → Option (UJoint F)) : Marks (b.initXml x joint) := by
  have h1 : ∀ t : SimpleT F, Marks (t.initXml x joint) := fun t => by unfold SimpleT.initXml SimpleT.simJoint simpleReduction; marks
  have h2 : ∀ t : WristT F, Marks (t.initXml x joint) := fun t => by unfold WristT.initXml wristJoint wristActuator wristOffset; marks
  have h3 : ∀ t : GripperT F, Marks (t.initXml x joint) := fun t => by
    unfold GripperT.initXml GripperT.initXml1 GripperT.gapJoint GripperT.passiveJoint GripperT.simJoint gripperCoeff; marks
  have h4 : ∀ t : BeltT F, Marks (t.initXml x joint) := fun t => by unfold BeltT.initXml; marks
  cases b
  · exact h1 _
  · exact h2 _
  · exact h3 _
  · exact h4 _

theorem element_marks (l : TransLoader F) (joint : String → Option (UJoint F)) (k : Nat) (x : Xml) : Marks (robotElement l joint k x) := by
  unfold robotElement
  refine Marks.bind (by unfold Xml.transType; marks) (fun ty => ?_)
  split
  · exact marks_pure _
  · split
    · split
      · exact marks_pure _
      · exact marks_attempt (body_marks _ _ _)
    · exact marks_pure _

/-- What an element contributes. -/
def contribution (l : TransLoader F) (joint : String → Option (UJoint F)) (acts : List (Actuator F)) (x : Xml) : Option (Trans F) :=
  match (robotElement l joint 0 x acts).2 with
  | .ok r => r
  | _ => none

/-- The loop, when the objects made do not depend on the position. -/
theorem loop_run (l : TransLoader F) (hl : ∀ k k' c, l.create k c = l.create k' c) (joint : String → Option (UJoint F)) (acts : List (Actuator F)) (I : Xml → Nat → Bool)
    (hI : ∀ x s, s.map (·.name) = acts.map (·.name) → (robotElement l joint 0 x s).1 = markActs (I x) s) (xs : List Xml) (k : Nat) (s : List (Actuator F))
    (hs : s.map (·.name) = acts.map (·.name)) :
    ((∃ x ∈ xs, (robotElement l joint 0 x acts).2 = .crash) ∧ (robotLoop l joint k xs s).2 = .crash) ∨
    ((∀ x ∈ xs, (robotElement l joint 0 x acts).2 ≠ .crash) ∧
      robotLoop l joint k xs s = (markActs (fun i => xs.any fun x => I x i) s, .ok (xs.filterMap (contribution l joint acts)))) := by
  have hk : ∀ k x, robotElement l joint k x = robotElement l joint 0 x := by
    intro k x
    unfold robotElement
    congr 1
    funext ty
    cases ty with
    | none => rfl
    | some ty => dsimp only; rw [hl k 0]
  induction xs generalizing k s with
  | nil =>
    right
    refine ⟨fun x hx => (by cases hx), ?_⟩
    rw [show (fun i => ([] : List Xml).any fun x => I x i) = fun _ => false from rfl, mark_none]
    rfl
  | cons x xs ih =>
    have run : robotLoop l joint k (x :: xs) s = (robotElement l joint k x >>= fun r => robotLoop l joint (k + 1) xs >>= fun rs => pure (r.toList ++ rs)) s := rfl
    have h1 := (element_marks l joint 0 x).tame.indep s acts hs
    have h2 := hI x s hs
    have h3 : (robotElement l joint 0 x acts).2 ≠ .fail := (element_cases l joint 0 x acts).2.1
    rw [run, bind_def, hk]
    rcases hx : robotElement l joint 0 x s with ⟨t, _ | _ | r⟩
    · rw [hx] at h1
      exact Or.inl ⟨⟨x, by simp, h1.symm⟩, rfl⟩
    · rw [hx] at h1; exact absurd h1.symm h3
    · rw [hx] at h1 h2
      dsimp only at h1 h2 ⊢
      have hc : contribution l joint acts x = r := by unfold contribution; rw [← h1]
      have hne : (robotElement l joint 0 x acts).2 ≠ .crash := by rw [← h1]; simp
      rw [bind_def]
      rcases ih (k + 1) t (by rw [h2, mark_names, hs]) with ⟨⟨y, hy, hyc⟩, h⟩ | ⟨h, h'⟩
      · refine Or.inl ⟨⟨y, by simp [hy], hyc⟩, ?_⟩
        rcases hr : robotLoop l joint (k + 1) xs t with ⟨u, r'⟩
        rw [hr] at h
        dsimp only at h
        rw [h]
      · right
        refine ⟨fun y hy => ?_, ?_⟩
        · rcases List.mem_cons.1 hy with rfl | hy
          · exact hne
          · exact h y hy
        · rw [h']
          dsimp only
          rw [h2, mark_or, List.filterMap_cons, hc]
          cases r <;> rfl

/-- **C123, the description.**  If the transmission elements of the description come in another order (and the joints are the same), the robot comes up exactly if it
came up before; the same motors are enabled; the robot has the same transmissions in maybe another order; and (no joint having two transmissions) a robot state is
made that is the same but for the numbering of the joints.  `g` is what the uninitialised memory of a joint's statistics holds; the memory of a new transmission
object does not depend on the position of its element. -/
theorem C123_description (l : TransLoader F) (hl : ∀ k k' c, l.create k c = l.create k' c) (urdf : Xml → Option (String → Option (UJoint F))) (hw : Bool)
    {root root' : Xml} (hu : urdf root' = urdf root) (hp : (root.childrenTagged "transmission").Perm (root'.childrenTagged "transmission"))
    {acts acts' : List (Actuator F)} {ts : List (Trans F)} (h : Robot.initXml hw urdf l root acts = (acts', .ok ts)) :
    ∃ ts', Robot.initXml hw urdf l root' acts = (acts', .ok ts') ∧ ts.Perm ts' ∧
      ∀ joint, urdf root = some joint → (allJointNames ts).Nodup → ∀ (g : String → F) (old old' : Nat → F),
        (∀ i n, (allJointNames ts)[i]? = some n → old i = g n) → (∀ i n, (allJointNames ts')[i]? = some n → old' i = g n) →
        ∀ s, RState.mk' ts joint acts' old = some s → ∃ s', RState.mk' ts' joint acts' old' = some s' ∧ Reordered s s' := by
  cases hw with
  | false => cases h
  | true =>
  rw [← all_eq, ← all_eq] at hp
  rcases hj : urdf root with _ | joint
  · unfold Robot.initXml at h; rw [hj] at h; cases h
  have run : ∀ r, urdf r = some joint → Robot.initXml true urdf l r acts = robotLoop l joint 0 (r.all "transmission") acts := by
    intro r hr
    unfold Robot.initXml
    rw [hr]; rfl
  rw [run root hj] at h
  choose I hI using fun x => (element_marks l joint 0 x).marks acts
  have hr := loop_run l hl joint acts I (fun x s hs => hI x s hs) (root.all "transmission") 0 acts rfl
  have hr' := loop_run l hl joint acts I (fun x s hs => hI x s hs) (root'.all "transmission") 0 acts rfl
  rcases hr with ⟨_, hr⟩ | ⟨hn, hr⟩
  · rw [h] at hr; cases hr
  rcases hr' with ⟨⟨x, hx, hc⟩, _⟩ | ⟨_, hr'⟩
  · exact absurd hc (hn x (hp.mem_iff.2 hx))
  rw [h] at hr
  cases hr
  have hany : (fun i => (root'.all "transmission").any fun x => I x i) = fun i => (root.all "transmission").any fun x => I x i := by
    funext i
    rw [Bool.eq_iff_iff, List.any_eq_true, List.any_eq_true]
    constructor
    · rintro ⟨x, hx, h⟩; exact ⟨x, hp.mem_iff.2 hx, h⟩
    · rintro ⟨x, hx, h⟩; exact ⟨x, hp.mem_iff.1 hx, h⟩
  have hperm := hp.filterMap (contribution l joint acts)
  refine ⟨_, ?_, hperm, ?_⟩
  · rw [run root' (by rw [hu, hj]), hr', hany]
  · intro joint' hj' hnd g old old' ho ho' s hs
    exact C123_made hperm hnd ho ho' hs

end

/-! ## The two elbows, from two descriptions -/

section demo
attribute [local instance] exactCmp demoTrig demoLit

def ordNumber (s : String) : ℚ := if s = "2" then 2 else if s = "5" then 5 else 0
@[reducible] def ordParse : Parse ℚ := ⟨ordNumber, fun s => some (ordNumber s), fun s => some (ordNumber s)⟩
attribute [local instance] ordParse

def ordElement (t j m r : String) : Xml :=
  .node "transmission" [("type", "pr2_simple"), ("name", t)] none
    [.node "joint" [("name", j)] none [], .node "actuator" [("name", m)] none [], .node "mechanicalReduction" [] (some r) []]
def ordX1 : Xml := ordElement "t" "elbow" "m" "2"
def ordX2 : Xml := ordElement "t2" "wheel" "m2" "5"
/-- An element that is dropped: there is no such motor. -/
def ordX3 : Xml := ordElement "t3" "elbow" "m3" "5"
def ordRoot : Xml := .node "robot" [] none [ordX1, ordX2, ordX3]
def ordRoot' : Xml := .node "robot" [] none [ordX3, .node "comment" [] none [], ordX2, ordX1]
def ordLoader : TransLoader ℚ := demoLoader ⟨0, 0, false, ⟨false, 0⟩, CalSim.fresh 0 0 0 0 false false⟩
/-- The motors, not enabled. -/
def ordOff : List (Actuator ℚ) := ordActs.map fun a => { a with enable := false }

/-- What the two descriptions give; the third element is dropped in both. -/
example : (((Robot.initXml true (fun _ => some ordJoint) ordLoader ordRoot ordOff).1.map (·.enable), (Robot.initXml true (fun _ => some ordJoint) ordLoader ordRoot' ordOff).1.map (·.enable)) :
    List Bool × List Bool) = ([true, true], [true, true]) := by rfl
theorem ordLoads : (Robot.initXml true (fun _ => some ordJoint) ordLoader ordRoot ordOff).2 = .ok [ordT1, ordT2] := by rfl
example : (Robot.initXml true (fun _ => some ordJoint) ordLoader ordRoot' ordOff).2 = .ok [ordT2, ordT1] := by rfl

/-- C123, the description: the hypotheses are met by the two descriptions. -/
example : ∃ ts' s', (Robot.initXml true (fun _ => some ordJoint) ordLoader ordRoot' ordOff).2 = .ok ts' ∧
    RState.mk' ts' ordJoint (Robot.initXml true (fun _ => some ordJoint) ordLoader ordRoot ordOff).1 (fun _ => 0) = some s' := by
  obtain ⟨ts', h1, _, h2⟩ := C123_description ordLoader (fun _ _ _ => rfl) (fun _ => some ordJoint) true (root := ordRoot) (root' := ordRoot') rfl
    (show [ordX1, ordX2, ordX3].Perm [ordX3, ordX2, ordX1] from (List.reverse_perm _).symm) (acts := ordOff) (acts' := (Robot.initXml true (fun _ => some ordJoint) ordLoader ordRoot ordOff).1)
    (Prod.ext rfl ordLoads)
  obtain ⟨s', h3, _⟩ := h2 ordJoint rfl (by decide +kernel) (fun _ => 0) (fun _ => 0) (fun _ => 0) (fun _ _ _ => rfl) (fun _ _ _ => rfl) _ rfl
  exact ⟨ts', s', by rw [h1], h3⟩

end demo

end Pr2
