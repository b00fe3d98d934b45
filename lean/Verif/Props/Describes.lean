import Verif.Props.XmlOffline
import Mathlib.Data.List.Induction

/-!
# C94: a transmission is what its description says

The `initXml` functions are programs that walk an XML element.  Here is, for each kind of transmission, the meaning of an element - which elements are accepted, which
motors and joints they connect, with which constants - and the proof that the programs read exactly that.
-/

namespace Pr2
open Init FLit FTrig
set_option linter.unusedSectionVars false

/-! ## Specification: elements -/

/-- `y` is the first child of `x` with this tag. -/
def Xml.FirstChild (x : Xml) (tag : String) (y : Xml) : Prop := ∃ a b, x.kids = a ++ y :: b ∧ y.tag = tag ∧ ∀ z ∈ a, z.tag ≠ tag
/-- `x` has no child with this tag. -/
def Xml.NoChild (x : Xml) (tag : String) : Prop := ∀ z ∈ x.kids, z.tag ≠ tag
/-- The attributes of an element. -/
def Xml.attrs : Xml → List (String × String) | .node _ a _ _ => a
/-- The element has the attribute `n`, with value `v` (the first one, if there are several). -/
def Xml.Says (x : Xml) (n v : String) : Prop := ∃ a b, x.attrs = a ++ (n, v) :: b ∧ ∀ p ∈ a, p.1 ≠ n
/-- The element has no such attribute. -/
def Xml.Silent (x : Xml) (n : String) : Prop := ∀ p ∈ x.attrs, p.1 ≠ n

section
variable {F : Type} [FCmp F] [Zero F] [Add F] [Sub F] [Mul F] [iDiv : Div F] [Neg F] [FLit F] [iTrig : FTrig F] [Parse F]

/-! ## Specification: transmissions -/

/-- The name of a transmission: the attribute, or nothing. -/
def Xml.Named (x : Xml) (n : String) : Prop := x.Says "name" n ∨ (x.Silent "name" ∧ n = "")

/-- A simulated joint of a simple transmission: it is left out if it has no name or the robot no such joint; else it has a reduction. -/
def SimEntry (joint : String → Option (UJoint F)) (e : Xml) : Option (String × F) → Prop
  | none => e.Silent "name" ∨ ∃ n, e.Says "name" n ∧ joint n = none
  | some (n, v) => e.Says "name" n ∧ (∃ u, joint n = some u) ∧ ∃ r, e.Says "simulated_reduction" r ∧ Parse.lexical r = some v

/-- A simple transmission: a joint of the robot, a motor of the robot, the reduction (of the motor element if it has one), simulated joints. -/
def SimpleDescribed (t0 : SimpleT F) (x : Xml) (joint : String → Option (UJoint F)) (acts : List (Actuator F)) (t : Trans F) : Prop :=
  ∃ jel jn ael an mel red uses s,
    x.FirstChild "joint" jel ∧ jel.Says "name" jn ∧ (∃ u, joint jn = some u) ∧
    x.FirstChild "actuator" ael ∧ ael.Says "name" an ∧ (∃ a ∈ acts, a.name = an) ∧
    (ael.FirstChild "mechanicalReduction" mel ∨ (ael.NoChild "mechanicalReduction" ∧ x.FirstChild "mechanicalReduction" mel)) ∧ mel.text = some red ∧
    List.Forall₂ (SimEntry joint) (x.childrenTagged "simulated_actuated_joint") uses ∧
    x.Named t.name ∧ t.actNames = [an] ∧ t.jointNames = jn :: (uses.filterMap id).map (·.1) ∧ t.body = .simple s ∧
    s.reduction = Parse.atof red ∧
    s.useSim = (uses.getLast?.map (·.isSome)).getD t0.useSim ∧
    s.simReduction = ((uses.filterMap id).getLast?.map (·.2)).getD t0.simReduction ∧
    s.clock = t0.clock ∧ s.cal = t0.cal

/-- A motor of a wrist. -/
def WristMotor (x : Xml) (tag : String) (acts : List (Actuator F)) (n : String) (v : F) : Prop :=
  ∃ e r, x.FirstChild tag e ∧ e.Says "name" n ∧ (∃ a ∈ acts, a.name = n) ∧ e.Says "mechanicalReduction" r ∧ v = Parse.atof r

/-- A joint of a wrist; without an offset attribute the offset is zero. -/
def WristAxis (x : Xml) (tag : String) (joint : String → Option (UJoint F)) (n : String) (v off : F) : Prop :=
  ∃ e r, x.FirstChild tag e ∧ e.Says "name" n ∧ (∃ u, joint n = some u) ∧ e.Says "mechanicalReduction" r ∧ v = Parse.atof r ∧
    ((e.Silent "offset" ∧ off = lit 0) ∨ ∃ o, e.Says "offset" o ∧ Parse.convert o = some off)

/-- A wrist: right and left motor, flex and roll joint. -/
def WristDescribed (t0 : WristT F) (x : Xml) (joint : String → Option (UJoint F)) (acts : List (Actuator F)) (t : Trans F) : Prop :=
  ∃ rn ln fn on w,
    WristMotor x "rightActuator" acts rn w.ar0 ∧ WristMotor x "leftActuator" acts ln w.ar1 ∧
    WristAxis x "flexJoint" joint fn w.jr0 w.off0 ∧ WristAxis x "rollJoint" joint on w.jr1 w.off1 ∧
    x.Named t.name ∧ t.actNames = [rn, ln] ∧ t.jointNames = [fn, on] ∧ t.body = .wrist w ∧
    w.clock = t0.clock ∧ w.cal0 = t0.cal0 ∧ w.cal1 = t0.cal1

/-- A coefficient of a gripper: the attribute, or the default. -/
def Coeff (e : Xml) (name : String) (dflt v : F) : Prop := (e.Silent name ∧ v = dflt) ∨ ∃ s, e.Says name s ∧ Parse.lexical s = some v

/-- The gap joint of a gripper: its name and the constants of `g`, with the defaults of the code. -/
structure GapEntry (e : Xml) (n : String) (g : GripperT F) : Prop where
  name : e.Says "name" n
  reduction : ∃ r, e.Says "mechanical_reduction" r ∧ Parse.lexical r = some g.reduction
  screw : Coeff e "screw_reduction" (lit 2 / lit 1000) g.screw
  gear : Coeff e "gear_ratio" (lit (2916 / 100)) g.gear
  theta0 : Coeff e "theta0" (lit (297571 / 100000) * pi / lit 180) g.theta0
  phi0 : Coeff e "phi0" (lit (2998717 / 100000) * pi / lit 180) g.phi0
  t0 : Coeff e "t0" (-(lit (19543 / 100000)) / lit 1000) g.t0
  L0 : Coeff e "L0" (lit (3470821 / 100000) / lit 1000) g.L0
  h : Coeff e "h" (lit (5200 / 1000) / lit 1000) g.h
  a : Coeff e "a" (lit (6756801 / 100000) / lit 1000) g.a
  b : Coeff e "b" (lit (4897193 / 100000) / lit 1000) g.b
  r : Coeff e "r" (lit (9150000 / 100000) / lit 1000) g.r

/-- Two grippers have the same constants. -/
def SameGap (g g' : GripperT F) : Prop :=
  g.reduction = g'.reduction ∧ g.screw = g'.screw ∧ g.gear = g'.gear ∧ g.theta0 = g'.theta0 ∧ g.phi0 = g'.phi0 ∧ g.t0 = g'.t0 ∧ g.L0 = g'.L0 ∧
  g.h = g'.h ∧ g.a = g'.a ∧ g.b = g'.b ∧ g.r = g'.r

/-- The simulated joint of a gripper: its name, its reduction, perhaps a passive joint driven with it. -/
def ScrewEntry (e : Xml) (n : String) (v : F) (p : Option String) : Prop :=
  e.Says "name" n ∧ (∃ r, e.Says "simulated_reduction" r ∧ Parse.lexical r = some v) ∧
  ((e.Silent "passive_actuated_joint" ∧ p = none) ∨ ∃ q, e.Says "passive_actuated_joint" q ∧ p = some q)

/-- A gripper: a motor, gap joints (the last one counts), passive joints, simulated joints. -/
def GripperDescribed (t0 : GripperT F) (x : Xml) (joint : String → Option (UJoint F)) (acts : List (Actuator F)) (t : Trans F) : Prop :=
  ∃ (ael : Xml) (an : String) (gaps : List (String × GripperT F)) (ps : List String) (screws : List (String × F × Option String)) (g : GripperT F),
    x.FirstChild "actuator" ael ∧ ael.Says "name" an ∧ (∃ a ∈ acts, a.name = an) ∧
    List.Forall₂ (fun e q => GapEntry e q.1 q.2) (x.childrenTagged "gap_joint") gaps ∧
    List.Forall₂ (fun e n => e.Says "name" n) (x.childrenTagged "passive_joint") ps ∧
    List.Forall₂ (fun e q => ScrewEntry e q.1 q.2.1 q.2.2) (x.childrenTagged "simulated_actuated_joint") screws ∧
    x.Named t.name ∧ t.actNames = [an] ∧
    t.jointNames = gaps.map (·.1) ++ ps ++ screws.flatMap (fun q => q.1 :: q.2.2.toList) ∧ (∀ n ∈ t.jointNames, ∃ u, joint n = some u) ∧
    t.body = .gripper g ∧
    SameGap g ((gaps.getLast?.map (·.2)).getD t0) ∧ g.passive = t0.passive ++ ps ∧
    g.simReduction = (screws.getLast?.map (·.2.1)).getD t0.simReduction ∧
    g.hasPassive = (t0.hasPassive || screws.any (·.2.2.isSome)) ∧ g.clock = t0.clock ∧ g.cal = t0.cal

/-- A belt: joint, motor, reduction and the numbers of the compensator; the filters begin at zero. -/
def BeltDescribed (t0 : BeltT F) (x : Xml) (joint : String → Option (UJoint F)) (acts : List (Actuator F)) (t : Trans F) : Prop :=
  ∃ jel jn ael an mel red c k mass kd lm lj lc b,
    x.FirstChild "joint" jel ∧ jel.Says "name" jn ∧ (∃ u, joint jn = some u) ∧
    x.FirstChild "actuator" ael ∧ ael.Says "name" an ∧ (∃ a ∈ acts, a.name = an) ∧
    x.FirstChild "mechanicalReduction" mel ∧ mel.text = some red ∧
    x.FirstChild "compensator" c ∧ c.Says "k_belt" k ∧ c.Says "mass_motor" mass ∧ c.Says "kd_motor" kd ∧ c.Says "lambda_motor" lm ∧ c.Says "lambda_joint" lj ∧
    c.Says "lambda_combined" lc ∧
    x.Named t.name ∧ t.actNames = [an] ∧ t.jointNames = [jn] ∧ t.body = .belt b ∧
    b.p.reduction = Parse.atof red ∧
    (FCmp.lt 0 (Parse.atof k : F) = true → b.p.compl = lit 1 / Parse.atof k) ∧ (FCmp.lt 0 (Parse.atof k : F) = false → b.p.compl = lit 0) ∧
    b.p.tau = sqrt (Parse.atof mass * b.p.compl) ∧ b.p.kd = Parse.atof kd ∧
    b.p.lamMotor = Parse.atof lm ∧ b.p.lamJoint = Parse.atof lj ∧ b.p.lamCombo = Parse.atof lc ∧
    b.s = ⟨0, t0.s.dt, 0, 0, 0, 0, 0, 0, 0, 0, 0, 0, 0, 0⟩ ∧ b.bk = ⟨0, 0, 0, 0, 0, 0, 0, 0⟩ ∧ b.clock = t0.clock ∧ b.cal = t0.cal

/-- The element describes this transmission, to be initialised in a newly constructed object `b`. -/
def Described : Body F → Xml → (String → Option (UJoint F)) → List (Actuator F) → Trans F → Prop
  | .simple t0 => SimpleDescribed t0
  | .wrist t0 => WristDescribed t0
  | .gripper t0 => GripperDescribed t0
  | .belt t0 => BeltDescribed t0

/-! ## Elements -/

omit [FCmp F] [Zero F] [Add F] [Sub F] [Mul F] iDiv [Neg F] [FLit F] iTrig [Parse F] in
theorem find?_split {α : Type} (p : α → Bool) (l : List α) (y : α) : l.find? p = some y ↔ ∃ a b, l = a ++ y :: b ∧ p y = true ∧ ∀ z ∈ a, p z = false := by
  rw [List.find?_eq_some_iff_append]
  constructor
  · rintro ⟨h, a, b, e, ha⟩
    exact ⟨a, b, e, h, fun z hz => by simpa using ha z hz⟩
  · rintro ⟨a, b, e, h, ha⟩
    exact ⟨h, a, b, e, fun z hz => by simpa using ha z hz⟩

theorem first_some (x : Xml) (tag : String) (y : Xml) : x.first tag = some y ↔ x.FirstChild tag y := by
  unfold Xml.first Xml.FirstChild
  rw [find?_split]
  simp

theorem first_none (x : Xml) (tag : String) : x.first tag = none ↔ x.NoChild tag := by
  unfold Xml.first Xml.NoChild
  rw [List.find?_eq_none]
  simp

theorem attr_some (x : Xml) (n v : String) : x.attr n = some v ↔ x.Says n v := by
  cases x with
  | node t at_ tx ks =>
    change ((at_.find? (fun p => p.1 == n)).map (·.2)) = some v ↔ ∃ a b, at_ = a ++ (n, v) :: b ∧ ∀ p ∈ a, p.1 ≠ n
    rw [Option.map_eq_some_iff]
    constructor
    · rintro ⟨⟨n', v'⟩, h, rfl⟩
      obtain ⟨a, b, e, h1, h2⟩ := (find?_split _ _ _).1 h
      have : n' = n := by simpa using h1
      subst this
      exact ⟨a, b, e, fun p hp => by simpa using h2 p hp⟩
    · rintro ⟨a, b, e, h⟩
      exact ⟨(n, v), (find?_split _ _ _).2 ⟨a, b, e, by simp, fun p hp => by simpa using h p hp⟩, rfl⟩

theorem attr_none (x : Xml) (n : String) : x.attr n = none ↔ x.Silent n := by
  cases x with
  | node t at_ tx ks =>
    change ((at_.find? (fun p => p.1 == n)).map (·.2)) = none ↔ ∀ p ∈ at_, p.1 ≠ n
    simp [List.find?_eq_none]

theorem named_iff (x : Xml) (n : String) : x.Named n ↔ n = x.name := by
  unfold Xml.Named Xml.name
  rw [← attr_some, ← attr_none]
  cases h : x.attr "name" <;> simp [eq_comm]

/-! ## Loops -/

omit [FCmp F] [Zero F] [Add F] [Sub F] [Mul F] iDiv [Neg F] [FLit F] iTrig [Parse F] in
/-- A loop whose body computes an entry for each element and folds it into the state. -/
theorem runs_fold {β γ : Type} {ε : Type} (f : β → γ → Init F β) (hf : ∀ b c, Tame (f b c)) (P : γ → ε → Prop) (g : β → ε → β)
    (h : ∀ b c s r, Runs (f b c) s r ↔ ∃ e, P c e ∧ r = g b e) (l : List γ) (b : β) (s : List (Actuator F)) (r : β) :
    Runs (l.foldlM f b) s r ↔ ∃ es, List.Forall₂ P l es ∧ r = es.foldl g b := by
  induction l generalizing b with
  | nil =>
    change Runs (pure b) s r ↔ _
    rw [runs_pure]
    constructor
    · rintro rfl; exact ⟨[], .nil, rfl⟩
    · rintro ⟨es, he, rfl⟩; cases he; rfl
  | cons c l ih =>
    rw [List.foldlM_cons, runs_bind (hf b c) (fun a => tame_foldlM _ hf _ _)]
    simp only [h, ih]
    constructor
    · rintro ⟨a, ⟨e, he, rfl⟩, es, hes, rfl⟩
      exact ⟨e :: es, .cons he hes, rfl⟩
    · rintro ⟨es, hes, rfl⟩
      cases hes with
      | cons he hes => exact ⟨_, ⟨_, he, rfl⟩, _, hes, rfl⟩

/-! ## The four kinds -/

theorem belt_described (t0 : BeltT F) (x : Xml) (joint : String → Option (UJoint F)) (s : List (Actuator F)) (t : Trans F) :
    Runs (t0.initXml x joint) s t ↔ BeltDescribed t0 x joint s t := by
  unfold BeltT.initXml
  simp (discharger := (intros; tame)) only [runs_bind, runs_need, runs_deref, runs_pure, runs_enable, Option.bind_eq_some_iff, first_some, attr_some]
  constructor
  · rintro ⟨jn, ⟨jel, h1, h1'⟩, uj, h2, ael, h3, an, h4, _, h5, m, h6, red, h7, c, h8, k, h9, mass, h10, kd, h11, lm, h12, lj, h13, lc, h14, rfl⟩
    refine ⟨jel, jn, ael, an, m, red, c, k, mass, kd, lm, lj, lc, _, h1, h1', ⟨uj, h2⟩, h3, h4, h5, h6, h7, h8, h9, h10, h11, h12, h13, h14, (named_iff _ _).2 rfl, rfl, rfl, rfl,
      rfl, ?_, ?_, rfl, rfl, rfl, rfl, rfl, rfl, rfl, rfl, rfl⟩
    · intro h; dsimp only; rw [if_pos h]
    · intro h; dsimp only; rw [if_neg (by rw [h]; simp)]
  · rintro ⟨jel, jn, ael, an, m, red, c, k, mass, kd, lm, lj, lc, b, h1, h1', ⟨uj, h2⟩, h3, h4, h5, h6, h7, h8, h9, h10, h11, h12, h13, h14, e1, e2, e3, e4, e5, e6, e7, e8, e9,
      e10, e11, e12, e13, e14, e15, e16⟩
    refine ⟨jn, ⟨jel, h1, h1'⟩, uj, h2, ael, h3, an, h4, (), h5, m, h6, red, h7, c, h8, k, h9, mass, h10, kd, h11, lm, h12, lj, h13, lc, h14, ?_⟩
    obtain ⟨n, as, js, bd⟩ := t
    obtain ⟨⟨p1, p2, p3, p4, p5, p6, p7⟩, bs, bb, bc, bcal⟩ := b
    dsimp only at e2 e3 e4 e5 e6 e7 e8 e9 e10 e11 e12 e13 e14 e15 e16
    have e1 := (named_iff _ _).1 e1
    dsimp only at e1
    have hc : p2 = if FCmp.lt 0 (Parse.atof k : F) then lit 1 / Parse.atof k else lit 0 := by
      cases hk : FCmp.lt 0 (Parse.atof k : F) with
      | true => rw [if_pos rfl]; exact e6 hk
      | false => rw [if_neg (by simp)]; exact e7 hk
    subst e1 e2 e3 e4 e5 e8 e9 e10 e11 e12 e13 e14 e15 e16 hc
    rfl

theorem wrist_described (t0 : WristT F) (x : Xml) (joint : String → Option (UJoint F)) (s : List (Actuator F)) (t : Trans F) :
    Runs (t0.initXml x joint) s t ↔ WristDescribed t0 x joint s t := by
  have hoff : ∀ (j : Xml) (o : F), Runs (wristOffset j : Init F F) s o ↔ (j.Silent "offset" ∧ o = lit 0) ∨ ∃ q, j.Says "offset" q ∧ Parse.convert q = some o := by
    intro j o
    unfold wristOffset
    rw [← attr_none]
    simp only [← attr_some]
    cases h : j.attr "offset" with
    | none => simp [runs_pure, eq_comm]
    | some q => simp [runs_need]
  have hT : ∀ j, Tame (wristOffset j : Init F F) := fun j => by unfold wristOffset; tame
  have hjoint : ∀ tag n v o, Runs (wristJoint x tag joint : Init F (String × F × F)) s (n, v, o) ↔ WristAxis x tag joint n v o := by
    intro tag n v o
    unfold wristJoint
    simp (discharger := (intros; tame; try exact hT _)) only [runs_bind, runs_need, runs_deref, runs_pure, hoff, first_some, attr_some]
    constructor
    · rintro ⟨e, h1, n', h2, u, h3, r, h4, o', h5, h6⟩
      cases h6
      exact ⟨e, r, h1, h2, ⟨u, h3⟩, h4, rfl, h5⟩
    · rintro ⟨e, r, h1, h2, ⟨u, h3⟩, h4, rfl, h5⟩
      exact ⟨e, h1, n, h2, u, h3, r, h4, o, h5, rfl⟩
  have hact : ∀ tag n v, Runs (wristActuator x tag : Init F (String × F)) s (n, v) ↔ WristMotor x tag s n v := by
    intro tag n v
    unfold wristActuator
    simp (discharger := (intros; tame)) only [runs_bind, runs_need, runs_pure, runs_enable, first_some, attr_some]
    constructor
    · rintro ⟨e, h1, n', h2, _, h3, r, h4, h6⟩
      cases h6
      exact ⟨e, r, h1, h2, h3, h4, rfl⟩
    · rintro ⟨e, r, h1, h2, h3, h4, rfl⟩
      exact ⟨e, h1, n, h2, (), h3, r, h4, rfl⟩
  have hT1 : ∀ tag, Tame (wristJoint x tag joint : Init F (String × F × F)) := fun tag => by unfold wristJoint wristOffset; tame
  have hT2 : ∀ tag, Tame (wristActuator x tag : Init F (String × F)) := fun tag => by unfold wristActuator; tame
  unfold WristT.initXml
  simp (discharger := (intros; tameWith hT1 hT2 hT)) only [runs_bind, runs_pure]
  constructor
  · rintro ⟨⟨rn, rv⟩, h1, ⟨ln, lv⟩, h2, ⟨fn, fv, fo⟩, h3, ⟨on, ov, oo⟩, h4, rfl⟩
    exact ⟨rn, ln, fn, on, _, (hact _ _ _).1 h1, (hact _ _ _).1 h2, (hjoint _ _ _ _).1 h3, (hjoint _ _ _ _).1 h4, (named_iff _ _).2 rfl, rfl, rfl, rfl, rfl, rfl, rfl⟩
  · rintro ⟨rn, ln, fn, on, w, h1, h2, h3, h4, e1, e2, e3, e4, e5, e6, e7⟩
    refine ⟨(rn, w.ar0), (hact _ _ _).2 h1, (ln, w.ar1), (hact _ _ _).2 h2, (fn, w.jr0, w.off0), (hjoint _ _ _ _).2 h3, (on, w.jr1, w.off1), (hjoint _ _ _ _).2 h4, ?_⟩
    obtain ⟨n, as, js, bd⟩ := t
    have e1 := (named_iff _ _).1 e1
    dsimp only at e1 e2 e3 e4
    subst e1 e2 e3 e4
    obtain ⟨a0, a1, j0, j1, o0, o1, c, c0, c1⟩ := w
    dsimp only at e5 e6 e7
    subst e5 e6 e7
    rfl

/-- The state of the loop over the simulated joints of a simple transmission. -/
def simStep (st : SimpleT F × List String) : Option (String × F) → SimpleT F × List String
  | none => ({ st.1 with useSim := false }, st.2)
  | some (n, v) => ({ st.1 with useSim := true, simReduction := v }, st.2 ++ [n])

theorem simStep_fold (es : List (Option (String × F))) (st : SimpleT F × List String) :
    es.foldl simStep st = ({ st.1 with
      useSim := (es.getLast?.map (·.isSome)).getD st.1.useSim
      simReduction := ((es.filterMap id).getLast?.map (·.2)).getD st.1.simReduction }, st.2 ++ (es.filterMap id).map (·.1)) := by
  induction es using List.reverseRecOn with
  | nil => simp
  | append_singleton es e ih =>
    rw [List.foldl_append, ih]
    rcases e with _ | ⟨n, v⟩ <;> simp [simStep, List.filterMap_append]

theorem simple_described (t0 : SimpleT F) (x : Xml) (joint : String → Option (UJoint F)) (s : List (Actuator F)) (t : Trans F) :
    Runs (t0.initXml x joint) s t ↔ SimpleDescribed t0 x joint s t := by
  have hT1 : ∀ b c, Tame (SimpleT.simJoint joint b c : Init F (SimpleT F × List String)) := fun b c => by unfold SimpleT.simJoint; tame
  have hT3 : ∀ ael, Tame (simpleReduction x ael : Init F String) := fun ael => by unfold simpleReduction; tame
  have hstep : ∀ (b : SimpleT F × List String) (c : Xml) (s : List (Actuator F)) r,
      Runs (SimpleT.simJoint joint b c) s r ↔ ∃ e, SimEntry joint c e ∧ r = simStep b e := by
    intro b c s r
    unfold SimpleT.simJoint
    have hs : ∀ e : Option (String × F), SimEntry joint c e ↔ match e with
      | none => c.attr "name" = none ∨ ∃ n, c.attr "name" = some n ∧ joint n = none
      | some (n, v) => c.attr "name" = some n ∧ (∃ u, joint n = some u) ∧ ∃ r, c.attr "simulated_reduction" = some r ∧ Parse.lexical r = some v := by
      intro e
      rcases e with _ | ⟨n, v⟩ <;> simp only [SimEntry, attr_some, attr_none]
    cases hn : c.attr "name" with
    | none =>
      dsimp only
      rw [runs_pure]
      constructor
      · rintro rfl; exact ⟨none, (hs _).2 (Or.inl hn), rfl⟩
      · rintro ⟨e, he, rfl⟩
        rcases e with _ | ⟨n, v⟩
        · rfl
        · have := ((hs _).1 he).1; rw [hn] at this; cases this
    | some n =>
      dsimp only
      cases hu : joint n with
      | none =>
        dsimp only
        rw [runs_pure]
        constructor
        · rintro rfl; exact ⟨none, (hs _).2 (Or.inr ⟨n, hn, hu⟩), rfl⟩
        · rintro ⟨e, he, rfl⟩
          rcases e with _ | ⟨n', v⟩
          · rfl
          · obtain ⟨h1, ⟨u, h2⟩, _⟩ := (hs _).1 he
            rw [hn] at h1; cases h1
            rw [hu] at h2; cases h2
      | some u =>
        dsimp only
        simp (discharger := (intros; tame)) only [runs_bind, runs_need, runs_pure]
        constructor
        · rintro ⟨q, h1, v, h2, rfl⟩
          exact ⟨some (n, v), (hs _).2 ⟨hn, ⟨u, hu⟩, q, h1, h2⟩, rfl⟩
        · rintro ⟨e, he, rfl⟩
          rcases e with _ | ⟨n', v⟩
          · rcases (hs _).1 he with h | ⟨n', h, h'⟩
            · rw [hn] at h; cases h
            · rw [hn] at h; cases h
              rw [hu] at h'; cases h'
          · obtain ⟨h1, _, q, h3, h4⟩ := (hs _).1 he
            rw [hn] at h1; cases h1
            exact ⟨q, h3, v, h4, rfl⟩
  have hred : ∀ ael red, Runs (simpleReduction x ael : Init F String) s red ↔
      ∃ mel, (ael.FirstChild "mechanicalReduction" mel ∨ (ael.NoChild "mechanicalReduction" ∧ x.FirstChild "mechanicalReduction" mel)) ∧ mel.text = some red := by
    intro ael red
    unfold simpleReduction
    simp only [← first_some, ← first_none]
    cases h : ael.first "mechanicalReduction" with
    | some m => simp [runs_deref]
    | none =>
      dsimp only
      simp (discharger := (intros; tame)) only [runs_bind, runs_deref]
      simp
  have hF1 := fun b => tame_foldlM (F := F) _ hT1 (x.childrenTagged "simulated_actuated_joint") b
  unfold SimpleT.initXml
  simp only [all_eq]
  simp (discharger := (intros; tameWith hT3 hF1 hF1)) only [runs_bind, runs_need, runs_pure, runs_enable, Option.bind_eq_some_iff, first_some, attr_some,
    runs_fold _ hT1 _ _ hstep, hred]
  constructor
  · rintro ⟨jn, ⟨jel, h1, h1'⟩, uj, h2, ael, h3, an, h4, _, h5, red, ⟨mel, h6, h7⟩, st, ⟨es, h8, rfl⟩, rfl⟩
    refine ⟨jel, jn, ael, an, mel, red, es, _, h1, h1', ⟨uj, h2⟩, h3, h4, h5, h6, h7, h8, (named_iff _ _).2 rfl, rfl, ?_, rfl, ?_, ?_, ?_, ?_, ?_⟩ <;> rw [simStep_fold] <;> rfl
  · rintro ⟨jel, jn, ael, an, mel, red, es, q, h1, h1', ⟨uj, h2⟩, h3, h4, h5, h6, h7, h8, e1, e2, e3, e4, e5, e6, e7, e8, e9⟩
    refine ⟨jn, ⟨jel, h1, h1'⟩, uj, h2, ael, h3, an, h4, (), h5, red, ⟨mel, h6, h7⟩, _, ⟨es, h8, rfl⟩, ?_⟩
    rw [simStep_fold]
    obtain ⟨n, as, js, bd⟩ := t
    have e1 := (named_iff _ _).1 e1
    dsimp only at e1 e2 e3 e4
    subst e1 e2 e3 e4
    obtain ⟨q1, q2, q3, q4, q5⟩ := q
    dsimp only at e5 e6 e7 e8 e9
    subst e5 e6 e7 e8 e9
    rfl

def gapStep (st : GripperT F × List String) (q : String × GripperT F) : GripperT F × List String :=
  let g := st.1
  let c := q.2
  (⟨c.reduction, g.simReduction, g.hasPassive, g.passive, c.screw, c.gear, c.theta0, c.phi0, c.t0, c.L0, c.h, c.a, c.b, c.r, g.clock, g.cal⟩, st.2 ++ [q.1])
def passiveStep (st : GripperT F × List String) (n : String) : GripperT F × List String := ({ st.1 with passive := st.1.passive ++ [n] }, st.2 ++ [n])
def screwStep (st : GripperT F × List String) (q : String × F × Option String) : GripperT F × List String :=
  ({ st.1 with simReduction := q.2.1, hasPassive := st.1.hasPassive || q.2.2.isSome }, st.2 ++ q.1 :: q.2.2.toList)

theorem gapStep_fold (es : List (String × GripperT F)) (st : GripperT F × List String) :
    es.foldl gapStep st = ((gapStep st ("", (es.getLast?.map (·.2)).getD st.1)).1, st.2 ++ es.map (·.1)) := by
  induction es using List.reverseRecOn with
  | nil => simp [gapStep]
  | append_singleton es e ih =>
    rw [List.foldl_append, ih]
    simp [gapStep]
theorem passiveStep_fold (es : List String) (st : GripperT F × List String) :
    es.foldl passiveStep st = ({ st.1 with passive := st.1.passive ++ es }, st.2 ++ es) := by
  induction es generalizing st with
  | nil => simp
  | cons e es ih => rw [List.foldl_cons, ih]; simp [passiveStep]
theorem screwStep_fold (es : List (String × F × Option String)) (st : GripperT F × List String) :
    es.foldl screwStep st = ({ st.1 with simReduction := (es.getLast?.map (·.2.1)).getD st.1.simReduction, hasPassive := st.1.hasPassive || es.any (·.2.2.isSome) },
      st.2 ++ es.flatMap (fun q => q.1 :: q.2.2.toList)) := by
  induction es using List.reverseRecOn with
  | nil => simp
  | append_singleton es e ih =>
    rw [List.foldl_append, ih]
    simp [screwStep, Bool.or_assoc]

theorem runs_coeff (e : Xml) (name : String) (dflt v : F) (s : List (Actuator F)) : Runs (gripperCoeff e name dflt : Init F F) s v ↔ Coeff e name dflt v := by
  unfold gripperCoeff Coeff
  simp only [← attr_none, ← attr_some]
  cases h : e.attr name with
  | none => simp [runs_pure, eq_comm]
  | some q => simp [runs_need]

theorem gripper_described (t0 : GripperT F) (x : Xml) (joint : String → Option (UJoint F)) (s : List (Actuator F)) (t : Trans F) :
    Runs (t0.initXml x joint) s t ↔ GripperDescribed t0 x joint s t := by
  have hT0 : ∀ e n d, Tame (gripperCoeff e n d : Init F F) := fun e n d => by unfold gripperCoeff; tame
  have hT1 : ∀ b c, Tame (GripperT.gapJoint b c : Init F (GripperT F × List String)) := fun b c => by unfold GripperT.gapJoint gripperCoeff; tame
  have hT2 : ∀ b c, Tame (GripperT.passiveJoint b c : Init F (GripperT F × List String)) := fun b c => by unfold GripperT.passiveJoint; tame
  have hT3 : ∀ b c, Tame (GripperT.simJoint b c : Init F (GripperT F × List String)) := fun b c => by unfold GripperT.simJoint; tame
  have hgap : ∀ (b : GripperT F × List String) (c : Xml) (s : List (Actuator F)) r, Runs (GripperT.gapJoint b c) s r ↔ ∃ q : String × GripperT F, GapEntry c q.1 q.2 ∧ r = gapStep b q := by
    intro b c s r
    unfold GripperT.gapJoint
    simp (discharger := (intros; repeat' first | exact hT0 _ _ _ | tame | (refine Tame.bind ?_ (fun _ => ?_)))) only [runs_bind, runs_need, runs_pure, runs_coeff, attr_some]
    constructor
    · rintro ⟨n, h1, rd, h2, v, h3, w1, c1, w2, c2, w3, c3, w4, c4, w5, c5, w6, c6, w7, c7, w8, c8, w9, c9, w10, c10, rfl⟩
      exact ⟨(n, { b.1 with reduction := v, screw := w1, gear := w2, theta0 := w3, phi0 := w4, t0 := w5, L0 := w6, h := w7, a := w8, b := w9, r := w10 }),
        ⟨h1, ⟨rd, h2, h3⟩, c1, c2, c3, c4, c5, c6, c7, c8, c9, c10⟩, rfl⟩
    · rintro ⟨⟨n, g⟩, ⟨h1, ⟨rd, h2, h3⟩, c1, c2, c3, c4, c5, c6, c7, c8, c9, c10⟩, rfl⟩
      exact ⟨n, h1, rd, h2, _, h3, _, c1, _, c2, _, c3, _, c4, _, c5, _, c6, _, c7, _, c8, _, c9, _, c10, rfl⟩
  have hpas : ∀ (b : GripperT F × List String) (c : Xml) (s : List (Actuator F)) r, Runs (GripperT.passiveJoint b c) s r ↔ ∃ n, c.Says "name" n ∧ r = passiveStep b n := by
    intro b c s r
    unfold GripperT.passiveJoint
    simp (discharger := (intros; tame)) only [runs_bind, runs_need, runs_pure, attr_some]
    constructor
    · rintro ⟨n, h, rfl⟩; exact ⟨n, h, rfl⟩
    · rintro ⟨n, h, rfl⟩; exact ⟨n, h, rfl⟩
  have hscr : ∀ (b : GripperT F × List String) (c : Xml) (s : List (Actuator F)) r,
      Runs (GripperT.simJoint b c) s r ↔ ∃ q : String × F × Option String, ScrewEntry c q.1 q.2.1 q.2.2 ∧ r = screwStep b q := by
    intro b c s r
    unfold GripperT.simJoint ScrewEntry
    simp (discharger := (intros; tame)) only [runs_bind, runs_need, ← attr_some, ← attr_none]
    cases hp : c.attr "passive_actuated_joint" with
    | none =>
      simp only [runs_pure]
      constructor
      · rintro ⟨n, h1, q, h2, v, h3, rfl⟩
        exact ⟨(n, v, none), ⟨h1, ⟨q, h2, h3⟩, Or.inl ⟨trivial, rfl⟩⟩, by simp [screwStep]⟩
      · rintro ⟨⟨n, v, p⟩, ⟨h1, ⟨q, h2, h3⟩, h4⟩, rfl⟩
        refine ⟨n, h1, q, h2, v, h3, ?_⟩
        rcases h4 with ⟨_, rfl⟩ | ⟨_, h, _⟩
        · simp [screwStep]
        · cases h
    | some p =>
      simp only [runs_pure]
      constructor
      · rintro ⟨n, h1, q, h2, v, h3, rfl⟩
        exact ⟨(n, v, some p), ⟨h1, ⟨q, h2, h3⟩, Or.inr ⟨p, rfl, rfl⟩⟩, by simp [screwStep]⟩
      · rintro ⟨⟨n, v, p'⟩, ⟨h1, ⟨q, h2, h3⟩, h4⟩, rfl⟩
        refine ⟨n, h1, q, h2, v, h3, ?_⟩
        rcases h4 with ⟨h, _⟩ | ⟨p'', h, rfl⟩
        · cases h
        · cases h; simp [screwStep]
  have hF1 := fun b => tame_foldlM (F := F) _ hT1 (x.childrenTagged "gap_joint") b
  have hF2 := fun b => tame_foldlM (F := F) _ hT2 (x.childrenTagged "passive_joint") b
  have hF3 := fun b => tame_foldlM (F := F) _ hT3 (x.childrenTagged "simulated_actuated_joint") b
  have hparse : ∀ r, Runs (t0.initXml1 x) s r ↔ ∃ ael an gaps ps screws, x.FirstChild "actuator" ael ∧ ael.Says "name" an ∧
      List.Forall₂ (fun e q => GapEntry e q.1 q.2) (x.childrenTagged "gap_joint") gaps ∧
      List.Forall₂ (fun e n => e.Says "name" n) (x.childrenTagged "passive_joint") ps ∧
      List.Forall₂ (fun e q => ScrewEntry e q.1 q.2.1 q.2.2) (x.childrenTagged "simulated_actuated_joint") screws ∧
      r = (an, (screws.foldl screwStep (ps.foldl passiveStep (gaps.foldl gapStep (t0, []))))) := by
    intro r
    unfold GripperT.initXml1
    simp only [all_eq]
    simp (discharger := (intros; tameWith hF1 hF2 hF3)) only [runs_bind, runs_need, runs_pure, first_some, attr_some, runs_fold _ hT1 _ _ hgap, runs_fold _ hT2 _ _ hpas, runs_fold _ hT3 _ _ hscr]
    constructor
    · rintro ⟨ael, h1, an, h2, _, ⟨g, h3, rfl⟩, _, ⟨p, h4, rfl⟩, _, ⟨q, h5, rfl⟩, rfl⟩
      exact ⟨ael, an, g, p, q, h1, h2, h3, h4, h5, rfl⟩
    · rintro ⟨ael, an, g, p, q, h1, h2, h3, h4, h5, rfl⟩
      exact ⟨ael, h1, an, h2, _, ⟨g, h3, rfl⟩, _, ⟨p, h4, rfl⟩, _, ⟨q, h5, rfl⟩, rfl⟩
  have hT := gripper_parse_tame t0 x
  unfold GripperT.initXml
  simp (discharger := (intros; tame)) only [runs_bind, runs_pure, runs_enable, runs_forM_need, hparse]
  simp only [gapStep_fold, passiveStep_fold, screwStep_fold]
  constructor
  · rintro ⟨_, ⟨ael, an, gaps, ps, screws, h1, h2, h3, h4, h5, rfl⟩, _, h6, _, h7, rfl⟩
    refine ⟨ael, an, gaps, ps, screws, _, h1, h2, h6, h3, h4, h5, (named_iff _ _).2 rfl, rfl, ?_, h7, rfl, ?_, ?_, ?_, ?_, rfl, rfl⟩
    · simp
    · exact ⟨rfl, rfl, rfl, rfl, rfl, rfl, rfl, rfl, rfl, rfl, rfl⟩
    · rfl
    · rfl
    · rfl
  · rintro ⟨ael, an, gaps, ps, screws, g, h1, h2, h6, h3, h4, h5, e1, e2, e3, h7, e4, e5, e6, e7, e8, e9, e10⟩
    refine ⟨_, ⟨ael, an, gaps, ps, screws, h1, h2, h3, h4, h5, rfl⟩, (), h6, (), ?_, ?_⟩
    · intro n hn
      refine h7 n ?_
      rw [e3]
      simpa using hn
    · obtain ⟨n, as, js, bd⟩ := t
      have e1 := (named_iff _ _).1 e1
      dsimp only at e1 e2 e3 e4
      subst e1 e2 e3 e4
      obtain ⟨g1, g2, g3, g4, g5, g6, g7, g8, g9, g10, g11, g12, g13, g14, g15, g16⟩ := g
      obtain ⟨s1, s2, s3, s4, s5, s6, s7, s8, s9, s10, s11⟩ := e5
      dsimp only at s1 s2 s3 s4 s5 s6 s7 s8 s9 s10 s11 e6 e7 e8 e9 e10
      subst s1 s2 s3 s4 s5 s6 s7 s8 s9 s10 s11 e6 e7 e8 e9 e10
      simp [gapStep]

/-! ## C94 -/

/-- **C94.**  `initXml` succeeds with a transmission exactly if the element describes it. -/
theorem C94_transmission (b : Body F) (x : Xml) (joint : String → Option (UJoint F)) (acts : List (Actuator F)) (t : Trans F) :
    (b.initXml x joint acts).2 = .ok t ↔ Described b x joint acts t := by
  cases b with
  | simple t0 => exact simple_described t0 x joint acts t
  | wrist t0 => exact wrist_described t0 x joint acts t
  | gripper t0 => exact gripper_described t0 x joint acts t
  | belt t0 => exact belt_described t0 x joint acts t

/-- **C94, the whole robot.**  The loaded robot has, in document order, the transmissions its description describes: each element of a type beginning with "pr2" for which
the class loader finds a class, and which describes a transmission of that class. -/
theorem C94_robot (l : TransLoader F) (urdf : Xml → Option (String → Option (UJoint F))) (root : Xml) (acts : List (Actuator F)) (hw : Bool) (ts : List (Trans F))
    (h : (Robot.initXml hw urdf l root acts).2 = .ok ts) :
    ∃ joint, urdf root = some joint ∧
    ∃ results : List (Option (Trans F)), results.length = (root.childrenTagged "transmission").length ∧ ts = results.filterMap id ∧
      ∀ k x, (root.childrenTagged "transmission")[k]? = some x → ∀ t, results[k]? = some (some t) ↔
        ∃ ty cls b, (x.Says "type" ty ∨ (x.Silent "type" ∧ ∃ e, x.FirstChild "type" e ∧ e.text = some ty)) ∧ (∃ rest, ty = "pr2" ++ rest) ∧ l.Picks ty cls ∧
          l.create k cls = some b ∧ Described b x joint acts t := by
  obtain ⟨_, joint, hu, results, h1, h2, h3⟩ := C49_keeps_exactly l urdf root acts hw ts h
  refine ⟨joint, hu, results, h1, h2, ?_⟩
  intro k x hx t
  rw [h3 k x hx t]
  unfold Accepted Xml.HasType
  simp only [C94_transmission, attr_some, attr_none, first_some]

/-! ## Concrete descriptions -/

/-- A simple transmission with two simulated joints: one the robot does not have, one it has. -/
def twoSims : Xml := demoElement "pr2_simple" "elbow"
  [.node "mechanicalReduction" [] (some "2") [],
   .node "simulated_actuated_joint" [("name", "ghost")] none [],
   .node "simulated_actuated_joint" [("name", "screw"), ("simulated_reduction", "3")] none []]

/-- C94: joint, motor, both reductions; the element is described directly, without running the loader. -/
example (t : SimpleT F) (u : UJoint F) (a : Actuator F) (ha : a.name = "m") (v : F) (hv : Parse.lexical "3" = some v) :
    Described (.simple t) twoSims (fun n => if n = "ghost" then none else some u) [a]
      ⟨"t", ["m"], ["elbow", "screw"], .simple ⟨Parse.atof "2", v, true, t.clock, t.cal⟩⟩ := by
  refine ⟨_, "elbow", _, "m", .node "mechanicalReduction" [] (some "2") [], "2", [none, some ("screw", v)], _,
    ⟨[], _, rfl, rfl, by simp⟩, ⟨[], _, rfl, by simp⟩, ⟨u, rfl⟩, ⟨[_], _, rfl, rfl, by intro z hz; simp at hz; subst hz; decide⟩,
    ⟨[], _, rfl, by simp⟩, ⟨a, by simp, ha⟩, Or.inr ⟨fun z hz => by simp [Xml.kids] at hz, ⟨[_, _], _, rfl, rfl, ?_⟩⟩, rfl, ?_, Or.inl ⟨[("type", "pr2_simple")], _, rfl, by simp⟩, rfl, rfl, rfl,
    rfl, rfl, rfl, rfl, rfl⟩
  · intro z hz; simp at hz; rcases hz with rfl | rfl <;> decide
  · refine List.Forall₂.cons (Or.inr ⟨"ghost", ⟨[], _, rfl, by simp⟩, rfl⟩) (.cons ⟨⟨[], _, rfl, by simp⟩, ⟨u, rfl⟩, "3", ⟨[("name", "screw")], _, rfl, by simp⟩, hv⟩ .nil)

/-- C94: a wrist, with its two offsets. -/
example (t : WristT F) (u : UJoint F) (a b : Actuator F) (ha : a.name = "r") (hb : b.name = "l") (v w : F)
    (hv : Parse.convert "0.1" = some v) (hw : Parse.convert "0.2" = some w) :
    ∃ q : WristT F, Described (.wrist t) offsetWrist (fun _ => some u) [a, b] ⟨"wrist", ["r", "l"], ["flex", "roll"], .wrist q⟩ ∧ q.off0 = v ∧ q.off1 = w := by
  obtain ⟨q, h, h'⟩ := C70_wrist_offset_online t u a b ha hb v w hv hw
  exact ⟨q, (C94_transmission (.wrist t) _ _ _ _).1 h, h'⟩

/-- A gripper which gives only the required numbers and one coefficient. -/
def demoGripperXml : Xml := .node "transmission" [("type", "pr2_gripper"), ("name", "g")] none
  [.node "actuator" [("name", "m")] none [],
   .node "gap_joint" [("name", "gap"), ("mechanical_reduction", "1"), ("L0", "0.03")] none [],
   .node "passive_joint" [("name", "finger")] none [],
   .node "simulated_actuated_joint" [("name", "screw"), ("simulated_reduction", "3"), ("passive_actuated_joint", "slide")] none []]

/-- C94: the gripper has the default coefficients but for the one given. -/
example (t : GripperT F) (ht : t.passive = []) (u : UJoint F) (a : Actuator F) (ha : a.name = "m") (v1 v2 v3 : F) (h1 : Parse.lexical "1" = some v1) (h2 : Parse.lexical "0.03" = some v2)
    (h3 : Parse.lexical "3" = some v3) :
    Described (.gripper t) demoGripperXml (fun _ => some u) [a]
      ⟨"g", ["m"], ["gap", "finger", "screw", "slide"], .gripper ⟨v1, v3, true, ["finger"], lit 2 / lit 1000, lit (2916 / 100), lit (297571 / 100000) * pi / lit 180,
        lit (2998717 / 100000) * pi / lit 180, -(lit (19543 / 100000)) / lit 1000, v2, lit (5200 / 1000) / lit 1000, lit (6756801 / 100000) / lit 1000,
        lit (4897193 / 100000) / lit 1000, lit (9150000 / 100000) / lit 1000, t.clock, t.cal⟩⟩ := by
  have hs : ∀ n, n ≠ "name" → n ≠ "mechanical_reduction" → n ≠ "L0" →
      (Xml.node "gap_joint" [("name", "gap"), ("mechanical_reduction", "1"), ("L0", "0.03")] none []).Silent n := by
    intro n a1 a2 a3 p hp
    simp only [Xml.attrs, List.mem_cons, List.not_mem_nil, or_false] at hp
    rcases hp with rfl | rfl | rfl
    · exact a1.symm
    · exact a2.symm
    · exact a3.symm
  refine ⟨_, "m", [("gap", ⟨v1, v3, true, ["finger"], lit 2 / lit 1000, lit (2916 / 100), lit (297571 / 100000) * pi / lit 180,
        lit (2998717 / 100000) * pi / lit 180, -(lit (19543 / 100000)) / lit 1000, v2, lit (5200 / 1000) / lit 1000, lit (6756801 / 100000) / lit 1000,
        lit (4897193 / 100000) / lit 1000, lit (9150000 / 100000) / lit 1000, t.clock, t.cal⟩)], ["finger"], [("screw", v3, some "slide")], _,
    ⟨[], _, rfl, rfl, by simp⟩, ⟨[], _, rfl, by simp⟩, ⟨a, by simp, ha⟩, ?_, ?_, ?_, Or.inl ⟨[("type", "pr2_gripper")], _, rfl, by simp⟩, rfl, rfl, fun n _ => ⟨u, rfl⟩, rfl,
    ⟨rfl, rfl, rfl, rfl, rfl, rfl, rfl, rfl, rfl, rfl, rfl⟩, by rw [ht]; rfl, rfl, by simp, rfl, rfl⟩
  · refine List.Forall₂.cons ⟨⟨[], _, rfl, by simp⟩, ⟨"1", ⟨[("name", "gap")], _, rfl, by simp⟩, h1⟩, ?_, ?_, ?_, ?_, ?_,
      Or.inr ⟨"0.03", ⟨[("name", "gap"), ("mechanical_reduction", "1")], _, rfl, by simp⟩, h2⟩, ?_, ?_, ?_, ?_⟩ .nil
    all_goals exact Or.inl ⟨hs _ (by decide) (by decide) (by decide), rfl⟩
  · exact List.Forall₂.cons ⟨[], _, rfl, by simp⟩ .nil
  · exact List.Forall₂.cons ⟨⟨[], _, rfl, by simp⟩, ⟨"3", ⟨[("name", "screw")], _, rfl, by simp⟩, h3⟩,
      Or.inr ⟨"slide", ⟨[("name", "screw"), ("simulated_reduction", "3")], _, rfl, by simp⟩, rfl⟩⟩ .nil

/-- A belt. -/
def demoBeltXml : Xml := demoElement "pr2_belt" "elbow"
  [.node "mechanicalReduction" [] (some "2") [],
   .node "compensator" [("k_belt", "100"), ("mass_motor", "1"), ("kd_motor", "5"), ("lambda_motor", "60"), ("lambda_joint", "70"), ("lambda_combined", "80")] none []]

/-- C94: a belt is accepted, with the compliance the stiffness implies. -/
example (t : BeltT F) (u : UJoint F) (a : Actuator F) (ha : a.name = "m") (hk : FCmp.lt 0 (Parse.atof "100" : F) = true) :
    ∃ q : BeltT F, Described (.belt t) demoBeltXml (fun _ => some u) [a] ⟨"t", ["m"], ["elbow"], .belt q⟩ ∧ q.p.compl = lit 1 / Parse.atof "100" ∧ q.p.kd = Parse.atof "5" := by
  refine ⟨⟨⟨Parse.atof "2", lit 1 / Parse.atof "100", sqrt (Parse.atof "1" * (lit 1 / Parse.atof "100")), Parse.atof "5", Parse.atof "60", Parse.atof "70", Parse.atof "80"⟩,
    ⟨0, t.s.dt, 0, 0, 0, 0, 0, 0, 0, 0, 0, 0, 0, 0⟩, ⟨0, 0, 0, 0, 0, 0, 0, 0⟩, t.clock, t.cal⟩, ?_, rfl, rfl⟩
  refine (C94_transmission (.belt t) demoBeltXml (fun _ => some u) _ _).1 ?_
  cases a; subst ha
  have : (if FCmp.lt 0 (Parse.atof "100" : F) = true then lit 1 / Parse.atof "100" else lit 0 : F) = lit 1 / Parse.atof "100" := if_pos hk
  rw [← this]
  rfl

/-- C94: the robot of four elements keeps the transmission that one of them describes. -/
example (t : SimpleT F) (u : UJoint F) (a : Actuator F) (hn : a.name = "m") :
    (Robot.initXml true (demoUrdf u) (demoLoader t) demoRoot [a]).2 = .ok [⟨"t", ["m"], ["elbow"], .simple { t with reduction := Parse.atof "2" }⟩] := by
  cases a; subst hn; rfl

end
end Pr2
