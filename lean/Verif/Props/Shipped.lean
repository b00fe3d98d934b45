import Verif.Model.Plugins
import Verif.Model.Pr2Urdf
import Verif.Props.Stack

/-!
# C99: the declared plugins and the shipped robot description

`transmission_plugins.xml` and `pr2.urdf` are part of the code.  With exactly the declared plugins, what becomes of the shipped description?
-/

namespace Pr2
open Init FLit FTrig
set_option linter.unusedSectionVars false

/-! ## Specification -/

/-- Digits as a number. -/
def digitsValue (l : List Char) : Option ℕ :=
  if l ≠ [] ∧ l.all (·.isDigit) = true then some (l.foldl (fun n c => 10 * n + (c.toNat - 48)) 0) else none
/-- An unsigned decimal number. -/
def unsignedValue (l : List Char) : Option ℚ :=
  match l.dropWhile (· != '.') with
  | [] => (digitsValue l).map (fun n => (n : ℚ))
  | _ :: f => (digitsValue (l.takeWhile (· != '.'))).bind fun a => (digitsValue f).map fun b => (a : ℚ) + (b : ℚ) / 10 ^ f.length
/-- The value of a decimal number, such as "-79.2380952381". -/
def decimal (s : String) : Option ℚ :=
  match s.toList with
  | '-' :: l => (unsignedValue l).map (fun q => -q)
  | l => unsignedValue l

/-- Decimal numbers are read as what they mean. -/
structure ReadsDecimals (F : Type) [FLit F] [Parse F] : Prop where
  atof : ∀ s q, decimal s = some q → Parse.atof s = (lit q : F)
  lexical : ∀ s q, decimal s = some q → Parse.lexical s = some (lit q : F)

/-- A numerical attribute, as the URDF library reads it: a missing one is zero. -/
def NumAttr {F : Type} [FLit F] (e : Xml) (n : String) (v : F) : Prop := (∀ s q, e.Says n s → decimal s = some q → v = lit q) ∧ (e.Silent n → v = lit 0)

/-- What the URDF library makes of a `<joint>` element (contract of an external library). -/
structure ReadsJoint {F : Type} [FLit F] (x : Xml) (u : UJoint F) : Prop where
  name : x.Says "name" u.name
  type : (x.Says "type" "revolute" → u.type = .revolute) ∧ (x.Says "type" "continuous" → u.type = .continuous) ∧ (x.Says "type" "prismatic" → u.type = .prismatic)
  limits : ∀ e, x.FirstChild "limit" e → ∃ l, u.limits = some l ∧ NumAttr e "lower" l.lower ∧ NumAttr e "upper" l.upper ∧ NumAttr e "effort" l.effort ∧ NumAttr e "velocity" l.velocity
  safety : ∀ e, x.FirstChild "safety_controller" e → ∃ s, u.safety = some s ∧ NumAttr e "soft_lower_limit" s.softLower ∧ NumAttr e "soft_upper_limit" s.softUpper ∧
    NumAttr e "k_position" s.kPosition ∧ NumAttr e "k_velocity" s.kVelocity

/-- The URDF library knows the joints of the document. -/
def ReadsUrdf {F : Type} [FLit F] (urdf : Xml → Option (String → Option (UJoint F))) (root : Xml) (joint : String → Option (UJoint F)) : Prop :=
  urdf root = some joint ∧ ∀ x ∈ root.childrenTagged "joint", ∀ n, x.Says "name" n → ∃ u, joint n = some u ∧ ReadsJoint x u

/-- A transmission as the shipped description writes it: simple (name, motor, joint, reduction), wrist (name, right motor and reduction, left, flex joint and reduction, roll),
gripper (name, motor, gap joint, passive joints). -/
inductive Row where
  | simple (name motor joint red : String)
  | wrist (name rMotor rRed lMotor lRed fJoint fRed oJoint oRed : String)
  | gripper (name motor gap : String) (passive : List String)

/-- The element.  `ns` precedes the type; `screw`: with the simulated joint that the example in pr2_gripper_transmission.cpp:53-76 has, and the code requires. -/
def Row.xml (ns : String) (screw : String → Option (String × String)) : Row → Xml
  | .simple n m j r => .node "transmission" [("name", n), ("type", ns ++ "SimpleTransmission")] none
      [.node "actuator" [("name", m)] none [], .node "joint" [("name", j)] none [], .node "mechanicalReduction" [] (some r) []]
  | .wrist n rm rr lm lr fj fr oj or => .node "transmission" [("name", n), ("type", ns ++ "WristTransmission")] none
      [.node "rightActuator" [("mechanicalReduction", rr), ("name", rm)] none [], .node "leftActuator" [("mechanicalReduction", lr), ("name", lm)] none [],
       .node "flexJoint" [("mechanicalReduction", fr), ("name", fj)] none [], .node "rollJoint" [("mechanicalReduction", or), ("name", oj)] none []]
  | .gripper n m g ps => .node "transmission" [("name", n), ("type", ns ++ "PR2GripperTransmission")] none
      ([.node "actuator" [("name", m)] none [],
        .node "gap_joint" [("L0", "0.0375528"), ("a", "0.0683698"), ("b", "0.0433849"), ("gear_ratio", "40.095"), ("h", "0.0"), ("mechanical_reduction", "1.0"), ("name", g),
          ("phi0", "0.518518122146"), ("r", "0.0915"), ("screw_reduction", "0.004"), ("t0", "-0.0001914"), ("theta0", "0.0628824676201")] none [],
        .node "use_simulated_gripper_joint" [] none []] ++ ps.map (fun p => .node "passive_joint" [("name", p)] none []) ++
        ((screw g).map (fun s => Xml.node "simulated_actuated_joint" [("name", s.1), ("passive_actuated_joint", s.2), ("simulated_reduction", "3141.6")] none [])).toList)

/-- The transmissions of the shipped description. -/
def pr2Rows : List Row := [
  .simple "fl_caster_rotation_trans" "fl_caster_rotation_motor" "fl_caster_rotation_joint" "-79.2380952381",
  .simple "fl_caster_l_wheel_trans" "fl_caster_l_wheel_motor" "fl_caster_l_wheel_joint" "79.2380952381",
  .simple "fl_caster_r_wheel_trans" "fl_caster_r_wheel_motor" "fl_caster_r_wheel_joint" "-79.2380952381",
  .simple "fr_caster_rotation_trans" "fr_caster_rotation_motor" "fr_caster_rotation_joint" "-79.2380952381",
  .simple "fr_caster_l_wheel_trans" "fr_caster_l_wheel_motor" "fr_caster_l_wheel_joint" "79.2380952381",
  .simple "fr_caster_r_wheel_trans" "fr_caster_r_wheel_motor" "fr_caster_r_wheel_joint" "-79.2380952381",
  .simple "bl_caster_rotation_trans" "bl_caster_rotation_motor" "bl_caster_rotation_joint" "-79.2380952381",
  .simple "bl_caster_l_wheel_trans" "bl_caster_l_wheel_motor" "bl_caster_l_wheel_joint" "79.2380952381",
  .simple "bl_caster_r_wheel_trans" "bl_caster_r_wheel_motor" "bl_caster_r_wheel_joint" "-79.2380952381",
  .simple "br_caster_rotation_trans" "br_caster_rotation_motor" "br_caster_rotation_joint" "-79.2380952381",
  .simple "br_caster_l_wheel_trans" "br_caster_l_wheel_motor" "br_caster_l_wheel_joint" "79.2380952381",
  .simple "br_caster_r_wheel_trans" "br_caster_r_wheel_motor" "br_caster_r_wheel_joint" "-79.2380952381",
  .simple "torso_lift_trans" "torso_lift_motor" "torso_lift_joint" "-52143.33",
  .simple "head_pan_trans" "head_pan_motor" "head_pan_joint" "6.0",
  .simple "head_tilt_trans" "head_tilt_motor" "head_tilt_joint" "6.0",
  .simple "laser_tilt_mount_trans" "laser_tilt_mount_motor" "laser_tilt_mount_joint" "-6.05",
  .simple "r_upper_arm_roll_trans" "r_upper_arm_roll_motor" "r_upper_arm_roll_joint" "32.6525111499",
  .simple "r_shoulder_pan_trans" "r_shoulder_pan_motor" "r_shoulder_pan_joint" "63.1552452977",
  .simple "r_shoulder_lift_trans" "r_shoulder_lift_motor" "r_shoulder_lift_joint" "61.8948225713",
  .simple "r_forearm_roll_trans" "r_forearm_roll_motor" "r_forearm_roll_joint" "-90.5142857143",
  .simple "r_elbow_flex_trans" "r_elbow_flex_motor" "r_elbow_flex_joint" "-36.167452007",
  .wrist "r_wrist_trans" "r_wrist_r_motor" "60.1714285714" "r_wrist_l_motor" "60.1714285714" "r_wrist_flex_joint" "-1.0" "r_wrist_roll_joint" "1.0",
  .gripper "r_gripper_trans" "r_gripper_motor" "r_gripper_joint" ["r_gripper_l_finger_joint", "r_gripper_r_finger_joint", "r_gripper_r_finger_tip_joint", "r_gripper_l_finger_tip_joint", "r_gripper_r_parallel_root_joint", "r_gripper_l_parallel_root_joint"],
  .simple "l_upper_arm_roll_trans" "l_upper_arm_roll_motor" "l_upper_arm_roll_joint" "32.6525111499",
  .simple "l_shoulder_pan_trans" "l_shoulder_pan_motor" "l_shoulder_pan_joint" "63.1552452977",
  .simple "l_shoulder_lift_trans" "l_shoulder_lift_motor" "l_shoulder_lift_joint" "61.8948225713",
  .simple "l_forearm_roll_trans" "l_forearm_roll_motor" "l_forearm_roll_joint" "-90.5142857143",
  .simple "l_elbow_flex_trans" "l_elbow_flex_motor" "l_elbow_flex_joint" "-36.167452007",
  .wrist "l_wrist_trans" "l_wrist_r_motor" "60.1714285714" "l_wrist_l_motor" "60.1714285714" "l_wrist_flex_joint" "-1.0" "l_wrist_roll_joint" "1.0",
  .gripper "l_gripper_trans" "l_gripper_motor" "l_gripper_joint" ["l_gripper_l_finger_joint", "l_gripper_r_finger_joint", "l_gripper_r_finger_tip_joint", "l_gripper_l_finger_tip_joint", "l_gripper_r_parallel_root_joint", "l_gripper_l_parallel_root_joint"]]

/-- The screw and slider joints of a simulated gripper, by its gap joint (pr2_gripper_transmission.cpp:72-74). -/
def pr2Screw (g : String) : Option (String × String) :=
  if g = "r_gripper_joint" then some ("r_gripper_motor_screw_joint", "r_gripper_motor_slider_joint")
  else if g = "l_gripper_joint" then some ("l_gripper_motor_screw_joint", "l_gripper_motor_slider_joint") else none

/-- The shipped description with the types in full. -/
def pr2Namespaced : Xml := .node "robot" [("name", "pr2")] none (pr2Urdf.kids.map fun
  | .node "transmission" attrs text kids =>
    .node "transmission" (attrs.map fun p => if p.1 = "type" then (p.1, "pr2_mechanism_model/" ++ p.2) else p) text kids
  | x => x)

/-- In addition with the simulated joints of the grippers. -/
def pr2Complete : Xml := .node "robot" [("name", "pr2")] none ((pr2Namespaced.kids.map fun
  | .node "transmission" attrs text kids => .node "transmission" attrs text (kids ++
      ((((Xml.node "" [] none kids).first "gap_joint").bind (·.attr "name")).bind pr2Screw).elim []
        (fun s => [Xml.node "simulated_actuated_joint" [("name", s.1), ("passive_actuated_joint", s.2), ("simulated_reduction", "3141.6")] none []]))
  | x => x) ++
  [.node "link" [("name", "r_gripper_motor_slider_link")] none [], .node "link" [("name", "r_gripper_motor_screw_link")] none [],
   .node "link" [("name", "l_gripper_motor_slider_link")] none [], .node "link" [("name", "l_gripper_motor_screw_link")] none [],
   .node "joint" [("name", "r_gripper_motor_slider_joint"), ("type", "prismatic")] none
     [.node "parent" [("link", "r_gripper_palm_link")] none [], .node "child" [("link", "r_gripper_motor_slider_link")] none []],
   .node "joint" [("name", "r_gripper_motor_screw_joint"), ("type", "continuous")] none
     [.node "parent" [("link", "r_gripper_motor_slider_link")] none [], .node "child" [("link", "r_gripper_motor_screw_link")] none []],
   .node "joint" [("name", "l_gripper_motor_slider_joint"), ("type", "prismatic")] none
     [.node "parent" [("link", "l_gripper_palm_link")] none [], .node "child" [("link", "l_gripper_motor_slider_link")] none []],
   .node "joint" [("name", "l_gripper_motor_screw_joint"), ("type", "continuous")] none
     [.node "parent" [("link", "l_gripper_motor_slider_link")] none [], .node "child" [("link", "l_gripper_motor_screw_link")] none []]])

/-- Joints of the file whose effort limit suffices for the velocity gain at the speed limit: limits (lower, upper, effort, velocity) and safety (soft lower and upper, position and velocity
gain), as in the file. -/
def pr2Guards : List (String × JLimits ℚ × JSafety ℚ) := [
  ("head_tilt_joint", ⟨-235619 / 500000, 69813 / 50000, 15, 5⟩, ⟨-232 / 625, 64813 / 50000, 100, 3 / 2⟩),
  ("laser_tilt_mount_joint", ⟨-3927 / 5000, 148353 / 100000, 13 / 20, 10⟩, ⟨-3677 / 5000, 143353 / 100000, 100, 1 / 20⟩),
  ("r_upper_arm_roll_joint", ⟨-39 / 10, 4 / 5, 30, 327 / 100⟩, ⟨-15 / 4, 13 / 20, 100, 2⟩),
  ("r_shoulder_pan_joint", ⟨-11426990817 / 5000000000, 714601836603 / 1000000000000, 30, 261 / 125⟩, ⟨-10676990817 / 5000000000, 564601836603 / 1000000000000, 100, 10⟩),
  ("r_shoulder_lift_joint", ⟨-1309 / 2500, 13963 / 10000, 30, 1041 / 500⟩, ⟨-221 / 625, 12963 / 10000, 100, 10⟩),
  ("r_elbow_flex_joint", ⟨-23213 / 10000, 0, 30, 33 / 10⟩, ⟨-21213 / 10000, -3 / 20, 100, 3⟩),
  ("l_upper_arm_roll_joint", ⟨-4 / 5, 39 / 10, 30, 327 / 100⟩, ⟨-13 / 20, 15 / 4, 100, 2⟩),
  ("l_shoulder_pan_joint", ⟨-714601836603 / 1000000000000, 11426990817 / 5000000000, 30, 261 / 125⟩, ⟨-564601836603 / 1000000000000, 10676990817 / 5000000000, 100, 10⟩),
  ("l_shoulder_lift_joint", ⟨-1309 / 2500, 13963 / 10000, 30, 1041 / 500⟩, ⟨-221 / 625, 12963 / 10000, 100, 10⟩),
  ("l_elbow_flex_joint", ⟨-23213 / 10000, 0, 30, 33 / 10⟩, ⟨-21213 / 10000, -3 / 20, 100, 3⟩)]

/-- The same numbers in another field. -/
def JLimits.cast {F : Type} [RatCast F] (l : JLimits ℚ) : JLimits F := ⟨l.lower, l.upper, l.effort, l.velocity⟩
def JSafety.cast {F : Type} [RatCast F] (s : JSafety ℚ) : JSafety F := ⟨s.softLower, s.softUpper, s.kPosition, s.kVelocity⟩

set_option maxRecDepth 100000 in
/-- The table is what the file says. -/
theorem pr2Urdf_rows : pr2Urdf.all "transmission" = pr2Rows.map (Row.xml "" (fun _ => none)) := by rfl
set_option maxRecDepth 100000 in
theorem pr2Namespaced_rows : pr2Namespaced.all "transmission" = pr2Rows.map (Row.xml "pr2_mechanism_model/" (fun _ => none)) := by rfl
set_option maxRecDepth 100000 in
theorem pr2Complete_rows : pr2Complete.all "transmission" = pr2Rows.map (Row.xml "pr2_mechanism_model/" pr2Screw) := by rfl

section
variable {F : Type} [FCmp F] [Zero F] [Add F] [Sub F] [Mul F] [iDiv : Div F] [Neg F] [FLit F] [iTrig : FTrig F] [Parse F]

/-- The motors of a transmission. -/
def Row.motors : Row → List String
  | .simple _ m _ _ => [m]
  | .wrist _ rm _ lm _ _ _ _ _ => [rm, lm]
  | .gripper _ m _ _ => [m]

/-- The joints of a transmission. -/
def Row.joints (screw : String → Option (String × String)) : Row → List String
  | .simple _ _ j _ => [j]
  | .wrist _ _ _ _ _ fj _ oj _ => [fj, oj]
  | .gripper _ _ g ps => g :: ps ++ (screw g).elim [] (fun s => [s.1, s.2])

/-- The transmission that a row means, made from a new object. -/
def Row.trans (screw : String → Option (String × String)) (new : NewTrans F) (r : Row) : Trans F :=
  match r with
  | .simple n _ _ red => ⟨n, r.motors, r.joints screw, .simple { new.simple with reduction := Parse.atof red }⟩
  | .wrist n _ rr _ lr _ fr _ or => ⟨n, r.motors, r.joints screw, .wrist { new.wrist with
      ar0 := Parse.atof rr, ar1 := Parse.atof lr, jr0 := Parse.atof fr, jr1 := Parse.atof or, off0 := lit 0, off1 := lit 0 }⟩
  | .gripper n _ g ps => ⟨n, r.motors, r.joints screw, .gripper { new.gripper with
      reduction := lit 1, screw := lit (4 / 1000), gear := lit (40095 / 1000), theta0 := lit (628824676201 / 10000000000000), phi0 := lit (518518122146 / 1000000000000),
      t0 := lit (-1914 / 10000000), L0 := lit (375528 / 10000000), h := lit 0, a := lit (683698 / 10000000), b := lit (433849 / 10000000), r := lit (915 / 10000),
      passive := new.gripper.passive ++ ps, simReduction := if (screw g).isSome then lit (31416 / 10) else new.gripper.simReduction,
      hasPassive := new.gripper.hasPassive || (screw g).isSome }⟩

/-- The class of a row. -/
def Row.cls : Row → String
  | .simple _ _ _ _ => "pr2_mechanism_model/SimpleTransmission"
  | .wrist _ _ _ _ _ _ _ _ _ => "pr2_mechanism_model/WristTransmission"
  | .gripper _ _ _ _ => "pr2_mechanism_model/PR2GripperTransmission"
/-- The new object for a row. -/
def Row.body (new : NewTrans F) : Row → Body F
  | .simple _ _ _ _ => .simple new.simple
  | .wrist _ _ _ _ _ _ _ _ _ => .wrist new.wrist
  | .gripper _ _ _ _ => .gripper new.gripper

theorem row_create (new : Nat → NewTrans F) (k : Nat) (r : Row) : (pluginLoader new).create k r.cls = some (r.body (new k)) := by
  cases r <;> rfl
theorem row_type (screw : String → Option (String × String)) (r : Row) : (r.xml "pr2_mechanism_model/" screw).HasType r.cls := by
  cases r <;> exact Or.inl rfl
theorem row_picks (new : Nat → NewTrans F) (r : Row) : (pluginLoader new).Picks r.cls r.cls := by
  cases r <;> exact Or.inl ⟨rfl, rfl⟩
theorem row_pr2 (r : Row) : ∃ rest, r.cls = "pr2" ++ rest := by
  cases r
  · exact ⟨"_mechanism_model/SimpleTransmission", rfl⟩
  · exact ⟨"_mechanism_model/WristTransmission", rfl⟩
  · exact ⟨"_mechanism_model/PR2GripperTransmission", rfl⟩

theorem gripper_children (ns n m g : String) (ps : List String) (screw : String → Option (String × String)) :
    ((Row.gripper n m g ps).xml ns screw).childrenTagged "gap_joint" = [.node "gap_joint" [("L0", "0.0375528"), ("a", "0.0683698"), ("b", "0.0433849"), ("gear_ratio", "40.095"), ("h", "0.0"), ("mechanical_reduction", "1.0"), ("name", g),
          ("phi0", "0.518518122146"), ("r", "0.0915"), ("screw_reduction", "0.004"), ("t0", "-0.0001914"), ("theta0", "0.0628824676201")] none []] ∧
    ((Row.gripper n m g ps).xml ns screw).childrenTagged "passive_joint" = ps.map (fun p => .node "passive_joint" [("name", p)] none []) ∧
    ((Row.gripper n m g ps).xml ns screw).childrenTagged "simulated_actuated_joint" =
      ((screw g).map (fun s => Xml.node "simulated_actuated_joint" [("name", s.1), ("passive_actuated_joint", s.2), ("simulated_reduction", "3141.6")] none [])).toList := by
  unfold Xml.childrenTagged
  refine ⟨?_, ?_, ?_⟩ <;> cases hs : screw g <;> simp [Row.xml, Xml.kids, Xml.tag, hs, List.filter_append, List.filter_map, Function.comp_def]

theorem saysOf (x : Xml) (n v : String) (h : x.attr n = some v) : x.Says n v := (attr_some x n v).1 h
theorem firstChild (x : Xml) (n : String) (y : Xml) (h : x.first n = some y) : x.FirstChild n y := (first_some x n y).1 h

/-- A row describes its transmission. -/
theorem row_described (hd : ReadsDecimals F) (ns : String) (screw : String → Option (String × String)) (new : NewTrans F) (r : Row) (joint : String → Option (UJoint F))
    (acts : List (Actuator F)) (hm : ∀ m ∈ r.motors, ∃ a ∈ acts, a.name = m) (hj : ∀ j ∈ r.joints screw, ∃ u, joint j = some u) :
    Described (r.body new) (r.xml ns screw) joint acts (r.trans screw new) := by
  cases r with
  | simple n m j red =>
    exact ⟨_, j, _, m, _, red, [], _, firstChild _ _ _ rfl, saysOf _ _ _ rfl, hj j (by simp [Row.joints]), firstChild _ _ _ rfl, saysOf _ _ _ rfl, hm m (by simp [Row.motors]),
      Or.inr ⟨(first_none _ _).1 rfl, firstChild _ _ _ rfl⟩, rfl, by rw [show (Row.xml ns screw (.simple n m j red)).childrenTagged "simulated_actuated_joint" = [] from rfl]; exact .nil,
      Or.inl (saysOf _ _ _ rfl), rfl, rfl, rfl, rfl, rfl, rfl, rfl, rfl⟩
  | wrist n rm rr lm lr fj fr oj or =>
    exact ⟨rm, lm, fj, oj, _, ⟨_, rr, firstChild _ _ _ rfl, saysOf _ _ _ rfl, hm rm (by simp [Row.motors]), saysOf _ _ _ rfl, rfl⟩,
      ⟨_, lr, firstChild _ _ _ rfl, saysOf _ _ _ rfl, hm lm (by simp [Row.motors]), saysOf _ _ _ rfl, rfl⟩,
      ⟨_, fr, firstChild _ _ _ rfl, saysOf _ _ _ rfl, hj fj (by simp [Row.joints]), saysOf _ _ _ rfl, rfl, Or.inl ⟨(attr_none _ _).1 rfl, rfl⟩⟩,
      ⟨_, or, firstChild _ _ _ rfl, saysOf _ _ _ rfl, hj oj (by simp [Row.joints]), saysOf _ _ _ rfl, rfl, Or.inl ⟨(attr_none _ _).1 rfl, rfl⟩⟩,
      Or.inl (saysOf _ _ _ rfl), rfl, rfl, rfl, rfl, rfl, rfl⟩
  | gripper n m g ps =>
    obtain ⟨c1, c2, c3⟩ := gripper_children ns n m g ps screw
    have num : ∀ (e : Xml) (nm s : String) (q : ℚ) (d : F), e.attr nm = some s → decimal s = some q → Coeff e nm d (lit q) :=
      fun e nm s q d h h' => Or.inr ⟨s, saysOf _ _ _ h, hd.lexical s q h'⟩
    obtain ⟨G, hG⟩ : ∃ G, (Row.trans screw new (.gripper n m g ps)).body = .gripper G := ⟨_, rfl⟩
    refine ⟨_, m, [(g, G)], ps, ((screw g).map (fun s => (s.1, (lit (31416 / 10) : F), some s.2))).toList, G,
      firstChild _ _ _ rfl, saysOf _ _ _ rfl, hm m (by simp [Row.motors]), ?_, ?_, ?_, Or.inl (saysOf _ _ _ rfl), rfl, ?_, hj, hG, ?_, ?_, ?_, ?_, ?_, ?_⟩
    · rw [c1]
      cases hG
      refine .cons ⟨saysOf _ _ _ rfl, ⟨"1.0", saysOf _ _ _ rfl, hd.lexical _ _ (by decide +kernel)⟩, ?_, ?_, ?_, ?_, ?_, ?_, ?_, ?_, ?_, ?_⟩ .nil
      · exact num _ _ "0.004" _ _ rfl (by decide +kernel)
      · exact num _ _ "40.095" _ _ rfl (by decide +kernel)
      · exact num _ _ "0.0628824676201" _ _ rfl (by decide +kernel)
      · exact num _ _ "0.518518122146" _ _ rfl (by decide +kernel)
      · exact num _ _ "-0.0001914" _ _ rfl (by decide +kernel)
      · exact num _ _ "0.0375528" _ _ rfl (by decide +kernel)
      · exact num _ _ "0.0" _ _ rfl (by decide +kernel)
      · exact num _ _ "0.0683698" _ _ rfl (by decide +kernel)
      · exact num _ _ "0.0433849" _ _ rfl (by decide +kernel)
      · exact num _ _ "0.0915" _ _ rfl (by decide +kernel)
    · rw [c2]
      clear hj hG c1 c2 c3 hm
      induction ps with
      | nil => exact .nil
      | cons p ps ih => exact .cons (saysOf _ _ _ rfl) ih
    · rw [c3]
      cases hs : screw g with
      | none => exact .nil
      | some s =>
        exact .cons ⟨saysOf _ _ _ rfl, ⟨"3141.6", saysOf _ _ _ rfl, hd.lexical _ _ (by decide +kernel)⟩, Or.inr ⟨s.2, saysOf _ _ _ rfl, rfl⟩⟩ .nil
    · cases hs : screw g <;> simp [Row.trans, Row.joints, hs]
    · exact ⟨rfl, rfl, rfl, rfl, rfl, rfl, rfl, rfl, rfl, rfl, rfl⟩
    · cases hG; rfl
    · cases hG; cases hs : screw g <;> simp
    · cases hG; cases hs : screw g <;> simp
    · cases hG; rfl
    · cases hG; rfl

/-! ## Loading -/

theorem hasType_unique {x : Xml} {a b : String} (h : x.HasType a) (k : x.HasType b) : a = b := by
  rcases h with h | ⟨h, e, h1, h2⟩ <;> rcases k with k | ⟨k, e', k1, k2⟩
  · rw [h] at k; exact Option.some.inj k
  · rw [h] at k; cases k
  · rw [h] at k; cases k
  · rw [h1] at k1; cases k1; rw [h2] at k2; exact Option.some.inj k2

/-- If every element describes a transmission, exactly these are loaded. -/
theorem loads_all (l : TransLoader F) (urdf : Xml → Option (String → Option (UJoint F))) (root : Xml) (acts : List (Actuator F)) (joint : String → Option (UJoint F))
    (hu : urdf root = some joint) (ts : List (Trans F)) (hlen : ts.length = (root.childrenTagged "transmission").length)
    (h : ∀ (k : Nat) (x : Xml) (t : Trans F), (root.childrenTagged "transmission")[k]? = some x → ts[k]? = some t →
      ∃ ty b, x.HasType ty ∧ (∃ rest, ty = "pr2" ++ rest) ∧ l.create k (l.resolve ty) = some b ∧ Described b x joint acts t) :
    (Robot.initXml true urdf l root acts).2 = .ok ts := by
  obtain ⟨hf, hc⟩ := C49_never_fails l urdf root acts joint hu
  have all : ∀ (k : Nat) (x : Xml), (root.childrenTagged "transmission")[k]? = some x → ∃ t, ts[k]? = some t := by
    intro k x hk
    have := (List.getElem?_eq_some_iff.1 hk).1
    exact ⟨ts[k]'(by omega), List.getElem?_eq_getElem _⟩
  have hnc : (Robot.initXml true urdf l root acts).2 ≠ .crash := by
    rw [Ne, hc]
    rintro ⟨k, x, hk, hcr⟩
    obtain ⟨t, ht⟩ := all k x hk
    obtain ⟨ty, b, h1, _, h3, h4⟩ := h k x t hk ht
    rcases hcr with ⟨c1, e, c2, c3⟩ | ⟨ty', cls, b', c1, _, c3, c4, c5⟩
    · rcases h1 with h1 | ⟨_, e', h1, h2⟩
      · rw [c1] at h1; cases h1
      · rw [c2] at h1; cases h1; rw [c3] at h2; cases h2
    · cases hasType_unique h1 c1
      rw [picks_iff] at c3
      rw [c3, h3] at c4
      cases c4
      rw [(C94_transmission b x joint acts t).2 h4] at c5; cases c5
  rcases hr : (Robot.initXml true urdf l root acts).2 with _ | _ | ts'
  · exact (hnc hr).elim
  · exact (hf hr).elim
  obtain ⟨_, joint', hu', results, hl, rfl, hres⟩ := C49_keeps_exactly l urdf root acts true ts' hr
  rw [hu] at hu'; cases hu'
  have : results = ts.map some := by
    apply List.ext_getElem?
    intro k
    rw [List.getElem?_map]
    rcases hk : (root.childrenTagged "transmission")[k]? with _ | x
    · have := List.getElem?_eq_none_iff.1 hk
      rw [List.getElem?_eq_none (by omega), List.getElem?_eq_none (by omega)]; rfl
    · obtain ⟨t, ht⟩ := all k x hk
      obtain ⟨ty, b, h1, h2, h3, h4⟩ := h k x t hk ht
      rw [ht, (hres k x hk t).2 ⟨ty, _, b, h1, h2, (picks_iff l ty _).2 rfl, h3, (C94_transmission b x joint acts t).2 h4⟩]
      rfl
  rw [this]
  simp

theorem getName_not_pr2 : ∀ c ∈ pluginClasses, ∀ rest, pluginName c ≠ "pr2" ++ rest := by
  intro c hc rest h
  have h' : (pluginName c).toList.take 3 = "pr2".toList := (take_pr2 _).2 ⟨rest, h⟩
  revert h' hc
  clear h
  revert c
  decide +kernel

/-- **C99, only full names.**  With the plugins of this package, whatever the robot description: a transmission is loaded only if its element gives the full name of its class.
The code for "non-namespaced" (deprecated) type names can not find anything: those names do not begin with "pr2", and have been skipped before. -/
theorem C99_only_full_names (urdf : Xml → Option (String → Option (UJoint F))) (new : Nat → NewTrans F) (root : Xml) (acts : List (Actuator F)) (hw : Bool) (ts : List (Trans F))
    (h : (Robot.initXml hw urdf (pluginLoader new) root acts).2 = .ok ts) :
    ∃ joint, urdf root = some joint ∧ ∃ results : List (Option (Trans F)), results.length = (root.childrenTagged "transmission").length ∧ ts = results.filterMap id ∧
      ∀ k x, (root.childrenTagged "transmission")[k]? = some x → ∀ t, results[k]? = some (some t) ↔
        ∃ ty, x.HasType ty ∧
          ((ty = "pr2_mechanism_model/SimpleTransmission" ∧ Described (.simple (new k).simple) x joint acts t) ∨
           (ty = "pr2_mechanism_model/WristTransmission" ∧ Described (.wrist (new k).wrist) x joint acts t) ∨
           (ty = "pr2_mechanism_model/PR2GripperTransmission" ∧ Described (.gripper (new k).gripper) x joint acts t) ∨
           (ty = "pr2_mechanism_model/PR2BeltCompensatorTransmission" ∧ Described (.belt (new k).belt) x joint acts t)) := by
  obtain ⟨_, joint, hu, results, h1, h2, h3⟩ := C49_keeps_exactly _ urdf root acts hw ts h
  refine ⟨joint, hu, results, h1, h2, fun k x hx t => ?_⟩
  rw [h3 k x hx t]
  have conv : ∀ b : Body F, (b.initXml x joint acts).2 = .ok t ↔ Described b x joint acts t := fun b => C94_transmission b x joint acts t
  constructor
  · rintro ⟨ty, cls, b, t1, ⟨rest, rfl⟩, t3, t4, t5⟩
    rw [conv] at t5
    refine ⟨_, t1, ?_⟩
    have hcls : cls = "pr2" ++ rest := by
      rcases t3 with ⟨_, e⟩ | ⟨_, ⟨a, c, e, e', _⟩ | ⟨_, e⟩⟩
      · exact e
      · exact (getName_not_pr2 cls (by have : cls ∈ (pluginLoader new).classes := by rw [e]; simp
                                       exact this) rest e').elim
      · exact e
    rw [hcls] at t4
    generalize "pr2" ++ rest = ty at *
    dsimp only [pluginLoader] at t4
    split at t4
    · cases t4; exact Or.inl ⟨‹_›, t5⟩
    split at t4
    · cases t4; exact Or.inr (Or.inl ⟨‹_›, t5⟩)
    split at t4
    · cases t4; exact Or.inr (Or.inr (Or.inl ⟨‹_›, t5⟩))
    split at t4
    · cases t4; exact Or.inr (Or.inr (Or.inr ⟨‹_›, t5⟩))
    · cases t4
  · rintro ⟨ty, t1, t2⟩
    have : (∃ rest, ty = "pr2" ++ rest) ∧ (pluginLoader new).available ty = true ∧ ∃ b, (pluginLoader new).create k ty = some b ∧ Described b x joint acts t := by
      rcases t2 with ⟨rfl, t2⟩ | ⟨rfl, t2⟩ | ⟨rfl, t2⟩ | ⟨rfl, t2⟩
      · exact ⟨⟨"_mechanism_model/SimpleTransmission", rfl⟩, rfl, _, rfl, t2⟩
      · exact ⟨⟨"_mechanism_model/WristTransmission", rfl⟩, rfl, _, rfl, t2⟩
      · exact ⟨⟨"_mechanism_model/PR2GripperTransmission", rfl⟩, rfl, _, rfl, t2⟩
      · exact ⟨⟨"_mechanism_model/PR2BeltCompensatorTransmission", rfl⟩, rfl, _, rfl, t2⟩
    obtain ⟨a1, a2, b, a3, a4⟩ := this
    exact ⟨ty, ty, b, t1, a1, Or.inl ⟨a2, rfl⟩, a3, (conv b).2 a4⟩

/-- **C99, the shipped description.**  Whatever the hardware, `pr2.urdf` as shipped is accepted and not a single transmission is loaded from it, so that the robot state has no joints. -/
theorem C99_shipped_ignored (urdf : Xml → Option (String → Option (UJoint F))) (joint : String → Option (UJoint F)) (hu : urdf pr2Urdf = some joint) (new : Nat → NewTrans F)
    (acts : List (Actuator F)) (old : Nat → F) :
    Robot.initXml true urdf (pluginLoader new) pr2Urdf acts = (acts, .ok []) ∧
    ∃ s, RState.mk' [] joint acts old = some s ∧ s.joints = [] ∧ s.acts = acts ∧ ∀ n, s.getJointState n = none := by
  refine ⟨?_, _, rfl, rfl, rfl, fun n => rfl⟩
  unfold Robot.initXml
  rw [hu, pr2Urdf_rows]
  rfl

/-! ## With full names -/

theorem rows_load (hd : ReadsDecimals F) (screw : String → Option (String × String)) (root : Xml) (hroot : root.all "transmission" = pr2Rows.map (Row.xml "pr2_mechanism_model/" screw))
    (urdf : Xml → Option (String → Option (UJoint F))) (joint : String → Option (UJoint F)) (hu : urdf root = some joint) (new : Nat → NewTrans F) (acts : List (Actuator F))
    (hm : ∀ r ∈ pr2Rows, ∀ m ∈ r.motors, ∃ a ∈ acts, a.name = m) (hj : ∀ r ∈ pr2Rows, ∀ j ∈ r.joints screw, ∃ u, joint j = some u) :
    (Robot.initXml true urdf (pluginLoader new) root acts).2 = .ok (pr2Rows.mapIdx fun k r => r.trans screw (new k)) := by
  rw [all_eq] at hroot
  apply loads_all _ _ _ _ joint hu
  · rw [hroot]; simp
  · intro k x t hx ht
    rw [hroot, List.getElem?_map] at hx
    rw [List.getElem?_mapIdx] at ht
    rcases hr : pr2Rows[k]? with _ | r
    · rw [hr] at hx; cases hx
    rw [hr] at hx ht
    cases hx; cases ht
    have hrm := List.mem_of_getElem? hr
    refine ⟨_, _, row_type screw r, row_pr2 r, ?_, row_described hd _ screw (new k) r joint acts (hm r hrm) (hj r hrm)⟩
    rw [← (picks_iff _ _ _).1 (row_picks new r)]
    exact row_create new k r

/-- The joints of the transmissions that the file describes, and their elements. -/
theorem pr2_joint_elements : ∀ r ∈ pr2Rows, ∀ j ∈ r.joints (fun _ => none), ∃ x ∈ pr2Namespaced.all "joint", x.attr "name" = some j := by decide +kernel
theorem pr2Complete_joint_elements : ∀ r ∈ pr2Rows, ∀ j ∈ r.joints pr2Screw, ∃ x ∈ pr2Complete.all "joint", x.attr "name" = some j ∧
    (x.attr "type" = some "revolute" ∨ x.attr "type" = some "continuous" ∨ x.attr "type" = some "prismatic") := by decide +kernel

theorem sweep_none (f : Body F → List (Actuator F) → List (JState F) → Option (Body F × List (Actuator F) × List (JState F))) (cs : List (Conn F)) (as : List (Actuator F)) (js : List (JState F))
    (h : ∃ c ∈ cs, ∀ as js, js.length ≤ c.outs.length → f c.trans.body as js = none) : sweep f cs as js = none := by
  induction cs generalizing as js with
  | nil => obtain ⟨c, hc, _⟩ := h; cases hc
  | cons c cs ih =>
    unfold sweep
    rcases hf : f c.trans.body (gather as c.ins) (gather js c.outs) with _ | r
    · rfl
    · have : ∃ c ∈ cs, ∀ as js, js.length ≤ c.outs.length → f c.trans.body as js = none := by
        obtain ⟨d, hd, hn⟩ := h
        rcases List.mem_cons.1 hd with rfl | hd
        · rw [hn _ (gather js d.outs) (by unfold gather; exact List.length_filterMap_le _ _)] at hf; cases hf
        · exact ⟨d, hd, hn⟩
      have hs := ih (scatter c.ins r.2.1 as) (scatter c.outs r.2.2 js) this
      simp [hs]

/-- **C99, full names alone do not help.**  With the type names in full, all thirty transmissions of `pr2.urdf` are loaded and the robot state is made; but the first propagation of
positions fails an assertion, whatever the hardware reports, because the file's grippers have no simulated joint. -/
theorem C99_full_names_abort (hd : ReadsDecimals F) (urdf : Xml → Option (String → Option (UJoint F))) (joint : String → Option (UJoint F)) (hu : ReadsUrdf urdf pr2Namespaced joint)
    (new : Nat → NewTrans F) (hn : ∀ k, (new k).gripper.hasPassive = false ∧ (new k).gripper.passive = []) (acts : List (Actuator F))
    (hm : ∀ r ∈ pr2Rows, ∀ m ∈ r.motors, ∃ a ∈ acts, a.name = m) (old : Nat → F) :
    ∃ acts' ts s, Robot.initXml true urdf (pluginLoader new) pr2Namespaced acts = (acts', .ok ts) ∧ ts.length = 30 ∧ RState.mk' ts joint acts' old = some s ∧
      ∀ s' : RState F, s'.conns = s.conns → s'.propagatePosition = none := by
  have hj : ∀ r ∈ pr2Rows, ∀ j ∈ r.joints (fun _ => none), ∃ u, joint j = some u := by
    intro r hr j hj
    obtain ⟨x, hx, hxn⟩ := pr2_joint_elements r hr j hj
    rw [all_eq] at hx
    exact (hu.2 x hx j (saysOf _ _ _ hxn)).imp fun _ h => h.1
  have hl := rows_load hd _ pr2Namespaced pr2Namespaced_rows urdf joint hu.1 new acts hm hj
  rcases hi : Robot.initXml true urdf (pluginLoader new) pr2Namespaced acts with ⟨acts', res⟩
  rw [hi] at hl
  dsimp only at hl
  subst hl
  obtain ⟨joint', s, hu', hs⟩ := C67_constructs _ urdf _ acts acts' true _ hi old
  rw [hu.1] at hu'; cases hu'
  refine ⟨acts', _, s, rfl, by rw [List.length_mapIdx]; rfl, hs, fun s' hs' => ?_⟩
  obtain ⟨js, hw, _⟩ := mk'_inv hs
  obtain ⟨w1, _, _, w4⟩ := wire_spec hw
  -- the gripper is number 22
  obtain ⟨c, hc⟩ : ∃ c, s.conns[22]? = some c := by
    have hlen := congrArg List.length w1
    rw [List.length_map, List.length_mapIdx] at hlen
    exact ⟨s.conns[22]'(by rw [hlen]; decide +kernel), List.getElem?_eq_getElem _⟩
  have ho := w4 22 c hc
  have hct : c.trans = Row.trans (fun _ => none) (new 22) (pr2Rows[22]'(by decide +kernel)) := by
    have := congrArg (·[22]?) w1
    simp only [List.getElem?_map, hc, List.getElem?_mapIdx, Option.map_some] at this
    rw [List.getElem?_eq_getElem (by decide +kernel)] at this
    exact Option.some.inj this
  unfold RState.propagatePosition RState.sweep
  rw [hs', sweep_none]
  · rfl
  refine ⟨c, List.mem_of_getElem? hc, fun as js hjs => ?_⟩
  rw [ho, List.length_range', hct] at hjs
  rw [hct]
  have hjs : js.length ≤ 7 := hjs
  change ((GripperT.propagatePosition _ as js).map _) = none
  rw [Option.map_eq_none_iff]
  unfold GripperT.propagatePosition
  split
  · rw [if_neg]
    rw [List.length_cons] at hjs
    dsimp only
    rw [(hn 22).1, (hn 22).2]
    simp only [Option.isSome_none, Bool.or_self, List.nil_append, List.length_cons, List.length_nil, Bool.false_eq_true, if_false]
    omega
  · rfl

theorem complete_ts (new : Nat → NewTrans F) : (pr2Rows.mapIdx fun k r => r.trans pr2Screw (new k)).flatMap (·.jointNames) = pr2Rows.flatMap (Row.joints pr2Screw) ∧
    (pr2Rows.mapIdx fun k r => r.trans pr2Screw (new k)).flatMap (·.actNames) = pr2Rows.flatMap Row.motors := by
  have h1 : ∀ (k : Nat) (r : Row), (r.trans pr2Screw (new k)).jointNames = r.joints pr2Screw ∧ (r.trans pr2Screw (new k)).actNames = r.motors := by
    intro k r; cases r <;> exact ⟨rfl, rfl⟩
  have : ∀ (rs : List Row) (f : Nat → NewTrans F), (rs.mapIdx fun k r => r.trans pr2Screw (f k)).flatMap (·.jointNames) = rs.flatMap (Row.joints pr2Screw) ∧
      (rs.mapIdx fun k r => r.trans pr2Screw (f k)).flatMap (·.actNames) = rs.flatMap Row.motors := by
    intro rs
    induction rs with
    | nil => intro f; exact ⟨rfl, rfl⟩
    | cons r rs ih =>
      intro f
      have := ih (fun k => f (k + 1))
      rw [List.mapIdx_cons, List.flatMap_cons, List.flatMap_cons, List.flatMap_cons, List.flatMap_cons, this.1, this.2]
      have h2 : (r.trans pr2Screw (f 0)).jointNames = r.joints pr2Screw ∧ (r.trans pr2Screw (f 0)).actNames = r.motors := by cases r <;> exact ⟨rfl, rfl⟩
      rw [h2.1, h2.2]
      exact ⟨rfl, rfl⟩
  exact this pr2Rows new

/-- What the constructors of the transmissions guarantee. -/
def NewTrans.Constructed (n : NewTrans F) : Prop := (Body.simple n.simple).Constructed ∧ (Body.wrist n.wrist).Constructed ∧ (Body.gripper n.gripper).Constructed

theorem complete_well (new : Nat → NewTrans F) (hn : ∀ k, (new k).Constructed) : (pluginLoader new).WellDescribed (pr2Complete.childrenTagged "transmission") := by
  intro k x ty cls b hx hty _ hp hb
  rw [← all_eq, pr2Complete_rows, List.getElem?_map] at hx
  rcases hr : pr2Rows[k]? with _ | r
  · rw [hr] at hx; cases hx
  rw [hr] at hx; cases hx
  cases hasType_unique hty (row_type pr2Screw r)
  have : cls = r.cls := by
    rw [(picks_iff _ _ _).1 hp, ← (picks_iff _ _ _).1 (row_picks new r)]
  subst this
  rw [row_create] at hb
  cases hb
  have hrm := List.mem_of_getElem? hr
  cases r with
  | simple n m j red => exact ⟨(hn k).1, by change (0 : Nat) ≤ 1; decide⟩
  | wrist n rm rr lm lr fj fr oj or => exact ⟨(hn k).2.1, trivial⟩
  | gripper n m g ps =>
    obtain ⟨c1, _, c3⟩ := gripper_children "pr2_mechanism_model/" n m g ps pr2Screw
    refine ⟨(hn k).2.2, ?_, ?_⟩
    · rw [all_eq, c1]; rfl
    · rw [all_eq, c3]
      have hg : ∀ r ∈ pr2Rows, ∀ n m g ps, r = Row.gripper n m g ps → (pr2Screw g).isSome = true := by
        have : ∀ r ∈ pr2Rows, (match r with | .gripper _ _ g _ => (pr2Screw g).isSome | _ => true) = true := by decide +kernel
        rintro r hr n m g ps rfl
        exact this _ hr
      have := hg _ hrm n m g ps rfl
      obtain ⟨s, hs⟩ := Option.isSome_iff_exists.1 this
      rw [hs]; rfl

/-- **C99, the completed description.**  With full type names and the grippers' simulated joints, the shipped description loads on every hardware that has its motors: exactly its
thirty transmissions, with the reductions it states, in its order; no joint and no motor belongs to two of them; and the joints are of kinds that are published. -/
theorem C99_complete (hd : ReadsDecimals F) (urdf : Xml → Option (String → Option (UJoint F))) (joint : String → Option (UJoint F)) (hu : ReadsUrdf urdf pr2Complete joint)
    (new : Nat → NewTrans F) (hn : ∀ k, (new k).Constructed) (acts : List (Actuator F)) (hm : ∀ r ∈ pr2Rows, ∀ m ∈ r.motors, ∃ a ∈ acts, a.name = m) (old : Nat → F) :
    ∃ acts' s, Robot.initXml true urdf (pluginLoader new) pr2Complete acts = (acts', .ok (pr2Rows.mapIdx fun k r => r.trans pr2Screw (new k))) ∧
      RState.mk' (pr2Rows.mapIdx fun k r => r.trans pr2Screw (new k)) joint acts' old = some s ∧
      Loaded (pluginLoader new) urdf pr2Complete joint acts (pr2Rows.mapIdx fun k r => r.trans pr2Screw (new k)) s ∧
      ((pr2Rows.mapIdx fun k r => r.trans pr2Screw (new k)).flatMap (·.actNames)).Nodup ∧ messageSize s.joints = some 48 := by
  have hj : ∀ r ∈ pr2Rows, ∀ j ∈ r.joints pr2Screw, ∃ u, joint j = some u ∧ (u.type = .revolute ∨ u.type = .continuous ∨ u.type = .prismatic) := by
    intro r hr j hj
    obtain ⟨x, hx, hxn, hxt⟩ := pr2Complete_joint_elements r hr j hj
    rw [all_eq] at hx
    obtain ⟨u, h1, h2⟩ := hu.2 x hx j (saysOf _ _ _ hxn)
    refine ⟨u, h1, ?_⟩
    rcases hxt with hxt | hxt | hxt
    · exact Or.inl (h2.type.1 (saysOf _ _ _ hxt))
    · exact Or.inr (Or.inl (h2.type.2.1 (saysOf _ _ _ hxt)))
    · exact Or.inr (Or.inr (h2.type.2.2 (saysOf _ _ _ hxt)))
  have hl := rows_load hd _ pr2Complete pr2Complete_rows urdf joint hu.1 new acts hm (fun r hr j hj' => (hj r hr j hj').imp fun _ h => h.1)
  obtain ⟨e1, e2⟩ := complete_ts new
  generalize hts : (pr2Rows.mapIdx fun k r => r.trans pr2Screw (new k)) = ts at *
  rcases hi : Robot.initXml true urdf (pluginLoader new) pr2Complete acts with ⟨acts', res⟩
  rw [hi] at hl
  dsimp only at hl
  subst hl
  obtain ⟨joint', s, hu', hs⟩ := C67_constructs _ urdf _ acts acts' true _ hi old
  rw [hu.1] at hu'; cases hu'
  refine ⟨acts', s, rfl, hs, ⟨⟨true, acts', old, hi, hs⟩, hu.1, complete_well new hn, ?_⟩, ?_, ?_⟩
  · rw [e1]; decide +kernel
  · rw [e2]; decide +kernel
  · rw [messageSize_spec]
    have f := C50_joint_states hs
    rw [e1] at f
    refine ⟨?_, ?_⟩
    · rw [← f.length_eq]; decide +kernel
    · intro j hj'
      obtain ⟨n, hn', h1, _⟩ := mem_forall2_left f.flip hj'
      obtain ⟨r, hr, hnr⟩ := List.mem_flatMap.1 hn'
      obtain ⟨u, h2, h3⟩ := hj r hr n hnr
      rw [h1] at h2; cases h2
      exact h3

/-- The transmissions of the completed description. -/
abbrev pr2Trans (new : Nat → NewTrans F) : List (Trans F) := pr2Rows.mapIdx fun k r => r.trans pr2Screw (new k)

section rows
variable {urdf : Xml → Option (String → Option (UJoint F))} {joint : String → Option (UJoint F)} {new : Nat → NewTrans F} {acts : List (Actuator F)} {s0 s s' : RState F}

theorem complete_described (hd : ReadsDecimals F) (hu : ReadsUrdf urdf pr2Complete joint) (hm : ∀ r ∈ pr2Rows, ∀ m ∈ r.motors, ∃ a ∈ acts, a.name = m) {r : Row} (hr : r ∈ pr2Rows) :
    ∃ k, r.trans pr2Screw (new k) ∈ pr2Trans new ∧ Described (r.body (new k)) (r.xml "pr2_mechanism_model/" pr2Screw) joint acts (r.trans pr2Screw (new k)) := by
  obtain ⟨k, hk⟩ := List.mem_iff_getElem?.1 hr
  refine ⟨k, ?_, row_described hd _ pr2Screw (new k) r joint acts (hm r hr) ?_⟩
  · refine List.mem_of_getElem? (i := k) ?_
    rw [List.getElem?_mapIdx, hk]; rfl
  · intro j hj
    obtain ⟨x, hx, hxn, _⟩ := pr2Complete_joint_elements r hr j hj
    rw [all_eq] at hx
    exact (hu.2 x hx j (saysOf _ _ _ hxn)).imp fun _ h => h.1

/-- The reductions of the file are numbers other than zero. -/
def Row.reductions : Row → List String
  | .simple _ _ _ r => [r]
  | .wrist _ _ rr _ lr _ fr _ or => [rr, lr, fr, or]
  | .gripper _ _ _ _ => []
theorem pr2_reductions : ∀ r ∈ pr2Rows, ∀ s ∈ r.reductions, ∃ q, decimal s = some q ∧ q ≠ 0 := by
  have : ∀ r ∈ pr2Rows, ∀ s ∈ r.reductions, (match decimal s with | some q => decide (q ≠ 0) | none => false) = true := by decide +kernel
  intro r hr s hs
  have := this r hr s hs
  cases h : decimal s with
  | none => rw [h] at this; cases this
  | some q => rw [h] at this; exact ⟨q, rfl, of_decide_eq_true this⟩

/-- **C99, readings.**  The joint of each simple transmission of the file reads its motor's position divided by the number that the file states (plus the joint's reference). -/
theorem C99_simple_reading (hd : ReadsDecimals F) (hu : ReadsUrdf urdf pr2Complete joint) (hm : ∀ r ∈ pr2Rows, ∀ m ∈ r.motors, ∃ a ∈ acts, a.name = m)
    (h : Loaded (pluginLoader new) urdf pr2Complete joint acts (pr2Trans new) s0) (hl : Later s0 s) (hs : s.propagatePosition = some s')
    {n m jn red : String} (hr : Row.simple n m jn red ∈ pr2Rows) :
    ∃ q a j j', decimal red = some q ∧ q ≠ 0 ∧ s.Motor m a ∧ s.Joint jn j ∧ s'.Joint jn j' ∧ j'.position = a.position / lit q + j.reference ∧
      j'.velocity = a.velocity / lit q ∧ j'.measured = a.measured * lit q := by
  obtain ⟨k, ht, hde⟩ := complete_described (new := new) hd hu hm hr
  obtain ⟨q, hq, hq0⟩ := pr2_reductions _ hr red (by simp [Row.reductions])
  obtain ⟨a, j, j', h1, h2, h3, _, h4, h5, h6⟩ := C95_simple_reading h hl hs ht hde (firstChild _ _ _ rfl) (saysOf _ _ _ rfl) (firstChild _ _ _ rfl) (saysOf _ _ _ rfl)
    (Or.inr ⟨(first_none _ _).1 rfl, firstChild _ _ _ rfl⟩) rfl
  rw [hd.atof red q hq] at h4 h5 h6
  exact ⟨q, a, j, j', hq, hq0, h1, h2, h3, h4, h5, h6⟩

/-- **C99, commands.**  The motor of each simple transmission of the file is sent the joint's command divided by that number. -/
theorem C99_simple_command (hd : ReadsDecimals F) (hu : ReadsUrdf urdf pr2Complete joint) (hm : ∀ r ∈ pr2Rows, ∀ m ∈ r.motors, ∃ a ∈ acts, a.name = m)
    (h : Loaded (pluginLoader new) urdf pr2Complete joint acts (pr2Trans new) s0) (hl : Later s0 s) (hs : s.propagateEffort = some s')
    {n m jn red : String} (hr : Row.simple n m jn red ∈ pr2Rows) :
    ∃ q a' j, decimal red = some q ∧ q ≠ 0 ∧ s.Joint jn j ∧ s'.Motor m a' ∧ a'.enable = true ∧ a'.effort = j.commanded / lit q := by
  obtain ⟨k, ht, hde⟩ := complete_described (new := new) hd hu hm hr
  obtain ⟨q, hq, hq0⟩ := pr2_reductions _ hr red (by simp [Row.reductions])
  obtain ⟨a', j, h1, h2, h3, h4⟩ := C95_simple_command h (by rw [(complete_ts new).2]; decide +kernel) hl hs ht hde (firstChild _ _ _ rfl) (saysOf _ _ _ rfl) (firstChild _ _ _ rfl)
    (saysOf _ _ _ rfl) (Or.inr ⟨(first_none _ _).1 rfl, firstChild _ _ _ rfl⟩) rfl
  rw [hd.atof red q hq] at h4
  exact ⟨q, a', j, hq, hq0, h1, h2, h3, h4⟩

/-- **C99, wrists.**  The same for the two wrists: all four reductions are those of the file, and there are no offsets. -/
theorem C99_wrist (hd : ReadsDecimals F) (hu : ReadsUrdf urdf pr2Complete joint) (hm : ∀ r ∈ pr2Rows, ∀ m ∈ r.motors, ∃ a ∈ acts, a.name = m)
    (h : Loaded (pluginLoader new) urdf pr2Complete joint acts (pr2Trans new) s0) (hl : Later s0 s)
    {n rm rr lm lr fj fr oj or : String} (hr : Row.wrist n rm rr lm lr fj fr oj or ∈ pr2Rows) :
    ∃ kr kl kf ko, decimal rr = some kr ∧ decimal lr = some kl ∧ decimal fr = some kf ∧ decimal or = some ko ∧ kr ≠ 0 ∧ kl ≠ 0 ∧ kf ≠ 0 ∧ ko ≠ 0 ∧
      (s.propagatePosition = some s' → ∃ ar al jf jo jf' jo', s.Motor rm ar ∧ s.Motor lm al ∧ s.Joint fj jf ∧ s.Joint oj jo ∧ s'.Joint fj jf' ∧ s'.Joint oj jo' ∧
        jf'.position = (ar.position / lit kr - al.position / lit kl) / (lit 2 * lit kf) + jf.reference + lit 0 ∧
        jo'.position = (-ar.position / lit kr - al.position / lit kl) / (lit 2 * lit ko) + jo.reference + lit 0) ∧
      (s.propagateEffort = some s' → ∃ ar al jf jo, s.Joint fj jf ∧ s.Joint oj jo ∧ s'.Motor rm ar ∧ s'.Motor lm al ∧ ar.enable = true ∧ al.enable = true ∧
        ar.effort = (jf.commanded / lit kf - jo.commanded / lit ko) / (lit 2 * lit kr) ∧ al.effort = (-jf.commanded / lit kf - jo.commanded / lit ko) / (lit 2 * lit kl)) := by
  obtain ⟨k, ht, hde⟩ := complete_described (new := new) hd hu hm hr
  have red := pr2_reductions _ hr
  obtain ⟨kr, hkr, kr0⟩ := red rr (by simp [Row.reductions])
  obtain ⟨kl, hkl, kl0⟩ := red lr (by simp [Row.reductions])
  obtain ⟨kf, hkf, kf0⟩ := red fr (by simp [Row.reductions])
  obtain ⟨ko, hko, ko0⟩ := red or (by simp [Row.reductions])
  have hj : ∀ j ∈ (Row.wrist n rm rr lm lr fj fr oj or).joints pr2Screw, ∃ u, joint j = some u := by
    intro j hj
    obtain ⟨x, hx, hxn, _⟩ := pr2Complete_joint_elements _ hr j hj
    rw [all_eq] at hx
    exact (hu.2 x hx j (saysOf _ _ _ hxn)).imp fun _ h => h.1
  have w1 : WristMotor ((Row.wrist n rm rr lm lr fj fr oj or).xml "pr2_mechanism_model/" pr2Screw) "rightActuator" acts rm (lit kr : F) :=
    ⟨_, rr, firstChild _ _ _ rfl, saysOf _ _ _ rfl, hm _ hr rm (by simp [Row.motors]), saysOf _ _ _ rfl, (hd.atof _ _ hkr).symm⟩
  have w2 : WristMotor ((Row.wrist n rm rr lm lr fj fr oj or).xml "pr2_mechanism_model/" pr2Screw) "leftActuator" acts lm (lit kl : F) :=
    ⟨_, lr, firstChild _ _ _ rfl, saysOf _ _ _ rfl, hm _ hr lm (by simp [Row.motors]), saysOf _ _ _ rfl, (hd.atof _ _ hkl).symm⟩
  have w3 : WristAxis ((Row.wrist n rm rr lm lr fj fr oj or).xml "pr2_mechanism_model/" pr2Screw) "flexJoint" joint fj (lit kf : F) (lit 0) :=
    ⟨_, fr, firstChild _ _ _ rfl, saysOf _ _ _ rfl, hj fj (by simp [Row.joints]), saysOf _ _ _ rfl, (hd.atof _ _ hkf).symm, Or.inl ⟨(attr_none _ _).1 rfl, rfl⟩⟩
  have w4 : WristAxis ((Row.wrist n rm rr lm lr fj fr oj or).xml "pr2_mechanism_model/" pr2Screw) "rollJoint" joint oj (lit ko : F) (lit 0) :=
    ⟨_, or, firstChild _ _ _ rfl, saysOf _ _ _ rfl, hj oj (by simp [Row.joints]), saysOf _ _ _ rfl, (hd.atof _ _ hko).symm, Or.inl ⟨(attr_none _ _).1 rfl, rfl⟩⟩
  refine ⟨kr, kl, kf, ko, hkr, hkl, hkf, hko, kr0, kl0, kf0, ko0, fun hs => ?_, fun hs => ?_⟩
  · obtain ⟨ar, al, jf, jo, jf', jo', a1, a2, a3, a4, a5, a6, _, _, a7, a8, _⟩ := C95_wrist_reading h hl hs ht hde w1 w2 w3 w4
    exact ⟨ar, al, jf, jo, jf', jo', a1, a2, a3, a4, a5, a6, a7, a8⟩
  · exact C95_wrist_command h (by rw [(complete_ts new).2]; decide +kernel) hl hs ht hde w1 w2 w3 w4

/-- **C99, survival.**  On the robot of the completed description the manager never aborts, whatever services are called, controllers do and hardware reports. -/
theorem C99_survives (hd : ReadsDecimals F) (hu : ReadsUrdf urdf pr2Complete joint) (hn : ∀ k, (new k).Constructed) (hm : ∀ r ∈ pr2Rows, ∀ m ∈ r.motors, ∃ a ∈ acts, a.name = m) (old : Nat → F)
    (rs rj : ℚ) (hrs : rs ≤ 2000000000) (hrj : rj ≤ 2000000000) (now : Int) (msg : List (SRow F) × List (ARow F)) (jmsg : List (JRow F)) (h1 : msg.1.length = 48) (h2 : msg.2.length = acts.length)
    (h3 : jmsg.length = 48) :
    ∃ s0, Loaded (pluginLoader new) urdf pr2Complete joint acts (pr2Trans new) s0 ∧
      RtData.Good ⟨s0, fun _ => CStat.fresh, ⟨now, publishPeriod rs, msg⟩, ⟨now, publishPeriod rj, jmsg⟩⟩ ∧
      ∀ (big : F) (m : Bool) (p : Plant F), Plant.Reach big m ⟨s0, fun _ => CStat.fresh, ⟨now, publishPeriod rs, msg⟩, ⟨now, publishPeriod rj, jmsg⟩⟩ PlantIn.Tame p → p.dead = false ∧ p.mgr.bad = false := by
  obtain ⟨acts', s, e1, e2, e3, _, e5⟩ := C99_complete hd urdf joint hu new hn acts hm old
  have hlen : acts'.length = acts.length := (C48_initially_enabled _ _ _ _ _ _ _ e1).1.length
  have g := C69_init (pluginLoader new) urdf pr2Complete acts acts' _ e1 old (by rw [all_eq]; exact e3.well) joint s hu.1 e2 48 e5 rs rj hrs hrj now msg jmsg h1 (by rw [hlen]; exact h2) h3
  exact ⟨s, e3, g, fun big m p hp => ⟨(C84_survives g hp).1, (C84_survives g hp).2.1⟩⟩

end rows

end
section exact
variable {F : Type} [Field F] [LinearOrder F] [IsStrictOrderedRing F]
attribute [local instance] exactCmp
variable [FLit F] [iTrig : FTrig F] [Parse F]

/-- Does the joint element state these numbers? -/
def Xml.guards (x : Xml) (g : String × JLimits ℚ × JSafety ℚ) : Bool :=
  x.attr "name" == some g.1 && x.attr "type" == some "revolute" &&
  (match x.first "limit", x.first "safety_controller" with
   | some e, some f => (e.attr "lower").bind decimal == some g.2.1.lower && (e.attr "upper").bind decimal == some g.2.1.upper && (e.attr "effort").bind decimal == some g.2.1.effort &&
      (e.attr "velocity").bind decimal == some g.2.1.velocity && (f.attr "soft_lower_limit").bind decimal == some g.2.2.softLower &&
      (f.attr "soft_upper_limit").bind decimal == some g.2.2.softUpper && (f.attr "k_position").bind decimal == some g.2.2.kPosition && (f.attr "k_velocity").bind decimal == some g.2.2.kVelocity
   | _, _ => false)

/-- The table is what the file says. -/
theorem pr2Guards_file : ∀ g ∈ pr2Guards, (pr2Complete.all "joint").any (·.guards g) = true := by decide +kernel
theorem pr2Guards_strong : ∀ g ∈ pr2Guards, g.2.2.kVelocity * g.2.1.velocity ≤ g.2.1.effort ∧ 0 ≤ g.2.1.effort ∧ 0 ≤ g.2.1.velocity ∧ 0 ≤ g.2.2.kPosition ∧ 0 ≤ g.2.2.kVelocity ∧
    g.2.2.softLower ≤ g.2.2.softUpper := by decide +kernel

theorem numAttr_of {e : Xml} {n : String} {q : ℚ} {v : F} (h : NumAttr e n v) (hq : (e.attr n).bind decimal = some q) : v = lit q := by
  cases ha : e.attr n with
  | none => rw [ha] at hq; cases hq
  | some s => rw [ha] at hq; exact h.1 s q (saysOf _ _ _ ha) hq

variable {urdf : Xml → Option (String → Option (UJoint F))} {joint : String → Option (UJoint F)} {new : Nat → NewTrans F} {acts : List (Actuator F)} {s0 : RState F}

/-- The URDF library's joint has the table's numbers. -/
theorem guards_joint (hlit : ∀ q : ℚ, (lit q : F) = q) (hu : ReadsUrdf urdf pr2Complete joint) {jn : String} {lim : JLimits ℚ} {saf : JSafety ℚ} (hg : (jn, lim, saf) ∈ pr2Guards) :
    ∃ u, joint jn = some u ∧ Guarded u (lim.cast : JLimits F) saf.cast ∧ u.type = .revolute := by
  obtain ⟨x, hx, hxg⟩ := List.any_eq_true.1 (pr2Guards_file _ hg)
  rw [all_eq] at hx
  unfold Xml.guards at hxg
  rw [Bool.and_eq_true, Bool.and_eq_true, beq_iff_eq, beq_iff_eq] at hxg
  obtain ⟨⟨g1, g2⟩, g3⟩ := hxg
  obtain ⟨u, hu1, hu2⟩ := hu.2 x hx jn (saysOf _ _ _ g1)
  rcases he : x.first "limit" with _ | e
  · rw [he] at g3; cases g3
  rcases hf : x.first "safety_controller" with _ | f
  · rw [he, hf] at g3; cases g3
  rw [he, hf] at g3
  simp only [Bool.and_eq_true, beq_iff_eq] at g3
  obtain ⟨⟨⟨⟨⟨⟨⟨k1, k2⟩, k3⟩, k4⟩, k5⟩, k6⟩, k7⟩, k8⟩ := g3
  obtain ⟨l, l0, l1, l2, l3, l4⟩ := hu2.limits e (firstChild _ _ _ he)
  obtain ⟨s, s0, s1, s2, s3, s4⟩ := hu2.safety f (firstChild _ _ _ hf)
  have el : l = lim.cast := by
    cases l
    simp only [JLimits.cast, JLimits.mk.injEq]
    exact ⟨(numAttr_of l1 k1).trans (hlit _), (numAttr_of l2 k2).trans (hlit _), (numAttr_of l3 k3).trans (hlit _), (numAttr_of l4 k4).trans (hlit _)⟩
  have es : s = saf.cast := by
    cases s
    simp only [JSafety.cast, JSafety.mk.injEq]
    exact ⟨(numAttr_of s1 k5).trans (hlit _), (numAttr_of s2 k6).trans (hlit _), (numAttr_of s3 k7).trans (hlit _), (numAttr_of s4 k8).trans (hlit _)⟩
  subst el es
  obtain ⟨_, p1, p2, p3, p4, p5⟩ := pr2Guards_strong _ hg
  exact ⟨u, hu1, ⟨l0, s0, by simpa [JLimits.cast] using p1, by simpa [JLimits.cast] using p2, by simpa [JSafety.cast] using p3, by simpa [JSafety.cast] using p4,
    by simpa [JSafety.cast] using p5⟩, hu2.type.1 (saysOf _ _ _ g2)⟩

/-- **C99, safety of the shipped robot.**  On the robot of the completed description, a joint of the table - the head's tilt, the laser's tilt, and of both arms the shoulder's pan and lift, the upper
arm's roll and the elbow - that is calibrated and inside its soft limits when a cycle begins stays inside the soft limits that the file states, in all later cycles and at all times between them, whatever the
controllers command, as long as the inertia that the motor drives (at the joint) is at least `k_velocity` times the length of the cycle and at most `k_velocity / (4 k_position)`. -/
theorem C99_inside (hlit : ∀ q : ℚ, (lit q : F) = q) (hd : ReadsDecimals F) (hu : ReadsUrdf urdf pr2Complete joint) (hm : ∀ r ∈ pr2Rows, ∀ m ∈ r.motors, ∃ a ∈ acts, a.name = m)
    (h : Loaded (pluginLoader new) urdf pr2Complete joint acts (pr2Trans new) s0) {big : F} {sim : Bool} {d : RtData F} (hg : d.Good) (hs : Later s0 d.robot)
    {p : Plant F} (hp : Plant.Reach big sim d PlantIn.Mannered p) {n an jn red : String} (hr : Row.simple n an jn red ∈ pr2Rows) {lim : JLimits ℚ} {saf : JSafety ℚ} (hgd : (jn, lim, saf) ∈ pr2Guards)
    {k : ℚ} (hk : decimal red = some k) {n0 : Nat} {ρ : F} (hc : p.CalibratedFrom n0 jn ρ) {I dt : Nat → F} (hI : ∀ n, 0 < I n) (hdt : ∀ n, 0 ≤ dt n) (hmv : p.MotorMoves n0 an I dt)
    (hheavy : ∀ n, (saf.kVelocity : F) * dt n ≤ I n * (k : F) ^ 2) (hlight : ∀ n, 4 * (I n * (k : F) ^ 2) * (saf.kPosition : F) ≤ saf.kVelocity)
    (h0 : ∀ r a, p.cycles[n0]? = some r → r.entry.Motor an a → Safe (lim.cast : JLimits F) saf.cast (a.position / k + ρ) (a.velocity / k))
    (i : Nat) (r : CycleRec F) (a : Actuator F) (hi : n0 ≤ i) (hri : p.cycles[i]? = some r) (ha : r.sent.Motor an a) (τ : F) (hτ0 : 0 ≤ τ) (hτ : τ ≤ dt i) :
    Safe (lim.cast : JLimits F) saf.cast (posAfter (I i) τ a.effort a.position a.velocity / k + ρ) (velAfter (I i) τ a.effort a.velocity / k) := by
  obtain ⟨u, hju, hgu, hty⟩ := guards_joint hlit hu hgd
  obtain ⟨idx, ht, hde⟩ := complete_described (new := new) hd hu hm hr
  obtain ⟨q, hq, hq0⟩ := pr2_reductions _ hr red (by simp [Row.reductions])
  rw [hk] at hq; cases hq
  have hk0 : (k : F) ≠ 0 := by exact_mod_cast hq0
  obtain ⟨p0, _⟩ := pr2Guards_strong _ hgd
  have hstrong : (saf.kVelocity : F) * lim.velocity ≤ lim.effort := by exact_mod_cast p0
  exact C98_simple_inside h (by rw [(complete_ts new).2]; decide +kernel) hg hs hp ht hde (firstChild _ _ _ rfl) (saysOf _ _ _ rfl) (firstChild _ _ _ rfl) (saysOf _ _ _ rfl)
    (Or.inr ⟨(first_none _ _).1 rfl, firstChild _ _ _ rfl⟩) rfl (k := (k : F)) (by rw [hd.atof red k hk, hlit]) hk0 hju hgu (Or.inl hty) hc hI hmv
    (fun n => ⟨mul_pos (hI n) (lt_of_le_of_ne (sq_nonneg _) (pow_ne_zero 2 hk0).symm), hdt n, hlight n, hheavy n, hstrong⟩) h0 i r a hi hri ha τ hτ0 hτ

end exact

/-! ## Examples -/

section examples
attribute [local instance] exactCmp demoTrig demoLit

/-- Decimal numbers, and a URDF library. -/
@[reducible] def decimalParse : Parse ℚ := ⟨fun s => (decimal s).getD 0, decimal, decimal⟩
attribute [local instance] decimalParse
def readNum (e : Xml) (n : String) : ℚ := ((e.attr n).bind decimal).getD 0
def readJoint (x : Xml) : UJoint ℚ where
  name := (x.attr "name").getD ""
  type := match x.attr "type" with | some "revolute" => .revolute | some "continuous" => .continuous | some "prismatic" => .prismatic | _ => .fixed
  limits := (x.first "limit").map fun e => ⟨readNum e "lower", readNum e "upper", readNum e "effort", readNum e "velocity"⟩
  safety := (x.first "safety_controller").map fun e => ⟨readNum e "soft_lower_limit", readNum e "soft_upper_limit", readNum e "k_position", readNum e "k_velocity"⟩
def readUrdf (root : Xml) : Option (String → Option (UJoint ℚ)) := some fun n => ((root.all "joint").find? fun x => x.attr "name" == some n).map readJoint

theorem decimals_read : ReadsDecimals ℚ := ⟨fun s q h => by change (decimal s).getD 0 = q; rw [h]; rfl, fun s q h => h⟩

theorem readNum_attr (e : Xml) (n : String) : NumAttr e n (readNum e n) := by
  constructor
  · intro s q h hq
    rw [← attr_some] at h
    unfold readNum
    rw [h, Option.bind_some, hq]; rfl
  · intro h
    rw [← attr_none] at h
    unfold readNum
    rw [h]; rfl

theorem urdf_read (root : Xml) (joint : String → Option (UJoint ℚ)) (hj : readUrdf root = some joint) (hn : ((root.all "joint").map (·.attr "name")).Nodup) : ReadsUrdf readUrdf root joint := by
  refine ⟨hj, fun x hx n hxn => ?_⟩
  rw [← all_eq] at hx
  rw [← attr_some] at hxn
  have : (root.all "joint").find? (fun y => y.attr "name" == some n) = some x := by
    obtain ⟨pre, post, e⟩ := List.append_of_mem hx
    refine (find?_split _ _ _).2 ⟨pre, post, e, by simpa using hxn, fun y hy => ?_⟩
    rw [e, List.map_append, List.nodup_append] at hn
    have := hn.2.2 (y.attr "name") (List.mem_map_of_mem hy) (x.attr "name") (by simp)
    rw [hxn] at this
    simpa using this
  refine ⟨readJoint x, ?_, ?_, ⟨?_, ?_, ?_⟩, ?_, ?_⟩
  · cases hj
    change ((root.all "joint").find? _).map readJoint = _
    rw [this]; rfl
  · rw [← attr_some]; change x.attr "name" = some ((x.attr "name").getD ""); rw [hxn]; rfl
  · intro h; rw [← attr_some] at h; unfold readJoint; rw [h]; rfl
  · intro h; rw [← attr_some] at h; unfold readJoint; rw [h]; rfl
  · intro h; rw [← attr_some] at h; unfold readJoint; rw [h]; rfl
  · intro e he
    rw [← first_some] at he
    refine ⟨⟨readNum e "lower", readNum e "upper", readNum e "effort", readNum e "velocity"⟩, ?_, readNum_attr _ _, readNum_attr _ _, readNum_attr _ _, readNum_attr _ _⟩
    unfold readJoint; rw [he]; rfl
  · intro e he
    rw [← first_some] at he
    refine ⟨⟨readNum e "soft_lower_limit", readNum e "soft_upper_limit", readNum e "k_position", readNum e "k_velocity"⟩, ?_, readNum_attr _ _, readNum_attr _ _, readNum_attr _ _, readNum_attr _ _⟩
    unfold readJoint; rw [he]; rfl

/-- New objects, the motors, and the joints. -/
def pr2New (_ : Nat) : NewTrans ℚ where
  simple := stackSimple
  wrist := stackWrist
  gripper := ⟨0, 0, false, [], 0, 0, 0, 0, 0, 0, 0, 0, 0, 0, ⟨false, 0⟩, CalSim.fresh 0 0 0 0 false false⟩
  belt := ⟨⟨0, 0, 0, 0, 0, 0, 0⟩, .init 0, .init, ⟨false, 0⟩, CalSim.fresh 0 0 0 0 false false⟩
def pr2Acts : List (Actuator ℚ) := (pr2Rows.flatMap Row.motors).map Actuator.fresh
def pr2Joint (root : Xml) (n : String) : Option (UJoint ℚ) := ((root.all "joint").find? fun x => x.attr "name" == some n).map readJoint

theorem pr2_read (root : Xml) (h : ((root.all "joint").map (·.attr "name")).Nodup) : ReadsUrdf readUrdf root (pr2Joint root) := urdf_read root _ rfl h
theorem pr2_names : ((pr2Namespaced.all "joint").map (·.attr "name")).Nodup ∧ ((pr2Complete.all "joint").map (·.attr "name")).Nodup := by decide +kernel
theorem pr2_motors : ∀ r ∈ pr2Rows, ∀ m ∈ r.motors, ∃ a ∈ pr2Acts, a.name = m := by
  intro r hr m hm
  exact ⟨.fresh m, List.mem_map_of_mem (List.mem_flatMap.2 ⟨r, hr, hm⟩), rfl⟩
theorem pr2_constructed : ∀ k, (pr2New k).Constructed := fun _ => ⟨rfl, ⟨rfl, rfl⟩, rfl, rfl⟩

/-- C99_shipped_ignored, C99_full_names_abort: this hardware and this URDF library meet their hypotheses. -/
example : Robot.initXml true readUrdf (pluginLoader pr2New) pr2Urdf pr2Acts = (pr2Acts, .ok []) :=
  (C99_shipped_ignored readUrdf (pr2Joint pr2Urdf) rfl pr2New pr2Acts (fun _ => 0)).1
example : ∃ acts' ts s, Robot.initXml true readUrdf (pluginLoader pr2New) pr2Namespaced pr2Acts = (acts', .ok ts) ∧ ts.length = 30 ∧
    RState.mk' ts (pr2Joint pr2Namespaced) acts' (fun _ => 0) = some s ∧ s.propagatePosition = none := by
  obtain ⟨acts', ts, s, h1, h2, h3, h4⟩ := C99_full_names_abort decimals_read readUrdf _ (pr2_read _ pr2_names.1) pr2New (fun _ => ⟨rfl, rfl⟩) pr2Acts pr2_motors (fun _ => 0)
  exact ⟨acts', ts, s, h1, h2, h3, h4 s rfl⟩

/-- The state that the completed description makes. -/
def pr2State0 : RState ℚ := (RState.mk' (pr2Trans pr2New) (pr2Joint pr2Complete) (Robot.initXml true readUrdf (pluginLoader pr2New) pr2Complete pr2Acts).1 (fun _ => 0)).getD ⟨[], [], [], []⟩

/-- C99_complete, on this hardware. -/
theorem pr2_loaded : Loaded (pluginLoader pr2New) readUrdf pr2Complete (pr2Joint pr2Complete) pr2Acts (pr2Trans pr2New) pr2State0 ∧ messageSize pr2State0.joints = some 48 := by
  obtain ⟨acts', s, h1, h2, h3, _, h5⟩ := C99_complete decimals_read readUrdf _ (pr2_read _ pr2_names.2) pr2New pr2_constructed pr2Acts pr2_motors (fun _ => 0)
  have : pr2State0 = s := by unfold pr2State0; rw [h1]; dsimp only; rw [h2]; rfl
  rw [this]
  exact ⟨h3, h5⟩

def pr2Warm (a : Actuator ℚ) : Actuator ℚ := if a.name = "laser_tilt_mount_motor" then { a with position := -8, velocity := -10 } else a
/-- The robot when it starts: calibrated, and the laser's tilt motor moving. -/
def pr2Robot : RState ℚ := { pr2State0 with
  joints := pr2State0.joints.map fun j => { j with calibrated := true }
  acts := pr2State0.acts.map pr2Warm }
/-- The inertia at the laser's tilt motor: at the joint 1/10000. -/
def pr2Inertia : ℚ := 1 / 10000 / (605 / 100) ^ 2
def pr2Hw (as : List (Actuator ℚ)) : List (Actuator ℚ) :=
  as.map fun a => if a.name = "laser_tilt_mount_motor" then
    { a with position := posAfter pr2Inertia (1/1000) a.effort a.position a.velocity, velocity := velAfter pr2Inertia (1/1000) a.effort a.velocity } else a
/-- The controller commands 30 to all joints. -/
def pr2In : PlantIn ℚ := ⟨pr2Hw, loopPlug, 0, 2000000, 0, false, 0, false⟩
def pr2Rt : RtData ℚ := ⟨pr2Robot, fun _ => CStat.fresh, ⟨0, 10, (pr2Robot.joints.map (·.srow 0), pr2Robot.acts.map (·.arow))⟩, ⟨0, 10, pr2Robot.joints.map (·.jrow)⟩⟩
def pr2Both : Nat → List (PAct ℚ)
  | 0 => []
  | n + 1 => .nrt :: .rt pr2In :: pr2Both n
def pr2Script : List (PAct ℚ) := .call (.load demoReq) :: pr2Both 12 ++ .call (.switch ["spring"] [] 2) :: pr2Both 40
def pr2Start : Plant ℚ := Plant.runs 1000 (Plant.init false pr2Rt) [.rt pr2In, .rt pr2In]
def pr2Run : Plant ℚ := pr2Start.runs 1000 pr2Script
theorem pr2_later : Later pr2State0 pr2Robot := by
  refine Later.start.touch rfl rfl ?_ ?_
  · change List.Forall₂ _ pr2State0.joints (pr2State0.joints.map fun j : JState ℚ => { j with calibrated := true })
    rw [List.forall₂_map_right_iff]
    exact List.forall₂_same.2 fun _ _ => rfl
  · change List.Forall₂ _ pr2State0.acts (pr2State0.acts.map pr2Warm)
    rw [List.forall₂_map_right_iff]
    exact List.forall₂_same.2 fun a _ => by unfold pr2Warm; split <;> rfl

theorem pr2In_mannered : pr2In.Mannered := by
  refine ⟨?_, fun _ => rfl, fun _ => rfl, ?_, fun _ => List.forall₂_same.2 fun _ _ => .refl _⟩
  · intro as
    change List.Forall₂ _ as (as.map _)
    rw [List.forall₂_map_right_iff]
    exact List.forall₂_same.2 fun a _ => by split <;> rfl
  · intro s
    change List.Forall₂ _ s.joints (s.joints.map _)
    rw [List.forall₂_map_right_iff]
    exact List.forall₂_same.2 fun _ _ => ⟨rfl, rfl, rfl⟩

theorem pr2Reach : Plant.Reach 1000 false pr2Rt PlantIn.Mannered pr2Run := by
  have h : Plant.Reach 1000 false pr2Rt PlantIn.Mannered pr2Start := (Plant.Reach.init.rt pr2In pr2In_mannered).rt pr2In pr2In_mannered
  have h2 : ∀ pre ∈ pr2Script.inits, (Plant.runs 1000 pr2Start pre).mgr.used.isSome = true := by decide +kernel
  refine h.runs (h2 [] (by simp)) ?_ (fun pre hpre => h2 pre ((List.mem_inits _ _).2 hpre))
  have : ∀ n i, PAct.rt i ∈ pr2Both n → i = pr2In := by
    intro n i hi
    induction n with
    | zero => cases hi
    | succ n ih =>
      simp only [pr2Both, List.mem_cons, reduceCtorEq, false_or, PAct.rt.injEq] at hi
      exact hi.elim id ih
  intro i hi
  simp only [pr2Script, List.cons_append, List.mem_cons, reduceCtorEq, false_or, List.mem_append] at hi
  rcases hi with hi | hi <;> (rw [this _ i hi]; exact pr2In_mannered)

theorem pr2Good : pr2Rt.Good := by
  obtain ⟨hr, _⟩ := pr2_loaded.1.conn Later.start (t := (pr2Trans pr2New)[0]'(by decide +kernel)) (List.getElem_mem _)
  have hr' := (pr2_later.same hr).1.ready hr
  refine ⟨hr', ?_, by simp [pr2Rt], by simp [pr2Rt], by simp [pr2Rt], by decide, by decide⟩
  intro j hj
  change j ∈ pr2State0.joints.map (fun j : JState ℚ => { j with calibrated := true }) at hj
  obtain ⟨i, hi, rfl⟩ := List.mem_map.1 hj
  exact ((messageSize_spec _ _).1 pr2_loaded.2).2 i hi

/-- The laser's tilt motor moves as said between cycles `k` and `k + 1`. -/
def pr2Step (k : Nat) : Bool :=
  match ((pr2Run.cycles[k]?).bind (·.sent.acts.find? (·.name == "laser_tilt_mount_motor"))), ((pr2Run.cycles[k + 1]?).bind (·.entry.acts.find? (·.name == "laser_tilt_mount_motor"))) with
  | some a, some a' => a'.position == posAfter pr2Inertia (1/1000) a.effort a.position a.velocity && a'.velocity == velAfter pr2Inertia (1/1000) a.effort a.velocity
  | _, _ => false

theorem pr2Length : pr2Run.cycles.length = 6 := by decide +kernel
theorem pr2Steps : ∀ k < 5, pr2Step k = true := by decide +kernel
theorem pr2Cal : ∀ r ∈ pr2Run.cycles, (∀ j ∈ r.entry.joints, j.reference = 0) ∧ ∀ j ∈ r.sent.joints, j.calibrated = true := by decide +kernel
theorem pr2First : (pr2Run.cycles[0]?).bind (fun r => (r.entry.acts.find? (·.name == "laser_tilt_mount_motor")).map fun a => (a.position, a.velocity)) = some ((-801/100 : ℚ), (-10 : ℚ)) := by decide +kernel

/-- C99_inside: the laser's tilt joint of the shipped description, which a controller drives towards its upper limit. -/
example (n : Nat) (r : CycleRec ℚ) (a : Actuator ℚ) (hr : pr2Run.cycles[n]? = some r) (ha : r.sent.Motor "laser_tilt_mount_motor" a) (τ : ℚ) (h0 : 0 ≤ τ) (h1 : τ ≤ 1/1000) :
    posAfter pr2Inertia τ a.effort a.position a.velocity / (-605/100) ≤ 143353/100000 := by
  have hrow : Row.simple "laser_tilt_mount_trans" "laser_tilt_mount_motor" "laser_tilt_mount_joint" "-6.05" ∈ pr2Rows := by
    refine List.mem_of_getElem? (i := 15) rfl
  have hg : ("laser_tilt_mount_joint", (⟨-3927 / 5000, 148353 / 100000, 13 / 20, 10⟩ : JLimits ℚ), (⟨-3677 / 5000, 143353 / 100000, 100, 1 / 20⟩ : JSafety ℚ)) ∈ pr2Guards :=
    List.mem_of_getElem? (i := 1) rfl
  have hc : pr2Run.CalibratedFrom 0 "laser_tilt_mount_joint" 0 := by
    intro k r _ hr
    obtain ⟨h1, h2⟩ := pr2Cal r (List.mem_of_getElem? hr)
    exact ⟨fun j ⟨i, _, hj⟩ => h1 j (List.mem_of_getElem? hj), fun j ⟨i, _, hj⟩ => h2 j (List.mem_of_getElem? hj)⟩
  have hmv : pr2Run.MotorMoves 0 "laser_tilt_mount_motor" (fun _ => pr2Inertia) (fun _ => 1/1000) := by
    intro k r r' _ hr hr' a a' ha ha'
    have hk : k < 5 := by
      have := (List.getElem?_eq_some_iff.1 hr').1
      rw [pr2Length] at this; omega
    have := pr2Steps k hk
    unfold pr2Step at this
    rw [hr, hr'] at this
    dsimp only [Option.bind_some] at this
    rw [motor_find ha, motor_find ha'] at this
    simpa using this
  have := (C99_inside (fun q => by simp [lit]) decimals_read (pr2_read _ pr2_names.2) pr2_motors pr2_loaded.1 pr2Good pr2_later pr2Reach hrow hg (k := -605/100) (by decide +kernel) hc (I := fun _ => pr2Inertia)
    (dt := fun _ => 1/1000) (fun _ => by norm_num [pr2Inertia]) (fun _ => by norm_num) hmv (fun _ => by norm_num [pr2Inertia]) (fun _ => by norm_num [pr2Inertia]) ?_ n r a (Nat.zero_le _) hr ha τ h0 h1).upper
  · simpa [JSafety.cast] using this
  · intro r a hr ha
    have hf := pr2First
    rw [hr, Option.bind_some, motor_find ha] at hf
    obtain ⟨e1, e2⟩ := Prod.mk.inj (Option.some.inj hf)
    rw [e1, e2]
    refine ⟨?_, ?_, ?_, ?_, ?_⟩ <;> norm_num [JSafety.cast, JLimits.cast, abs_le]

/-- The run: the controller pushes (up to the effort that the limits allow), the joint rises towards its soft limit 1.43353. -/
example : pr2Run.cycles.map (fun r => (r.sent.joints[15]?).map fun j => (j.position, j.commanded)) =
    [some (801 / 605, 0), some (802 / 605, 0), some (73 / 55, 0), some (804 / 605, 101 / 242), some (64501 / 48400, 101 / 484), some (129667 / 96800, 89919 / 1210000)] := by decide +kernel

end examples

end Pr2
