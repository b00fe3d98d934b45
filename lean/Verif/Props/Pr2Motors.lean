import Verif.Props.MotorBounds

/-! C111 for the shipped robot: a number for each motor of the PR2 except the grippers', in double precision. -/

namespace Pr2
open FLit FTrig IeeeLike

/-- Arithmetic at least as precise as one part in a million (on numbers up to a million). -/
structure Precise (F : Type) [FCmp F] [Add F] [Sub F] [Mul F] [iDiv : Div F] [Neg F] [FLit F] [IeeeArith F] : Prop where
  u : IeeeArith.u F ≤ 1 / 10 ^ 6
  η : IeeeArith.η F ≤ 1 / 10 ^ 6
  lit : ∀ q : ℚ, |q| ≤ 10 ^ 6 → ∃ x : ℝ, IsVal (FLit.lit q : F) x ∧ |x - q| ≤ 1 / 10 ^ 6 * |(q : ℝ)| + 1 / 10 ^ 6
  twice : ∀ q : ℚ, |q| ≤ 10 ^ 6 → ∃ x : ℝ, IsVal (FLit.lit 2 * FLit.lit q : F) x

/-- The effort limit that the file states for a joint with a safety controller. -/
def Xml.statedEffort (x : Xml) (jn : String) : Option ℚ :=
  if x.attr "name" = some jn then
    match x.first "limit", x.first "safety_controller" with
    | some e, some _ => (e.attr "effort").bind decimal
    | _, _ => none
  else none
def statedEffort (jn : String) : Option ℚ := (pr2Complete.all "joint").findSome? (·.statedEffort jn)

/-- What no motor of the PR2's wheels, torso, head, laser, arms and wrists is ever sent more than. -/
def pr2MotorBounds : List (String × ℚ) := [
  ("fl_caster_rotation_motor", 1.2621), ("fl_caster_l_wheel_motor", 1.2621), ("fl_caster_r_wheel_motor", 1.2621),
  ("fr_caster_rotation_motor", 1.2621), ("fr_caster_l_wheel_motor", 1.2621), ("fr_caster_r_wheel_motor", 1.2621),
  ("bl_caster_rotation_motor", 1.2621), ("bl_caster_l_wheel_motor", 1.2621), ("bl_caster_r_wheel_motor", 1.2621),
  ("br_caster_rotation_motor", 1.2621), ("br_caster_l_wheel_motor", 1.2621), ("br_caster_r_wheel_motor", 1.2621),
  ("torso_lift_motor", 0.1918), ("head_pan_motor", 0.4409), ("head_tilt_motor", 2.5001), ("laser_tilt_mount_motor", 0.1075),
  ("r_upper_arm_roll_motor", 0.9188), ("r_shoulder_pan_motor", 0.4751), ("r_shoulder_lift_motor", 0.4848), ("r_forearm_roll_motor", 0.3315), ("r_elbow_flex_motor", 0.8295),
  ("r_wrist_r_motor", 0.3324), ("r_wrist_l_motor", 0.3324),
  ("l_upper_arm_roll_motor", 0.9188), ("l_shoulder_pan_motor", 0.4751), ("l_shoulder_lift_motor", 0.4848), ("l_forearm_roll_motor", 0.3315), ("l_elbow_flex_motor", 0.8295),
  ("l_wrist_r_motor", 0.3324), ("l_wrist_l_motor", 0.3324)]

/-- These are all motors but the two of the grippers. -/
theorem pr2MotorBounds_all : pr2MotorBounds.map (·.1) = (pr2Rows.filter fun | .gripper .. => false | _ => true).flatMap Row.motors := by decide +kernel

/-- A stated limit and a stated reduction, with room for rounding. -/
def upE (E : ℚ) : ℚ := 1000001 / 1000000 * E + 1 / 1000000
def loK (q : ℚ) : ℚ := 999998 / 1000000 * |q|
def okE (E : ℚ) : Bool := decide (1 / 10 ≤ E) && decide (E ≤ 10 ^ 6)
def okK (q : ℚ) : Bool := decide (1 ≤ |q|) && decide (|q| ≤ 10 ^ 6)

/-- Does the file, with room for rounding, give the motor the bound? -/
def Row.boundOk (mb : String × ℚ) : Row → Bool
  | .simple _ m j r => m == mb.1 && (match statedEffort j, decimal r with
    | some E, some q => okE E && okK q && decide (1000001 / 1000000 * (upE E / loK q) + 1 / 1000000 ≤ mb.2)
    | _, _ => false)
  | .wrist _ rm rr lm lr fj fr oj or => (rm == mb.1 || lm == mb.1) && (match statedEffort fj, statedEffort oj, decimal fr, decimal or, decimal rr, decimal lr with
    | some Ef, some Eo, some qf, some qo, some qr, some ql => okE Ef && okE Eo && okK qf && okK qo && okK qr && okK ql &&
        decide (1000004 / 1000000 * ((upE Ef / loK qf + upE Eo / loK qo) / (2 * loK qr)) + 4 / 1000000 ≤ mb.2) &&
        decide (1000004 / 1000000 * ((upE Ef / loK qf + upE Eo / loK qo) / (2 * loK ql)) + 4 / 1000000 ≤ mb.2)
    | _, _, _, _, _, _ => false)
  | .gripper .. => false

theorem pr2MotorBounds_file : ∀ mb ∈ pr2MotorBounds, pr2Rows.any (·.boundOk mb) = true := by decide +kernel

section
variable {F : Type} [FCmp F] [Zero F] [Add F] [Sub F] [Mul F] [iDiv : Div F] [Neg F] [FLit F] [iTrig : FTrig F] [Parse F] [iA : IeeeArith F]
variable {urdf : Xml → Option (String → Option (UJoint F))} {joint : String → Option (UJoint F)} {new : Nat → NewTrans F} {acts : List (Actuator F)} {s0 : RState F}

omit [Zero F] iTrig [Parse F] in
theorem near_reduction (hP : Precise F) {q : ℚ} (hq : okK q = true) : ∃ k : ℝ, IsVal (lit q : F) k ∧ (loK q : ℝ) ≤ |k| ∧ 0 < (loK q : ℝ) := by
  unfold okK at hq
  rw [Bool.and_eq_true, decide_eq_true_eq, decide_eq_true_eq] at hq
  obtain ⟨k, h1, h2⟩ := hP.lit q hq.2
  have h3 : (1 : ℝ) ≤ |(q : ℝ)| := by exact_mod_cast hq.1
  have e : (loK q : ℝ) = 999998 / 1000000 * |(q : ℝ)| := by unfold loK; push_cast; ring
  have h4 : |(q : ℝ)| - |k| ≤ |k - q| := by rw [abs_sub_comm]; exact abs_sub_abs_le_abs_sub _ _
  refine ⟨k, h1, ?_, ?_⟩
  · rw [e]; norm_num at h2 ⊢; linarith
  · rw [e]; linarith

omit [Zero F] iTrig [Parse F] in
theorem near_effort (hP : Precise F) (hu : ReadsUrdf urdf pr2Complete joint) {jn : String} {E : ℚ} (h : statedEffort jn = some E) (hE : okE E = true) :
    ∃ e : ℝ, EffortLimit joint jn e ∧ 0 ≤ e ∧ e ≤ (upE E : ℝ) := by
  obtain ⟨x, hx, hs⟩ := List.exists_of_findSome?_eq_some h
  rw [all_eq] at hx
  unfold Xml.statedEffort at hs
  by_cases hn : x.attr "name" = some jn
  swap
  · rw [if_neg hn] at hs; cases hs
  rw [if_pos hn] at hs
  rcases he : x.first "limit" with _ | l
  · rw [he] at hs; cases hs
  rcases hf : x.first "safety_controller" with _ | f
  · rw [he, hf] at hs; cases hs
  rw [he, hf] at hs
  dsimp only at hs
  obtain ⟨u, hu1, hu2⟩ := hu.2 x hx jn (saysOf _ _ _ hn)
  obtain ⟨lim, l0, _, _, l3, _⟩ := hu2.limits l (firstChild _ _ _ he)
  obtain ⟨saf, s0, _⟩ := hu2.safety f (firstChild _ _ _ hf)
  have hl : lim.effort = lit E := by
    cases ha : l.attr "effort" with
    | none => rw [ha] at hs; cases hs
    | some s => rw [ha] at hs; exact l3.1 s E (saysOf _ _ _ ha) hs
  unfold okE at hE
  rw [Bool.and_eq_true, decide_eq_true_eq, decide_eq_true_eq] at hE
  have hE0 : (1 / 10 : ℝ) ≤ E := by
    have := (Rat.cast_le (K := ℝ)).2 hE.1
    push_cast at this; exact this
  obtain ⟨e, h1, h2⟩ := hP.lit E (by rw [abs_of_nonneg (by linarith [hE.1])]; exact hE.2)
  rw [abs_of_nonneg (show (0 : ℝ) ≤ E by linarith), abs_le] at h2
  have u1 : (upE E : ℝ) = 1000001 / 1000000 * E + 1 / 1000000 := by unfold upE; push_cast; ring
  have h0 : 0 ≤ e := by norm_num at h2; linarith
  exact ⟨e, ⟨u, lim, saf, hu1, l0, s0, by rw [hl]; exact h1, h0⟩, h0, by rw [u1]; norm_num at h2; linarith⟩

theorem quotient_near {e k : ℝ} {E q : ℚ} (h0 : 0 ≤ e) (he : e ≤ (upE E : ℝ)) (hk : (loK q : ℝ) ≤ |k|) (hq : 0 < (loK q : ℝ)) : e / |k| ≤ (upE E : ℝ) / loK q ∧ 0 ≤ e / |k| :=
  ⟨by gcongr; exact h0.trans he, by positivity⟩

theorem okK_le {q : ℚ} (h : okK q = true) : |q| ≤ 10 ^ 6 := by
  unfold okK at h
  rw [Bool.and_eq_true, decide_eq_true_eq, decide_eq_true_eq] at h
  exact h.2
theorem okK_ge {q : ℚ} (h : okK q = true) : (999998 / 1000000 : ℝ) ≤ loK q := by
  unfold okK at h
  rw [Bool.and_eq_true, decide_eq_true_eq, decide_eq_true_eq] at h
  have h3 : (1 : ℝ) ≤ |(q : ℝ)| := by exact_mod_cast h.1
  unfold loK; push_cast; linarith

theorem wrist_slack {u η a A b B k K M : ℝ} (hu : 0 ≤ u) (hη : 0 ≤ η) (hu1 : u ≤ 1 / 10 ^ 6) (hη1 : η ≤ 1 / 10 ^ 6) (h1 : a ≤ A) (h2 : 0 ≤ a) (h3 : b ≤ B) (h4 : 0 ≤ b)
    (h5 : K ≤ |k|) (h6 : 0 < K) (h7 : 999998 / 1000000 ≤ K) (h8 : 1000004 / 1000000 * ((A + B) / (2 * K)) + 4 / 1000000 ≤ M) :
    (1 + u) ^ 3 * ((a + b) / (2 * |k|)) + ((1 + u) * (3 + 2 * u) / (2 * |k|) + 1) * η ≤ M := by
  refine le_trans ?_ h8
  have hA : 0 ≤ A := h2.trans h1
  have hB : 0 ≤ B := h4.trans h3
  have e1 : (1 + u) ^ 3 * ((a + b) / (2 * |k|)) ≤ 1000004 / 1000000 * ((A + B) / (2 * K)) := by
    gcongr
    calc (1 + u) ^ 3 ≤ (1 + 1 / 10 ^ 6) ^ 3 := by gcongr
      _ ≤ _ := by norm_num
  have e2 : ((1 + u) * (3 + 2 * u) / (2 * |k|) + 1) * η ≤ ((1 + 1 / 10 ^ 6) * (3 + 2 * (1 / 10 ^ 6)) / (2 * (999998 / 1000000)) + 1) * (1 / 10 ^ 6) := by
    have h9 : (999998 / 1000000 : ℝ) ≤ |k| := h7.trans h5
    gcongr
  have e3 : ((1 + 1 / 10 ^ 6) * (3 + 2 * (1 / 10 ^ 6)) / (2 * (999998 / 1000000)) + 1) * (1 / 10 ^ 6 : ℝ) ≤ 4 / 1000000 := by norm_num
  linarith

/-- **C111, the PR2's motors.**  On the robot of the completed description, a finite effort that a motor of the wheels, the torso, the head, the laser, the arms or the wrists is sent in a cycle
is at most the number in the table, whatever controllers command and whatever is called; rounding included. -/
theorem C111_pr2_motors (hP : Precise F) (hd : ReadsDecimals F) (hu : ReadsUrdf urdf pr2Complete joint) (hm : ∀ r ∈ pr2Rows, ∀ m ∈ r.motors, ∃ a ∈ acts, a.name = m)
    (h : Loaded (pluginLoader new) urdf pr2Complete joint acts (pr2Trans new) s0) {big : F} {sim : Bool} {d : RtData F} (hg : d.Good) (hs : Later s0 d.robot)
    {p : Plant F} (hp : Plant.Reach big sim d PlantIn.Mannered p) {r : CycleRec F} (hr : r ∈ p.cycles) {m : String} {B : ℚ} (hB : (m, B) ∈ pr2MotorBounds) :
    ∃ a, r.sent.Motor m a ∧ a.enable = true ∧ ∀ y : ℝ, IsVal a.effort y → |y| ≤ B := by
  obtain ⟨row, hrow, hok⟩ := List.any_eq_true.1 (pr2MotorBounds_file _ hB)
  obtain ⟨idx, ht, hde⟩ := complete_described (new := new) hd hu hm hrow
  have hu0 := IeeeArith.u_nonneg (F := F)
  have hη0 := IeeeArith.η_nonneg (F := F)
  have hu1 := hP.u
  have hη1 := hP.η
  have hnd : ((pr2Trans new).flatMap (·.actNames)).Nodup := by rw [(complete_ts new).2]; decide +kernel
  cases row with
  | gripper => cases hok
  | simple n m' j red =>
    unfold Row.boundOk at hok
    dsimp only at hok
    rw [Bool.and_eq_true, beq_iff_eq] at hok
    obtain ⟨rfl, hok⟩ := hok
    rcases hE : statedEffort j with _ | E
    · rw [hE] at hok; cases hok
    rcases hq : decimal red with _ | q
    · rw [hE, hq] at hok; cases hok
    rw [hE, hq] at hok
    dsimp only at hok
    rw [Bool.and_eq_true, Bool.and_eq_true, decide_eq_true_eq] at hok
    obtain ⟨⟨o1, o2⟩, o3⟩ := hok
    obtain ⟨k, k1, k2, k3⟩ := near_reduction hP o2
    obtain ⟨e, e1, e2, e3⟩ := near_effort hP hu hE o1
    obtain ⟨a, a1, a2, a3⟩ := C111_simple h hnd hg hs hp hr ht hde (firstChild _ _ _ rfl) (saysOf _ _ _ rfl) (firstChild _ _ _ rfl)
      (saysOf _ _ _ rfl) (Or.inr ⟨(first_none _ _).1 rfl, firstChild _ _ _ rfl⟩) rfl e1 (by rw [hd.atof red q hq]; exact k1)
    refine ⟨a, a1, a2, fun y hy => (a3 y hy).trans ?_⟩
    obtain ⟨n1, n2⟩ := quotient_near e2 e3 k2 k3
    have o4 : (1000001 / 1000000 * ((upE E : ℝ) / loK q) + 1 / 1000000 : ℝ) ≤ B := by
      have := (Rat.cast_le (K := ℝ)).2 o3
      push_cast at this; exact this
    have hf : (1 + IeeeArith.u F) * (e / |k|) ≤ 1000001 / 1000000 * ((upE E : ℝ) / loK q) := by
      gcongr
      norm_num at hu1 ⊢; linarith
    norm_num at hη1 o4 hf ⊢
    linarith
  | wrist n rm rr lm lr fj fr oj or =>
    unfold Row.boundOk at hok
    dsimp only at hok
    rw [Bool.and_eq_true, Bool.or_eq_true, beq_iff_eq, beq_iff_eq] at hok
    obtain ⟨hwho, hok⟩ := hok
    rcases hEf : statedEffort fj with _ | Ef
    · rw [hEf] at hok; cases hok
    rcases hEo : statedEffort oj with _ | Eo
    · rw [hEf, hEo] at hok; cases hok
    rcases hqf : decimal fr with _ | qf
    · rw [hEf, hEo, hqf] at hok; cases hok
    rcases hqo : decimal or with _ | qo
    · rw [hEf, hEo, hqf, hqo] at hok; cases hok
    rcases hqr : decimal rr with _ | qr
    · rw [hEf, hEo, hqf, hqo, hqr] at hok; cases hok
    rcases hql : decimal lr with _ | ql
    · rw [hEf, hEo, hqf, hqo, hqr, hql] at hok; cases hok
    rw [hEf, hEo, hqf, hqo, hqr, hql] at hok
    dsimp only at hok
    simp only [Bool.and_eq_true, decide_eq_true_eq] at hok
    obtain ⟨⟨⟨⟨⟨⟨⟨o1, o2⟩, o3⟩, o4⟩, o5⟩, o6⟩, o7⟩, o8⟩ := hok
    obtain ⟨kf, f1, f2, f3⟩ := near_reduction hP o3
    obtain ⟨ko, g1, g2, g3⟩ := near_reduction hP o4
    obtain ⟨kr, r1, r2, r3⟩ := near_reduction hP o5
    obtain ⟨kl, l1, l2, l3⟩ := near_reduction hP o6
    obtain ⟨ef, b1, b2, b3⟩ := near_effort hP hu hEf o1
    obtain ⟨eo, c1, c2, c3⟩ := near_effort hP hu hEo o2
    have hj : ∀ j ∈ (Row.wrist n rm rr lm lr fj fr oj or).joints pr2Screw, ∃ u, joint j = some u := by
      intro j hj
      obtain ⟨x, hx, hxn, _⟩ := pr2Complete_joint_elements _ hrow j hj
      rw [all_eq] at hx
      exact (hu.2 x hx j (saysOf _ _ _ hxn)).imp fun _ h => h.1
    have w1 : WristMotor ((Row.wrist n rm rr lm lr fj fr oj or).xml "pr2_mechanism_model/" pr2Screw) "rightActuator" acts rm (lit qr : F) :=
      ⟨_, rr, firstChild _ _ _ rfl, saysOf _ _ _ rfl, hm _ hrow rm (by simp [Row.motors]), saysOf _ _ _ rfl, (hd.atof _ _ hqr).symm⟩
    have w2 : WristMotor ((Row.wrist n rm rr lm lr fj fr oj or).xml "pr2_mechanism_model/" pr2Screw) "leftActuator" acts lm (lit ql : F) :=
      ⟨_, lr, firstChild _ _ _ rfl, saysOf _ _ _ rfl, hm _ hrow lm (by simp [Row.motors]), saysOf _ _ _ rfl, (hd.atof _ _ hql).symm⟩
    have w3 : WristAxis ((Row.wrist n rm rr lm lr fj fr oj or).xml "pr2_mechanism_model/" pr2Screw) "flexJoint" joint fj (lit qf : F) (lit 0) :=
      ⟨_, fr, firstChild _ _ _ rfl, saysOf _ _ _ rfl, hj fj (by simp [Row.joints]), saysOf _ _ _ rfl, (hd.atof _ _ hqf).symm, Or.inl ⟨(attr_none _ _).1 rfl, rfl⟩⟩
    have w4 : WristAxis ((Row.wrist n rm rr lm lr fj fr oj or).xml "pr2_mechanism_model/" pr2Screw) "rollJoint" joint oj (lit qo : F) (lit 0) :=
      ⟨_, or, firstChild _ _ _ rfl, saysOf _ _ _ rfl, hj oj (by simp [Row.joints]), saysOf _ _ _ rfl, (hd.atof _ _ hqo).symm, Or.inl ⟨(attr_none _ _).1 rfl, rfl⟩⟩
    obtain ⟨ar, al, a1, a2, a3, a4, a5, a6⟩ := C111_wrist h hnd hg hs hp hr ht hde w1 w2 w3 w4 b1 c1 f1 g1 r1 l1 (hP.twice _ (okK_le o5)) (hP.twice _ (okK_le o6))
    obtain ⟨n1, n2⟩ := quotient_near b2 b3 f2 f3
    obtain ⟨n3, n4⟩ := quotient_near c2 c3 g2 g3
    rcases hwho with rfl | rfl
    · exact ⟨ar, a1, a3, fun y hy => (a5 y hy).trans (wrist_slack hu0 hη0 hu1 hη1 n1 n2 n3 n4 r2 r3 (okK_ge o5) (by
        have := (Rat.cast_le (K := ℝ)).2 o7
        push_cast at this; exact this))⟩
    · exact ⟨al, a2, a4, fun y hy => (a6 y hy).trans (wrist_slack hu0 hη0 hu1 hη1 n1 n2 n3 n4 l2 l3 (okK_ge o6) (by
        have := (Rat.cast_le (K := ℝ)).2 o8
        push_cast at this; exact this))⟩

end

/-! ## Double precision is precise enough -/

theorem dbl_ofReal {x : ℝ} (h : |x| ≤ 10 ^ 8) : IsVal (Dbl.ofReal x) (rnd x) ∧ |rnd x - x| ≤ 1 / 10 ^ 6 * |x| + 1 / 10 ^ 6 ∧ |rnd x| ≤ 10 ^ 9 := by
  have e := rnd_err x
  have e1 : (1 / 2 ^ 1075 : ℝ) ≤ 1 / 2 ^ 20 := one_div_le_one_div_of_le (by positivity) (pow_le_pow_right₀ (by norm_num) (by norm_num))
  have hx := abs_nonneg x
  have e2 : |rnd x - x| ≤ 1 / 10 ^ 6 * |x| + 1 / 10 ^ 6 := by
    generalize (1 / 2 ^ 1075 : ℝ) = η at *
    norm_num at e e1 ⊢
    linarith
  have e3 : |rnd x| ≤ 10 ^ 9 := by
    have := abs_sub_abs_le_abs_sub (rnd x) x
    norm_num at e2 h ⊢
    linarith
  refine ⟨?_, e2, e3⟩
  rw [Dbl.isVal_iff]
  unfold Dbl.ofReal
  have : |rnd x| < 2 ^ 1024 := lt_of_le_of_lt e3 (lt_of_lt_of_le (b := (2 : ℝ) ^ 40) (by norm_num) (pow_le_pow_right₀ (by norm_num) (by norm_num)))
  dsimp only
  rw [if_pos this]

theorem precise_double : Precise Dbl := by
  have hc : ∀ q : ℚ, |q| ≤ 10 ^ 6 → |(q : ℝ)| ≤ 10 ^ 6 := fun q h => by exact_mod_cast h
  refine ⟨?_, ?_, fun q h => ?_, fun q h => ?_⟩
  · change (1 / 2 ^ 53 : ℝ) ≤ _
    norm_num
  · change (1 / 2 ^ 1075 : ℝ) ≤ _
    exact (one_div_le_one_div_of_le (a := (2 : ℝ) ^ 20) (by positivity) (pow_le_pow_right₀ (by norm_num) (by norm_num))).trans (by norm_num)
  · obtain ⟨h1, h2, _⟩ := dbl_ofReal (x := q) ((hc q h).trans (by norm_num))
    exact ⟨_, h1, h2⟩
  · obtain ⟨h1, h2, _⟩ := dbl_ofReal (x := q) ((hc q h).trans (by norm_num))
    obtain ⟨k1, _, _⟩ := dbl_ofReal (x := ((2 : ℚ) : ℝ)) (by push_cast; norm_num)
    have e : rnd ((2 : ℚ) : ℝ) = 2 := by push_cast; exact rnd_of_rep rep_two
    rw [e] at k1
    have hq := hc q h
    have h3 : |2 * rnd (q : ℝ)| ≤ 10 ^ 8 := by
      have := abs_sub_abs_le_abs_sub (rnd (q : ℝ)) q
      rw [abs_mul, abs_of_pos (by norm_num : (0 : ℝ) < 2)]
      norm_num at h2 hq ⊢
      linarith
    refine ⟨rnd (2 * rnd (q : ℝ)), ?_⟩
    have := (dbl_ofReal h3).1
    have e2 : (lit 2 * lit q : Dbl) = Dbl.ofReal (2 * rnd (q : ℝ)) := by
      change Dbl.lift2 _ (Dbl.ofReal ((2 : ℚ) : ℝ)) (Dbl.ofReal (q : ℝ)) = _
      unfold Dbl.lift2
      rw [(Dbl.isVal_iff _ _).1 k1, (Dbl.isVal_iff _ _).1 h1]
    rw [e2]
    exact this

/-- So in double precision, of decimal numbers read with rounding to nearest. -/
theorem C111_pr2_double [Parse Dbl] {urdf : Xml → Option (String → Option (UJoint Dbl))} {joint : String → Option (UJoint Dbl)} {new : Nat → NewTrans Dbl} {acts : List (Actuator Dbl)}
    {s0 : RState Dbl} (hd : ReadsDecimals Dbl) (hu : ReadsUrdf urdf pr2Complete joint) (hm : ∀ r ∈ pr2Rows, ∀ m ∈ r.motors, ∃ a ∈ acts, a.name = m)
    (h : Loaded (pluginLoader new) urdf pr2Complete joint acts (pr2Trans new) s0) {big : Dbl} {sim : Bool} {d : RtData Dbl} (hg : d.Good) (hs : Later s0 d.robot)
    {p : Plant Dbl} (hp : Plant.Reach big sim d PlantIn.Mannered p) {r : CycleRec Dbl} (hr : r ∈ p.cycles) {m : String} {B : ℚ} (hB : (m, B) ∈ pr2MotorBounds) :
    ∃ a, r.sent.Motor m a ∧ a.enable = true ∧ ∀ y : ℝ, a.effort.v = some y → |y| ≤ B := by
  obtain ⟨a, h1, h2, h3⟩ := C111_pr2_motors precise_double hd hu hm h hg hs hp hr hB
  exact ⟨a, h1, h2, fun y hy => h3 y ((Dbl.isVal_iff _ _).2 hy)⟩

/-! ## Example: the PR2 in double precision -/

section example_
@[reducible] noncomputable def dblParse : Parse Dbl := ⟨fun s => lit ((decimal s).getD 0), fun s => (decimal s).map lit, fun s => (decimal s).map lit⟩
attribute [local instance] dblParse
noncomputable def JLimits.dbl (l : JLimits ℚ) : JLimits Dbl := ⟨lit l.lower, lit l.upper, lit l.effort, lit l.velocity⟩
noncomputable def JSafety.dbl (s : JSafety ℚ) : JSafety Dbl := ⟨lit s.softLower, lit s.softUpper, lit s.kPosition, lit s.kVelocity⟩
noncomputable def UJoint.dbl (u : UJoint ℚ) : UJoint Dbl := ⟨u.name, u.type, u.limits.map JLimits.dbl, u.safety.map JSafety.dbl, none⟩
noncomputable def dblUrdf (root : Xml) : Option (String → Option (UJoint Dbl)) := (readUrdf root).map fun f n => (f n).map UJoint.dbl

theorem dbl_decimals : ReadsDecimals Dbl :=
  ⟨fun s q h => by change (lit ((decimal s).getD 0) : Dbl) = lit q; rw [h]; rfl, fun s q h => by change ((decimal s).map lit) = some (lit q : Dbl); rw [h]; rfl⟩

theorem dbl_attr {e : Xml} {n : String} {v : ℚ} (h : @NumAttr ℚ demoLit e n v) : NumAttr e n (lit v : Dbl) := by
  refine ⟨fun s q hs hq => ?_, fun hs => ?_⟩
  · rw [h.1 s q hs hq]; rfl
  · rw [h.2 hs]; rfl

theorem dbl_urdf : ReadsUrdf dblUrdf pr2Complete (fun n => (pr2Joint pr2Complete n).map UJoint.dbl) := by
  refine ⟨rfl, fun x hx n hn => ?_⟩
  obtain ⟨u, h1, h2, h3, h4, h5⟩ := (pr2_read _ pr2_names.2).2 x hx n hn
  refine ⟨u.dbl, by change ((pr2Joint pr2Complete n).map UJoint.dbl) = _; rw [h1]; rfl, h2, h3, fun e he => ?_, fun e he => ?_⟩
  · obtain ⟨l, k1, k2, k3, k4, k5⟩ := h4 e he
    exact ⟨l.dbl, by unfold UJoint.dbl; rw [k1]; rfl, dbl_attr k2, dbl_attr k3, dbl_attr k4, dbl_attr k5⟩
  · obtain ⟨l, k1, k2, k3, k4, k5⟩ := h5 e he
    exact ⟨l.dbl, by unfold UJoint.dbl; rw [k1]; rfl, dbl_attr k2, dbl_attr k3, dbl_attr k4, dbl_attr k5⟩

noncomputable def dblNew (_ : Nat) : NewTrans Dbl where
  simple := ⟨lit 0, lit 0, false, ⟨false, 0⟩, CalSim.fresh (lit 0) (lit 0) (lit 0) (lit 0) false false⟩
  wrist := ⟨lit 0, lit 0, lit 0, lit 0, lit 0, lit 0, ⟨false, 0⟩, CalSim.fresh (lit 0) (lit 0) (lit 0) (lit 0) false false, CalSim.fresh (lit 0) (lit 0) (lit 0) (lit 0) false false⟩
  gripper := ⟨lit 0, lit 0, false, [], lit 0, lit 0, lit 0, lit 0, lit 0, lit 0, lit 0, lit 0, lit 0, lit 0, ⟨false, 0⟩, CalSim.fresh (lit 0) (lit 0) (lit 0) (lit 0) false false⟩
  belt := ⟨⟨lit 0, lit 0, lit 0, lit 0, lit 0, lit 0, lit 0⟩, .init (lit 0), .init, ⟨false, 0⟩, CalSim.fresh (lit 0) (lit 0) (lit 0) (lit 0) false false⟩
noncomputable def dblActs : List (Actuator Dbl) := (pr2Rows.flatMap Row.motors).map Actuator.fresh
theorem dbl_motors : ∀ r ∈ pr2Rows, ∀ m ∈ r.motors, ∃ a ∈ dblActs, a.name = m := by
  intro r hr m hm
  exact ⟨.fresh m, List.mem_map_of_mem (List.mem_flatMap.2 ⟨r, hr, hm⟩), rfl⟩

/-- All motors spin at 1000. -/
noncomputable def dblIn : PlantIn Dbl := ⟨fun as => as.map fun a => { a with velocity := lit 1000 }, id, 0, 2000000, 0, false, 0, false⟩
theorem dblIn_mannered : dblIn.Mannered := by
  refine ⟨?_, Mannered.id⟩
  intro as
  change List.Forall₂ _ as (as.map _)
  rw [List.forall₂_map_right_iff]
  exact List.forall₂_same.2 fun _ _ => rfl

/-- C111: the PR2 is loaded, its manager runs and completes a cycle, in which the motor of the head's tilt is told at most 2.5001. -/
example : ∃ (d : RtData Dbl) (p : Plant Dbl) (r : CycleRec Dbl) (a : Actuator Dbl), d.Good ∧ Plant.Reach (lit 1000) false d PlantIn.Mannered p ∧ r ∈ p.cycles ∧
    r.sent.Motor "head_tilt_motor" a ∧ ∀ y, a.effort.v = some y → |y| ≤ 2.5001 := by
  obtain ⟨s0, hl, hg, _⟩ := C99_survives dbl_decimals dbl_urdf (new := dblNew) (fun _ => ⟨rfl, ⟨by simp [dblNew], by simp [dblNew]⟩, rfl, rfl⟩) dbl_motors (fun _ => lit 0)
    1 1 (by norm_num) (by norm_num) 0 (List.replicate 48 (JState.srow 0 (JState.fresh ⟨"", .fixed, none, none, none⟩ (lit 0))), dblActs.map (·.arow)) (List.replicate 48 ⟨"", lit 0, lit 0, lit 0⟩)
    (by simp) (by simp) (by simp)
  obtain ⟨n, r, as, hr, he⟩ := first_cycle (big := lit 1000) (m := false) hg dblIn_mannered.tame
  obtain ⟨a, h1, _, h3⟩ := C111_pr2_double dbl_decimals dbl_urdf dbl_motors hl hg .start (idles_reach dblIn_mannered n) hr (m := "head_tilt_motor") (B := 2.5001) (List.mem_of_getElem? (i := 14) rfl)
  exact ⟨_, _, r, a, hg, idles_reach dblIn_mannered n, hr, h1, fun y hy => (h3 y hy).trans (by norm_num)⟩

end example_

end Pr2
