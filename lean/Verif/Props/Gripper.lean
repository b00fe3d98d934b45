import Verif.Spec.Real
import Verif.Props.SimpleWrist
import Verif.Props.Belt
import Mathlib.Analysis.SpecialFunctions.Trigonometric.InverseDeriv

/-! # C40–C43: gripper transmission -/

namespace Pr2
set_option linter.unusedVariables false

/-! ## Geometry, stated independently of the code -/

/-- Length of the screw side of the linkage triangle at `mr` motor revolutions. -/
noncomputable def GripperT.side (t : GripperT ℝ) (mr : ℝ) : ℝ := t.L0 + mr * t.screw / t.gear

/-- The parameters make sense. -/
structure GripperT.Sane (t : GripperT ℝ) : Prop where
  a : t.a ≠ 0
  b : t.b ≠ 0
  r : t.r ≠ 0
  screw : t.screw ≠ 0
  gear : t.gear ≠ 0
  reduction : t.reduction ≠ 0

/-- The linkage at `mr` motor revolutions with finger angle `θ`: the triangle with sides `a`, `b` and (squared) `side² + h²` has angle
`θ - θ₀ + φ₀` (law of cosines), and the finger points forwards. -/
structure GripperT.Linkage (t : GripperT ℝ) (mr θ : ℝ) : Prop where
  triangle : t.side mr ^ 2 + t.h ^ 2 = t.a ^ 2 + t.b ^ 2 - 2 * t.a * t.b * Real.cos (θ - t.theta0 + t.phi0)
  angle : 0 ≤ θ - t.theta0 + t.phi0 ∧ θ - t.theta0 + t.phi0 ≤ Real.pi
  forwards : -(Real.pi / 2) ≤ θ ∧ θ ≤ Real.pi / 2
  side : 0 ≤ t.side mr

/-- Gap between finger pad and centre line at finger angle `θ`. -/
noncomputable def GripperT.gapAt (t : GripperT ℝ) (θ : ℝ) : ℝ := t.t0 + t.r * (Real.sin θ - Real.sin t.theta0)

theorem clampU_real (u : ℝ) : clampU u = max (-1) (min 1 u) := by
  unfold clampU
  simp only [lt_real, lit_real, decide_eq_true_eq]
  push_cast
  split
  · rw [min_eq_right (by linarith), max_eq_left (by linarith)]
  · split
    · rw [min_eq_left (by linarith)]; norm_num
    · rw [min_eq_right (by linarith), max_eq_right (by linarith)]

theorem clampU_mem (u : ℝ) : -1 ≤ clampU u ∧ clampU u ≤ 1 := by
  rw [clampU_real]
  exact ⟨le_max_left _ _, max_le (by norm_num) (min_le_left _ _)⟩

theorem clampS_real (u : ℝ) : clampS u = max (-1) (min 1 u) := by
  unfold clampS
  simp only [lt_real, lit_real, decide_eq_true_eq]
  push_cast
  split
  · rw [min_eq_left (by linarith)]; norm_num
  · split
    · rw [min_eq_right (by linarith), max_eq_left (by linarith)]
    · rw [min_eq_right (by linarith), max_eq_right (by linarith)]

theorem clamp_id {u : ℝ} (h1 : -1 ≤ u) (h2 : u ≤ 1) : max (-1) (min 1 u) = u := by
  rw [min_eq_right h2, max_eq_right h1]

theorem linkU_real (t : GripperT ℝ) (mr : ℝ) : t.linkU mr = (t.a ^ 2 + t.b ^ 2 - t.h ^ 2 - t.side mr ^ 2) / (2 * t.a * t.b) := by
  unfold GripperT.linkU GripperT.side
  simp only [lit_real]; push_cast; ring

theorem tol_real : (tol : ℝ) = 1 / 100000 := by unfold tol; simp
theorem rad2mr_real : (rad2mr : ℝ) = 1 / (2 * Real.pi) := by unfold rad2mr; simp
theorem rad2mr_pos : (0 : ℝ) < rad2mr := by rw [rad2mr_real]; have := Real.pi_pos; positivity

theorem linkU_of_linkage {t : GripperT ℝ} (hs : t.Sane) {mr θ : ℝ} (h : t.Linkage mr θ) : t.linkU mr = Real.cos (θ - t.theta0 + t.phi0) := by
  rw [linkU_real]
  have ha := hs.a; have hb := hs.b
  rw [div_eq_iff (by positivity)]
  linarith [h.triangle]

theorem theta_of_linkage {t : GripperT ℝ} (hs : t.Sane) {mr θ : ℝ} (h : t.Linkage mr θ) (x y : ℝ) : (t.computeGapStates mr x y).theta = θ := by
  unfold GripperT.computeGapStates
  simp only [acos_real]
  rw [linkU_of_linkage hs h, clampU_real, clamp_id (Real.neg_one_le_cos _) (Real.cos_le_one _), Real.arccos_cos h.angle.1 h.angle.2]
  ring

/-- **C40.** From motor revolutions to gap size. -/
theorem C40_forward {t : GripperT ℝ} (hs : t.Sane) {mr θ : ℝ} (h : t.Linkage mr θ) (x y : ℝ) :
    (t.computeGapStates mr x y).gapSize = t.gapAt θ := by
  have := theta_of_linkage hs h x y
  unfold GripperT.computeGapStates at this ⊢
  dsimp only at this ⊢
  rw [this]; rfl

theorem arg_of_linkage {t : GripperT ℝ} {mr θ : ℝ} (h : t.Linkage mr θ) :
    -(2 : ℝ) * t.a * t.b * Real.cos (θ - t.theta0 + t.phi0) - t.h * t.h + t.a * t.a + t.b * t.b = t.side mr ^ 2 := by
  linarith [h.triangle]

theorem mr_of_linkage {t : GripperT ℝ} (hs : t.Sane) {mr θ : ℝ} (h : t.Linkage mr θ) : (t.inverseGapStates1 θ).mr = mr := by
  have hg := hs.gear; have hsc := hs.screw
  unfold GripperT.inverseGapStates1
  simp only [lit_real, cos_real, lt_real, sqrt_real, decide_eq_true_eq]
  push_cast
  rw [arg_of_linkage h]
  have e : t.gear / t.screw * (t.side mr - t.L0) = mr := by
    unfold GripperT.side; field_simp; ring
  split
  · rw [Real.sqrt_sq h.side]; exact e
  · rename_i h0
    have : t.side mr = 0 := by
      by_contra hne
      exact h0 (by positivity)
    rw [this] at e; exact e

theorem inverse_of_gap {t : GripperT ℝ} (hs : t.Sane) {mr θ : ℝ} (h : t.Linkage mr θ) : t.inverseGapStates (t.gapAt θ) = t.inverseGapStates1 θ := by
  have hr := hs.r
  unfold GripperT.inverseGapStates
  simp only [asin_real, sin_real]
  have : (t.gapAt θ - t.t0) / t.r + Real.sin t.theta0 = Real.sin θ := by
    unfold GripperT.gapAt; field_simp; ring
  rw [this, clampS_real, clamp_id (Real.neg_one_le_sin _) (Real.sin_le_one _), Real.arcsin_sin h.forwards.1 h.forwards.2]

/-- **C40.** From gap size to motor revolutions. -/
theorem C40_inverse {t : GripperT ℝ} (hs : t.Sane) {mr θ : ℝ} (h : t.Linkage mr θ) : (t.inverseGapStates (t.gapAt θ)).mr = mr := by
  rw [inverse_of_gap hs h, mr_of_linkage hs h]

/-- **C40.** Every motor position has a linkage angle, unless the computed angle leaves the range: the cosine must be within [-1, 1] and
the finger must point forwards. -/
theorem linkage_of_mr {t : GripperT ℝ} (hs : t.Sane) {mr : ℝ} (h1 : -1 ≤ t.linkU mr) (h2 : t.linkU mr ≤ 1) (h3 : 0 ≤ t.side mr)
    (h4 : |t.theta0 - t.phi0 + Real.arccos (t.linkU mr)| ≤ Real.pi / 2) : t.Linkage mr (t.theta0 - t.phi0 + Real.arccos (t.linkU mr)) := by
  have ha := hs.a; have hb := hs.b
  have e : t.theta0 - t.phi0 + Real.arccos (t.linkU mr) - t.theta0 + t.phi0 = Real.arccos (t.linkU mr) := by ring
  refine ⟨?_, ?_, abs_le.1 h4, h3⟩
  · rw [e, Real.cos_arccos h1 h2, linkU_real]
    field_simp; ring
  · rw [e]; exact ⟨Real.arccos_nonneg _, Real.arccos_le_pi _⟩

/-! ## Jacobians -/

/-- Away from the singular positions, where the code does not use the true derivative but a limited one. -/
structure GripperT.Regular (t : GripperT ℝ) (mr θ : ℝ) : Prop extends t.Linkage mr θ where
  nonneg : 0 ≤ mr
  sideR : 0 < t.side mr
  triangleR : 1 / 100000 < Real.sin (θ - t.theta0 + t.phi0) ^ 2
  fingerR : 1 / 100000 < Real.cos θ ^ 2

theorem regular_facts {t : GripperT ℝ} {mr θ : ℝ} (h : t.Regular mr θ) : 0 < Real.cos θ ∧ 0 < Real.sin (θ - t.theta0 + t.phi0) := by
  have h1 := Real.cos_nonneg_of_neg_pi_div_two_le_of_le h.forwards.1 h.forwards.2
  have h2 := Real.sin_nonneg_of_nonneg_of_le_pi h.angle.1 h.angle.2
  have h3 := h.triangleR; have h4 := h.fingerR
  constructor
  · refine lt_of_le_of_ne h1 (fun e => ?_)
    rw [← e] at h4; norm_num at h4
  · refine lt_of_le_of_ne h2 (fun e => ?_)
    rw [← e] at h3; norm_num at h3

/-- The forward Jacobians in a regular position. -/
theorem jac_forward {t : GripperT ℝ} (hs : t.Sane) {mr θ : ℝ} (h : t.Regular mr θ) (x y : ℝ) :
    (t.computeGapStates mr x y).dtheta_dMR = t.side mr * t.screw / (t.gear * t.a * t.b * Real.sin (θ - t.theta0 + t.phi0)) ∧
    (t.computeGapStates mr x y).dt_dtheta = t.r * Real.cos θ := by
  obtain ⟨hc, hsn⟩ := regular_facts h
  have ha := hs.a; have hb := hs.b; have hg := hs.gear
  have hth := theta_of_linkage hs h.toLinkage x y
  have hu := linkU_of_linkage hs h.toLinkage
  unfold GripperT.computeGapStates at hth ⊢
  simp only [cge_real, decide_eq_true_eq, if_pos h.nonneg] at hth ⊢
  refine ⟨?_, ?_⟩
  · rw [hu, clampU_real, clamp_id (Real.neg_one_le_cos _) (Real.cos_le_one _)]
    simp only [lt_real, lit_real, sqrt_real, decide_eq_true_eq, tol_real]
    have e : ((1 : ℚ) : ℝ) - Real.cos (θ - t.theta0 + t.phi0) * Real.cos (θ - t.theta0 + t.phi0) = Real.sin (θ - t.theta0 + t.phi0) ^ 2 := by
      rw [Real.sin_sq]; push_cast; ring
    rw [e, if_pos h.triangleR, Real.sqrt_sq hsn.le]
    unfold GripperT.side
    push_cast
    field_simp
    ring
  · rw [hth]; simp

/-- The inverse Jacobians in a regular position. -/
theorem jac_inverse {t : GripperT ℝ} (hs : t.Sane) {mr θ : ℝ} (h : t.Regular mr θ) :
    (t.inverseGapStates (t.gapAt θ)).dMR_dtheta = t.gear * t.a * t.b * Real.sin (θ - t.theta0 + t.phi0) / (t.side mr * t.screw) ∧
    (t.inverseGapStates (t.gapAt θ)).dtheta_dt = 1 / (t.r * Real.cos θ) ∧
    (t.inverseGapStates (t.gapAt θ)).dMR_dt = |(t.inverseGapStates (t.gapAt θ)).dMR_dtheta| * (t.inverseGapStates (t.gapAt θ)).dtheta_dt := by
  obtain ⟨hc, hsn⟩ := regular_facts h
  have hsc := hs.screw; have hr := hs.r
  have hsd := h.sideR
  rw [inverse_of_gap hs h.toLinkage]
  refine ⟨?_, ?_, ?_⟩
  · unfold GripperT.inverseGapStates1
    simp only [lit_real, cos_real, sin_real, lt_real, sqrt_real, decide_eq_true_eq]
    push_cast
    rw [arg_of_linkage h.toLinkage, if_pos (by positivity), Real.sqrt_sq hsd.le]
    have : θ + t.phi0 - t.theta0 = θ - t.theta0 + t.phi0 := by ring
    rw [this]
    field_simp
  · unfold GripperT.inverseGapStates1
    simp only [lit_real, cos_real, sin_real, lt_real, sqrt_real, decide_eq_true_eq, tol_real]
    have : (t.t0 + t.r * (Real.sin θ - Real.sin t.theta0) - t.t0) / t.r + Real.sin t.theta0 = Real.sin θ := by field_simp; ring
    rw [this]
    have e : ((1 : ℚ) : ℝ) - Real.sin θ * Real.sin θ = Real.cos θ ^ 2 := by rw [Real.cos_sq']; push_cast; ring
    rw [e, if_pos h.fingerR, Real.sqrt_sq hc.le]
    push_cast
    field_simp
  · unfold GripperT.inverseGapStates1; simp

/-- **C41.** In a regular position the Jacobian reported is the derivative of the gap size with respect to motor revolutions, and the gap
velocity is that times the motor speed; likewise for the finger angle. -/
theorem C41_derivative {t : GripperT ℝ} (hs : t.Sane) {mr θ : ℝ} (h : t.Regular mr θ) (x y : ℝ) :
    HasDerivAt (fun m => (t.computeGapStates m x y).gapSize) (t.computeGapStates mr x y).dt_dMR mr ∧
    HasDerivAt (fun m => (t.computeGapStates m x y).theta) (t.computeGapStates mr x y).dtheta_dMR mr ∧
    (t.computeGapStates mr x y).gapVelocity = x * (t.computeGapStates mr x y).dt_dMR := by
  obtain ⟨hc, hsn⟩ := regular_facts h
  have ha := hs.a; have hb := hs.b; have hg := hs.gear
  obtain ⟨j1, j2⟩ := jac_forward hs h x y
  have hu := linkU_of_linkage hs h.toLinkage
  have hlt : -1 < t.linkU mr ∧ t.linkU mr < 1 := by
    have e := Real.sin_sq_add_cos_sq (θ - t.theta0 + t.phi0)
    rw [hu]
    constructor <;> nlinarith [h.triangleR]
  have dside : HasDerivAt t.side (t.screw / t.gear) mr := by
    have := (((hasDerivAt_id mr).mul_const t.screw).div_const t.gear).const_add t.L0
    exact this.congr_deriv (by ring)
  have du : HasDerivAt t.linkU (-(2 * t.side mr * (t.screw / t.gear)) / (2 * t.a * t.b)) mr := by
    have h1 := ((dside.pow 2).const_sub (t.a ^ 2 + t.b ^ 2 - t.h ^ 2)).div_const (2 * t.a * t.b)
    have e : t.linkU = fun m => (t.a ^ 2 + t.b ^ 2 - t.h ^ 2 - (t.side ^ 2) m) / (2 * t.a * t.b) := by
      funext m; rw [linkU_real]; rfl
    rw [e]
    exact h1.congr_deriv (by simp)
  have dacos := (Real.hasDerivAt_arccos hlt.1.ne' hlt.2.ne).comp mr du
  have dth : HasDerivAt (fun m => (t.computeGapStates m x y).theta) (t.computeGapStates mr x y).dtheta_dMR mr := by
    have h1 := dacos.const_add (t.theta0 - t.phi0)
    have e : (fun m => (t.computeGapStates m x y).theta) =ᶠ[nhds mr] fun m => t.theta0 - t.phi0 + (Real.arccos ∘ t.linkU) m := by
      have c1 : ∀ᶠ m in nhds mr, -1 < t.linkU m := du.continuousAt.eventually (lt_mem_nhds hlt.1)
      have c2 : ∀ᶠ m in nhds mr, t.linkU m < 1 := du.continuousAt.eventually (gt_mem_nhds hlt.2)
      filter_upwards [c1, c2] with m m1 m2
      show t.theta0 - t.phi0 + FTrig.acos (clampU (t.linkU m)) = _
      rw [clampU_real, clamp_id m1.le m2.le]; rfl
    have h2 := h1.congr_of_eventuallyEq e
    refine h2.congr_deriv ?_
    rw [j1, hu]
    have e : (1 : ℝ) - Real.cos (θ - t.theta0 + t.phi0) ^ 2 = Real.sin (θ - t.theta0 + t.phi0) ^ 2 := by rw [Real.sin_sq]
    rw [e, Real.sqrt_sq hsn.le]
    field_simp
  refine ⟨?_, dth, rfl⟩
  have h3 := (((dth.sin).sub_const (Real.sin t.theta0)).const_mul t.r).const_add t.t0
  have h4 : (t.computeGapStates mr x y).dt_dMR = (t.computeGapStates mr x y).dt_dtheta * (t.computeGapStates mr x y).dtheta_dMR := rfl
  rw [h4, j2]
  rw [theta_of_linkage hs h.toLinkage] at h3
  exact h3.congr_deriv (by ring)

/-- **C41.** The Jacobian used for commands is the reciprocal of the one used for measurements up to sign, and exactly the reciprocal if
motor and finger turn in the same sense. -/
theorem C41_reciprocal {t : GripperT ℝ} (hs : t.Sane) {mr θ : ℝ} (h : t.Regular mr θ) (hpos : 0 < t.gear * t.a * t.b / t.screw) (x y : ℝ) :
    (t.computeGapStates mr x y).dt_dMR * (t.inverseGapStates (t.computeGapStates mr x y).gapSize).dMR_dt = 1 := by
  obtain ⟨hc, hsn⟩ := regular_facts h
  obtain ⟨j1, j2⟩ := jac_forward hs h x y
  obtain ⟨i1, i2, i3⟩ := jac_inverse hs h
  have ha := hs.a; have hb := hs.b; have hg := hs.gear; have hsc := hs.screw; have hr := hs.r
  have hsd := h.sideR
  rw [C40_forward hs h.toLinkage, i3, i1, i2]
  show (t.computeGapStates mr x y).dt_dtheta * (t.computeGapStates mr x y).dtheta_dMR * _ = 1
  rw [j1, j2]
  have e : t.gear * t.a * t.b * Real.sin (θ - t.theta0 + t.phi0) / (t.side mr * t.screw) =
      t.gear * t.a * t.b / t.screw * Real.sin (θ - t.theta0 + t.phi0) / t.side mr := by field_simp
  rw [abs_of_nonneg (by rw [e]; positivity)]
  field_simp

/-! ## The transmission -/

/-- Motor revolutions of an actuator. -/
noncomputable def GripperT.revs (t : GripperT ℝ) (a : Actuator ℝ) : ℝ := a.position / t.reduction / (2 * Real.pi)

theorem revs_eq (t : GripperT ℝ) (a : Actuator ℝ) : a.position / t.reduction * rad2mr = t.revs a := by
  rw [rad2mr_real, GripperT.revs]; ring

theorem gripper_forward {t : GripperT ℝ} {a : Actuator ℝ} {js js' : List (JState ℝ)} (hf : t.propagatePosition [a] js = some js') :
    ∃ j rest rest', js = j :: rest ∧ rest.length = t.passive.length + (if t.hasPassive then 2 else 1) ∧ rest'.length = rest.length ∧
      js' = { j with
        position := (t.computeGapStates (t.revs a) (a.velocity / t.reduction * rad2mr) (a.measured / t.reduction)).gapSize * 2
        velocity := (t.computeGapStates (t.revs a) (a.velocity / t.reduction * rad2mr) (a.measured / t.reduction)).gapVelocity * 2
        measured := (t.computeGapStates (t.revs a) (a.velocity / t.reduction * rad2mr) (a.measured / t.reduction)).gapEffort / 2 } :: rest' := by
  unfold GripperT.propagatePosition at hf
  cases js with
  | nil => cases hf
  | cons j rest =>
    dsimp only at hf
    by_cases hl : rest.length = t.passive.length + (if t.hasPassive then 2 else 1)
    · rw [if_pos hl] at hf
      rw [revs_eq] at hf
      cases js' with
      | nil => cases hf
      | cons j' rest' =>
        simp only [Option.some.injEq] at hf
        injection hf with h1 h2
        refine ⟨j, rest, rest', rfl, hl, ?_, ?_⟩
        · rw [← h2]
          simp [hl]
        · rw [← h1]; simp
    · rw [if_neg hl] at hf; cases hf

/-- **C40.** Motor to joints and back, in the working range: the position and the velocity of the motor are restored. -/
theorem C40_actuator_roundtrip (t : GripperT ℝ) (hs : t.Sane) (hp : t.hasPassive = true) (e : SimEnv) (a : Actuator ℝ) (js js' : List (JState ℝ))
    {θ : ℝ} (h : t.Linkage (t.revs a) θ) (hf : t.propagatePosition [a] js = some js') :
    ∃ t' a', t.propagatePositionBackwards e js' [a] = some (t', [a']) ∧ a'.position = a.position ∧
      (t.Regular (t.revs a) θ → a'.velocity = a.velocity) := by
  obtain ⟨j, rest, rest', -, hl, hl', rfl⟩ := gripper_forward hf
  rw [hp] at hl
  have hred := hs.reduction
  have hpi := Real.pi_pos
  refine ⟨_, _, by unfold GripperT.propagatePositionBackwards; dsimp only; rw [if_pos (by rw [hp, if_pos rfl, hl', hl, if_pos rfl])], ?_, ?_⟩
  · have h1 := fun a j => (simulate_motion t.cal j a).1
    simp only [Actuator.motion, Prod.mk.injEq] at h1
    rw [(h1 _ _).1]
    simp only [Actuator.stamped, lit_real, C40_forward hs h]
    push_cast
    rw [mul_div_cancel_right₀ _ (two_ne_zero), C40_inverse hs h, rad2mr_real]
    unfold GripperT.revs
    field_simp
  · intro hreg
    obtain ⟨hc, hsn⟩ := regular_facts hreg
    obtain ⟨j1, j2⟩ := jac_forward hs hreg (a.velocity / t.reduction * rad2mr) (a.measured / t.reduction)
    obtain ⟨i1, i2, i3⟩ := jac_inverse hs hreg
    have ha := hs.a; have hb := hs.b; have hg := hs.gear; have hsc := hs.screw; have hr := hs.r
    have hsd := hreg.sideR
    have h1 := fun a j => (simulate_motion t.cal j a).1
    simp only [Actuator.motion, Prod.mk.injEq] at h1
    rw [(h1 _ _).2.1]
    simp only [Actuator.stamped, lit_real, C40_forward hs h]
    push_cast
    rw [mul_div_cancel_right₀ _ (two_ne_zero), mul_div_cancel_right₀ _ (two_ne_zero)]
    have e4 := (C41_derivative hs hreg (a.velocity / t.reduction * rad2mr) (a.measured / t.reduction)).2.2
    have e5 : ∀ x y, (t.computeGapStates (t.revs a) x y).dt_dMR =
      (t.computeGapStates (t.revs a) x y).dt_dtheta * (t.computeGapStates (t.revs a) x y).dtheta_dMR := fun _ _ => rfl
    rw [e4, e5, j1, j2, i1, i2, rad2mr_real]
    field_simp

/-- **C40.** Gap to motor and back: the gap is restored. -/
theorem C40_joint_roundtrip (t t' : GripperT ℝ) (hs : t.Sane) (hp : t.hasPassive = true) (e : SimEnv) (a a' : Actuator ℝ) (j : JState ℝ) (rest : List (JState ℝ))
    {mr θ : ℝ} (h : t.Linkage mr θ) (hj : j.position = 2 * t.gapAt θ)
    (hb : t.propagatePositionBackwards e (j :: rest) [a] = some (t', [a'])) :
    ∃ j' rest', t'.propagatePosition [a'] (j :: rest) = some (j' :: rest') ∧ j'.position = j.position := by
  have hred := hs.reduction
  have hpi := Real.pi_pos
  unfold GripperT.propagatePositionBackwards at hb
  dsimp only at hb
  by_cases hl : rest.length = (if t.hasPassive then t.passive.length + 2 else 0)
  · rw [if_pos hl] at hb
    rw [hp, if_pos rfl] at hl
    have h1 := fun a j => (simulate_motion t.cal j a).1
    simp only [Actuator.motion, Prod.mk.injEq] at h1
    simp only [Option.some.injEq, Prod.mk.injEq, List.cons.injEq, and_true] at hb
    obtain ⟨rfl, rfl⟩ := hb
    refine ⟨_, _, by unfold GripperT.propagatePosition; dsimp only; rw [if_pos (by rw [hp, if_pos rfl, hl])]; rfl, ?_⟩
    dsimp only
    rw [(h1 _ _).1]
    simp only [Actuator.stamped, lit_real, hj]
    push_cast
    rw [mul_div_cancel_left₀ _ (two_ne_zero), C40_inverse hs h, rad2mr_real]
    have : mr * t.reduction / (1 / (2 * Real.pi)) / t.reduction * (1 / (2 * Real.pi)) = mr := by field_simp
    rw [this]
    show (t.computeGapStates mr _ _).gapSize * 2 = _
    rw [C40_forward hs h]; ring
  · rw [if_neg hl] at hb; cases hb

/-- **C42.** In a regular position: the power of the gap joint equals that of the motor divided by the square of the gap's mechanical
reduction (thus they are equal if it is ±1), measured and commanded. -/
theorem C42_power (t : GripperT ℝ) (hs : t.Sane) (a : Actuator ℝ) (js js' : List (JState ℝ)) {θ : ℝ} (h : t.Regular (t.revs a) θ)
    (hpos : 0 < t.gear * t.a * t.b / t.screw) (hf : t.propagatePosition [a] js = some js') :
    ∃ j rest, js' = j :: rest ∧ j.measured * j.velocity * t.reduction ^ 2 = a.measured * a.velocity ∧
    ∀ c : ℝ, ∃ a', t.propagateEffort ({ j with commanded := c } :: rest) [a] = some [a'] ∧
      c * j.velocity * t.reduction ^ 2 = a'.effort * a.velocity := by
  obtain ⟨j, rest, rest', -, hl, hl', rfl⟩ := gripper_forward hf
  have hred := hs.reduction
  have hpi := Real.pi_pos
  obtain ⟨hc, hsn⟩ := regular_facts h
  obtain ⟨j1, j2⟩ := jac_forward hs h (a.velocity / t.reduction * rad2mr) (a.measured / t.reduction)
  have hrec := C41_reciprocal hs h hpos (a.velocity / t.reduction * rad2mr) (a.measured / t.reduction)
  have hne : (t.computeGapStates (t.revs a) (a.velocity / t.reduction * rad2mr) (a.measured / t.reduction)).dt_dMR ≠ 0 := by
    intro e; rw [e, zero_mul] at hrec; norm_num at hrec
  have e1 := (C41_derivative hs h (a.velocity / t.reduction * rad2mr) (a.measured / t.reduction)).2.2
  have e2 : (t.computeGapStates (t.revs a) (a.velocity / t.reduction * rad2mr) (a.measured / t.reduction)).gapEffort =
    a.measured / t.reduction / (t.computeGapStates (t.revs a) (a.velocity / t.reduction * rad2mr) (a.measured / t.reduction)).dt_dMR / rad2mr := rfl
  refine ⟨_, _, rfl, ?_, fun c => ⟨_, by unfold GripperT.propagateEffort; dsimp only; rw [if_pos (by rw [hl', hl])], ?_⟩⟩
  · dsimp only
    rw [e2, e1]
    generalize (t.computeGapStates _ _ _).dt_dMR = D at hne
    have := rad2mr_pos
    field_simp
  · dsimp only [lit_real]
    push_cast
    rw [mul_div_cancel_right₀ _ (two_ne_zero), e1]
    generalize (t.computeGapStates _ _ _).dt_dMR = D at hne hrec
    generalize (t.inverseGapStates _).dMR_dt = I at hrec
    have hI : I = 1 / D := by field_simp; linarith
    rw [hI]
    field_simp

/-- **C42.** Commanding the gap effort that is measured gives the measured motor torque. -/
theorem C42_command_measured (t : GripperT ℝ) (hs : t.Sane) (a : Actuator ℝ) (js js' : List (JState ℝ)) {θ : ℝ} (h : t.Regular (t.revs a) θ)
    (hpos : 0 < t.gear * t.a * t.b / t.screw) (hf : t.propagatePosition [a] js = some js') :
    ∃ j rest, js' = j :: rest ∧ ∃ a', t.propagateEffort ({ j with commanded := j.measured } :: rest) [a] = some [a'] ∧ a'.effort = a.measured := by
  obtain ⟨j, rest, rest', -, hl, hl', rfl⟩ := gripper_forward hf
  have hred := hs.reduction
  have hrec := C41_reciprocal hs h hpos (a.velocity / t.reduction * rad2mr) (a.measured / t.reduction)
  have hne : (t.computeGapStates (t.revs a) (a.velocity / t.reduction * rad2mr) (a.measured / t.reduction)).dt_dMR ≠ 0 := by
    intro e; rw [e, zero_mul] at hrec; norm_num at hrec
  have e2 : (t.computeGapStates (t.revs a) (a.velocity / t.reduction * rad2mr) (a.measured / t.reduction)).gapEffort =
    a.measured / t.reduction / (t.computeGapStates (t.revs a) (a.velocity / t.reduction * rad2mr) (a.measured / t.reduction)).dt_dMR / rad2mr := rfl
  refine ⟨_, _, rfl, _, by unfold GripperT.propagateEffort; dsimp only; rw [if_pos (by rw [hl', hl])], ?_⟩
  dsimp only [lit_real]
  push_cast
  rw [mul_div_cancel_right₀ _ (two_ne_zero), e2]
  generalize (t.computeGapStates _ _ _).dt_dMR = D at hne hrec
  generalize (t.inverseGapStates _).dMR_dt = I at hrec
  have hI : I = 1 / D := by field_simp; linarith
  rw [hI]
  have := rad2mr_pos
  field_simp

/-! ## Domains -/

/-- Library functions that are right on their domain, and yield anything at all outside. -/
structure LibOk (sq ac as : ℝ → ℝ) : Prop where
  sqrt : ∀ x, 0 < x → sq x = Real.sqrt x
  acos : ∀ x, -1 ≤ x → x ≤ 1 → ac x = Real.arccos x
  asin : ∀ x, -1 ≤ x → x ≤ 1 → as x = Real.arcsin x

/-- The library with those functions. -/
noncomputable def libWith (sq ac as : ℝ → ℝ) : FTrig ℝ := ⟨Real.pi, sq, Real.sin, Real.cos, ac, as, FTrig.normAngle⟩

section
variable (dv : ℝ → ℝ → ℝ) (hd : DivOk dv) {sq ac as : ℝ → ℝ} (hl : LibOk sq ac as)
include hd hl

omit hl in
theorem rad2mr_div : rad2mr (iDiv := ⟨dv⟩) (iTrig := libWith sq ac as) = rad2mr := by
  unfold rad2mr
  simp only [lit_real]
  have := Real.pi_pos
  exact hd.h _ _ (by push_cast; show (2 : ℝ) * Real.pi ≠ 0; positivity)

omit hl in
theorem linkU_div {t : GripperT ℝ} (hs : t.Sane) (mr : ℝ) : t.linkU (iDiv := ⟨dv⟩) mr = t.linkU mr := by
  have ha := hs.a; have hb := hs.b
  unfold GripperT.linkU
  simp only [lit_real]
  rw [hd.h _ _ hs.gear, hd.h]
  push_cast; positivity

/-- Everything but the effort. -/
theorem computeGap_div {t : GripperT ℝ} (hs : t.Sane) (mr x y : ℝ) :
    t.computeGapStates (iDiv := ⟨dv⟩) (iTrig := libWith sq ac as) mr x y =
      { t.computeGapStates mr x y with gapEffort := dv (dv y (t.computeGapStates mr x y).dt_dMR) rad2mr } := by
  have ha := hs.a; have hb := hs.b; have hg := hs.gear
  unfold GripperT.computeGapStates
  simp only [linkU_div dv hd hs, rad2mr_div dv hd (sq := sq) (ac := ac) (as := as)]
  have e1 : ∀ u : ℝ, @FTrig.acos ℝ (libWith sq ac as) (clampU u) = FTrig.acos (clampU u) := fun u =>
    hl.acos _ (clampU_mem u).1 (clampU_mem u).2
  have e2 : ∀ x : ℝ, 0 < x → @FTrig.sqrt ℝ (libWith sq ac as) x = Real.sqrt x := fun x hx => hl.sqrt x hx
  have hpos : ∀ u : ℝ, 0 < (if FCmp.lt tol u = true then u else tol : ℝ) := by
    intro u
    simp only [lt_real, decide_eq_true_eq, tol_real]
    split
    · rename_i h; linarith
    · norm_num
  simp only [e1, e2 _ (hpos _)]
  have h1 : ∀ x u : ℝ, @HDiv.hDiv ℝ ℝ ℝ (@instHDiv ℝ ⟨dv⟩) x (Real.sqrt (if FCmp.lt tol u = true then u else tol)) = x / _ :=
    fun x u => hd.h x _ (Real.sqrt_pos.2 (hpos u)).ne'
  simp only [h1]
  have h2 : t.gear * t.a * t.b ≠ 0 := by positivity
  have h3 : t.a * t.b ≠ 0 := by positivity
  simp only [hd.h _ _ h2, hd.h _ _ h3, hd.h _ _ hg]
  rfl

omit hd in
theorem inverse1_div {t : GripperT ℝ} (hs : t.Sane) (hd : DivOk dv) (θ : ℝ) :
    t.inverseGapStates1 (iDiv := ⟨dv⟩) (iTrig := libWith sq ac as) θ = t.inverseGapStates1 θ := by
  have hsc := hs.screw
  have e2 : ∀ x : ℝ, 0 < x → @FTrig.sqrt ℝ (libWith sq ac as) x = Real.sqrt x := fun x hx => hl.sqrt x hx
  have hpos : ∀ u : ℝ, 0 < (if FCmp.lt tol u = true then u else tol : ℝ) := by
    intro u
    simp only [lt_real, decide_eq_true_eq, tol_real]
    split
    · rename_i h; linarith
    · norm_num
  have h1 : ∀ x u : ℝ, @HDiv.hDiv ℝ ℝ ℝ (@instHDiv ℝ ⟨dv⟩) x (Real.sqrt (if FCmp.lt tol u = true then u else tol)) = x / _ :=
    fun x u => hd.h x _ (Real.sqrt_pos.2 (hpos u)).ne'
  have h2 : (FLit.lit 2 * t.screw : ℝ) ≠ 0 := by simpa using hsc
  have e3 : ∀ x : ℝ, @FTrig.sin ℝ (libWith sq ac as) x = FTrig.sin x := fun _ => rfl
  have e4 : ∀ x : ℝ, @FTrig.cos ℝ (libWith sq ac as) x = FTrig.cos x := fun _ => rfl
  unfold GripperT.inverseGapStates1
  simp only [e3, e4, e2 _ (hpos _), h1, hd.h _ _ hsc, hd.h _ _ h2, hd.h _ _ hs.r]
  generalize (-FLit.lit 2 * t.a * t.b * FTrig.cos (θ - t.theta0 + t.phi0) - t.h * t.h + t.a * t.a + t.b * t.b : ℝ) = arg
  by_cases h0 : 0 < arg
  · simp only [lt_real, h0, decide_true, if_true, e2 _ h0, hd.h _ _ (Real.sqrt_pos.2 h0).ne']
    rfl
  · simp only [lt_real, h0, decide_false, Bool.false_eq_true, if_false]
    rfl

theorem inverse_div {t : GripperT ℝ} (hs : t.Sane) (g : ℝ) :
    t.inverseGapStates (iDiv := ⟨dv⟩) (iTrig := libWith sq ac as) g = t.inverseGapStates g := by
  unfold GripperT.inverseGapStates
  rw [hd.h _ _ hs.r, inverse1_div dv hl hs hd]
  have e1 : ∀ u : ℝ, @FTrig.asin ℝ (libWith sq ac as) (clampS u) = FTrig.asin (clampS u) := fun u =>
    hl.asin _ (by rw [clampS_real]; exact le_max_left _ _) (by rw [clampS_real]; exact max_le (by norm_num) (min_le_left _ _))
  rw [e1]; rfl

/-- **C43.** For every motor state and any sane parameters: the joint states do not depend on what `acos`, `asin` and `sqrt` yield outside their
domains nor on what division by zero yields, provided the Jacobian by which the effort is divided is not zero; and positions and
velocities do not, whatever the Jacobian. -/
theorem C43_forward {t : GripperT ℝ} (hs : t.Sane) (as' : List (Actuator ℝ)) (js : List (JState ℝ)) :
    ((∀ a ∈ as', (t.computeGapStates (t.revs a) 0 0).dt_dMR ≠ 0) →
      t.propagatePosition (iDiv := ⟨dv⟩) (iTrig := libWith sq ac as) as' js = t.propagatePosition as' js) ∧
    (t.propagatePosition (iDiv := ⟨dv⟩) (iTrig := libWith sq ac as) as' js).map (List.map (fun j => (j.position, j.velocity))) =
      (t.propagatePosition as' js).map (List.map (fun j => (j.position, j.velocity))) := by
  unfold GripperT.propagatePosition
  rcases as' with _ | ⟨a, _ | ⟨b, as'⟩⟩
  · exact ⟨fun _ => rfl, rfl⟩
  · rcases js with _ | ⟨j, rest⟩
    · exact ⟨fun _ => rfl, rfl⟩
    · dsimp only
      by_cases hlen : rest.length = t.passive.length + (if t.hasPassive then 2 else 1)
      · rw [if_pos hlen, if_pos hlen, hd.h _ _ hs.reduction, hd.h _ _ hs.reduction, hd.h _ _ hs.reduction,
          rad2mr_div dv hd (sq := sq) (ac := ac) (as := as), computeGap_div dv hd hl hs, revs_eq]
        have e2 : ∀ x : ℝ, @HDiv.hDiv ℝ ℝ ℝ (@instHDiv ℝ ⟨dv⟩) x (FLit.lit 2) = x / FLit.lit 2 := fun x => hd.h _ _ (by norm_num)
        have e3 : ∀ x : ℝ, @HDiv.hDiv ℝ ℝ ℝ (@instHDiv ℝ ⟨dv⟩) x rad2mr = x / rad2mr := fun x => hd.h _ _ rad2mr_pos.ne'
        have e4 : ∀ x : ℝ, dv x rad2mr = x / rad2mr := fun x => hd _ _ rad2mr_pos.ne'
        constructor
        · intro h0
          have h0 := h0 a (by simp)
          have h1 : (t.computeGapStates (t.revs a) (a.velocity / t.reduction * rad2mr) (a.measured / t.reduction)).dt_dMR ≠ 0 := h0
          have h2 : (t.computeGapStates (t.revs a) (a.velocity / t.reduction * rad2mr) (a.measured / t.reduction)).dtheta_dMR ≠ 0 := by
            intro h3
            apply h1
            show (t.computeGapStates (t.revs a) (a.velocity / t.reduction * rad2mr) (a.measured / t.reduction)).dt_dtheta *
              (t.computeGapStates (t.revs a) (a.velocity / t.reduction * rad2mr) (a.measured / t.reduction)).dtheta_dMR = 0
            rw [h3, mul_zero]
          dsimp only
          simp only [e2, e3, e4, hd _ _ h1, hd.h _ _ h2]
          rfl
        · simp only [Option.map_some, List.map_cons, List.map_append, List.map_map]
          rfl
      · rw [if_neg hlen, if_neg hlen]; exact ⟨fun _ => rfl, rfl⟩
  · exact ⟨fun _ => rfl, rfl⟩

/-- **C43.** Likewise the effort commands and the simulated motor. -/
theorem C43_backward {t : GripperT ℝ} (hs : t.Sane) (e : SimEnv) (as' : List (Actuator ℝ)) (js : List (JState ℝ))
    (h0 : ∀ j ∈ js.head?, (t.inverseGapStates (j.position / 2)).dMR_dt ≠ 0) :
    t.propagateEffort (iDiv := ⟨dv⟩) (iTrig := libWith sq ac as) js as' = t.propagateEffort js as' ∧
    t.propagatePositionBackwards (iDiv := ⟨dv⟩) (iTrig := libWith sq ac as) e js as' = t.propagatePositionBackwards e js as' := by
  have e2 : ∀ x : ℝ, @HDiv.hDiv ℝ ℝ ℝ (@instHDiv ℝ ⟨dv⟩) x (FLit.lit 2) = x / 2 := fun x => (hd.h _ _ (by norm_num)).trans (by norm_num)
  have e2' : ∀ x : ℝ, x / FLit.lit 2 = x / 2 := fun x => by simp
  have e3 : ∀ x : ℝ, @HDiv.hDiv ℝ ℝ ℝ (@instHDiv ℝ ⟨dv⟩) x rad2mr = x / rad2mr := fun x => hd.h _ _ rad2mr_pos.ne'
  unfold GripperT.propagateEffort GripperT.propagatePositionBackwards
  rcases as' with _ | ⟨a, _ | ⟨b, as'⟩⟩
  · exact ⟨rfl, rfl⟩
  · rcases js with _ | ⟨j, rest⟩
    · exact ⟨rfl, rfl⟩
    · have h0 := h0 j (by simp)
      dsimp only
      simp only [e2, e2', inverse_div dv hd hl hs, hd.h _ _ h0, rad2mr_div dv hd (sq := sq) (ac := ac) (as := as), e3]
      exact ⟨trivial, rfl⟩
  · exact ⟨rfl, rfl⟩

/-- **C43.** And the simulated motor positions and velocities do not, whatever the Jacobian. -/
theorem C43_backward_motion {t : GripperT ℝ} (hs : t.Sane) (e : SimEnv) (as' : List (Actuator ℝ)) (js : List (JState ℝ)) :
    (t.propagatePositionBackwards (iDiv := ⟨dv⟩) (iTrig := libWith sq ac as) e js as').map (fun r => r.2.map (fun a => (a.position, a.velocity))) =
      (t.propagatePositionBackwards e js as').map (fun r => r.2.map (fun a => (a.position, a.velocity))) := by
  have e2 : ∀ x : ℝ, @HDiv.hDiv ℝ ℝ ℝ (@instHDiv ℝ ⟨dv⟩) x (FLit.lit 2) = x / 2 := fun x => (hd.h _ _ (by norm_num)).trans (by norm_num)
  have e2' : ∀ x : ℝ, x / FLit.lit 2 = x / 2 := fun x => by simp
  have e3 : ∀ x : ℝ, @HDiv.hDiv ℝ ℝ ℝ (@instHDiv ℝ ⟨dv⟩) x rad2mr = x / rad2mr := fun x => hd.h _ _ rad2mr_pos.ne'
  have hc : ∀ (T : FTrig ℝ) (c : CalSim ℝ) (j : JState ℝ) (a : Actuator ℝ),
      ((@CalSim.simulate ℝ _ _ _ T c j a).2.position, (@CalSim.simulate ℝ _ _ _ T c j a).2.velocity) = (a.position, a.velocity) := by
    intro T c j a
    have h := (@simulate_motion ℝ _ _ _ T c j a).1
    simp only [Actuator.motion, Prod.mk.injEq] at h
    rw [h.1, h.2.1]
  unfold GripperT.propagatePositionBackwards
  rcases as' with _ | ⟨a, _ | ⟨b, as'⟩⟩
  · rfl
  · rcases js with _ | ⟨j, rest⟩
    · rfl
    · dsimp only
      by_cases hlen : rest.length = (if t.hasPassive then t.passive.length + 2 else 0)
      · rw [if_pos hlen, if_pos hlen]
        simp only [e2, e2', inverse_div dv hd hl hs, rad2mr_div dv hd (sq := sq) (ac := ac) (as := as), e3, Option.map_some, List.map_cons, List.map_nil,
          hc]
        rfl
      · rw [if_neg hlen, if_neg hlen]
  · rfl

end

/-- **C43.** When the Jacobian of the measurement is zero: exactly if the finger stands at a right angle or the screw side of the linkage
has length zero (both with the motor position limited to non-negative). -/
theorem C43_forward_zero {t : GripperT ℝ} (hs : t.Sane) (mr x y : ℝ) :
    (t.computeGapStates mr x y).dt_dMR = 0 ↔ t.side (max mr 0) = 0 ∨ Real.cos (t.computeGapStates (max mr 0) x y).theta = 0 := by
  have hm : (if cge mr 0 = true then mr else 0 : ℝ) = max mr 0 := by
    simp only [cge_real, decide_eq_true_eq]
    split
    · rename_i h; rw [max_eq_left h]
    · rename_i h; rw [max_eq_right (le_of_not_ge h)]
  have ha := hs.a; have hb := hs.b; have hg := hs.gear; have hsc := hs.screw; have hr := hs.r
  unfold GripperT.computeGapStates
  simp only [hm]
  generalize max mr 0 = m
  have hpos : ∀ u : ℝ, 0 < (if FCmp.lt tol u = true then u else tol : ℝ) := by
    intro u
    simp only [lt_real, decide_eq_true_eq, tol_real]
    split
    · rename_i h; linarith
    · norm_num
  have hq := Real.sqrt_pos.2 (hpos (FLit.lit 1 - clampU (t.linkU m) * clampU (t.linkU m)))
  simp only [lit_real, sqrt_real, cos_real, acos_real] at hq ⊢
  push_cast at hq ⊢
  have e : -(t.L0 * t.screw) / (t.gear * t.a * t.b) - m / (t.a * t.b) * ((t.screw / t.gear) * (t.screw / t.gear)) =
      -(t.side m) * (t.screw / (t.gear * t.a * t.b)) := by unfold GripperT.side; field_simp; ring
  rw [e]
  constructor
  · intro h
    rcases mul_eq_zero.1 h with h | h
    · rcases mul_eq_zero.1 h with h | h
      · exact absurd h hr
      · exact Or.inr h
    · left
      rcases mul_eq_zero.1 h with h | h
      · exact absurd h (by rw [div_eq_zero_iff]; rintro (h | h) <;> [norm_num at h; exact hq.ne' h])
      · rcases mul_eq_zero.1 h with h | h
        · linarith
        · exact absurd h (by positivity)
  · rintro (h | h)
    · rw [h]; simp
    · rw [h]; simp

/-- **C43.** When the Jacobian of the command is zero: exactly if the linkage is stretched out, or would have a non-positive squared screw
side.  The commanded motor effort is then a division by zero. -/
theorem C43_backward_zero {t : GripperT ℝ} (hs : t.Sane) (θ : ℝ) :
    (t.inverseGapStates1 θ).dMR_dt = 0 ↔
      (t.a ^ 2 + t.b ^ 2 - t.h ^ 2 ≤ 2 * t.a * t.b * Real.cos (θ - t.theta0 + t.phi0) ∨ Real.sin (θ - t.theta0 + t.phi0) = 0) := by
  have ha := hs.a; have hb := hs.b; have hg := hs.gear; have hsc := hs.screw; have hr := hs.r
  have hpos : ∀ u : ℝ, 0 < (if FCmp.lt tol u = true then u else tol : ℝ) := by
    intro u
    simp only [lt_real, decide_eq_true_eq, tol_real]
    split
    · rename_i h; linarith
    · norm_num
  unfold GripperT.inverseGapStates1
  dsimp only
  have hq : ∀ u : ℝ, (FLit.lit 1 / FTrig.sqrt (if FCmp.lt tol u = true then u else tol) / t.r : ℝ) ≠ 0 := by
    intro u
    have := Real.sqrt_pos.2 (hpos u)
    simp only [lit_real, sqrt_real]
    push_cast
    positivity
  rw [mul_eq_zero, or_iff_left (hq _), fabs_real, abs_eq_zero]
  simp only [lit_real, lt_real, decide_eq_true_eq, sin_real, cos_real, sqrt_real]
  push_cast
  have e : θ + t.phi0 - t.theta0 = θ - t.theta0 + t.phi0 := by ring
  rw [e]
  split
  · rename_i h
    have := Real.sqrt_pos.2 h
    rw [or_iff_right (by nlinarith)]
    constructor
    · intro h
      rcases mul_eq_zero.1 h with h | h
      · exact absurd h (by positivity)
      · exact h
    · intro h; rw [h, mul_zero]
  · rename_i h
    exact ⟨fun _ => Or.inl (by nlinarith), fun _ => rfl⟩

/-! ## A concrete gripper -/

/-- All lengths one, half of it screw at motor position zero. -/
noncomputable def demoGripper : GripperT ℝ where
  reduction := 1
  simReduction := 1
  hasPassive := true
  passive := ["l_finger", "r_finger"]
  screw := 1
  gear := 1
  theta0 := 0
  phi0 := 0
  t0 := 0
  L0 := 1 / 2
  h := 0
  a := 1
  b := 1
  r := 1
  clock := ⟨false, 0⟩
  cal := CalSim.fresh 0 0 0 0 false false

theorem demo_sane : demoGripper.Sane := by constructor <;> simp [demoGripper]

/-- After half a motor revolution, the finger angle is 60°: a regular position. -/
theorem demo_regular : demoGripper.Regular (1 / 2) (Real.pi / 3) := by
  have hpi := Real.pi_pos
  have hs : Real.sin (Real.pi / 3) ^ 2 = 3 / 4 := by
    rw [Real.sin_pi_div_three, div_pow, Real.sq_sqrt (by norm_num)]; norm_num
  refine ⟨⟨?_, ?_, ?_, ?_⟩, ?_, ?_, ?_, ?_⟩ <;> try simp only [demoGripper, GripperT.side, sub_zero, add_zero]
  · rw [Real.cos_pi_div_three]; norm_num
  · constructor <;> linarith
  · constructor <;> linarith
  · norm_num
  · norm_num
  · norm_num
  · rw [hs]; norm_num
  · rw [Real.cos_pi_div_three]; norm_num

example : 0 < demoGripper.gear * demoGripper.a * demoGripper.b / demoGripper.screw := by simp [demoGripper]

/-- **Counterexample** to "no denominator is zero": the gap of this gripper at zero joint position corresponds to a stretched linkage,
so that the motor effort for any commanded gap effort is a division by zero. -/
theorem C43_division_by_zero : (demoGripper.inverseGapStates (0 / 2)).dMR_dt = 0 := by
  unfold GripperT.inverseGapStates
  rw [C43_backward_zero demo_sane]
  right
  simp [demoGripper, clampS_real]

/-! ## Concrete cases meeting the hypotheses: the gripper above, its motor half a revolution from the stop, five joints -/

theorem demo_revs (a : Actuator ℝ) (ha : a.position = Real.pi) : demoGripper.revs a = 1 / 2 := by
  have := Real.pi_ne_zero
  simp only [GripperT.revs, demoGripper, ha]; field_simp

/-- `C40_forward`, `C40_inverse`, `C41_derivative`, `C41_reciprocal`. -/
example (x y : ℝ) := C40_forward demo_sane demo_regular.toLinkage x y
example := C40_inverse demo_sane demo_regular.toLinkage
example (x y : ℝ) := C41_derivative demo_sane demo_regular x y
example (x y : ℝ) := C41_reciprocal demo_sane demo_regular (by simp [demoGripper]) x y
/-- `C40_actuator_roundtrip`: both conclusions hold of a motor at π radians, whatever its velocity and the previous joint states. -/
example (e : SimEnv) (a : Actuator ℝ) (ha : a.position = Real.pi) (j k l m n : JState ℝ) :
    ∃ js' t' a', demoGripper.propagatePosition [a] [j, k, l, m, n] = some js' ∧ demoGripper.propagatePositionBackwards e js' [a] = some (t', [a']) ∧
      a'.position = a.position ∧ a'.velocity = a.velocity := by
  have hr : demoGripper.Regular (demoGripper.revs a) (Real.pi / 3) := by rw [demo_revs a ha]; exact demo_regular
  obtain ⟨t', a', h1, h2, h3⟩ := C40_actuator_roundtrip demoGripper demo_sane rfl e a [j, k, l, m, n] _ hr.toLinkage rfl
  exact ⟨_, t', a', rfl, h1, h2, h3 hr⟩
/-- `C40_joint_roundtrip`: the gap at a finger angle of 60°. -/
example (e : SimEnv) (a : Actuator ℝ) (j k l m n : JState ℝ) (hj : j.position = 2 * demoGripper.gapAt (Real.pi / 3)) :
    ∃ t' a', demoGripper.propagatePositionBackwards e [j, k, l, m, n] [a] = some (t', [a']) ∧
      ∃ j' rest', t'.propagatePosition [a'] [j, k, l, m, n] = some (j' :: rest') ∧ j'.position = j.position :=
  ⟨_, _, rfl, C40_joint_roundtrip demoGripper _ demo_sane rfl e a _ j [k, l, m, n] demo_regular.toLinkage hj rfl⟩
/-- `C42_power`, `C42_command_measured`. -/
example (a : Actuator ℝ) (ha : a.position = Real.pi) (j k l m n : JState ℝ) :=
  C42_power demoGripper demo_sane a [j, k, l, m, n] _ (θ := Real.pi / 3) (by rw [demo_revs a ha]; exact demo_regular) (by simp [demoGripper]) rfl
example (a : Actuator ℝ) (ha : a.position = Real.pi) (j k l m n : JState ℝ) :=
  C42_command_measured demoGripper demo_sane a [j, k, l, m, n] _ (θ := Real.pi / 3) (by rw [demo_revs a ha]; exact demo_regular) (by simp [demoGripper]) rfl
/-- `C43_forward`, `C43_backward`: a division that gives 42 when dividing by zero, and library functions that give 42 outside their domains;
away from the stop the derivatives are not zero. -/
example : DivOk (fun x y : ℝ => if y = 0 then 42 else x / y) := by intro x y hy; simp [hy]
example : LibOk (fun x => if 0 < x then Real.sqrt x else 42) (fun x => if -1 ≤ x ∧ x ≤ 1 then Real.arccos x else 42)
    (fun x => if -1 ≤ x ∧ x ≤ 1 then Real.arcsin x else 42) :=
  ⟨fun x h => by simp [h], fun x h h' => by simp [h, h'], fun x h h' => by simp [h, h']⟩
example (a : Actuator ℝ) (ha : a.position = Real.pi) (x y : ℝ) : (demoGripper.computeGapStates (demoGripper.revs a) x y).dt_dMR ≠ 0 := by
  intro h
  have := C41_reciprocal demo_sane demo_regular (by simp [demoGripper]) x y
  rw [demo_revs a ha] at h
  rw [h, zero_mul] at this
  exact zero_ne_one this
example (j : JState ℝ) (hj : j.position = 2 * demoGripper.gapAt (Real.pi / 3)) : (demoGripper.inverseGapStates (j.position / 2)).dMR_dt ≠ 0 := by
  intro h
  have := C41_reciprocal demo_sane demo_regular (by simp [demoGripper]) 0 0
  rw [C40_forward demo_sane demo_regular.toLinkage] at this
  rw [hj, mul_div_cancel_left₀ _ (two_ne_zero)] at h
  rw [h, mul_zero] at this
  exact zero_ne_one this

end Pr2
