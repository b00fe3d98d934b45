import Verif.Props.Belt

/-!
# C86: which equations the belt transmission integrates

The comments in pr2_belt_transmission.cpp describe filters and a simulated motor by their dynamics; the code steps them with one implicit trapezoidal step.  Here the
dynamics are written down as equations between old and new values, and the steps are shown to solve them.
-/

namespace Pr2
set_option linter.unusedVariables false

/-! ## Specification -/

/-- Old and new position, velocity and acceleration agree with the trapezoidal rule for a step of `dt`. -/
structure Trapezoid (dt x v a x' v' a' : ℝ) : Prop where
  pos : x' = x + dt * ((v + v') / 2)
  vel : v' = v + dt * ((a + a') / 2)

/-- A bandwidth, bounded by `2/dt`. -/
noncomputable def bounded (dt lam : ℝ) : ℝ := min lam (2 / dt)

/-- The estimator's equations for a step of `dt`, with the motor at `pos` and measuring `meas`: a critically damped filter of the motor position, the stretch of
the belt under the measured force, and their combination. -/
structure BeltEquations (p : BeltP ℝ) (dt pos meas : ℝ) (s s' : BeltS ℝ) : Prop where
  motor : s'.motorPos = pos / p.reduction
  motorVel : s'.motorVel * dt = s'.motorPos - s.motorPos
  delta : s'.deltaMotorVel = s'.motorVel - s.motorVel
  filter : Trapezoid dt s.jnt1Pos s.jnt1Vel s.jnt1Acc s'.jnt1Pos s'.jnt1Vel s'.jnt1Acc
  filterEq : s'.jnt1Acc + 2 * bounded dt p.lamJoint * s'.jnt1Vel + bounded dt p.lamJoint ^ 2 * s'.jnt1Pos = bounded dt p.lamJoint ^ 2 * s'.motorPos
  stretch : p.tau ≠ 0 → Trapezoid dt s.deflPos s.deflVel s.deflAcc s'.deflPos s'.deflVel s'.deflAcc
  stretchEq : p.tau ≠ 0 → max p.tau (dt / 2) ^ 2 * s'.deflAcc + 2 * max p.tau (dt / 2) * s'.deflVel + s'.deflPos = p.compl * (meas * p.reduction)
  stiff : p.tau = 0 → s'.deflPos = p.compl * (meas * p.reduction) ∧ s'.deflVel = 0 ∧ s'.deflAcc = 0
  combined : p.lamCombo ≠ 0 → s'.jointPos = s.jointPos + dt * ((s.jointVel + s'.jointVel) / 2)
  combinedEq : p.lamCombo ≠ 0 → s'.jointVel = s'.jnt1Vel + bounded dt p.lamCombo * ((s'.motorPos - s'.deflPos) - s'.jointPos)
  filterOnly : p.lamCombo = 0 → s'.jointPos = s'.jnt1Pos ∧ s'.jointVel = s'.jnt1Vel

/-- Force of the belt, a spring of compliance `c` with critical damping, between a motor at `x` moving at `v` and a joint at `jx` moving at `jv`. -/
noncomputable def beltForce (c tau x v jx jv : ℝ) : ℝ := (2 * tau * (v - jv) + (x - jx)) / c

/-- The simulated motor's equation of motion for a step of `dt`: its mass `tau²/c` is accelerated by the motor's force less the belt's. -/
structure MotorEquations (p : BeltP ℝ) (dt force jx jv : ℝ) (b : BeltB ℝ) (x v a : ℝ) : Prop where
  step : Trapezoid dt b.motorPos b.motorVel b.motorAcc x v a
  newton : max p.tau (dt / 2) ^ 2 / p.compl * a = force - beltForce p.compl (max p.tau (dt / 2)) x v jx jv

/-! ## Proof -/

theorem limLam_eq {dt lam : ℝ} (hdt : 0 < dt) : limLam dt lam = bounded dt lam := by
  unfold limLam bounded
  simp only [lt_real, lit_real, decide_eq_true_eq]
  push_cast
  split
  · rename_i h
    rw [min_eq_left]
    rw [le_div_iff₀ hdt]; linarith
  · rename_i h
    rw [min_eq_right]
    rw [div_le_iff₀ hdt]; linarith

theorem bounded_nonneg {dt lam : ℝ} (hdt : 0 < dt) (hl : 0 ≤ lam) : 0 ≤ bounded dt lam := le_min hl (by positivity)

theorem simTau_eq (p : BeltP ℝ) (h : ℝ) : p.simTau h = max p.tau h := by
  unfold BeltP.simTau
  simp only [lt_real, decide_eq_true_eq]
  split
  · rename_i h1; rw [max_eq_left h1.le]
  · rename_i h1; rw [max_eq_right (not_lt.1 h1)]

theorem jnt1_eq {dt lam : ℝ} (hdt : 0 < dt) (hl : 0 ≤ lam) (u x v a : ℝ) :
    Trapezoid dt x v a (beltJnt1 dt lam u x v a).1 (beltJnt1 dt lam u x v a).2.1 (beltJnt1 dt lam u x v a).2.2 ∧
    (beltJnt1 dt lam u x v a).2.2 + 2 * bounded dt lam * (beltJnt1 dt lam u x v a).2.1 + bounded dt lam ^ 2 * (beltJnt1 dt lam u x v a).1 = bounded dt lam ^ 2 * u := by
  have hb := bounded_nonneg hdt hl
  unfold beltJnt1
  rw [limLam_eq hdt]
  generalize bounded dt lam = L at hb
  simp only [lit_real]
  push_cast
  have hpos : (1 + 1 / 2 * dt * 2 * L + 1 / 4 * dt * dt * L * L) ≠ 0 := by positivity
  refine ⟨⟨by ring, by ring⟩, ?_⟩
  generalize hA : (L * L * (u - (x + 1 / 2 * dt * (v + 1 / 2 * dt * a + v))) - 2 * L * (v + 1 / 2 * dt * a)) / (1 + 1 / 2 * dt * 2 * L + 1 / 4 * dt * dt * L * L) = A
  rw [div_eq_iff hpos] at hA
  linear_combination (-1 : ℝ) * hA

theorem defl_eq {dt tau : ℝ} (hdt : 0 < dt) (ht : 0 < tau) (w x v a : ℝ) :
    Trapezoid dt x v a (beltDefl dt tau w x v a).1 (beltDefl dt tau w x v a).2.1 (beltDefl dt tau w x v a).2.2 ∧
    max tau (dt / 2) ^ 2 * (beltDefl dt tau w x v a).2.2 + 2 * max tau (dt / 2) * (beltDefl dt tau w x v a).2.1 + (beltDefl dt tau w x v a).1 = w := by
  have hm : (if dt < ((2 : ℚ) : ℝ) * tau then tau else dt / ((2 : ℚ) : ℝ)) = max tau (dt / 2) := by
    push_cast
    split
    · rw [max_eq_left]; linarith
    · rw [max_eq_right]; linarith
  have hT : 0 < max tau (dt / 2) := lt_max_of_lt_left ht
  unfold beltDefl
  simp only [eq_real, lt_real, lit_real, decide_eq_true_eq]
  rw [if_neg ht.ne', hm]
  generalize max tau (dt / 2) = T at hT
  push_cast
  have hpos : (T * T + 2 * T * (1 / 2) * dt + 1 / 4 * dt * dt) ≠ 0 := by positivity
  refine ⟨⟨by ring, by ring⟩, ?_⟩
  generalize hA : (w - (x + 1 / 2 * dt * (v + 1 / 2 * dt * a + v)) - 2 * T * (v + 1 / 2 * dt * a)) / (T * T + 2 * T * (1 / 2) * dt + 1 / 4 * dt * dt) = A
  rw [div_eq_iff hpos] at hA
  linear_combination (-1 : ℝ) * hA

theorem combo_eq {dt lam : ℝ} (hdt : 0 < dt) (hl : 0 < lam) (x1 v1 x2 x v : ℝ) :
    (beltCombo dt lam x1 v1 x2 x v).1 = x + dt * ((v + (beltCombo dt lam x1 v1 x2 x v).2) / 2) ∧
    (beltCombo dt lam x1 v1 x2 x v).2 = v1 + bounded dt lam * (x2 - (beltCombo dt lam x1 v1 x2 x v).1) := by
  have hb := bounded_nonneg hdt hl.le
  unfold beltCombo
  simp only [eq_real, lit_real, decide_eq_true_eq]
  rw [if_neg hl.ne', limLam_eq hdt]
  generalize bounded dt lam = L at hb
  push_cast
  have hpos : (1 + 1 / 2 * dt * L) ≠ 0 := by positivity
  refine ⟨by ring, ?_⟩
  generalize hA : (v1 + L * (x2 - (x + 1 / 2 * dt * v))) / (1 + 1 / 2 * dt * L) = A
  rw [div_eq_iff hpos] at hA
  linear_combination (-1 : ℝ) * hA

theorem motor_eq {p : BeltP ℝ} (h3 : 0 < p.tau) (hc : p.compl ≠ 0) {dt : ℝ} (hdt : 0 ≤ dt) (force jx jv : ℝ) (b : BeltB ℝ) :
    MotorEquations p dt force jx jv b (beltMotor p b (dt / 2) (p.simTau (dt / 2)) force jx jv).1 (beltMotor p b (dt / 2) (p.simTau (dt / 2)) force jx jv).2.1
      (beltMotor p b (dt / 2) (p.simTau (dt / 2)) force jx jv).2.2 := by
  have hT : 0 < max p.tau (dt / 2) := lt_max_of_lt_left h3
  rw [simTau_eq]
  unfold beltMotor
  simp only [lit_real]
  push_cast
  refine ⟨⟨by ring, by ring⟩, ?_⟩
  unfold beltForce
  generalize max p.tau (dt / 2) = T at hT
  have hpos : (T * T + 2 * T * (dt / 2) + dt / 2 * (dt / 2)) ≠ 0 := by positivity
  generalize hA : (force - (2 * T * (b.motorVel + dt / 2 * (b.motorAcc + 0) - jv) + (b.motorPos + dt / 2 * (b.motorVel + (b.motorVel + dt / 2 * (b.motorAcc + 0))) - jx)) / p.compl) *
    p.compl / (T * T + 2 * T * (dt / 2) + dt / 2 * (dt / 2)) = A
  rw [div_eq_iff hpos, sub_mul, div_mul_cancel₀ _ hc] at hA
  field_simp
  linear_combination (-4 : ℝ) * hA

theorem calsim_frame (c : CalSim ℝ) (j : JState ℝ) (a : Actuator ℝ) :
    (c.simulate j a).2.position = a.position ∧ (c.simulate j a).2.velocity = a.velocity ∧ (c.simulate j a).2.measured = a.measured := by
  have h := (simulate_motion c j a).1
  simpa [Actuator.motion] using h

/-! ## C86 -/

/-- **C86, estimator.**  For a positive time step, admissible bandwidths and time constant: the estimator's new state solves its equations with the sampled motor
position and effort, and the joint state shows the estimated position (from the reference position), the estimated velocity and the measured effort at the joint. -/
theorem C86_estimator (t : BeltT ℝ) (a : Actuator ℝ) (j : JState ℝ) (hts : t.s.lastTs < a.sampleTs) (h1 : 0 ≤ t.p.lamJoint) (h2 : 0 ≤ t.p.lamCombo)
    (h3 : 0 ≤ t.p.tau) :
    ∃ s', BeltEquations t.p (((a.sampleTs - t.s.lastTs : Int) : ℝ) / 1000000000) a.position a.measured t.s s' ∧ s'.lastTs = a.sampleTs ∧ s'.damping = t.s.damping ∧
      t.propagatePosition [a] [j] = some ({ t with s := s' },
        [{ j with position := s'.jointPos + j.reference, velocity := s'.jointVel, measured := a.measured * t.p.reduction }]) := by
  refine ⟨t.s.estimate t.p a.sampleTs a.position a.measured, ?_, rfl, rfl, rfl⟩
  have hdt : (0 : ℝ) < ((a.sampleTs - t.s.lastTs : Int) : ℝ) / 1000000000 := by
    have : (0 : ℝ) < ((a.sampleTs - t.s.lastTs : Int) : ℝ) := by exact_mod_cast sub_pos.2 hts
    positivity
  unfold BeltS.estimate
  rw [sec_real]
  generalize ((a.sampleTs - t.s.lastTs : Int) : ℝ) / 1000000000 = dt at hdt
  have hj := jnt1_eq hdt h1 (a.position / t.p.reduction) t.s.jnt1Pos t.s.jnt1Vel t.s.jnt1Acc
  refine ⟨rfl, ?_, rfl, hj.1, hj.2, ?_, ?_, ?_, ?_, ?_, ?_⟩
  · simp only [lt_real, decide_eq_true_eq]
    rw [if_pos hdt]
    field_simp
  · exact fun hn => (defl_eq hdt (lt_of_le_of_ne h3 (Ne.symm hn)) _ _ _ _).1
  · exact fun hn => (defl_eq hdt (lt_of_le_of_ne h3 (Ne.symm hn)) _ _ _ _).2
  · intro h0
    dsimp only
    unfold beltDefl
    simp [h0]
  · exact fun hn => (combo_eq hdt (lt_of_le_of_ne h2 (Ne.symm hn)) _ _ _ _ _).1
  · exact fun hn => (combo_eq hdt (lt_of_le_of_ne h2 (Ne.symm hn)) _ _ _ _ _).2
  · intro h0
    dsimp only
    unfold beltCombo
    simp [h0]

/-- **C86, damping.**  The force added to the commanded effort is the motor velocity through a first-order high-pass filter with gain `-kd` (trapezoidal rule);
with bandwidth zero it is plain damping. -/
theorem C86_damping (t : BeltT ℝ) (a : Actuator ℝ) (j : JState ℝ) (hdt : 0 < t.s.dt) (h1 : 0 ≤ t.p.lamMotor) (hr : t.p.reduction ≠ 0) :
    ∃ t' a' f, t.propagateEffort [j] [a] = some (t', [a']) ∧ t'.s.damping = f ∧ a'.effort * t.p.reduction = j.commanded + f ∧ a' = { a with effort := a'.effort } ∧
      t' = { t with s := { t.s with damping := f } } ∧
      (t.p.lamMotor ≠ 0 → f - t.s.damping = -(t.s.dt * bounded t.s.dt t.p.lamMotor * ((t.s.damping + f) / 2)) - t.p.kd * t.s.deltaMotorVel) ∧
      (t.p.lamMotor = 0 → f = -(t.p.kd * t.s.motorVel)) := by
  refine ⟨_, _, t.s.dampingForce t.p, rfl, rfl, ?_, rfl, rfl, ?_, ?_⟩
  · dsimp only; exact div_mul_cancel₀ _ hr
  · intro hn
    have hb := bounded_nonneg hdt h1
    unfold BeltS.dampingForce
    simp only [eq_real, lit_real, decide_eq_true_eq]
    rw [if_neg hn, limLam_eq hdt]
    generalize bounded t.s.dt t.p.lamMotor = L at hb
    push_cast
    have hpos : (1 + 1 / 2 * t.s.dt * L) ≠ 0 := by positivity
    generalize hA : ((1 - 1 / 2 * t.s.dt * L) * t.s.damping - t.p.kd * t.s.deltaMotorVel) / (1 + 1 / 2 * t.s.dt * L) = A
    rw [div_eq_iff hpos] at hA
    linear_combination (-1 : ℝ) * hA
  · intro h0
    unfold BeltS.dampingForce
    simp [h0]

/-- **C86, simulation, first half.**  The joint feels the belt force of a motor moved for `dt` by the commanded effort while the joint keeps its velocity. -/
theorem C86_simulated_effort (t : BeltT ℝ) (a : Actuator ℝ) (j : JState ℝ) (hts : t.bk.lastTs ≤ a.sampleTs) (h3 : 0 < t.p.tau) (hc : t.p.compl ≠ 0) :
    ∃ t' x v acc dt, dt = ((a.sampleTs - t.bk.lastTs : Int) : ℝ) / 1000000000 ∧
      MotorEquations t.p dt (a.effort * t.p.reduction) (t.bk.jointPos + dt * t.bk.jointVel) t.bk.jointVel t.bk x v acc ∧
      t.propagateEffortBackwards [a] [j] = some (t',
        [{ j with commanded := beltForce t.p.compl (max t.p.tau (dt / 2)) x v (t.bk.jointPos + dt * t.bk.jointVel) t.bk.jointVel }]) ∧
      t' = { t with bk := { t.bk with lastTs := a.sampleTs, halfdt := dt / 2, force := a.effort * t.p.reduction } } := by
  have hdt := sec_nonneg hts
  rw [sec_real] at hdt
  have hrig : t.p.rigid = false := by
    unfold BeltP.rigid; simp [hc, h3.ne']
  have hhalf : (FLit.lit (1/2) : ℝ) * FLit.sec (a.sampleTs - t.bk.lastTs) = ((a.sampleTs - t.bk.lastTs : Int) : ℝ) / 1000000000 / 2 := by
    rw [sec_real, lit_real]; push_cast; ring
  have hm := motor_eq h3 hc hdt (a.effort * t.p.reduction) (t.bk.jointPos + ((a.sampleTs - t.bk.lastTs : Int) : ℝ) / 1000000000 * t.bk.jointVel) t.bk.jointVel t.bk
  refine ⟨_, _, _, _, _, rfl, hm, ?_, rfl⟩
  unfold BeltT.propagateEffortBackwards
  dsimp only
  rw [hhalf, hrig]
  have hjp : ∀ d : ℝ, t.bk.jointPos + d / 2 * (t.bk.jointVel + t.bk.jointVel) = t.bk.jointPos + d * t.bk.jointVel := fun d => by ring
  rw [hjp, if_neg (by simp), simTau_eq]
  unfold beltForce
  simp only [lit_real]
  push_cast
  rfl

/-- **C86, simulation, second half.**  The simulated actuator shows the motor moved by that force against the joint as the simulator placed it. -/
theorem C86_simulated_motion (t : BeltT ℝ) (e : SimEnv) (a : Actuator ℝ) (j : JState ℝ) (hh : 0 ≤ t.bk.halfdt) (h3 : 0 < t.p.tau) (hc : t.p.compl ≠ 0) :
    ∃ t' a' x v acc, MotorEquations t.p (2 * t.bk.halfdt) t.bk.force (j.position - j.reference) j.velocity t.bk x v acc ∧
      t.propagatePositionBackwards e [j] [a] = some (t', [a']) ∧
      a'.position = x * t.p.reduction ∧ a'.velocity = v * t.p.reduction ∧ a'.measured = t.bk.force / t.p.reduction ∧
      t'.bk = { t.bk with motorPos := x, motorVel := v, motorAcc := acc, jointPos := j.position - j.reference, jointVel := j.velocity } := by
  have hrig : t.p.rigid = false := by
    unfold BeltP.rigid; simp [hc, h3.ne']
  have hm := motor_eq h3 hc (dt := 2 * t.bk.halfdt) (by linarith) t.bk.force (j.position - j.reference) j.velocity t.bk
  rw [show 2 * t.bk.halfdt / 2 = t.bk.halfdt by ring] at hm
  refine ⟨_, _, _, _, _, hm, rfl, ?_, ?_, ?_, ?_⟩
  · rw [(calsim_frame _ _ _).1]; dsimp only [Actuator.stamped]; rw [hrig]; rfl
  · rw [(calsim_frame _ _ _).2.1]; dsimp only [Actuator.stamped]; rw [hrig]; rfl
  · rw [(calsim_frame _ _ _).2.2]; rfl
  · dsimp only; rw [hrig]; rfl

/-- `C86_estimator`, `C86_damping`, `C86_simulated_effort`, `C86_simulated_motion`: an admissible belt, 1 ms after the last sample. -/
example (a : Actuator ℝ) (ha : a.sampleTs = 1000000) : demoBelt.s.lastTs < a.sampleTs ∧ 0 ≤ demoBelt.p.lamJoint ∧ 0 ≤ demoBelt.p.lamCombo ∧ 0 < demoBelt.p.tau ∧
    demoBelt.p.compl ≠ 0 ∧ 0 < demoBelt.s.dt ∧ 0 ≤ demoBelt.p.lamMotor ∧ demoBelt.p.reduction ≠ 0 ∧ demoBelt.bk.lastTs ≤ a.sampleTs ∧ 0 ≤ demoBelt.bk.halfdt := by
  rw [ha]; norm_num [demoBelt, BeltS.init, BeltB.init]

end Pr2
