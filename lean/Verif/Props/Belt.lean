import Verif.Spec.Real
import Verif.Lemmas.Filter
import Verif.Props.SimpleWrist

/-! # C44–C47: belt transmission -/

namespace Pr2
set_option linter.unusedVariables false
open Filter Topology

/-! ## No division by zero -/

theorem sec_nonneg {a b : Int} (h : b ≤ a) : (0 : ℝ) ≤ FLit.sec (a - b) := by
  rw [sec_real]
  have : (0 : ℝ) ≤ ((a - b : Int) : ℝ) := by exact_mod_cast sub_nonneg.2 h
  positivity

theorem simTau_pos {p : BeltP ℝ} (h3 : 0 ≤ p.tau) (hn : p.rigid = false) (h : ℝ) : 0 < p.simTau h ∧ p.compl ≠ 0 := by
  unfold BeltP.rigid at hn
  simp only [eq_real, Bool.or_eq_false_iff, decide_eq_false_iff_not] at hn
  have : 0 < p.tau := lt_of_le_of_ne h3 (Ne.symm hn.2)
  refine ⟨?_, hn.1⟩
  unfold BeltP.simTau
  simp only [lt_real, decide_eq_true_eq]
  split
  · exact this
  · linarith

/-- Division that is right for non-zero denominators, and anything at all for zero. -/
def DivOk (dv : ℝ → ℝ → ℝ) : Prop := ∀ x y : ℝ, y ≠ 0 → dv x y = x / y

theorem DivOk.h {dv : ℝ → ℝ → ℝ} (hd : DivOk dv) (x y : ℝ) (hy : y ≠ 0) : @HDiv.hDiv ℝ ℝ ℝ (@instHDiv ℝ ⟨dv⟩) x y = x / y := hd x y hy

section
variable (dv : ℝ → ℝ → ℝ) (hd : DivOk dv)
include hd

theorem limLam_div {dt lam : ℝ} : limLam (iDiv := ⟨dv⟩) dt lam = limLam dt lam := by
  unfold limLam
  simp only [lt_real, lit_real, decide_eq_true_eq]
  split
  · rfl
  · rename_i h
    apply hd.h
    rintro rfl
    apply h; norm_num

theorem jnt1_div {dt lam : ℝ} (h1 : 0 ≤ dt) (h2 : 0 ≤ lam) (u x v a : ℝ) : beltJnt1 (iDiv := ⟨dv⟩) dt lam u x v a = beltJnt1 dt lam u x v a := by
  have hl : 0 ≤ limLam dt lam := by
    unfold limLam
    simp only [lt_real, lit_real, decide_eq_true_eq]
    split
    · exact h2
    · push_cast; positivity
  unfold beltJnt1
  rw [limLam_div dv hd.h]
  generalize limLam dt lam = L at hl
  simp only [lit_real]
  rw [hd.h]
  push_cast
  have : 0 < 1 + 1 / 2 * dt * 2 * L + 1 / 4 * dt * dt * L * L := by positivity
  exact this.ne'

theorem defl_div {dt tau : ℝ} (h1 : 0 ≤ dt) (h2 : 0 ≤ tau) (w x v a : ℝ) : beltDefl (iDiv := ⟨dv⟩) dt tau w x v a = beltDefl dt tau w x v a := by
  unfold beltDefl
  simp only [eq_real, lt_real, lit_real, decide_eq_true_eq]
  split
  · rfl
  · rename_i h0
    have hpos : 0 < tau := lt_of_le_of_ne h2 (Ne.symm h0)
    rw [hd.h dt _ (by norm_num)]
    have ht : 0 < (if dt < ((2 : ℚ) : ℝ) * tau then tau else dt / ((2 : ℚ) : ℝ)) := by
      split
      · exact hpos
      · rename_i h
        push_cast at h ⊢
        linarith
    generalize (if dt < ((2 : ℚ) : ℝ) * tau then tau else dt / ((2 : ℚ) : ℝ)) = T at ht
    rw [hd.h]
    push_cast
    positivity

theorem combo_div {dt lam : ℝ} (h1 : 0 ≤ dt) (h2 : 0 ≤ lam) (a b c x v : ℝ) : beltCombo (iDiv := ⟨dv⟩) dt lam a b c x v = beltCombo dt lam a b c x v := by
  have hl : 0 ≤ limLam dt lam := by
    unfold limLam
    simp only [lt_real, lit_real, decide_eq_true_eq]
    split
    · exact h2
    · push_cast; positivity
  unfold beltCombo
  rw [limLam_div dv hd.h]
  generalize limLam dt lam = L at hl
  simp only [lit_real]
  rw [hd.h]
  push_cast
  positivity

/-- **C44.** Time not running backwards, non-zero reduction, non-negative bandwidths and time constant: the estimator does not depend on
what division by zero yields, that is, it never divides by zero. -/
theorem C44_estimator (t : BeltT ℝ) (as : List (Actuator ℝ)) (js : List (JState ℝ)) (hr : t.p.reduction ≠ 0) (h1 : 0 ≤ t.p.lamJoint)
    (h2 : 0 ≤ t.p.lamCombo) (h3 : 0 ≤ t.p.tau) (hts : ∀ a ∈ as, t.s.lastTs ≤ a.sampleTs) :
    t.propagatePosition (iDiv := ⟨dv⟩) as js = t.propagatePosition as js := by
  unfold BeltT.propagatePosition
  split
  · rename_i a j
    have hdt := sec_nonneg (hts a (by simp))
    have : t.s.estimate (iDiv := ⟨dv⟩) t.p a.sampleTs a.position a.measured = t.s.estimate t.p a.sampleTs a.position a.measured := by
      unfold BeltS.estimate
      dsimp only
      rw [hd.h _ _ hr]
      rw [jnt1_div dv hd hdt h1, defl_div dv hd hdt h3, combo_div dv hd hdt h2]
      simp only [lt_real, decide_eq_true_eq]
      by_cases h0 : 0 < (FLit.sec (a.sampleTs - t.s.lastTs) : ℝ)
      · rw [if_pos h0, if_pos h0, hd.h _ _ h0.ne']
      · rw [if_neg h0, if_neg h0]
    simp only [this]
  · rfl

/-- **C44.** So does the motor damping, with the time step of the last estimate. -/
theorem C44_damping (t : BeltT ℝ) (as : List (Actuator ℝ)) (js : List (JState ℝ)) (hr : t.p.reduction ≠ 0) (h1 : 0 ≤ t.p.lamMotor) (hdt : 0 ≤ t.s.dt) :
    t.propagateEffort (iDiv := ⟨dv⟩) js as = t.propagateEffort js as := by
  have hl : 0 ≤ limLam t.s.dt t.p.lamMotor := by
    unfold limLam
    simp only [lt_real, lit_real, decide_eq_true_eq]
    split
    · exact h1
    · push_cast; positivity
  have : BeltS.dampingForce (iDiv := ⟨dv⟩) t.p t.s = BeltS.dampingForce t.p t.s := by
    unfold BeltS.dampingForce
    rw [limLam_div dv hd.h]
    generalize limLam t.s.dt t.p.lamMotor = L at hl
    simp only [lit_real]
    rw [hd.h]
    push_cast
    positivity
  unfold BeltT.propagateEffort
  split
  · simp only [this]
    rw [hd.h _ _ hr]
  · rfl

theorem motor_div (p : BeltP ℝ) (b : BeltB ℝ) {h tau : ℝ} (hh : 0 ≤ h) (ht : 0 < tau) (hc : p.compl ≠ 0) (f x v : ℝ) :
    beltMotor (iDiv := ⟨dv⟩) p b h tau f x v = beltMotor p b h tau f x v := by
  unfold beltMotor
  simp only [lit_real]
  rw [hd.h _ _ hc, hd.h]
  push_cast
  positivity

/-- **C44.** And the simulated belt. -/
theorem C44_simulation (t : BeltT ℝ) (e : SimEnv) (as : List (Actuator ℝ)) (js : List (JState ℝ)) (hr : t.p.reduction ≠ 0) (h3 : 0 ≤ t.p.tau)
    (hts : ∀ a ∈ as, t.bk.lastTs ≤ a.sampleTs) (hh : 0 ≤ t.bk.halfdt) :
    t.propagateEffortBackwards (iDiv := ⟨dv⟩) as js = t.propagateEffortBackwards as js ∧
    t.propagatePositionBackwards (iDiv := ⟨dv⟩) e js as = t.propagatePositionBackwards e js as := by
  constructor
  · unfold BeltT.propagateEffortBackwards
    split
    · rename_i a j
      have hdt := sec_nonneg (hts a (by simp))
      simp only [lit_real]
      cases hn : t.p.rigid
      · obtain ⟨h1, h2⟩ := simTau_pos h3 hn (((1/2 : ℚ) : ℝ) * FLit.sec (a.sampleTs - t.bk.lastTs))
        rw [motor_div dv hd.h _ _ (by push_cast; positivity) h1 h2, hd.h _ _ h2]
      · rfl
    · rfl
  · unfold BeltT.propagatePositionBackwards
    split
    · dsimp only
      cases hn : t.p.rigid
      · obtain ⟨h1, h2⟩ := simTau_pos h3 hn t.bk.halfdt
        rw [motor_div dv hd.h _ _ hh h1 h2, hd.h _ _ hr]
      · simp only [if_true]
        rw [hd.h _ _ hr]
    · rfl
end

/-! ## Convergence -/

theorem limLam_pos {dt lam : ℝ} (h1 : 0 < dt) (h2 : 0 < lam) : 0 < limLam dt lam ∧ dt / 2 * limLam dt lam ≤ 1 := by
  unfold limLam
  simp only [lt_real, lit_real, decide_eq_true_eq]
  push_cast
  split
  · exact ⟨h2, by linarith⟩
  · refine ⟨by positivity, ?_⟩
    field_simp
    norm_num

theorem jnt1_spec {dt lam : ℝ} (h1 : 0 < dt) (h2 : 0 < lam) (u x v a : ℝ) :
    let r := beltJnt1 dt lam u x v a
    r.1 = x + dt / 2 * (r.2.1 + v) ∧ r.2.1 = v + dt / 2 * (r.2.2 + a) ∧
    r.2.2 = limLam dt lam * limLam dt lam * (u - r.1) - 2 * limLam dt lam * r.2.1 := by
  obtain ⟨hl, -⟩ := limLam_pos h1 h2
  unfold beltJnt1
  generalize limLam dt lam = L at hl
  simp only [lit_real]
  push_cast
  have : 0 < 1 + 1 / 2 * dt * 2 * L + 1 / 4 * dt * dt * L * L := by positivity
  refine ⟨by ring, by ring, ?_⟩
  field_simp
  ring

theorem defl_spec {dt tau : ℝ} (h1 : 0 < dt) (h2 : 0 < tau) : ∃ T : ℝ, 0 < T ∧ ∀ w x v a : ℝ,
    let r := beltDefl dt tau w x v a
    r.1 = x + dt / 2 * (r.2.1 + v) ∧ r.2.1 = v + dt / 2 * (r.2.2 + a) ∧ r.2.2 = 1 / T * (1 / T) * (w - r.1) - 2 * (1 / T) * r.2.1 := by
  refine ⟨if dt < ((2 : ℚ) : ℝ) * tau then tau else dt / ((2 : ℚ) : ℝ), ?_, ?_⟩
  · split
    · exact h2
    · push_cast; positivity
  · intro w x v a
    have hT : 0 < (if dt < ((2 : ℚ) : ℝ) * tau then tau else dt / ((2 : ℚ) : ℝ)) := by
      split
      · exact h2
      · push_cast; positivity
    unfold beltDefl
    simp only [eq_real, lt_real, lit_real, decide_eq_true_eq, if_neg h2.ne']
    generalize (if dt < ((2 : ℚ) : ℝ) * tau then tau else dt / ((2 : ℚ) : ℝ)) = T at hT
    push_cast
    have : 0 < T * T + 2 * T * (1 / 2) * dt + 1 / 4 * dt * dt := by positivity
    refine ⟨by ring, by ring, ?_⟩
    field_simp
    ring

theorem combo_spec {dt lam : ℝ} (h1 : 0 < dt) (h2 : 0 < lam) (j1p j1v j2 x v : ℝ) :
    let r := beltCombo dt lam j1p j1v j2 x v
    r.1 = x + dt / 2 * (r.2 + v) ∧ r.2 = j1v + limLam dt lam * (j2 - r.1) := by
  obtain ⟨hl, -⟩ := limLam_pos h1 h2
  unfold beltCombo
  simp only [eq_real, lit_real, decide_eq_true_eq, if_neg h2.ne']
  generalize limLam dt lam = L at hl
  push_cast
  have : 0 < 1 + 1 / 2 * dt * L := by positivity
  refine ⟨by ring, ?_⟩
  field_simp
  ring

/-- A belt transmission in use: at each cycle `n` the actuator's sample is taken `step` ns after the previous one; the motor position tends to
`P` and the measured effort to `M` (for example, are constant); `j n` and `j' n` are the joint state before and after. -/
structure BeltHeld (t : ℕ → BeltT ℝ) (a : ℕ → Actuator ℝ) (j j' : ℕ → JState ℝ) (step : Int) (P M ref : ℝ) : Prop where
  run : ∀ n, (t n).propagatePosition [a n] [j n] = some (t (n+1), [j' n])
  time : ∀ n : ℕ, (a n).sampleTs = (t 0).s.lastTs + (n + 1) * step
  pos : Tendsto (fun n => (a n).position) atTop (𝓝 P)
  meas : Tendsto (fun n => (a n).measured) atTop (𝓝 M)
  reference : ∀ n, (j n).reference = ref

/-- **C45.** From any filter state, with motor position and measured effort constant (or converging) and constant sampling time: the estimated
position of the joint converges to the motor's (in joint units) minus the stretch of the belt (force times compliance), and the estimated
velocity to zero; with zero combination bandwidth, the stretch is not taken into account. -/
theorem C45_converges {t : ℕ → BeltT ℝ} {a : ℕ → Actuator ℝ} {j j' : ℕ → JState ℝ} {step : Int} {P M ref : ℝ} (h : BeltHeld t a j j' step P M ref)
    (hstep : 0 < step) (h1 : 0 < (t 0).p.lamJoint) (h2 : 0 ≤ (t 0).p.tau) (h3 : 0 ≤ (t 0).p.lamCombo) :
    Tendsto (fun n => (j' n).position) atTop (𝓝 (P / (t 0).p.reduction - (if (t 0).p.lamCombo = 0 then 0 else (t 0).p.compl * (M * (t 0).p.reduction)) + ref)) ∧
    Tendsto (fun n => (j' n).velocity) atTop (𝓝 0) := by
  set p := (t 0).p with hp
  have hrun : ∀ n, t (n+1) = { t n with s := (t n).s.estimate (t n).p (a n).sampleTs (a n).position (a n).measured } ∧
      (j' n).position = (t (n+1)).s.jointPos + ref ∧ (j' n).velocity = (t (n+1)).s.jointVel := by
    intro n
    have := h.run n
    unfold BeltT.propagatePosition at this
    simp only [Option.some.injEq, Prod.mk.injEq, List.cons.injEq, and_true] at this
    obtain ⟨e1, e2⟩ := this
    refine ⟨e1.symm, ?_, ?_⟩
    · rw [← e2, ← e1, ← h.reference n]
    · rw [← e2, ← e1]
  have hpn : ∀ n, (t n).p = p := by
    intro n
    induction n with
    | zero => rfl
    | succ n ih => rw [(hrun n).1]; exact ih
  have hts : ∀ n : ℕ, (t n).s.lastTs = (t 0).s.lastTs + n * step := by
    intro n
    cases n with
    | zero => simp
    | succ n =>
      rw [(hrun n).1]
      show (a n).sampleTs = _
      rw [h.time n]; push_cast; ring
  set dt : ℝ := FLit.sec step with hdt
  have hdt0 : 0 < dt := by
    rw [hdt, sec_real]
    have : (0 : ℝ) < (step : ℝ) := by exact_mod_cast hstep
    positivity
  have hsec : ∀ n, (FLit.sec ((a n).sampleTs - (t n).s.lastTs) : ℝ) = dt := by
    intro n
    rw [hts n, h.time n, hdt]
    congr 1; ring
  set u : ℕ → ℝ := fun n => (a n).position / p.reduction with hu
  set w : ℕ → ℝ := fun n => p.compl * ((a n).measured * p.reduction) with hw
  have lu : Tendsto u atTop (𝓝 (P / p.reduction)) := h.pos.div_const _
  have lw : Tendsto w atTop (𝓝 (p.compl * (M * p.reduction))) := (h.meas.mul_const _).const_mul _
  set U := P / p.reduction with hU
  set W := p.compl * (M * p.reduction) with hW
  have hj1 : ∀ n, ((t (n+1)).s.jnt1Pos, (t (n+1)).s.jnt1Vel, (t (n+1)).s.jnt1Acc) =
      beltJnt1 dt p.lamJoint (u n) (t n).s.jnt1Pos (t n).s.jnt1Vel (t n).s.jnt1Acc := by
    intro n
    rw [(hrun n).1]
    simp only [BeltS.estimate, hsec n, hpn n]
    rfl
  have hde : ∀ n, ((t (n+1)).s.deflPos, (t (n+1)).s.deflVel, (t (n+1)).s.deflAcc) =
      beltDefl dt p.tau (w n) (t n).s.deflPos (t n).s.deflVel (t n).s.deflAcc := by
    intro n
    rw [(hrun n).1]
    simp only [BeltS.estimate, hsec n, hpn n]
    rfl
  have hco : ∀ n, ((t (n+1)).s.jointPos, (t (n+1)).s.jointVel) =
      beltCombo dt p.lamCombo (t (n+1)).s.jnt1Pos (t (n+1)).s.jnt1Vel (u n - (t (n+1)).s.deflPos) (t n).s.jointPos (t n).s.jointVel := by
    intro n
    rw [(hrun n).1]
    simp only [BeltS.estimate, hsec n, hpn n]
    rfl
  -- method 1
  have c1 : Tendsto (fun n => (t (n+1)).s.jnt1Pos) atTop (𝓝 U) ∧ Tendsto (fun n => (t (n+1)).s.jnt1Vel) atTop (𝓝 0) := by
    obtain ⟨hl, -⟩ := limLam_pos hdt0 h1
    have sp : ∀ n, _ := fun n => jnt1_spec hdt0 h1 (u n) (t n).s.jnt1Pos (t n).s.jnt1Vel (t n).s.jnt1Acc
    simp only [← hj1] at sp
    exact critical_tendsto lu (h := dt / 2) (lam := limLam dt p.lamJoint) (by positivity) (a := fun n => (t (n+1)).s.jnt1Acc)
      (fun n => (sp (n+1)).1) (fun n => (sp (n+1)).2.1) (fun n => (sp n).2.2)
  -- method 2
  have c2 : Tendsto (fun n => (t (n+1)).s.deflPos) atTop (𝓝 W) := by
    rcases h2.eq_or_lt with h0 | h0
    · have : ∀ n, (t (n+1)).s.deflPos = w n := by
        intro n
        have := congrArg Prod.fst (hde n)
        dsimp only at this
        rw [this]
        unfold beltDefl
        simp [← h0]
      simp only [this]
      exact lw
    · obtain ⟨T, hT, sp⟩ := defl_spec hdt0 h0
      have sp : ∀ n, _ := fun n => sp (w n) (t n).s.deflPos (t n).s.deflVel (t n).s.deflAcc
      simp only [← hde] at sp
      exact (critical_tendsto lw (h := dt / 2) (lam := 1 / T) (by positivity) (a := fun n => (t (n+1)).s.deflAcc) (v := fun n => (t (n+1)).s.deflVel)
        (fun n => (sp (n+1)).1) (fun n => (sp (n+1)).2.1) (fun n => (sp n).2.2)).1
  simp only [(hrun _).2.1, (hrun _).2.2]
  rcases h3.eq_or_lt with h0 | h0
  · rw [if_pos h0.symm]
    have : ∀ n, (t (n+1)).s.jointPos = (t (n+1)).s.jnt1Pos ∧ (t (n+1)).s.jointVel = (t (n+1)).s.jnt1Vel := by
      intro n
      have := hco n
      unfold beltCombo at this
      simp only [← h0, eq_real, decide_true, if_true, Prod.mk.injEq] at this
      exact this
    simp only [this, sub_zero]
    exact ⟨c1.1.add_const ref, c1.2⟩
  · rw [if_neg h0.ne']
    obtain ⟨hl, -⟩ := limLam_pos hdt0 h0
    have sp : ∀ n, _ := fun n => combo_spec hdt0 h0 (t (n+1)).s.jnt1Pos (t (n+1)).s.jnt1Vel (u n - (t (n+1)).s.deflPos) (t n).s.jointPos (t n).s.jointVel
    simp only [← hco] at sp
    have hd : Tendsto (fun n => (t (n+1)).s.jnt1Vel + limLam dt p.lamCombo * ((u n - (t (n+1)).s.deflPos) - (U - W))) atTop (𝓝 0) := by
      have e1 := ((lu.sub c2).sub_const (U - W)).const_mul (limLam dt p.lamCombo)
      have e2 := c1.2.add e1
      simpa using e2
    have := lowPass_tendsto (h := dt / 2) (lam := limLam dt p.lamCombo) (by positivity)
      (x := fun n => (t (n+1)).s.jointPos - (U - W)) (v := fun n => (t (n+1)).s.jointVel)
      (fun n => by rw [(sp (n+1)).1]; ring) (fun n => by rw [(sp n).2]; ring) hd
    refine ⟨?_, this.2⟩
    have e := this.1.add_const (U - W + ref)
    have e3 : (fun n => (t (n+1)).s.jointPos - (U - W) + (U - W + ref)) = fun n => (t (n+1)).s.jointPos + ref := by
      funext n; ring
    rw [e3, zero_add] at e
    exact e

/-- The hypotheses of C45 are met by the trivial recursion: any initial transmission can be run. -/
example (t0 : BeltT ℝ) (a0 : Actuator ℝ) (j : JState ℝ) : ∃ t a j', BeltHeld t a (fun _ => j) j' 1000000 a0.position a0.measured j.reference ∧ t 0 = t0 := by
  let a : ℕ → Actuator ℝ := fun n => { a0 with sampleTs := t0.s.lastTs + (n + 1) * 1000000 }
  let t : ℕ → BeltT ℝ := fun n => Nat.rec t0 (fun n t => { t with s := t.s.estimate t.p (a n).sampleTs (a n).position (a n).measured }) n
  exact ⟨t, a, _, ⟨fun n => rfl, fun n => rfl, tendsto_const_nhds, tendsto_const_nhds, fun _ => rfl⟩, rfl⟩

/-! ## Damping -/

/-- **C46.** Positive time step and bandwidth: the new damping force is `ρ` times the old one, minus a multiple of the change of motor
velocity, with `0 ≤ ρ < 1`; what is sent to the motor is the joint command plus the damping force. -/
theorem C46_damping_step (t : BeltT ℝ) (a : Actuator ℝ) (j : JState ℝ) (hdt : 0 < t.s.dt) (hl : 0 < t.p.lamMotor) :
    ∃ ρ g f : ℝ, 0 ≤ ρ ∧ ρ < 1 ∧ 0 < g ∧ g ≤ 1 ∧ f = ρ * t.s.damping - g * t.p.kd * t.s.deltaMotorVel ∧
      t.propagateEffort [j] [a] = some ({ t with s := { t.s with damping := f } }, [{ a with effort := (j.commanded + f) / t.p.reduction }]) := by
  obtain ⟨h1, h2⟩ := limLam_pos hdt hl
  refine ⟨(1 - t.s.dt / 2 * limLam t.s.dt t.p.lamMotor) / (1 + t.s.dt / 2 * limLam t.s.dt t.p.lamMotor),
    1 / (1 + t.s.dt / 2 * limLam t.s.dt t.p.lamMotor), t.s.dampingForce t.p, ?_, ?_, ?_, ?_, ?_, rfl⟩
  · apply div_nonneg <;> nlinarith
  · rw [div_lt_one (by positivity)]; nlinarith [mul_pos hdt h1]
  · positivity
  · rw [div_le_one (by positivity)]; nlinarith [mul_pos hdt h1]
  · unfold BeltS.dampingForce
    simp only [eq_real, lit_real, decide_eq_true_eq, if_neg hl.ne']
    push_cast
    have : 0 < 1 + 1 / 2 * t.s.dt * limLam t.s.dt t.p.lamMotor := by positivity
    have : 0 < 1 + t.s.dt / 2 * limLam t.s.dt t.p.lamMotor := by positivity
    field_simp

/-- **C46.** Without change of motor velocity the damping force shrinks and never changes sign. -/
theorem C46_no_oscillation (t t' : BeltT ℝ) (a : Actuator ℝ) (j : JState ℝ) (as' : List (Actuator ℝ)) (hdt : 0 < t.s.dt) (hl : 0 < t.p.lamMotor)
    (h0 : t.s.deltaMotorVel = 0) (h : t.propagateEffort [j] [a] = some (t', as')) :
    |t'.s.damping| ≤ |t.s.damping| ∧ (t.s.damping ≠ 0 → |t'.s.damping| < |t.s.damping|) ∧ 0 ≤ t'.s.damping * t.s.damping := by
  obtain ⟨ρ, g, f, h1, h2, -, -, hf, he⟩ := C46_damping_step t a j hdt hl
  rw [he] at h
  cases h
  rw [h0, mul_zero, sub_zero] at hf
  dsimp only
  rw [hf]
  constructor
  · rw [abs_mul, abs_of_nonneg h1]
    exact mul_le_of_le_one_left (abs_nonneg _) h2.le
  refine ⟨fun hne => ?_, ?_⟩
  · rw [abs_mul, abs_of_nonneg h1]
    exact mul_lt_of_lt_one_left (abs_pos.2 hne) h2
  · have := mul_nonneg h1 (mul_self_nonneg t.s.damping)
    linarith

/-- **C46.** With zero bandwidth, plain damping: proportional to the motor velocity. -/
theorem C46_plain (t : BeltT ℝ) (a : Actuator ℝ) (j : JState ℝ) (hl : t.p.lamMotor = 0) :
    ∃ t', t.propagateEffort [j] [a] = some (t', [{ a with effort := (j.commanded - t.p.kd * t.s.motorVel) / t.p.reduction }]) := by
  refine ⟨{ t with s := { t.s with damping := t.s.dampingForce t.p } }, ?_⟩
  have : t.s.dampingForce t.p = - t.p.kd * t.s.motorVel := by
    unfold BeltS.dampingForce; simp [hl]
  unfold BeltT.propagateEffort
  simp only [this]
  congr 4
  ring

theorem damping_bound {ρ g kd V D : ℝ} (h1 : 0 ≤ ρ) (hg : 0 < g) (hg1 : g ≤ 1) (hkd : 0 ≤ kd) (v f : ℕ → ℝ)
    (h0 : |f 0| ≤ D) (hv : ∀ n, |v n| ≤ V) (hρ : ρ < 1) (hf : ∀ n, f (n+1) = ρ * f n - g * kd * (v (n+1) - v n)) (n : ℕ) :
    |f n| ≤ D + 2 * kd * V := by
  have hV : 0 ≤ V := (abs_nonneg _).trans (hv 0)
  have hD : 0 ≤ D := (abs_nonneg _).trans h0
  have hgk : 0 ≤ g * kd := mul_nonneg hg.le hkd
  have hb : ∀ n, |g * kd * v n| ≤ g * kd * V := fun n => by
    rw [abs_mul, abs_of_nonneg hgk]; exact mul_le_mul_of_nonneg_left (hv n) hgk
  have key : ∀ n, |f n + g * kd * v n| ≤ D + g * kd * V := by
    intro n
    induction n with
    | zero => exact (abs_add_le _ _).trans (add_le_add h0 (hb 0))
    | succ n ih =>
      have : f (n+1) + g * kd * v (n+1) = ρ * (f n + g * kd * v n) + (1 - ρ) * (g * kd * v n) := by rw [hf n]; ring
      rw [this]
      have e1 : |ρ * (f n + g * kd * v n)| ≤ ρ * (D + g * kd * V) := by
        rw [abs_mul, abs_of_nonneg h1]; exact mul_le_mul_of_nonneg_left ih h1
      have e2 : |(1 - ρ) * (g * kd * v n)| ≤ (1 - ρ) * (D + g * kd * V) := by
        rw [abs_mul, abs_of_nonneg (by linarith : 0 ≤ 1 - ρ)]
        exact mul_le_mul_of_nonneg_left ((hb n).trans (by linarith)) (by linarith)
      calc _ ≤ _ := abs_add_le _ _
        _ ≤ _ := add_le_add e1 e2
        _ = D + g * kd * V := by ring
  have h3 : |f n| ≤ (D + g * kd * V) + g * kd * V := by
    have : f n = (f n + g * kd * v n) - g * kd * v n := by ring
    rw [this]
    exact (abs_sub _ _).trans (add_le_add (key n) (hb n))
  have h4 : g * kd * V ≤ kd * V := by
    have := mul_le_mul_of_nonneg_right hg1 (mul_nonneg hkd hV)
    linarith
  linarith

/-- A belt transmission in the realtime loop: in cycle `n` the actuator sample `a n`, taken `step` ns after the previous one, is
turned into a joint state, and the commanded joint `c n` into the actuator command `o n`. -/
structure BeltLoop (t : ℕ → BeltT ℝ) (a o : ℕ → Actuator ℝ) (j j' c : ℕ → JState ℝ) (step : Int) : Prop where
  run : ∀ n, ∃ m, (t n).propagatePosition [a n] [j n] = some (m, [j' n]) ∧ m.propagateEffort [c n] [a n] = some (t (n+1), [o n])
  time : ∀ n : ℕ, (a n).sampleTs = (t 0).s.lastTs + (n + 1) * step

/-- **C46.** Whatever the motor and the controllers do: as long as the motor velocity (in joint units) stays within `V`, the actuator
command differs from the joint command by at most `2 kd V` beyond the damping force at the start. -/
theorem C46_bounded {t : ℕ → BeltT ℝ} {a o : ℕ → Actuator ℝ} {j j' c : ℕ → JState ℝ} {step : Int} (h : BeltLoop t a o j j' c step)
    (hstep : 0 < step) (hl : 0 < (t 0).p.lamMotor) (hr : (t 0).p.reduction ≠ 0) (hkd : 0 ≤ (t 0).p.kd) {V : ℝ} (hV : ∀ n, |(t n).s.motorVel| ≤ V)
    (n : ℕ) : |(o n).effort * (t 0).p.reduction - (c n).commanded| ≤ |(t 0).s.damping| + 2 * (t 0).p.kd * V := by
  have hrun : ∀ n, ∃ s, s = (t n).s.estimate (t n).p (a n).sampleTs (a n).position (a n).measured ∧
      t (n+1) = { t n with s := { s with damping := s.dampingForce (t n).p } } ∧
      (o n).effort = ((c n).commanded + s.dampingForce (t n).p) / (t n).p.reduction := by
    intro n
    obtain ⟨m, e1, e2⟩ := h.run n
    unfold BeltT.propagatePosition at e1
    unfold BeltT.propagateEffort at e2
    simp only [Option.some.injEq, Prod.mk.injEq, List.cons.injEq, and_true] at e1 e2
    obtain ⟨rfl, -⟩ := e1
    exact ⟨_, rfl, e2.1.symm, by rw [← e2.2]⟩
  have hpn : ∀ n, (t n).p = (t 0).p := by
    intro n
    induction n with
    | zero => rfl
    | succ n ih => obtain ⟨s, -, e, -⟩ := hrun n; rw [e]; exact ih
  have hts : ∀ n : ℕ, (t n).s.lastTs = (t 0).s.lastTs + n * step := by
    intro n
    cases n with
    | zero => simp
    | succ n =>
      obtain ⟨s, es, e, -⟩ := hrun n
      rw [e, es]
      show (a n).sampleTs = _
      rw [h.time n]; push_cast; ring
  set p := (t 0).p with hp
  set dt : ℝ := FLit.sec step with hdt
  have hdt0 : 0 < dt := by
    rw [hdt, sec_real]
    have : (0 : ℝ) < (step : ℝ) := by exact_mod_cast hstep
    positivity
  have hsec : ∀ n, (FLit.sec ((a n).sampleTs - (t n).s.lastTs) : ℝ) = dt := by
    intro n
    rw [hts n, h.time n, hdt]
    congr 1; ring
  obtain ⟨h1, h2⟩ := limLam_pos hdt0 hl
  set L := limLam dt p.lamMotor with hL
  set x := dt / 2 * L with hx
  have hx0 : 0 < x := by positivity
  have hf : ∀ n, (t (n+1)).s.damping = (1 - x) / (1 + x) * (t n).s.damping - 1 / (1 + x) * p.kd * ((t (n+1)).s.motorVel - (t n).s.motorVel) := by
    intro n
    obtain ⟨s, es, e, -⟩ := hrun n
    have d1 : s.dt = dt := by rw [es]; exact hsec n
    have d2 : s.damping = (t n).s.damping := by rw [es]; rfl
    have d3 : s.deltaMotorVel = s.motorVel - (t n).s.motorVel := by rw [es]; rfl
    rw [e]
    show s.dampingForce (t n).p = _
    rw [hpn n]
    unfold BeltS.dampingForce
    simp only [eq_real, lit_real, decide_eq_true_eq, if_neg hl.ne']
    rw [d1, d2, d3, ← hL]
    show _ = (1 - x) / (1 + x) * (t n).s.damping - 1 / (1 + x) * p.kd * (s.motorVel - (t n).s.motorVel)
    have e3 : ((1/2 : ℚ) : ℝ) * dt * L = x := by push_cast; rw [hx]; ring
    rw [e3]
    have : 0 < 1 + x := by positivity
    push_cast
    field_simp
  obtain ⟨s, es, e, e'⟩ := hrun n
  have : (o n).effort * p.reduction - (c n).commanded = (t (n+1)).s.damping := by
    rw [e', e, hpn n]
    field_simp
    show _ = s.dampingForce _
    ring
  rw [this]
  exact damping_bound (ρ := (1 - x) / (1 + x)) (g := 1 / (1 + x)) (div_nonneg (by linarith) (by positivity)) (by positivity)
    (by rw [div_le_one (by positivity)]; linarith) hkd (fun n => (t n).s.motorVel) (fun n => (t n).s.damping) le_rfl hV
    (by rw [div_lt_one (by positivity)]; linarith) hf (n+1)

/-- Every transmission can be run in the loop. -/
example (t0 : BeltT ℝ) (a0 : Actuator ℝ) (j c : JState ℝ) : ∃ t a o j', BeltLoop t a o (fun _ => j) j' (fun _ => c) 1000000 ∧ t 0 = t0 := by
  let a : ℕ → Actuator ℝ := fun n => { a0 with sampleTs := t0.s.lastTs + (n + 1) * 1000000 }
  let g : BeltT ℝ → ℕ → BeltS ℝ := fun t n => t.s.estimate t.p (a n).sampleTs (a n).position (a n).measured
  let t : ℕ → BeltT ℝ := fun n => Nat.rec t0 (fun n t => { t with s := { g t n with damping := (g t n).dampingForce t.p } }) n
  exact ⟨t, a, _, _, ⟨fun n => ⟨_, rfl, rfl⟩, fun n => rfl⟩, rfl⟩

/-! ## Simulation -/

/-- **C47.** A rigid belt (no compliance or no motor mass) in simulation: the joint gets the effort, and the actuator the position and
velocity, that a simple transmission of the same reduction gives; the measured effort is the effort last applied. -/
theorem C47_rigid (t : BeltT ℝ) (hrig : t.p.compl = 0 ∨ t.p.tau = 0) (hr : t.p.reduction ≠ 0) (s : SimpleT ℝ) (hs : s.useSim = false)
    (hred : s.reduction = t.p.reduction) (a a2 : Actuator ℝ) (j j2 : JState ℝ) (e : SimEnv) :
    ∃ t1 js, t.propagateEffortBackwards [a] [j] = some (t1, js) ∧ s.propagateEffortBackwards [a] [j] = some js ∧
    ∃ t2 a', t1.propagatePositionBackwards e [j2] [a2] = some (t2, [a']) ∧ a'.measured = a.effort ∧
    ∃ s2 a'', s.propagatePositionBackwards e [j2] [a2] = some (s2, [a'']) ∧ a'.position = a''.position ∧ a'.velocity = a''.velocity := by
  have hrg : t.p.rigid = true := by
    unfold BeltP.rigid
    simpa using hrig
  refine ⟨_, _, rfl, ?_, _, _, rfl, ?_, _, _, by unfold SimpleT.propagatePositionBackwards; rw [hs], ?_, ?_⟩
  · unfold SimpleT.propagateEffortBackwards
    rw [hs, hred]
    simp [hrg]
  · have := fun a => (simulate_motion t.cal j2 a).1
    simp only [Actuator.motion, Prod.mk.injEq] at this
    rw [(this _).2.2]
    simp [Actuator.stamped, hr]
  · have h1 := fun a => (simulate_motion t.cal j2 a).1
    have h2 := fun a => (simulate_motion s.cal j2 a).1
    simp only [Actuator.motion, Prod.mk.injEq] at h1 h2
    unfold SimpleT.backward
    dsimp only
    rw [(h1 _).1, (h2 _).1, hred, hrg]; rfl
  · have h1 := fun a => (simulate_motion t.cal j2 a).1
    have h2 := fun a => (simulate_motion s.cal j2 a).1
    simp only [Actuator.motion, Prod.mk.injEq] at h1 h2
    unfold SimpleT.backward
    dsimp only
    rw [(h1 _).2.1, (h2 _).2.1, hred, hrg]; rfl

/-! ## The simulated belt and its compensator agree -/

/-- A belt transmission in simulation: in each cycle the actuator's command is applied to the joint, then the state of the simulated joint
gives the motor state.  Samples `step` ns apart, constant motor command `E`, the joint held at `P`. -/
structure BeltSim (t : ℕ → BeltT ℝ) (a a' : ℕ → Actuator ℝ) (j j' k : ℕ → JState ℝ) (e : ℕ → SimEnv) (step : Int) (E P : ℝ) : Prop where
  run : ∀ n, ∃ m, (t n).propagateEffortBackwards [a n] [j n] = some (m, [j' n]) ∧ m.propagatePositionBackwards (e n) [k n] [a n] = some (t (n+1), [a' n])
  time : ∀ n : ℕ, (a n).sampleTs = (t 0).bk.lastTs + (n + 1) * step
  effort : ∀ n, (a n).effort = E
  pos : ∀ n, (k n).position - (k n).reference = P
  still : ∀ n, (k n).velocity = 0

theorem motor_spec (p : BeltP ℝ) (b : BeltB ℝ) {h tau : ℝ} (hh : 0 ≤ h) (ht : 0 < tau) (hc : p.compl ≠ 0) (f x : ℝ) :
    let r := beltMotor p b h tau f x 0
    r.1 = b.motorPos + h * (r.2.1 + b.motorVel) ∧ r.2.1 = b.motorVel + h * (r.2.2 + b.motorAcc) ∧
    r.2.2 = 1 / tau * (1 / tau) * ((x + p.compl * f) - r.1) - 2 * (1 / tau) * r.2.1 := by
  unfold beltMotor
  simp only [lit_real]
  push_cast
  have : 0 < tau * tau + 2 * tau * h + h * h := by positivity
  refine ⟨by ring, by ring, ?_⟩
  field_simp
  ring

/-- **C63.** The simulated belt at rest under a constant motor effort: the joint feels that effort (in joint units), the motor stands at
the joint position plus the stretch of the belt, and reports the effort. -/
theorem C63_simulated_belt {t : ℕ → BeltT ℝ} {a a' : ℕ → Actuator ℝ} {j j' k : ℕ → JState ℝ} {e : ℕ → SimEnv} {step : Int} {E P : ℝ}
    (h : BeltSim t a a' j j' k e step E P) (hstep : 0 < step) (htau : 0 ≤ (t 0).p.tau) (hr : (t 0).p.reduction ≠ 0) (hnr : (t 0).p.tau ≠ 0) (hnc : (t 0).p.compl ≠ 0) :
    Tendsto (fun n => (j' n).commanded) atTop (𝓝 (E * (t 0).p.reduction)) ∧
    Tendsto (fun n => (a' n).position) atTop (𝓝 ((P + (t 0).p.compl * (E * (t 0).p.reduction)) * (t 0).p.reduction)) ∧
    Tendsto (fun n => (a' n).velocity) atTop (𝓝 0) ∧ ∀ n, (a' n).measured = E := by
  set p := (t 0).p with hp
  have hnrig : p.rigid = false := by unfold BeltP.rigid; simp [hnr, hnc]
  set H : ℝ := ((1/2 : ℚ) : ℝ) * FLit.sec step with hH
  have hH0 : 0 < H := by
    rw [hH, sec_real]
    have : (0 : ℝ) < (step : ℝ) := by exact_mod_cast hstep
    push_cast
    positivity
  set T := p.simTau H with hT
  have hT0 : 0 < T := (simTau_pos htau hnrig H).1
  set f := E * p.reduction with hf
  have hbase : ∀ n : ℕ, (t n).p = p ∧ (t n).bk.lastTs = (t 0).bk.lastTs + n * step := by
    intro n
    induction n with
    | zero => exact ⟨rfl, by simp⟩
    | succ n ih =>
      obtain ⟨m, e1, e2⟩ := h.run n
      unfold BeltT.propagateEffortBackwards at e1
      unfold BeltT.propagatePositionBackwards at e2
      simp only [Option.some.injEq, Prod.mk.injEq, List.cons.injEq, and_true] at e1 e2
      obtain ⟨rfl, e1⟩ := e1
      obtain ⟨e2, e3⟩ := e2
      rw [← e2]
      refine ⟨ih.1, ?_⟩
      show (a n).sampleTs = _
      rw [h.time n]; push_cast; ring
  have hrun : ∀ n, (t n).p = p ∧ (t n).bk.lastTs = (t 0).bk.lastTs + n * step ∧
      (t (n+1)).p = p ∧ (t (n+1)).bk.lastTs = (a n).sampleTs ∧ (t (n+1)).bk.jointPos = P ∧ (t (n+1)).bk.jointVel = 0 ∧
      ((t (n+1)).bk.motorPos, (t (n+1)).bk.motorVel, (t (n+1)).bk.motorAcc) = beltMotor p (t n).bk H T f P 0 ∧
      (a' n).position = (t (n+1)).bk.motorPos * p.reduction ∧ (a' n).velocity = (t (n+1)).bk.motorVel * p.reduction ∧ (a' n).measured = E ∧
      ((t n).bk.jointPos = P → (t n).bk.jointVel = 0 → (j' n).commanded = (2 * T * (t (n+1)).bk.motorVel + ((t (n+1)).bk.motorPos - P)) / p.compl) := by
    intro n
    have hb := hbase n
    obtain ⟨m, e1, e2⟩ := h.run n
    unfold BeltT.propagateEffortBackwards at e1
    unfold BeltT.propagatePositionBackwards at e2
    have hsec : (FLit.lit (1/2) * FLit.sec ((a n).sampleTs - (t n).bk.lastTs) : ℝ) = H := by
      rw [hb.2, h.time n, hH, lit_real]
      congr 2; ring
    simp only [Option.some.injEq, Prod.mk.injEq, List.cons.injEq, and_true] at e1 e2
    obtain ⟨rfl, e1⟩ := e1
    obtain ⟨e2, e3⟩ := e2
    have hm := fun a => (simulate_motion (t n).cal (k n) a).1
    simp only [Actuator.motion, Prod.mk.injEq] at hm
    simp only [hb.1, hsec, hnrig, h.effort, h.pos, h.still, ← hT, ← hf, Bool.false_eq_true, if_false] at e1 e2 e3
    have q1 : (a' n).position = (beltMotor p (t n).bk H T f P 0).1 * p.reduction := by rw [← e3, (hm _).1]; rfl
    have q2 : (a' n).velocity = (beltMotor p (t n).bk H T f P 0).2.1 * p.reduction := by rw [← e3, (hm _).2.1]; rfl
    have q3 : (a' n).measured = f / p.reduction := by rw [← e3, (hm _).2.2]; rfl
    have q4 : ((t n).bk.jointPos = P → (t n).bk.jointVel = 0 → (j' n).commanded =
        (2 * T * (beltMotor p (t n).bk H T f P 0).2.1 + ((beltMotor p (t n).bk H T f P 0).1 - P)) / p.compl) := by
      intro z1 z2
      rw [← e1, z1, z2]
      simp
    rw [← e2]
    exact ⟨hb.1, hb.2, rfl, rfl, rfl, rfl, rfl, q1, q2, by rw [q3, hf]; field_simp, q4⟩
  have sp : ∀ n, _ := fun n => motor_spec p (t n).bk hH0.le hT0 hnc f P
  simp only [← (hrun _).2.2.2.2.2.2.1] at sp
  have c := critical_tendsto (U := P + p.compl * f) (u := fun _ => P + p.compl * f) tendsto_const_nhds (h := H) (lam := 1 / T) (by positivity)
    (x := fun n => (t (n+1)).bk.motorPos) (v := fun n => (t (n+1)).bk.motorVel) (a := fun n => (t (n+1)).bk.motorAcc)
    (fun n => (sp (n+1)).1) (fun n => (sp (n+1)).2.1) (fun n => (sp n).2.2)
  refine ⟨?_, ?_, ?_, fun n => (hrun n).2.2.2.2.2.2.2.2.2.1⟩
  · rw [← tendsto_add_atTop_iff_nat 1]
    have e1 : ∀ n, (j' (n+1)).commanded = (2 * T * (t (n+1+1)).bk.motorVel + ((t (n+1+1)).bk.motorPos - P)) / p.compl := fun n =>
      (hrun (n+1)).2.2.2.2.2.2.2.2.2.2 (hrun n).2.2.2.2.1 (hrun n).2.2.2.2.2.1
    simp only [e1]
    have e2 := (((((tendsto_add_atTop_iff_nat 1).2 c.2).const_mul (2 * T)).add (((tendsto_add_atTop_iff_nat 1).2 c.1).sub_const P)).div_const p.compl)
    have e3 : (2 * T * 0 + (P + p.compl * f - P)) / p.compl = f := by field_simp; ring
    rw [e3] at e2
    exact e2
  · simp only [(hrun _).2.2.2.2.2.2.2.1]
    exact c.1.mul_const _
  · simp only [(hrun _).2.2.2.2.2.2.2.2.1]
    simpa using c.2.mul_const p.reduction

/-- **C63.** The estimator undoes the simulated belt: fed with the simulated motor, it converges to the true position of the joint. -/
theorem C63_estimator_undoes_simulation {t : ℕ → BeltT ℝ} {a a' : ℕ → Actuator ℝ} {j j' k : ℕ → JState ℝ} {e : ℕ → SimEnv} {step : Int} {E P : ℝ}
    (h : BeltSim t a a' j j' k e step E P) (hstep : 0 < step) (htau : 0 ≤ (t 0).p.tau) (hr : (t 0).p.reduction ≠ 0) (hnr : (t 0).p.tau ≠ 0) (hnc : (t 0).p.compl ≠ 0)
    {s : ℕ → BeltT ℝ} {b : ℕ → Actuator ℝ} {i i' : ℕ → JState ℝ} {step' : Int} {ref : ℝ} (hstep' : 0 < step') (hp : (s 0).p = (t 0).p)
    (hl : 0 < (t 0).p.lamJoint) (hc : 0 < (t 0).p.lamCombo)
    (hrun : ∀ n, (s n).propagatePosition [b n] [i n] = some (s (n+1), [i' n])) (htime : ∀ n : ℕ, (b n).sampleTs = (s 0).s.lastTs + (n + 1) * step')
    (hpos : ∀ n, (b n).position = (a' n).position) (hmeas : ∀ n, (b n).measured = (a' n).measured) (href : ∀ n, (i n).reference = ref) :
    Tendsto (fun n => (i' n).position) atTop (𝓝 (P + ref)) ∧ Tendsto (fun n => (i' n).velocity) atTop (𝓝 0) := by
  obtain ⟨-, h2, -, h4⟩ := C63_simulated_belt h hstep htau hr hnr hnc
  have hb : BeltHeld s b i i' step' ((P + (t 0).p.compl * (E * (t 0).p.reduction)) * (t 0).p.reduction) E ref :=
    ⟨hrun, htime, by simpa only [hpos] using h2, by simp only [hmeas, h4]; exact tendsto_const_nhds, href⟩
  have c := C45_converges hb hstep' (by rw [hp]; exact hl) (by rw [hp]; exact htau) (by rw [hp]; exact hc.le)
  rw [hp, if_neg hc.ne'] at c
  have e1 : (P + (t 0).p.compl * (E * (t 0).p.reduction)) * (t 0).p.reduction / (t 0).p.reduction - (t 0).p.compl * (E * (t 0).p.reduction) + ref = P + ref := by
    field_simp; ring
  rw [e1] at c
  exact c

/-- Every transmission can be simulated so. -/
example (t0 : BeltT ℝ) (a0 : Actuator ℝ) (j k : JState ℝ) (e : SimEnv) (hk : k.velocity = 0) :
    ∃ t a a' j', BeltSim t a a' (fun _ => j) j' (fun _ => k) (fun _ => e) 1000000 a0.effort (k.position - k.reference) ∧ t 0 = t0 := by
  let a : ℕ → Actuator ℝ := fun n => { a0 with sampleTs := t0.bk.lastTs + (n + 1) * 1000000 }
  have step1 : ∀ (t : BeltT ℝ) n, ∃ m j' t' a', t.propagateEffortBackwards [a n] [j] = some (m, [j']) ∧ m.propagatePositionBackwards e [k] [a n] = some (t', [a']) :=
    fun t n => ⟨_, _, _, _, rfl, rfl⟩
  choose fm fj ft fa h1 h2 using step1
  let t : ℕ → BeltT ℝ := fun n => Nat.rec t0 (fun n t => ft t n) n
  exact ⟨t, a, fun n => fa (t n) n, fun n => fj (t n) n, ⟨fun n => ⟨fm (t n) n, h1 _ _, h2 _ _⟩, fun n => rfl, fun _ => rfl, fun _ => rfl, fun _ => hk⟩, rfl⟩

/-! ## Simulated time stamps -/

/-- The clock after a sequence of calls. -/
def SimClock.runs (c : SimClock) : List SimEnv → SimClock
  | [] => c
  | e :: es => (c.tick e).runs es

/-- **C64.** From a clock that starts uninitialised and with time not running backwards: simulated time stamps are zero up to and including the first
call made while ROS is up; afterwards they are the time since that call, so they never decrease. -/
theorem C64_time_stamps (c : SimClock) (hc : c.inited = false) (es : List SimEnv) (e : SimEnv) :
    (c.runs es).stamp e.now = match es.find? (·.started) with
      | none => 0
      | some e0 => e.now - e0.now := by
  induction es generalizing c with
  | nil => simp [SimClock.runs, SimClock.stamp, hc]
  | cons e' es ih =>
    simp only [SimClock.runs, List.find?_cons]
    cases hs : e'.started
    · have : c.tick e' = c := by simp [SimClock.tick, hc, hs]
      rw [this]; exact ih c hc
    · have : c.tick e' = ⟨true, e'.now⟩ := by simp [SimClock.tick, hc, hs]
      rw [this]
      have h : ∀ es, SimClock.runs ⟨true, e'.now⟩ es = ⟨true, e'.now⟩ := by
        intro es
        induction es with
        | nil => rfl
        | cons e es ih => simpa [SimClock.runs, SimClock.tick] using ih
      rw [h]; rfl

/-- **C64.** Never backwards. -/
theorem C64_never_backwards (c : SimClock) (hc : c.inited = false) (es : List SimEnv) (e e' : SimEnv)
    (hmono : (es ++ [e, e']).Pairwise (fun x y => x.now ≤ y.now)) :
    0 ≤ (c.runs es).stamp e.now ∧ (c.runs es).stamp e.now ≤ (c.runs (es ++ [e])).stamp e'.now := by
  rw [C64_time_stamps c hc, C64_time_stamps c hc, List.find?_append]
  rw [List.pairwise_append] at hmono
  obtain ⟨-, h2, h3⟩ := hmono
  have h4 : e.now ≤ e'.now := by simpa using h2
  cases hf : es.find? (·.started) with
  | none =>
    cases hs : e.started <;> simp [hs]
    omega
  | some e0 =>
    have := h3 e0 (List.mem_of_find?_eq_some hf) e (by simp)
    simp only [Option.some_or]
    exact ⟨Int.sub_nonneg_of_le this, Int.sub_le_sub_right h4 _⟩

/-- **C64, proviso.** The flag is not initialised by the constructors: if it happens to be set, time stamps can be negative. -/
theorem C64_uninitialised_counterexample : ∃ c : SimClock, c.inited = true ∧ c.stamp 1000 < 0 := ⟨⟨true, 2000⟩, rfl, by decide⟩

/-- **C64.** What a simulated transmission stamps its actuator with. -/
theorem C64_simple_stamp (t t' : SimpleT ℝ) (e : SimEnv) (js : List (JState ℝ)) (as as' : List (Actuator ℝ))
    (h : t.propagatePositionBackwards e js as = some (t', as')) :
    t'.clock = t.clock.tick e ∧ ∀ a ∈ as', a.sampleTs = t.clock.stamp e.now ∧ a.ts = FLit.sec a.sampleTs := by
  have hm := fun j a => (simulate_motion t.cal j a).2
  unfold SimpleT.propagatePositionBackwards at h
  split at h
  · cases h
    refine ⟨rfl, ?_⟩
    simp only [List.mem_singleton, forall_eq, SimpleT.backward]
    rw [(hm _ _).2.2.2.2.1, (hm _ _).2.2.2.2.2]
    exact ⟨rfl, rfl⟩
  · cases h
    refine ⟨rfl, ?_⟩
    simp only [List.mem_singleton, forall_eq, SimpleT.backward]
    rw [(hm _ _).2.2.2.2.1, (hm _ _).2.2.2.2.2]
    exact ⟨rfl, rfl⟩
  · cases h

theorem C64_wrist_stamp (t t' : WristT ℝ) (e : SimEnv) (js : List (JState ℝ)) (as as' : List (Actuator ℝ))
    (h : t.propagatePositionBackwards e js as = some (t', as')) :
    t'.clock = t.clock.tick e ∧ as'.map (·.sampleTs) = [t.clock.stamp e.now, t.clock.stamp e.now'] ∧ ∀ a ∈ as', a.ts = FLit.sec a.sampleTs := by
  have hm := fun (c : CalSim ℝ) j a => (simulate_motion c j a).2.2.2.2.2
  unfold WristT.propagatePositionBackwards at h
  split at h
  · cases h
    refine ⟨rfl, ?_, ?_⟩
    · simp only [List.map_cons, List.map_nil, (hm _ _ _).1]; rfl
    · simp only [List.mem_cons, List.not_mem_nil, or_false, forall_eq_or_imp, forall_eq, (hm _ _ _).1, (hm _ _ _).2]
      exact ⟨rfl, rfl⟩
  · cases h

theorem C64_gripper_stamp (t t' : GripperT ℝ) (e : SimEnv) (js : List (JState ℝ)) (as as' : List (Actuator ℝ))
    (h : t.propagatePositionBackwards e js as = some (t', as')) :
    t'.clock = t.clock.tick e ∧ ∀ a ∈ as', a.sampleTs = t.clock.stamp e.now ∧ a.ts = FLit.sec a.sampleTs := by
  have hm := fun (c : CalSim ℝ) j a => (simulate_motion c j a).2.2.2.2.2
  unfold GripperT.propagatePositionBackwards at h
  split at h
  · rename_i a j rest
    dsimp only at h
    by_cases hl : rest.length = (if t.hasPassive then t.passive.length + 2 else 0)
    · rw [if_pos hl] at h
      cases h
      refine ⟨rfl, ?_⟩
      simp only [List.mem_singleton, forall_eq, (hm _ _ _).1, (hm _ _ _).2]
      exact ⟨rfl, rfl⟩
    · rw [if_neg hl] at h; cases h
  · cases h

theorem C64_belt_stamp (t t' : BeltT ℝ) (e : SimEnv) (js : List (JState ℝ)) (as as' : List (Actuator ℝ))
    (h : t.propagatePositionBackwards e js as = some (t', as')) :
    t'.clock = t.clock.tick e ∧ ∀ a ∈ as', a.sampleTs = t.clock.stamp e.now ∧ a.ts = FLit.sec a.sampleTs := by
  have hm := fun (c : CalSim ℝ) j a => (simulate_motion c j a).2.2.2.2.2
  unfold BeltT.propagatePositionBackwards at h
  split at h
  · cases h
    refine ⟨rfl, ?_⟩
    simp only [List.mem_singleton, forall_eq, (hm _ _ _).1, (hm _ _ _).2]
    exact ⟨rfl, rfl⟩
  · cases h

/-! ## Concrete cases meeting the remaining hypotheses -/

/-- A belt with the parameters of the PR2's shoulder, in motion. -/
noncomputable def demoBelt : BeltT ℝ where
  p := ⟨24, 1 / 100, 1 / 10, 3, 60, 60, 20⟩
  s := { BeltS.init (1 / 1000) with damping := 5 }
  bk := BeltB.init
  clock := ⟨false, 0⟩
  cal := CalSim.fresh 0 0 0 0 false false

/-- `C46_damping_step`, `C46_no_oscillation`: a damping force of 5 decays without changing sign. -/
example (a : Actuator ℝ) (j : JState ℝ) : ∃ t' as', demoBelt.propagateEffort [j] [a] = some (t', as') ∧ |t'.s.damping| < 5 ∧ 0 ≤ t'.s.damping * 5 := by
  refine ⟨_, _, rfl, ?_⟩
  have := C46_no_oscillation demoBelt _ a j _ (by norm_num [demoBelt, BeltS.init]) (by norm_num [demoBelt]) rfl rfl
  have h5 := this.2.1 (by norm_num [demoBelt])
  exact ⟨by simpa [demoBelt] using h5, by simpa [demoBelt] using this.2.2⟩
/-- `C44_estimator`, `C44_damping`, `C44_simulation`: the parameters are admissible. -/
example : demoBelt.p.reduction ≠ 0 ∧ 0 ≤ demoBelt.p.lamJoint ∧ 0 ≤ demoBelt.p.lamCombo ∧ 0 ≤ demoBelt.p.tau ∧ 0 ≤ demoBelt.p.lamMotor ∧ 0 ≤ demoBelt.s.dt ∧ 0 ≤ demoBelt.bk.halfdt := by
  norm_num [demoBelt, BeltS.init, BeltB.init]
/-- `C47_rigid`: a rigid belt and the simple transmission with the same reduction. -/
example (c : CalSim ℝ) : (BeltT.p { demoBelt with p := { demoBelt.p with compl := 0 } }).compl = 0 ∧ (SimpleT.mk (24 : ℝ) 0 false ⟨false, 0⟩ c).reduction = demoBelt.p.reduction := ⟨rfl, rfl⟩
/-- `C64_never_backwards`, `C64_time_stamps`: the simulation starts at time 5 and is at 9 now: the stamp is 4. -/
example : let es : List SimEnv := [⟨false, 0, 0⟩, ⟨true, 5, 5⟩, ⟨true, 7, 7⟩]
    (es ++ [⟨true, 9, 9⟩, ⟨true, 11, 11⟩] : List SimEnv).Pairwise (fun x y => x.now ≤ y.now) ∧ ((SimClock.mk false 0).runs es).stamp 9 = 4 := by decide

end Pr2
