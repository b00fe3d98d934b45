import Verif.Props.FloatLoop
import Verif.Props.LoadedRecovery

/-!
# C119: in floating point arithmetic the limiter is accurate everywhere, and brings a joint back

C114 is about a limiter that computes exactly; C115, for a limiter that rounds, begins inside the limits.  Here the limiter rounds and the joint may be anywhere.
-/

namespace Pr2
open IeeeLike
set_option linter.unusedSectionVars false
set_option linter.unusedVariables false

/-! ## Specification -/

/-- `E` makes up for the rounding errors of the limiter, wherever the joint is: beyond a distance of `Px` the wanted velocity, and beyond a difference of `Pv` the effort, is the greatest one anyway. -/
structure Accurate (u η B : ℝ) (lim : JLimits ℝ) (saf : JSafety ℝ) (Px Pv E : ℝ) : Prop where
  pos : 0 ≤ Px ∧ 0 ≤ Pv
  error : saf.kVelocity * slack u η saf.kPosition Px + slack u η saf.kVelocity Pv ≤ E
  far : lim.velocity + slack u η saf.kPosition Px ≤ saf.kPosition * Px
  fast : lim.effort + slack u η saf.kVelocity Pv ≤ saf.kVelocity * Pv
  range1 : Px ≤ B
  range2 : saf.kPosition * ((1 + u) * Px + η) ≤ B
  range3 : Pv ≤ B
  range4 : saf.kVelocity * ((1 + u) * Pv + η) ≤ B

/-- The efforts that the limiter of the description allows at `p` with velocity `w`, computed exactly (C30, C31). -/
noncomputable def leastEffort (lim : JLimits ℝ) (saf : JSafety ℝ) (p w : ℝ) : ℝ := clamp lim.effort (-saf.kVelocity * (w - clamp lim.velocity (-saf.kPosition * (p - saf.softLower))))
noncomputable def greatestEffort (lim : JLimits ℝ) (saf : JSafety ℝ) (p w : ℝ) : ℝ := clamp lim.effort (-saf.kVelocity * (w - clamp lim.velocity (-saf.kPosition * (p - saf.softUpper))))

/-! ## The limiter -/

theorem hiClamp_low {c : ℝ} {z : EReal} (h0 : 0 ≤ c) (h : z ≤ ((-c : ℝ) : EReal)) : hiClamp c (some z) = ((-c : ℝ) : EReal) := by
  have h1 : ((-c : ℝ) : EReal) ≤ (c : EReal) := EReal.coe_le_coe_iff.2 (by linarith)
  unfold hiClamp
  dsimp only
  rw [min_eq_right (h.trans h1), ← EReal.coe_neg, max_eq_left h]

theorem hiClamp_high {c : ℝ} {z : EReal} (h0 : 0 ≤ c) (h : (c : EReal) ≤ z) : hiClamp c (some z) = (c : EReal) := by
  have h1 : ((-c : ℝ) : EReal) ≤ (c : EReal) := EReal.coe_le_coe_iff.2 (by linarith)
  unfold hiClamp
  dsimp only
  rw [min_eq_left h, ← EReal.coe_neg, max_eq_right h1]

theorem loClamp_low {c : ℝ} {z : EReal} (h0 : 0 ≤ c) (h : z ≤ ((-c : ℝ) : EReal)) : loClamp c (some z) = ((-c : ℝ) : EReal) := by
  have h1 : ((-c : ℝ) : EReal) ≤ (c : EReal) := EReal.coe_le_coe_iff.2 (by linarith)
  unfold loClamp
  dsimp only
  rw [← EReal.coe_neg, max_eq_left h, min_eq_right h1]

theorem loClamp_high {c : ℝ} {z : EReal} (h0 : 0 ≤ c) (h : (c : EReal) ≤ z) : loClamp c (some z) = (c : EReal) := by
  have h1 : ((-c : ℝ) : EReal) ≤ (c : EReal) := EReal.coe_le_coe_iff.2 (by linarith)
  unfold loClamp
  dsimp only
  rw [← EReal.coe_neg, max_eq_right (h1.trans h), min_eq_left h]

section
variable {F : Type} [FCmp F] [Zero F] [Add F] [Sub F] [Mul F] [iDiv : Div F] [Neg F] [FLit F] [iTrig : FTrig F] [IeeeRound F]
variable {u η B : ℝ}

theorem gain_high (hr : RoundsTo F u η B) {k a b : F} {K x y P c : ℝ} (hk : IsVal k K) (ha : IsVal a x) (hb : IsVal b y) (k0 : 0 < K) (P0 : 0 ≤ P) (h1 : P ≤ B)
    (h2 : K * ((1 + u) * P + η) ≤ B) (hc : c + slack u η K P ≤ K * P) (h : P ≤ x - y) : ∃ z : EReal, val (-k * (a - b)) = some z ∧ z ≤ ((-c : ℝ) : EReal) := by
  obtain ⟨u0, η0, hr⟩ := hr
  have hs := IeeeRound.sub a b x y ha hb
  have hn := neg_isVal hk
  obtain ⟨d0, e0, n0⟩ := hr P (by rwa [abs_of_nonneg P0])
  rw [abs_of_nonneg P0] at n0
  obtain ⟨q1, q2⟩ := abs_le.1 n0
  have m0 : (d0 : EReal) ≤ IeeeRound.rd F (x - y) := by rw [← e0]; exact IeeeRound.mono h
  have d0' : 0 ≤ d0 := by
    have : IeeeRound.rd F 0 ≤ IeeeRound.rd F P := IeeeRound.mono P0
    rw [IeeeRound.zero, e0] at this
    exact_mod_cast this
  have kd : K * d0 ≤ K * ((1 + u) * P + η) := mul_le_mul_of_nonneg_left (by linarith) k0.le
  have kd' : 0 ≤ K * d0 := mul_nonneg k0.le d0'
  obtain ⟨z0, e1, n1⟩ := hr (-K * d0) (by rw [abs_le]; constructor <;> linarith)
  have a1 : |-K * d0| = K * d0 := by rw [neg_mul, abs_neg, abs_of_nonneg kd']
  rw [a1] at n1
  have hz0 : z0 ≤ -c := by
    have h3 := (abs_le.1 n1).2
    have h4 : u * (K * d0) ≤ u * (K * ((1 + u) * P + η)) := mul_le_mul_of_nonneg_left kd u0
    have h5 : K * (P - (u * P + η)) ≤ K * d0 := mul_le_mul_of_nonneg_left (by linarith) k0.le
    have h6 : slack u η K P = K * (u * P + η) + (u * (K * ((1 + u) * P + η)) + η) := rfl
    rw [h6] at hc
    have h7 : K * (P - (u * P + η)) = K * P - K * (u * P + η) := by ring
    linarith
  have hne : -K ≠ 0 := by linarith
  have hneg : ¬(0 < -K) := by linarith
  generalize IeeeRound.rd F (x - y) = r at hs m0
  induction r using EReal.rec with
  | bot => exact absurd m0 (by simp)
  | top => exact ⟨⊥, by rw [IeeeRound.mul_top _ _ _ hn hs, if_neg hne, if_neg hneg], bot_le⟩
  | coe d =>
    refine ⟨_, IeeeRound.mul _ _ _ _ hn hs, ?_⟩
    have m1 : d0 ≤ d := by exact_mod_cast m0
    have : IeeeRound.rd F (-K * d) ≤ IeeeRound.rd F (-K * d0) := IeeeRound.mono (by
      have := mul_le_mul_of_nonneg_left m1 k0.le
      linarith)
    rw [e1] at this
    exact this.trans (EReal.coe_le_coe_iff.2 hz0)

theorem gain_low (hr : RoundsTo F u η B) {k a b : F} {K x y P c : ℝ} (hk : IsVal k K) (ha : IsVal a x) (hb : IsVal b y) (k0 : 0 < K) (P0 : 0 ≤ P) (h1 : P ≤ B)
    (h2 : K * ((1 + u) * P + η) ≤ B) (hc : c + slack u η K P ≤ K * P) (h : x - y ≤ -P) : ∃ z : EReal, val (-k * (a - b)) = some z ∧ (c : EReal) ≤ z := by
  obtain ⟨u0, η0, hr⟩ := hr
  have hs := IeeeRound.sub a b x y ha hb
  have hn := neg_isVal hk
  obtain ⟨d0, e0, n0⟩ := hr (-P) (by rwa [abs_neg, abs_of_nonneg P0])
  rw [abs_neg, abs_of_nonneg P0] at n0
  obtain ⟨q1, q2⟩ := abs_le.1 n0
  have m0 : IeeeRound.rd F (x - y) ≤ (d0 : EReal) := by rw [← e0]; exact IeeeRound.mono h
  have d0' : d0 ≤ 0 := by
    have : IeeeRound.rd F (-P) ≤ IeeeRound.rd F 0 := IeeeRound.mono (by linarith)
    rw [IeeeRound.zero, e0] at this
    exact_mod_cast this
  have kd : K * -d0 ≤ K * ((1 + u) * P + η) := mul_le_mul_of_nonneg_left (by linarith) k0.le
  have kd' : 0 ≤ K * -d0 := mul_nonneg k0.le (by linarith)
  have a1 : |-K * d0| = K * -d0 := by rw [show -K * d0 = K * -d0 by ring, abs_of_nonneg kd']
  obtain ⟨z0, e1, n1⟩ := hr (-K * d0) (by rw [a1]; linarith)
  rw [a1] at n1
  have hz0 : c ≤ z0 := by
    have h3 := (abs_le.1 n1).1
    have h4 : u * (K * -d0) ≤ u * (K * ((1 + u) * P + η)) := mul_le_mul_of_nonneg_left kd u0
    have h5 : K * (P - (u * P + η)) ≤ K * -d0 := mul_le_mul_of_nonneg_left (by linarith) k0.le
    have h6 : slack u η K P = K * (u * P + η) + (u * (K * ((1 + u) * P + η)) + η) := rfl
    rw [h6] at hc
    have h7 : K * (P - (u * P + η)) = K * P - K * (u * P + η) := by ring
    have h8 : -K * d0 = K * -d0 := by ring
    linarith
  have hne : -K ≠ 0 := by linarith
  have hneg : ¬(0 < -K) := by linarith
  generalize IeeeRound.rd F (x - y) = r at hs m0
  induction r using EReal.rec with
  | top => exact absurd m0 (by simp)
  | bot => exact ⟨⊤, by rw [IeeeRound.mul_bot _ _ _ hn hs, if_neg hne, if_neg hneg], le_top⟩
  | coe d =>
    refine ⟨_, IeeeRound.mul _ _ _ _ hn hs, ?_⟩
    have m1 : d ≤ d0 := by exact_mod_cast m0
    have : IeeeRound.rd F (-K * d0) ≤ IeeeRound.rd F (-K * d) := IeeeRound.mono (by
      have := mul_le_mul_of_nonneg_left m1 k0.le
      linarith)
    rw [e1] at this
    exact (EReal.coe_le_coe_iff.2 hz0).trans this

/-- A gain times a difference, clamped: near the exact value, however great the difference is. -/
theorem gain_clamped (hr : RoundsTo F u η B) {k a b : F} {K x y P c : ℝ} (hk : IsVal k K) (ha : IsVal a x) (hb : IsVal b y) (k0 : 0 < K) (P0 : 0 ≤ P) (h1 : P ≤ B)
    (h2 : K * ((1 + u) * P + η) ≤ B) (c0 : 0 ≤ c) (hc : c + slack u η K P ≤ K * P) :
    ∃ z r : ℝ, hiClamp c (val (-k * (a - b))) = (z : EReal) ∧ loClamp c (val (-k * (a - b))) = (r : EReal) ∧ z = r ∧ -c ≤ z ∧ z ≤ c ∧ |z - clamp c (-K * (x - y))| ≤ slack u η K P := by
  have u0 := hr.1
  have η0 := hr.2.1
  have s0 : 0 ≤ slack u η K P := by unfold slack; positivity
  rcases le_or_gt P (x - y) with h | h
  · obtain ⟨z, hz, hl⟩ := gain_high hr hk ha hb k0 P0 h1 h2 hc h
    have e : clamp c (-K * (x - y)) = -c := by
      have : K * P ≤ K * (x - y) := mul_le_mul_of_nonneg_left h k0.le
      unfold clamp
      rw [max_eq_left ((min_le_right _ _).trans (by linarith))]
    exact ⟨-c, -c, by rw [hz, hiClamp_low c0 hl], by rw [hz, loClamp_low c0 hl], rfl, le_refl _, by linarith, by rw [e, sub_self, abs_zero]; exact s0⟩
  rcases le_or_gt (x - y) (-P) with h' | h'
  · obtain ⟨z, hz, hl⟩ := gain_low hr hk ha hb k0 P0 h1 h2 hc h'
    have e : clamp c (-K * (x - y)) = c := by
      have : K * P ≤ K * -(x - y) := mul_le_mul_of_nonneg_left (by linarith) k0.le
      unfold clamp
      rw [min_eq_left (by linarith), max_eq_right (by linarith)]
    exact ⟨c, c, by rw [hz, hiClamp_high c0 hl], by rw [hz, loClamp_high c0 hl], rfl, by linarith, le_refl _, by rw [e, sub_self, abs_zero]; exact s0⟩
  · obtain ⟨z, hz, n⟩ := gain_near hr hk ha hb k0.le (abs_le.2 ⟨h'.le, h.le⟩) h1 h2
    have hz : val _ = _ := hz
    exact ⟨clamp c z, clamp c z, by rw [hz, hiClamp_real], by rw [hz, loClamp_real c0], rfl, le_max_left _ _, clamp_le c0 z, clamp_near n⟩

/-- **C119, accuracy.**  A calibrated revolute or prismatic joint.  For all finite readings, however great, the least and the greatest effort that the limiter of the code computes with rounding are finite and differ from the exact ones by
at most `E`. -/
theorem C119_accuracy (hr : RoundsTo F u η B) (big : F) {s : JState F} {lim : JLimits ℝ} {saf : JSafety ℝ} {Px Pv E : ℝ} (g : Describes s.joint lim saf) (hkp : 0 < saf.kPosition) (hkv : 0 < saf.kVelocity)
    (hp : s.posLimited) (hpr : Accurate u η B lim saf Px Pv E) {p w : ℝ} (hx : IsVal s.position p) (hw : IsVal s.velocity w) :
    ∃ a b, IsVal (s.getLimits big).1 a ∧ IsVal (s.getLimits big).2 b ∧ |a - leastEffort lim saf p w| ≤ E ∧ |b - greatestEffort lim saf p w| ≤ E := by
  obtain ⟨⟨l', s', hl, hs, he, hv, hkp', hkv', hlo, hhi⟩, e0, v0, -, -, hsoft⟩ := g
  obtain ⟨z1, r1, y1, y1', f1, -, -, n1⟩ := gain_clamped hr hkp' hx hlo hkp hpr.pos.1 hpr.range1 hpr.range2 v0 hpr.far
  obtain ⟨z2, r2, y2, y2', f2, -, -, n2⟩ := gain_clamped hr hkp' hx hhi hkp hpr.pos.1 hpr.range1 hpr.range2 v0 hpr.far
  have hc : (s.calibrated && (s.joint.type == .revolute || s.joint.type == .prismatic)) = true := by
    obtain ⟨h1, h2⟩ := hp
    rw [h1, Bool.true_and, Bool.or_eq_true, beq_iff_eq, beq_iff_eq]; exact h2
  have e1 : IsVal (s.velBounds l' s').1 z1 := by
    unfold JState.velBounds
    rw [if_pos hc]
    have := loClamp_val (b := -s'.kPosition * (s.position - s'.softLower)) hv v0
    rw [y1', ← f1] at this
    exact this
  have e2 : IsVal (s.velBounds l' s').2 z2 := by
    unfold JState.velBounds
    rw [if_pos hc]
    have := hiClamp_val (b := -s'.kPosition * (s.position - s'.softUpper)) hv v0
    rw [y2] at this
    exact this
  obtain ⟨z3, r3, y3, y3', f3, -, -, n3⟩ := gain_clamped hr hkv' hw e1 hkv hpr.pos.2 hpr.range3 hpr.range4 e0 hpr.fast
  obtain ⟨z4, r4, y4, y4', f4, -, -, n4⟩ := gain_clamped hr hkv' hw e2 hkv hpr.pos.2 hpr.range3 hpr.range4 e0 hpr.fast
  unfold JState.getLimits
  rw [hs, hl]
  dsimp only
  have l1 := loClamp_val (b := -s'.kVelocity * (s.velocity - (s.velBounds l' s').1)) he e0
  have l2 := hiClamp_val (b := -s'.kVelocity * (s.velocity - (s.velBounds l' s').2)) he e0
  rw [y3', ← f3] at l1
  rw [y4] at l2
  have fin : ∀ z y t : ℝ, |z - clamp lim.effort (-saf.kVelocity * (w - y))| ≤ slack u η saf.kVelocity Pv → |y - t| ≤ slack u η saf.kPosition Px →
      |z - clamp lim.effort (-saf.kVelocity * (w - t))| ≤ E := by
    intro z y t h1 h2
    have h3 : |clamp lim.effort (-saf.kVelocity * (w - y)) - clamp lim.effort (-saf.kVelocity * (w - t))| ≤ saf.kVelocity * slack u η saf.kPosition Px := by
      refine clamp_near ?_
      rw [show -saf.kVelocity * (w - y) - -saf.kVelocity * (w - t) = saf.kVelocity * (y - t) by ring, abs_mul, abs_of_pos hkv]
      exact mul_le_mul_of_nonneg_left h2 hkv.le
    have e : z - clamp lim.effort (-saf.kVelocity * (w - t)) =
        (z - clamp lim.effort (-saf.kVelocity * (w - y))) + (clamp lim.effort (-saf.kVelocity * (w - y)) - clamp lim.effort (-saf.kVelocity * (w - t))) := by ring
    rw [e]
    exact (abs_add_le _ _).trans (by linarith [hpr.error])
  exact ⟨_, _, l1, l2, fin _ _ _ n3 n1, fin _ _ _ n4 n2⟩

end

/-! ## All cycles, with an effort that is between the exact bounds -/

section real
attribute [local instance] exactCmp

/-- A joint that computes exactly, at these positions. -/
def ghost (lim : JLimits ℝ) (saf : JSafety ℝ) (p w f : ℝ) : JState ℝ :=
  ⟨⟨"", .revolute, some lim, some saf, none⟩, p, w, 0, ⟨0, 0, 0, 0, 0, false, false, 0⟩, f, true, 0⟩

theorem ghost_inBounds {lim : JLimits ℝ} {saf : JSafety ℝ} {p w f : ℝ} (g : Guarded (ghost lim saf p w f).joint lim saf) (h1 : leastEffort lim saf p w ≤ f) (h2 : f ≤ greatestEffort lim saf p w) :
    (ghost lim saf p w f).InBounds 0 := by
  have hp : (ghost lim saf p w f).posLimited := ⟨rfl, Or.inl rfl⟩
  unfold JState.InBounds
  rw [getLimits_eq g, (velBounds_eq g).1 hp]
  exact ⟨h1, h2⟩

theorem exact_returns {lim : JLimits ℝ} {saf : JSafety ℝ} {D N G d M ε : ℝ} (x0 v0 : ℝ) (hroom : saf.kVelocity * N + G < saf.kVelocity * lim.velocity) (hd : 0 < d) (hε : 0 < ε) (he : 0 ≤ lim.effort)
    (hvel : 0 ≤ lim.velocity) (hsoft : saf.softLower ≤ saf.softUpper) :
    ∃ K : Nat, ∀ (L : Nat) (m dt p w f X V : Nat → ℝ), (∀ n, n < L → leastEffort lim saf (p n) (w n) ≤ f n ∧ f n ≤ greatestEffort lim saf (p n) (w n)) →
      (∀ n, n < L → |p n - X n| ≤ D ∧ |w n - V n| ≤ N) → (∀ n, n < L → Withstands lim saf (m n) (dt n) D N G) → (∀ n, n < L → d ≤ dt n ∧ m n ≤ M) →
      (∀ n, n + 1 < L → Carried (m n) (dt n) G (f n) (X n) (V n) (X (n + 1)) (V (n + 1))) → X 0 = x0 → V 0 = v0 →
      ∀ n, K ≤ n → n < L → ∀ τ x v, 0 ≤ τ → τ ≤ dt n → Carried (m n) τ G (f n) (X n) (V n) x v → SafeUpTo lim saf (D + ε) N G x v ∧ |v| ≤ lim.velocity + overspeed saf N G + ε := by
  by_cases hw : ∃ m dt, Withstands lim saf m dt D N G
  swap
  · exact ⟨0, fun L m dt p w f X V _ _ hs _ _ _ _ n _ hn => absurd ⟨_, _, hs n hn⟩ hw⟩
  obtain ⟨m', dt', hw⟩ := hw
  have hE : G < lim.effort := by
    have h1 := hw.strong
    have h2 : 0 < saf.kVelocity * lim.velocity := lt_of_le_of_lt (add_nonneg (mul_nonneg hw.kv.le hw.errN) hw.load) hroom
    have h3 : 0 ≤ saf.kVelocity * N := mul_nonneg hw.kv.le hw.errN
    rw [mul_add] at h1
    linarith [hw.load]
  obtain ⟨K1, h1⟩ := carried_returns (D := D) (M := M) x0 v0 hroom hd hε
  obtain ⟨K2, h2⟩ := carried_slows (N := N) (M := M) v0 hw.kv hw.load hE hd hε
  refine ⟨max K1 K2, fun L m dt p w f X V hf hread hs hdt hm hx hv n hn hL τ x v h0 hτ hc => ?_⟩
  have hl : CarriedOn 0 lim saf N G d M L m dt (fun n => ghost lim saf (p n) (w n) (f n)) X V := by
    have g : ∀ n, Guarded (ghost lim saf (p n) (w n) (f n)).joint lim saf := fun n => ⟨rfl, rfl, he, hvel, hw.kp.le, hw.kv.le, hsoft⟩
    exact ⟨fun n _ => g n, fun n hn => ghost_inBounds (g n) (hf n hn).1 (hf n hn).2, fun n hn => (hread n hn).2, hm, fun n hn => ⟨(hs n hn).mass, (hdt n hn).2⟩, fun n hn => (hdt n hn).1,
      fun n hn => (hs n hn).slow⟩
  exact ⟨h1 _ _ _ _ _ _ _ hl (fun i hi => (hread i hi).1) (fun _ _ => ⟨rfl, Or.inl rfl⟩) hs hx hv n ((le_max_left _ _).trans hn) hL τ x v h0 hτ hc,
    h2 _ _ _ _ _ _ _ hl hv n ((le_max_right _ _).trans hn) hL τ x v h0 hτ hc⟩

end real

/-- An effort between bounds that are off by at most `E` is off by at most `E` from one between the exact bounds. -/
theorem exact_effort {lim : JLimits ℝ} {saf : JSafety ℝ} {p w a b f E : ℝ} (hkp : 0 ≤ saf.kPosition) (hkv : 0 ≤ saf.kVelocity) (hsoft : saf.softLower ≤ saf.softUpper)
    (ha : |a - leastEffort lim saf p w| ≤ E) (hb : |b - greatestEffort lim saf p w| ≤ E) (h1 : a ≤ f) (h2 : f ≤ b) :
    ∃ f', |f - f'| ≤ E ∧ leastEffort lim saf p w ≤ f' ∧ f' ≤ greatestEffort lim saf p w := by
  have hAB : leastEffort lim saf p w ≤ greatestEffort lim saf p w := by
    refine clamp_mono _ ?_
    have h1 : clamp lim.velocity (-saf.kPosition * (p - saf.softLower)) ≤ clamp lim.velocity (-saf.kPosition * (p - saf.softUpper)) := clamp_mono _ (by
      have := mul_le_mul_of_nonneg_left hsoft hkp
      linarith)
    have h2 := mul_le_mul_of_nonneg_left h1 hkv
    linarith
  generalize leastEffort lim saf p w = A at ha hAB ⊢
  generalize greatestEffort lim saf p w = Bv at hb hAB ⊢
  have ha := abs_le.1 ha
  have hb := abs_le.1 hb
  have hE : 0 ≤ E := by linarith
  refine ⟨max A (min Bv f), ?_, le_max_left _ _, max_le hAB (min_le_left _ _)⟩
  rcases le_total Bv f with h1 | h1
  · rw [min_eq_left h1, max_eq_right hAB]; exact abs_le.2 ⟨by linarith, by linarith⟩
  · rw [min_eq_right h1]
    rcases le_total A f with h2 | h2
    · rw [max_eq_right h2, sub_self, abs_zero]; exact hE
    · rw [max_eq_left h2]; exact abs_le.2 ⟨by linarith, by linarith⟩

section
variable {F : Type} [FCmp F] [Zero F] [Add F] [Sub F] [Mul F] [iDiv : Div F] [Neg F] [FLit F] [iTrig : FTrig F] [IeeeRound F]
variable {u η B : ℝ}

/-- **C119, recovery.**  As C115, but the joint may be anywhere and have any velocity at the beginning.  For every margin there is a number of cycles, independent of commands, loads and errors, after which it is at every moment inside
its soft limits, and no faster than its speed limit, up to load, errors, `E` and the margin. -/
theorem C119_comes_back (hr : RoundsTo F u η B) {lim : JLimits ℝ} {saf : JSafety ℝ} {D N G E Px Pv : ℝ} (hpr : Accurate u η B lim saf Px Pv E) (hroom : saf.kVelocity * N + (G + E) < saf.kVelocity * lim.velocity)
    {M d : ℝ} (hd : 0 < d) (x0 v0 ε : ℝ) (hε : 0 < ε) :
    ∃ K : Nat, ∀ (big : F) (σ : Nat → JState F) (p w X V f m dt : Nat → ℝ) (c : Nat → F), Describes (σ 0).joint lim saf → (σ 0).posLimited →
      (∀ n, (σ n).joint = (σ 0).joint ∧ (σ n).calibrated = (σ 0).calibrated) → (∀ n, IsVal (σ n).position (p n) ∧ IsVal (σ n).velocity (w n)) → (∀ n, |p n - X n| ≤ D ∧ |w n - V n| ≤ N) →
      (∀ n, val (c n) ≠ none) → (∀ n, IsVal (JState.enforceLimits big { σ n with commanded := c n }).commanded (f n)) → (∀ n, Withstands lim saf (m n) (dt n) D N (G + E)) → (∀ n, d ≤ dt n ∧ m n ≤ M) →
      (∀ n, Carried (m n) (dt n) G (f n) (X n) (V n) (X (n + 1)) (V (n + 1))) → X 0 = x0 → V 0 = v0 →
      ∀ n, K ≤ n → ∀ τ x v, 0 ≤ τ → τ ≤ dt n → Carried (m n) τ G (f n) (X n) (V n) x v →
      SafeUpTo lim saf (D + ε) N (G + E) x v ∧ |v| ≤ lim.velocity + overspeed saf N (G + E) + ε := by
  by_cases hg : 0 ≤ lim.effort ∧ 0 ≤ lim.velocity ∧ saf.softLower ≤ saf.softUpper
  swap
  · exact ⟨0, fun big σ p w X V f m dt c g => absurd ⟨g.effort, g.velocity, g.soft⟩ hg⟩
  obtain ⟨K, hK⟩ := exact_returns (D := D) (M := M) x0 v0 hroom hd hε hg.1 hg.2.1 hg.2.2
  refine ⟨K, fun big σ p w X V f m dt c g hp hσ hval hread hcmd hf hs hdt hm hx hv n hn τ x v h0 hτ hc => ?_⟩
  have near : ∀ n, ∃ f', |f n - f'| ≤ E ∧ leastEffort lim saf (p n) (w n) ≤ f' ∧ f' ≤ greatestEffort lim saf (p n) (w n) := by
    intro n
    have g' : Describes ({ σ n with commanded := c n } : JState F).joint lim saf := by rw [← (hσ n).1] at g; exact g
    obtain ⟨a, b, ha, hb, -, -, -, hy⟩ := C103_ordered (s := { σ n with commanded := c n }) g' big (hval n).1 (hval n).2
    obtain ⟨y, hy, y1, y2⟩ := hy (hcmd n)
    have e : y = f n := by
      have h : val _ = _ := hy; have h' : val _ = _ := hf n; rw [h] at h'; exact_mod_cast (Option.some.inj h')
    subst e
    obtain ⟨a', b', ha', hb', n1, n2⟩ := C119_accuracy (s := { σ n with commanded := c n }) hr big g' (hs n).kp (hs n).kv (by
      obtain ⟨q1, q2⟩ := hp
      exact ⟨(hσ n).2.trans q1, by change (σ n).joint.type = _ ∨ (σ n).joint.type = _; rw [(hσ n).1]; exact q2⟩) hpr (hval n).1 (hval n).2
    have ea : a' = a := by
      have h : val _ = _ := ha; have h' : val _ = _ := ha'; rw [h] at h'; exact_mod_cast (Option.some.inj h').symm
    have eb : b' = b := by
      have h : val _ = _ := hb; have h' : val _ = _ := hb'; rw [h] at h'; exact_mod_cast (Option.some.inj h').symm
    subst ea; subst eb
    exact exact_effort g.kp g.kv g.soft n1 n2 y1 y2
  choose f' hf' using near
  exact hK (n + 1) m dt p w f' X V (fun i _ => (hf' i).2) (fun i _ => hread i) (fun i _ => hs i) (fun i _ => hdt i)
    (fun i _ => (hm i).off (hs i).mass (hs i).time (hf' i).1) hx hv n hn (by omega) τ x v h0 hτ (hc.off (hs n).mass h0 (hf' n).1)

/-- **C119, the whole robot.**  The control loop computing with rounding, whatever is loaded, unloaded and switched and whatever the controllers command: the number of cycles depends on none of that. -/
theorem C119_robot (hr : RoundsTo F u η B) {lim : JLimits ℝ} {saf : JSafety ℝ} {D N G E Px Pv : ℝ} (hpr : Accurate u η B lim saf Px Pv E) (hroom : saf.kVelocity * N + (G + E) < saf.kVelocity * lim.velocity)
    {M δ : ℝ} (hδ : 0 < δ) (x0 v0 ε : ℝ) (hε : 0 < ε) :
    ∃ K : Nat, ∀ (big : F) (sim : Bool) (d : RtData F), d.Good → ∀ p : Plant F, Plant.Reach big sim d PlantIn.Tame p → ∀ (n0 : Nat) (jn : String) (uj : UJoint F),
      (∀ r ∈ p.cycles, ∃ j, r.sent.Joint jn j) → (∀ r ∈ p.cycles, ∀ j, r.sent.Joint jn j → j.joint = uj) →
      (∀ n r j, n0 ≤ n → p.cycles[n]? = some r → r.sent.Joint jn j → j.calibrated = true) → Describes uj lim saf → uj.type = .revolute ∨ uj.type = .prismatic →
      ∀ X V m dt : Nat → ℝ, (∀ n, Withstands lim saf (m n) (dt n) D N (G + E)) → (∀ n, δ ≤ dt n ∧ m n ≤ M) → p.JointMovesF n0 jn D N G X V m dt → X n0 = x0 → V n0 = v0 →
      ∀ n r j, n0 + K ≤ n → p.cycles[n]? = some r → r.sent.Joint jn j → ∀ f, IsVal j.commanded f → ∀ τ x v, 0 ≤ τ → τ ≤ dt n → Carried (m n) τ G f (X n) (V n) x v →
      SafeUpTo lim saf (D + ε) N (G + E) x v ∧ |v| ≤ lim.velocity + overspeed saf N (G + E) + ε := by
  by_cases hg : 0 ≤ lim.effort ∧ 0 ≤ lim.velocity ∧ saf.softLower ≤ saf.softUpper
  swap
  · exact ⟨0, fun big sim d hd p h n0 jn uj _ _ _ g => absurd ⟨g.effort, g.velocity, g.soft⟩ hg⟩
  obtain ⟨K, hK⟩ := exact_returns (D := D) (M := M) x0 v0 hroom hδ hε hg.1 hg.2.1 hg.2.2
  refine ⟨K, fun big sim d hd p h n0 jn uj found desc cal g hty X V m dt hs hdt hm hx hv n r j hn hrn hj f hf τ x v h0 hτ hc => ?_⟩
  have hlt := (List.getElem?_eq_some_iff.1 hrn).1
  -- what is read and sent in a cycle
  have cyc : ∀ n r j, n0 ≤ n → p.cycles[n]? = some r → r.sent.Joint jn j → ∃ q w y f', |q - X n| ≤ D ∧ |w - V n| ≤ N ∧ IsVal j.commanded y ∧ |y - f'| ≤ E ∧
      leastEffort lim saf q w ≤ f' ∧ f' ≤ greatestEffort lim saf q w := by
    intro n r j hn hrn hj
    have hmem := List.mem_of_getElem? hrn
    have e := desc r hmem j hj
    have g' : Describes j.joint lim saf := by rw [e]; exact g
    obtain ⟨q, w, hq, hw, q1, w1⟩ := hm.read n r j hn hrn hj
    have hcal := cal n r j hn hrn hj
    have hno := hm.noNan n r j hn hrn hj
    obtain ⟨s, hs', he⟩ := (h.ginv hd).ready r hmem
    obtain ⟨i, _, hji⟩ := hj
    have hjm := List.mem_of_getElem? hji
    rw [(C48_effort_only_commands _ _ hs' he).2] at hjm
    obtain ⟨j0, _, rfl⟩ := List.mem_map.1 hjm
    obtain ⟨a, b, ha, hb, -, -, -, hy⟩ := C103_ordered (s := j0) g' big hq hw
    have hne : val j0.commanded ≠ none := fun e => hno (C29_nan_passes big j0 e)
    obtain ⟨y, hyv, y1, y2⟩ := hy hne
    obtain ⟨a', b', ha', hb', n1, n2⟩ := C119_accuracy (s := j0) hr big g' (hs n).kp (hs n).kv
      ⟨hcal, by change (JState.enforceLimits big j0).joint.type = _ ∨ (JState.enforceLimits big j0).joint.type = _; rw [e]; exact hty⟩ hpr hq hw
    have ea : a' = a := by
      have h : val _ = _ := ha; have h' : val _ = _ := ha'; rw [h] at h'; exact_mod_cast (Option.some.inj h').symm
    have eb : b' = b := by
      have h : val _ = _ := hb; have h' : val _ = _ := hb'; rw [h] at h'; exact_mod_cast (Option.some.inj h').symm
    subst ea; subst eb
    obtain ⟨f', h1, h2, h3⟩ := exact_effort g.kp g.kv g.soft n1 n2 y1 y2
    exact ⟨q, w, y, f', q1, w1, hyv, h1, h2, h3⟩
  have pick : ∀ i, ∃ q w y f', n0 + i < p.cycles.length → ∃ r j, p.cycles[n0 + i]? = some r ∧ r.sent.Joint jn j ∧ |q - X (n0 + i)| ≤ D ∧ |w - V (n0 + i)| ≤ N ∧ IsVal j.commanded y ∧ |y - f'| ≤ E ∧
      leastEffort lim saf q w ≤ f' ∧ f' ≤ greatestEffort lim saf q w := by
    intro i
    by_cases hi : n0 + i < p.cycles.length
    · have hr' := List.getElem?_eq_getElem hi
      obtain ⟨j, hj⟩ := found _ (List.getElem_mem hi)
      obtain ⟨q, w, y, f', h⟩ := cyc _ _ j (by omega) hr' hj
      exact ⟨q, w, y, f', fun _ => ⟨_, j, hr', hj, h⟩⟩
    · exact ⟨0, 0, 0, 0, fun h => absurd h hi⟩
  choose q w y f' hpick using pick
  obtain ⟨i, rfl⟩ : ∃ i, n = n0 + i := ⟨n - n0, by omega⟩
  refine hK (i + 1) (fun i => m (n0 + i)) (fun i => dt (n0 + i)) q w f' (fun i => X (n0 + i)) (fun i => V (n0 + i)) (fun k hk => ?_) (fun k hk => ?_) (fun _ _ => hs _) (fun _ _ => hdt _)
    (fun k hk => ?_) hx hv i (by omega) (by omega) τ x v h0 hτ ?_
  · obtain ⟨_, _, _, _, _, _, _, _, h7, h8⟩ := hpick k (by omega)
    exact ⟨h7, h8⟩
  · obtain ⟨_, _, _, _, h3, h4, _⟩ := hpick k (by omega)
    exact ⟨h3, h4⟩
  · obtain ⟨r1, j1, e1, e2, _, _, e5, e6, _⟩ := hpick k (by omega)
    exact (hm.move _ r1 j1 _ (by omega) e1 (by omega) e2 e5).off (hs _).mass (hs _).time e6
  · obtain ⟨r1, j1, e1, e2, _, _, e5, e6, _⟩ := hpick i hlt
    rw [hrn] at e1
    cases e1
    cases hj.unique e2
    have ey : f = y i := by
      have h : val _ = _ := hf; have h' : val _ = _ := e5; rw [h] at h'; exact_mod_cast (Option.some.inj h')
    subst ey
    exact hc.off (hs _).mass h0 e6

end

/-! ## Examples -/

section
noncomputable local instance : Zero Full := ⟨⟨some 0⟩⟩
local instance : Add Full := ⟨fun a _ => a⟩
noncomputable local instance : FLit Full := ⟨fun _ => 0, fun _ => 0⟩
noncomputable local instance : FTrig Full := ⟨0, id, id, id, id, id, id⟩

/-- The joint of C115's example, in double precision, against the same load and errors, but from far outside and moving away. -/
noncomputable def farF (st : JStats Full) : Nat → ℝ × ℝ
  | 0 => (5, 7)
  | n + 1 =>
    let q := farF st n
    (posAfter (1/20) (1/100) (sentF st q.1 q.2 + 2) q.1 q.2, velAfter (1/20) (1/100) (sentF st q.1 q.2 + 2) q.2)

theorem light_precise : Accurate (1 / 2 ^ 53) (1 / 2 ^ 1075) (2 ^ 100) ⟨0, 2, 30, 3⟩ ⟨1/10, 19/10, 20, 4⟩ 1 8 (1/1000) := by
  obtain ⟨u0, η0, -⟩ := C115_double
  have u1 : (1 : ℝ) / 2 ^ 53 ≤ 1 / 10000000 := by norm_num
  have η1 := double_eta.2
  have B1 : (1000 : ℝ) ≤ 2 ^ 100 := by norm_num
  generalize (1 : ℝ) / 2 ^ 53 = u at u0 u1 ⊢
  generalize (1 : ℝ) / 2 ^ 1075 = η at η0 η1 ⊢
  generalize (2 : ℝ) ^ 100 = B at B1 ⊢
  have h1 : u * u ≤ u := by nlinarith
  have h2 : u * η ≤ η := by nlinarith
  have h3 : 0 ≤ u * η := mul_nonneg u0 η0
  refine ⟨by norm_num, ?_, ?_, ?_, ?_, ?_, ?_, ?_⟩ <;> (try simp only [slack]) <;> norm_num <;> nlinarith

/-- C119: in double precision, too, it comes back. -/
example (st : JStats Full) : ∃ K, ∀ n, K ≤ n → (farF st n).1 ≤ 1951/1000 ∧ |(farF st n).2| ≤ 3611/1000 := by
  have hov : overshoot (⟨1/10, 19/10, 20, 4⟩ : JSafety ℝ) (1/100 + 1/100) (1/10) (2 + 1/1000) = 500125/10000000 := by norm_num [overshoot, overspeed]
  have hsp : overspeed (⟨1/10, 19/10, 20, 4⟩ : JSafety ℝ) (1/10) (2 + 1/1000) = 60025/100000 := by norm_num [overspeed]
  obtain ⟨K, hK⟩ := C119_comes_back C115_double (D := 1/100) (N := 1/10) (G := 2) light_precise (by norm_num) (M := 1/20) (d := 1/100) (by norm_num) 5 7 (1/100) (by norm_num)
  refine ⟨K, fun n hn => ?_⟩
  obtain ⟨h, h'⟩ := hK ⟨some ⊤⟩ (fun n => readF st (farF st n).1 (farF st n).2) (fun n => (farF st n).1 - 1/100) (fun n => (farF st n).2 - 1/10) (fun n => (farF st n).1) (fun n => (farF st n).2)
    (fun n => sentF st (farF st n).1 (farF st n).2) (fun _ => 1/20) (fun _ => 1/100) (fun _ => ⟨some (30 : ℝ)⟩) lightF_described ⟨rfl, Or.inl rfl⟩ (fun _ => ⟨rfl, rfl⟩) (fun _ => ⟨rfl, rfl⟩)
    (fun n => ⟨by simp only [sub_sub_cancel_left, abs_neg]; norm_num [abs_le], by simp only [sub_sub_cancel_left, abs_neg]; norm_num [abs_le]⟩) (fun _ h => by cases h)
    (fun n => sentF_val st _ _) (fun _ => light_withstandsF) (fun _ => by norm_num) (fun n => carried_constF (by norm_num) (by norm_num) (by norm_num)) rfl rfl n hn 0 (farF st n).1 (farF st n).2 (le_refl _)
    (by norm_num) ⟨by norm_num [posAfter], by norm_num [velAfter]⟩
  have h := h.upper
  rw [hov] at h
  rw [hsp] at h'
  change (farF st n).1 ≤ 19/10 + 500125/10000000 at h
  change |(farF st n).2| ≤ 3 + 60025/100000 + 1/100 at h'
  exact ⟨by linarith, by linarith⟩

end

section
attribute [local instance] exactCmp demoTrig demoLit decimalParse ratRound

/-- C119_robot: the laser's tilt joint of the shipped description (rational arithmetic is correctly rounded). -/
example : ∃ K, ∀ (n : Nat) (r : CycleRec ℚ) (j : JState ℚ), K ≤ n → pr2Run.cycles[n]? = some r → r.sent.Joint "laser_tilt_mount_joint" j → ∀ τ x v : ℝ, 0 ≤ τ → τ ≤ 1/1000 →
    Carried (((pr2Inertia * (-605/100) ^ 2 : ℚ)) : ℝ) τ (605/10000) (j.commanded : ℝ) ((pr2Q n / (-605/100) + 1/500 : ℚ) : ℝ) ((pr2W n / (-605/100) : ℚ) : ℝ) x v → x ≤ 143353/100000 + 3/100 := by
  have hrow : Row.simple "laser_tilt_mount_trans" "laser_tilt_mount_motor" "laser_tilt_mount_joint" "-6.05" ∈ pr2Rows := by
    refine List.mem_of_getElem? (i := 15) rfl
  have hg : ("laser_tilt_mount_joint", (⟨-3927 / 5000, 148353 / 100000, 13 / 20, 10⟩ : JLimits ℚ), (⟨-3677 / 5000, 143353 / 100000, 100, 1 / 20⟩ : JSafety ℚ)) ∈ pr2Guards :=
    List.mem_of_getElem? (i := 1) rfl
  obtain ⟨u, hju, hgu, hty⟩ := guards_joint (fun q => by simp [FLit.lit]) (pr2_read _ pr2_names.2) hg
  obtain ⟨idx, ht, hde⟩ := complete_described (new := pr2New) decimals_read (pr2_read _ pr2_names.2) pr2_motors hrow
  have hnd : ((pr2Trans pr2New).flatMap (·.actNames)).Nodup := by rw [(complete_ts _).2]; decide +kernel
  have jc := pr2Carried.atJoint pr2_loaded.1 hnd pr2_later pr2Reach ht hde (firstChild _ _ _ rfl) (saysOf _ _ _ rfl) (firstChild _ _ _ rfl) (saysOf _ _ _ rfl)
    (Or.inr ⟨(first_none _ _).1 rfl, firstChild _ _ _ rfl⟩) rfl (k := -605/100) (by decide +kernel) (by norm_num) pr2Calibrated (ρ0 := 1/500) (R := 1/500) (by norm_num [abs_le]) (fun _ => by norm_num [pr2Inertia])
  have cyc := fun r (hr : r ∈ pr2Run.cycles) => C98_simple_cycle pr2_loaded.1 hnd pr2_later pr2Reach hr ht hde (firstChild _ _ _ rfl) (saysOf _ _ _ rfl) (firstChild _ _ _ rfl) (saysOf _ _ _ rfl)
    (Or.inr ⟨(first_none _ _).1 rfl, firstChild _ _ _ rfl⟩) rfl
  have gF : Describes u ⟨-3927 / 5000, 148353 / 100000, 13 / 20, 10⟩ ⟨-3677 / 5000, 143353 / 100000, 100, 1 / 20⟩ :=
    ⟨⟨_, _, hgu.hlim, hgu.hsaf, by rw [ratVal]; norm_num [JLimits.cast], by rw [ratVal]; norm_num [JLimits.cast], by rw [ratVal]; norm_num [JSafety.cast], by rw [ratVal]; norm_num [JSafety.cast],
      by rw [ratVal]; norm_num [JSafety.cast], by rw [ratVal]; norm_num [JSafety.cast]⟩, by norm_num, by norm_num, by norm_num, by norm_num, by norm_num⟩
  have jcF := carried_jointF jc
  have hov : overshoot (⟨-3677 / 5000, 143353 / 100000, 100, 1 / 20⟩ : JSafety ℝ) (((1 / 50 / |(-605/100 : ℚ)| + 1/500 : ℚ) : ℝ) + 1/1000) ((0 / |(-605/100 : ℚ)| : ℚ) : ℝ) (((1 / 100 * |(-605/100 : ℚ)| : ℚ) : ℝ) + 1/1000) ≤ 3/100 := by
    norm_num [overshoot, overspeed, abs_of_pos, abs_of_neg]
  have e1 : pr2Q 0 = -799/100 := by decide +kernel
  have e2 : pr2W 0 = -10 := by decide +kernel
  obtain ⟨K, hK⟩ := C119_robot (ratRounds 1000000) (lim := ⟨-3927 / 5000, 148353 / 100000, 13 / 20, 10⟩) (saf := ⟨-3677 / 5000, 143353 / 100000, 100, 1 / 20⟩) (E := 1/1000) (Px := 1) (Pv := 1000)
    (D := ((1 / 50 / |(-605/100 : ℚ)| + 1/500 : ℚ) : ℝ)) (N := ((0 / |(-605/100 : ℚ)| : ℚ) : ℝ)) (G := ((1 / 100 * |(-605/100 : ℚ)| : ℚ) : ℝ))
    (by refine ⟨?_, ?_, ?_, ?_, ?_, ?_, ?_, ?_⟩ <;> norm_num [slack]) (by norm_num [abs_of_pos, abs_of_neg]) (M := 1) (δ := 1/1000) (by norm_num)
    ((pr2Q 0 / (-605/100) + 1/500 : ℚ) : ℝ) ((pr2W 0 / (-605/100) : ℚ) : ℝ) (1/1000) (by norm_num)
  refine ⟨K, fun n r j hn hr hj τ x v h0 h1 hx => ?_⟩
  have := (hK _ _ _ pr2Good _ (pr2Reach.mono fun i hi => hi.tame) 0 "laser_tilt_mount_joint" u
    (fun r hr => by obtain ⟨_, _, _, j', _, _, _, e, _⟩ := cyc r hr; exact ⟨j', e⟩)
    (fun r hr j hj => by
      obtain ⟨_, _, _, j', _, _, _, e, e2, _⟩ := cyc r hr
      cases hj.unique e
      rw [hju] at e2; exact (Option.some.inj e2).symm)
    (fun n r j hn hr hj => (pr2Calibrated n r hn hr).2 j hj) gF (Or.inl hty) _ _ _ _
    (fun n => by refine ⟨?_, ?_, ?_, ?_, ?_, ?_, ?_, ?_, ?_, ?_, ?_⟩ <;> norm_num [pr2Inertia, abs_of_pos, abs_of_neg]) (fun n => by norm_num [pr2Inertia]) jcF rfl rfl
    n r j (by omega) hr hj j.commanded rfl τ x v h0 (by push_cast; exact h1)
    (by rw [show ((1 / 100 * |(-605/100 : ℚ)| : ℚ) : ℝ) = 605/10000 by norm_num [abs_of_pos, abs_of_neg]]; exact hx)).1.upper
  change x ≤ 143353/100000 + overshoot _ _ _ _ at this
  linarith

end
end Pr2
