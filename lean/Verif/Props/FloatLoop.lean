import Verif.Props.LoadedLoop
import Verif.Props.SoftFloat

/-!
# C115: the safety limits hold in floating point arithmetic

C93 and C113 are about a limiter that computes exactly.  Here the limiter is the one of the code, with rounding; the joint moves in real numbers, under load, and is read with errors.
-/

namespace Pr2
open IeeeLike
set_option linter.unusedSectionVars false
set_option linter.unusedVariables false

/-! ## Specification -/

/-- Rounding changes real numbers of size up to `B` by at most `u` times their size plus `η`. -/
def RoundsTo (F : Type) [FCmp F] [Neg F] [Sub F] [Mul F] [Div F] [IeeeRound F] (u η B : ℝ) : Prop :=
  0 ≤ u ∧ 0 ≤ η ∧ ∀ x : ℝ, |x| ≤ B → ∃ y : ℝ, IeeeRound.rd F x = y ∧ |y - x| ≤ u * |x| + η

/-- The error of a gain times a difference of size up to `P`. -/
def slack (u η K P : ℝ) : ℝ := K * (u * P + η) + (u * (K * ((1 + u) * P + η)) + η)

/-- `E` makes up for the rounding errors of the limiter, as long as the joint is safe up to load, errors and `E` itself; and nothing overflows. -/
structure MakesUp (u η B : ℝ) (lim : JLimits ℝ) (saf : JSafety ℝ) (D N G E : ℝ) : Prop where
  error : saf.kVelocity * slack u η saf.kPosition (saf.softUpper - saf.softLower + overshoot saf D N (G + E) + D) +
    slack u η saf.kVelocity (3 * lim.velocity + 2 * overspeed saf N (G + E) + N) ≤ E
  range1 : saf.softUpper - saf.softLower + overshoot saf D N (G + E) + D ≤ B
  range2 : saf.kPosition * ((1 + u) * (saf.softUpper - saf.softLower + overshoot saf D N (G + E) + D) + η) ≤ B
  range3 : 3 * lim.velocity + 2 * overspeed saf N (G + E) + N ≤ B
  range4 : saf.kVelocity * ((1 + u) * (3 * lim.velocity + 2 * overspeed saf N (G + E) + N) + η) ≤ B

/-! ## The limiter -/

theorem clamp_near {a x y d : ℝ} (h : |x - y| ≤ d) : |clamp a x - clamp a y| ≤ d := by
  obtain ⟨h1, h2⟩ := abs_le.1 h
  unfold clamp
  refine abs_le.2 ⟨?_, ?_⟩
  · have : max (-a) (min a y) ≤ max (-a) (min a x) + d := by
      have d0 : 0 ≤ d := (abs_nonneg _).trans h
      refine max_le (by linarith [le_max_left (-a) (min a x)]) ?_
      have h3 : min a y ≤ min a x + d := by
        rcases min_choice a x with e | e <;> rw [e]
        · linarith [min_le_left a y]
        · linarith [min_le_right a y]
      linarith [le_max_right (-a) (min a x)]
    linarith
  · have : max (-a) (min a x) ≤ max (-a) (min a y) + d := by
      have d0 : 0 ≤ d := (abs_nonneg _).trans h
      refine max_le (by linarith [le_max_left (-a) (min a y)]) ?_
      have h3 : min a x ≤ min a y + d := by
        rcases min_choice a y with e | e <;> rw [e]
        · linarith [min_le_left a x]
        · linarith [min_le_right a x]
      linarith [le_max_right (-a) (min a y)]
    linarith

section
variable {F : Type} [FCmp F] [Zero F] [Add F] [Sub F] [Mul F] [iDiv : Div F] [Neg F] [FLit F] [iTrig : FTrig F] [IeeeRound F]
variable {u η B : ℝ}

theorem gain_near (hr : RoundsTo F u η B) {k a b : F} {K x y P : ℝ} (hk : IsVal k K) (ha : IsVal a x) (hb : IsVal b y) (k0 : 0 ≤ K) (hP : |x - y| ≤ P) (h1 : P ≤ B)
    (h2 : K * ((1 + u) * P + η) ≤ B) : ∃ z : ℝ, IsVal (-k * (a - b)) z ∧ |z - -K * (x - y)| ≤ slack u η K P := by
  obtain ⟨u0, η0, hr⟩ := hr
  obtain ⟨d, hd, d1⟩ := hr (x - y) (hP.trans h1)
  have hs := IeeeRound.sub a b x y ha hb
  rw [hd] at hs
  have d2 : |d - (x - y)| ≤ u * P + η := d1.trans (by have := mul_le_mul_of_nonneg_left hP u0; linarith)
  have d3 : |d| ≤ (1 + u) * P + η := by
    have : |d| ≤ |d - (x - y)| + |x - y| := by simpa using abs_add_le (d - (x - y)) (x - y)
    linarith
  have m1 : |-K * d| ≤ K * ((1 + u) * P + η) := by
    rw [abs_mul, abs_neg, abs_of_nonneg k0]; exact mul_le_mul_of_nonneg_left d3 k0
  obtain ⟨z, hz, z1⟩ := hr (-K * d) (m1.trans h2)
  have hm := IeeeRound.mul (-k) (a - b) (-K) d (neg_isVal hk) hs
  rw [hz] at hm
  refine ⟨z, hm, ?_⟩
  have e : z - -K * (x - y) = (z - -K * d) + -K * (d - (x - y)) := by ring
  have m2 : |-K * (d - (x - y))| ≤ K * (u * P + η) := by
    rw [abs_mul, abs_neg, abs_of_nonneg k0]; exact mul_le_mul_of_nonneg_left d2 k0
  rw [e]
  refine (abs_add_le _ _).trans ?_
  unfold slack
  have := mul_le_mul_of_nonneg_left m1 u0
  linarith

theorem hiClamp_real {l z : ℝ} : hiClamp l (some (z : EReal)) = ((clamp l z : ℝ) : EReal) := by
  unfold hiClamp clamp
  push_cast; rfl

theorem loClamp_real {l z : ℝ} (h : 0 ≤ l) : loClamp l (some (z : EReal)) = ((clamp l z : ℝ) : EReal) := by
  have e : clamp l z = min l (max (-l) z) := by
    unfold clamp
    rcases le_total l z with h1 | h1
    · rw [min_eq_left h1, max_eq_right (by linarith : -l ≤ l), max_eq_right (by linarith : -l ≤ z), min_eq_left h1]
    · rw [min_eq_right h1, min_eq_right (max_le (by linarith) h1)]
  rw [e]
  unfold loClamp
  push_cast; rfl

/-- The bounds that the limiter computes are near the exact ones. -/
theorem limits_near (hr : RoundsTo F u η B) {s : JState F} {e v kp kv lo hi x w : ℝ} (g : GuardedF s.joint e v kp kv lo hi) (hp : s.posLimited) (big : F) (hx : IsVal s.position x)
    (hw : IsVal s.velocity w) {Px Pv : ℝ} (p1 : |x - lo| ≤ Px) (p2 : |x - hi| ≤ Px) (p3 : |w| + v ≤ Pv) (r1 : Px ≤ B) (r2 : kp * ((1 + u) * Px + η) ≤ B) (r3 : Pv ≤ B)
    (r4 : kv * ((1 + u) * Pv + η) ≤ B) :
    ∃ a b, IsVal (s.getLimits big).1 a ∧ IsVal (s.getLimits big).2 b ∧
      |a - clamp e (-kv * (w - clamp v (-kp * (x - lo))))| ≤ kv * slack u η kp Px + slack u η kv Pv ∧ |b - clamp e (-kv * (w - clamp v (-kp * (x - hi))))| ≤ kv * slack u η kp Px + slack u η kv Pv := by
  obtain ⟨⟨lim, saf, hl, hs, he, hv, hkp, hkv, hlo, hhi⟩, e0, v0, kp0, kv0, hsoft⟩ := g
  obtain ⟨z1, hz1, n1⟩ := gain_near hr hkp hx hlo kp0 p1 r1 r2
  obtain ⟨z2, hz2, n2⟩ := gain_near hr hkp hx hhi kp0 p2 r1 r2
  have hc : (s.calibrated && (s.joint.type == .revolute || s.joint.type == .prismatic)) = true := by
    obtain ⟨h1, h2⟩ := hp
    rw [h1, Bool.true_and, Bool.or_eq_true, beq_iff_eq, beq_iff_eq]; exact h2
  have e1 : IsVal (s.velBounds lim saf).1 (clamp v z1) := by
    unfold JState.velBounds
    rw [if_pos hc]
    have := loClamp_val (b := -saf.kPosition * (s.position - saf.softLower)) hv v0
    rw [show val (-saf.kPosition * (s.position - saf.softLower)) = some (z1 : EReal) from hz1, loClamp_real v0] at this
    exact this
  have e2 : IsVal (s.velBounds lim saf).2 (clamp v z2) := by
    unfold JState.velBounds
    rw [if_pos hc]
    have := hiClamp_val (b := -saf.kPosition * (s.position - saf.softUpper)) hv v0
    rw [show val (-saf.kPosition * (s.position - saf.softUpper)) = some (z2 : EReal) from hz2, hiClamp_real] at this
    exact this
  have q : ∀ z, |w - clamp v z| ≤ Pv := by
    intro z
    refine (abs_sub _ _).trans ?_
    have : |clamp v z| ≤ v := abs_le.2 ⟨le_max_left _ _, clamp_le v0 z⟩
    linarith
  obtain ⟨y1, hy1, m1⟩ := gain_near hr hkv hw e1 kv0 (q z1) r3 r4
  obtain ⟨y2, hy2, m2⟩ := gain_near hr hkv hw e2 kv0 (q z2) r3 r4
  unfold JState.getLimits
  rw [hs, hl]
  dsimp only
  have l1 := loClamp_val (b := -saf.kVelocity * (s.velocity - (s.velBounds lim saf).1)) he e0
  have l2 := hiClamp_val (b := -saf.kVelocity * (s.velocity - (s.velBounds lim saf).2)) he e0
  rw [show val (-saf.kVelocity * (s.velocity - (s.velBounds lim saf).1)) = some (y1 : EReal) from hy1, loClamp_real e0] at l1
  rw [show val (-saf.kVelocity * (s.velocity - (s.velBounds lim saf).2)) = some (y2 : EReal) from hy2, hiClamp_real] at l2
  have fin : ∀ y z t : ℝ, |y - -kv * (w - clamp v z)| ≤ slack u η kv Pv → |z - t| ≤ slack u η kp Px →
      |clamp e y - clamp e (-kv * (w - clamp v t))| ≤ kv * slack u η kp Px + slack u η kv Pv := by
    intro y z t h1 h2
    refine clamp_near ?_
    have h3 : |kv * (clamp v z - clamp v t)| ≤ kv * slack u η kp Px := by
      rw [abs_mul, abs_of_nonneg kv0]; exact mul_le_mul_of_nonneg_left (clamp_near h2) kv0
    have e : y - -kv * (w - clamp v t) = (y - -kv * (w - clamp v z)) + kv * (clamp v z - clamp v t) := by ring
    rw [e]
    refine (abs_add_le _ _).trans ?_
    linarith
  exact ⟨_, _, l1, l2, fin _ _ _ m1 n1, fin _ _ _ m2 n2⟩

/-! ## One cycle -/

/-- An effort that is off by at most `E` is a load of at most `E`. -/
theorem Carried.off {m τ G E f f' x v x' v' : ℝ} (hm : 0 < m) (hτ : 0 ≤ τ) (h : Carried m τ G f x v x' v') (he : |f - f'| ≤ E) : Carried m τ (G + E) f' x v x' v' := by
  have h1 : |(f - f') / m| ≤ E / m := by rw [abs_div, abs_of_pos hm]; exact div_le_div_of_nonneg_right he hm.le
  constructor
  · have e : x' - posAfter m τ f' x v = (x' - posAfter m τ f x v) + (f - f') / m * (τ ^ 2 / 2) := by unfold posAfter; ring
    rw [e]
    refine (abs_add_le _ _).trans ?_
    have h2 : |(f - f') / m * (τ ^ 2 / 2)| ≤ E / m * (τ ^ 2 / 2) := by
      rw [abs_mul, abs_of_nonneg (by positivity : 0 ≤ τ ^ 2 / 2)]
      exact mul_le_mul_of_nonneg_right h1 (by positivity)
    have := h.pos
    have e2 : (G + E) / m * τ ^ 2 / 2 = G / m * τ ^ 2 / 2 + E / m * (τ ^ 2 / 2) := by ring
    linarith
  · have e : v' - velAfter m τ f' v = (v' - velAfter m τ f v) + (f - f') / m * τ := by unfold velAfter; ring
    rw [e]
    refine (abs_add_le _ _).trans ?_
    have h2 : |(f - f') / m * τ| ≤ E / m * τ := by
      rw [abs_mul, abs_of_nonneg hτ]
      exact mul_le_mul_of_nonneg_right h1 hτ
    have := h.vel
    have e2 : (G + E) / m * τ = G / m * τ + E / m * τ := by ring
    linarith

/-- A joint whose parameters in the description are these real numbers. -/
def Describes (j : UJoint F) (lim : JLimits ℝ) (saf : JSafety ℝ) : Prop := GuardedF j lim.effort lim.velocity saf.kPosition saf.kVelocity saf.softLower saf.softUpper

/-- `loaded_step` with the inequalities of the limiter instead of a joint state. -/
theorem loaded_step_raw {lim : JLimits ℝ} {saf : JSafety ℝ} {m dt τ D N G x v x' v' p w f : ℝ} (he : 0 ≤ lim.effort) (hvel : 0 ≤ lim.velocity)
    (hs : Withstands lim saf m dt D N G) (b1 : clamp lim.effort (-saf.kVelocity * (w - clamp lim.velocity (-saf.kPosition * (p - saf.softLower)))) ≤ f)
    (b2 : f ≤ clamp lim.effort (-saf.kVelocity * (w - clamp lim.velocity (-saf.kPosition * (p - saf.softUpper))))) (hx : |p - x| ≤ D) (hv : |w - v| ≤ N) (h : SafeUpTo lim saf D N G x v)
    (h0 : 0 ≤ τ) (hτ : τ ≤ dt) (hc : Carried m τ G f x v x' v') : SafeUpTo lim saf D N G x' v' := by
  obtain ⟨f1, f2⟩ := abs_le.1 h.fast
  obtain ⟨x1, x2⟩ := abs_le.1 hx
  obtain ⟨v1, v2⟩ := abs_le.1 hv
  obtain ⟨c1, c2, c3, c4⟩ := hc.bounds
  have hup := h.up
  have hdn := h.down
  have hlo := h.lower
  have hhi := h.upper
  unfold SafeUpTo
  simp only [JLimits.faster, JSafety.wider, overshoot, overspeed] at f1 f2 hup hdn hlo hhi ⊢
  obtain ⟨u1, u2, u3⟩ := loaded_upper hs.kp hs.kv hvel hs.mass h0 hτ hs.damped hs.slow hs.errN hs.load hs.room hs.strong hhi hup f2 (by linarith : x - D ≤ p)
    (by linarith : v - N ≤ w) b2 c2 c4
  have b1' : -f ≤ clamp lim.effort (-saf.kVelocity * (-w - clamp lim.velocity (-saf.kPosition * (-p - -saf.softLower)))) := by
    have e : -saf.kVelocity * (-w - clamp lim.velocity (-saf.kPosition * (-p - -saf.softLower))) =
        -(-saf.kVelocity * (w - clamp lim.velocity (-saf.kPosition * (p - saf.softLower)))) := by
      rw [show -saf.kPosition * (-p - -saf.softLower) = -(-saf.kPosition * (p - saf.softLower)) by ring, clamp_neg _ _ hvel]
      ring
    rw [e, clamp_neg _ _ he]
    linarith
  have eg : -f + G = -(f - G) := by ring
  obtain ⟨l1, l2, l3⟩ := loaded_upper (su := -saf.softLower) (D := D) (x := -x) (v := -v) (xr := -p) (vr := -w) (x' := -x') (v' := -v') hs.kp hs.kv hvel hs.mass h0 hτ
    hs.damped hs.slow hs.errN hs.load hs.room hs.strong (by linarith)
    (by rw [show ∀ a b c : ℝ, -a + b - -c = c - (a - b) from fun a b c => by ring]; exact hdn) (by linarith) (by linarith) (by linarith) b1'
    (by rw [eg, posAfter_neg]; linarith) (by rw [eg, velAfter_neg]; linarith)
  rw [show ∀ a b c : ℝ, -a + b - -c = c - (a - b) from fun a b c => by ring] at l2
  exact ⟨by linarith, u1, u2, l2, abs_le.2 ⟨by linarith, u3⟩⟩

/-- One cycle: `f` is between the bounds that the limiter computes. -/
theorem float_step (hr : RoundsTo F u η B) {big : F} {s : JState F} {lim : JLimits ℝ} {saf : JSafety ℝ} {m dt τ D N G E x v x' v' p w f a b : ℝ} (g : Describes s.joint lim saf) (hp : s.posLimited)
    (hpv : IsVal s.position p) (hwv : IsVal s.velocity w) (hx : |p - x| ≤ D) (hv : |w - v| ≤ N) (hmu : MakesUp u η B lim saf D N G E) (hs : Withstands lim saf m dt D N (G + E))
    (ha : IsVal (s.getLimits big).1 a) (hb : IsVal (s.getLimits big).2 b) (hf1 : a ≤ f) (hf2 : f ≤ b)
    (h : SafeUpTo lim saf D N (G + E) x v) (h0 : 0 ≤ τ) (hτ : τ ≤ dt) (hc : Carried m τ G f x v x' v') : SafeUpTo lim saf D N (G + E) x' v' := by
  obtain ⟨x1, x2⟩ := abs_le.1 hx
  obtain ⟨v1, v2⟩ := abs_le.1 hv
  obtain ⟨f1, f2⟩ := abs_le.1 h.fast
  have hlo := h.lower
  have hhi := h.upper
  have hD := hs.errD
  simp only [JLimits.faster, JSafety.wider] at f1 f2 hlo hhi
  have hov : 0 ≤ overshoot saf D N (G + E) := by
    unfold overshoot overspeed
    exact add_nonneg hs.errD (div_nonneg (add_nonneg hs.errN (div_nonneg hs.load hs.kv.le)) hs.kp.le)
  have hsoft := g.soft
  obtain ⟨a', b', ha', hb', n1, n2⟩ := limits_near hr g hp big hpv hwv (Px := saf.softUpper - saf.softLower + overshoot saf D N (G + E) + D)
    (Pv := 3 * lim.velocity + 2 * overspeed saf N (G + E) + N) (abs_le.2 ⟨by linarith, by linarith⟩) (abs_le.2 ⟨by linarith, by linarith⟩)
    (by have : |w| ≤ 2 * (lim.velocity + overspeed saf N (G + E)) + N := abs_le.2 ⟨by linarith, by linarith⟩
        linarith) hmu.range1 hmu.range2 hmu.range3 hmu.range4
  have ea : a' = a := by
    have h : val _ = _ := ha; have h' : val _ = _ := ha'; rw [h] at h'; exact_mod_cast (Option.some.inj h').symm
  have eb : b' = b := by
    have h : val _ = _ := hb; have h' : val _ = _ := hb'; rw [h] at h'; exact_mod_cast (Option.some.inj h').symm
  subst ea; subst eb
  have n1 := abs_le.1 (n1.trans hmu.error)
  have n2 := abs_le.1 (n2.trans hmu.error)
  -- the nearest effort that the exact limiter leaves alone
  obtain ⟨A, hA⟩ : ∃ A, A = clamp lim.effort (-saf.kVelocity * (w - clamp lim.velocity (-saf.kPosition * (p - saf.softLower)))) := ⟨_, rfl⟩
  obtain ⟨Bv, hB⟩ : ∃ Bv, Bv = clamp lim.effort (-saf.kVelocity * (w - clamp lim.velocity (-saf.kPosition * (p - saf.softUpper)))) := ⟨_, rfl⟩
  rw [← hA] at n1
  rw [← hB] at n2
  have hAB : A ≤ Bv := by
    rw [hA, hB]
    refine clamp_mono _ ?_
    have h1 : clamp lim.velocity (-saf.kPosition * (p - saf.softLower)) ≤ clamp lim.velocity (-saf.kPosition * (p - saf.softUpper)) := clamp_mono _ (by
      have := mul_le_mul_of_nonneg_left hsoft g.kp
      linarith)
    have h2 := mul_le_mul_of_nonneg_left h1 g.kv
    linarith
  have hE : 0 ≤ E := by linarith
  have hf' : |f - max A (min Bv f)| ≤ E := by
    rcases le_total Bv f with h1 | h1
    · rw [min_eq_left h1, max_eq_right hAB]; exact abs_le.2 ⟨by linarith, by linarith⟩
    · rw [min_eq_right h1]
      rcases le_total A f with h2 | h2
      · rw [max_eq_right h2, sub_self, abs_zero]; exact hE
      · rw [max_eq_left h2]; exact abs_le.2 ⟨by linarith, by linarith⟩
  exact loaded_step_raw g.effort g.velocity hs (by rw [← hA]; exact le_max_left _ _) (by rw [← hB]; exact max_le hAB (min_le_left _ _)) hx hv h h0 hτ (hc.off hs.mass h0 hf')

/-! ## All cycles -/

/-- **C115.**  `σ n` is a calibrated revolute or prismatic joint as it is read in cycle `n`: finite floating point numbers `p n` and `w n`, which differ from the true position `X n` and velocity `V n` by at
most `D` and `N`.  In every cycle the controllers command anything but NaN; the limiter of the code, computing with rounding, makes it the finite effort `f n`; the joint moves under it and under a load of at most `G`.  If the joint is
safe at the beginning, it is safe at all times, up to load, errors, and an effort `E` that makes up for the rounding. -/
theorem C115_stays_inside (hr : RoundsTo F u η B) (big : F) {lim : JLimits ℝ} {saf : JSafety ℝ} {D N G E : ℝ} (σ : Nat → JState F) (p w X V f m dt : Nat → ℝ) (c : Nat → F)
    (g : Describes (σ 0).joint lim saf) (hp : (σ 0).posLimited) (hσ : ∀ n, (σ n).joint = (σ 0).joint ∧ (σ n).calibrated = (σ 0).calibrated)
    (hval : ∀ n, IsVal (σ n).position (p n) ∧ IsVal (σ n).velocity (w n)) (hread : ∀ n, |p n - X n| ≤ D ∧ |w n - V n| ≤ N)
    (hcmd : ∀ n, val (c n) ≠ none) (hf : ∀ n, IsVal (JState.enforceLimits big { σ n with commanded := c n }).commanded (f n))
    (hmu : MakesUp u η B lim saf D N G E) (hs : ∀ n, Withstands lim saf (m n) (dt n) D N (G + E))
    (hm : ∀ n, Carried (m n) (dt n) G (f n) (X n) (V n) (X (n + 1)) (V (n + 1))) (h0 : SafeUpTo lim saf D N (G + E) (X 0) (V 0))
    (n : Nat) (τ x v : ℝ) (hτ0 : 0 ≤ τ) (hτ : τ ≤ dt n) (hx : Carried (m n) τ G (f n) (X n) (V n) x v) : SafeUpTo lim saf D N (G + E) x v := by
  have stp : ∀ n τ x v, 0 ≤ τ → τ ≤ dt n → SafeUpTo lim saf D N (G + E) (X n) (V n) → Carried (m n) τ G (f n) (X n) (V n) x v → SafeUpTo lim saf D N (G + E) x v := by
    intro n τ x v h1 h2 h3 h4
    have g' : Describes ({ σ n with commanded := c n } : JState F).joint lim saf := by rw [← (hσ n).1] at g; exact g
    obtain ⟨a, b, ha, hb, -, -, -, hy⟩ := C103_ordered (s := { σ n with commanded := c n }) g' big (hval n).1 (hval n).2
    obtain ⟨y, hy, y1, y2⟩ := hy (hcmd n)
    have e : y = f n := by
      have h : val _ = _ := hy; have h' : val _ = _ := hf n; rw [h] at h'; exact_mod_cast (Option.some.inj h')
    subst e
    exact float_step (s := { σ n with commanded := c n }) hr g' (by
      obtain ⟨q1, q2⟩ := hp
      exact ⟨(hσ n).2.trans q1, by change (σ n).joint.type = _ ∨ (σ n).joint.type = _; rw [(hσ n).1]; exact q2⟩) (hval n).1 (hval n).2 (hread n).1 (hread n).2 hmu (hs n) ha hb y1 y2 h3 h1 h2 h4
  have key : ∀ n, SafeUpTo lim saf D N (G + E) (X n) (V n) := by
    intro n
    induction n with
    | zero => exact h0
    | succ n ih => exact stp n _ _ _ (hs n).time (le_refl _) ih (hm n)
  exact stp n τ x v hτ0 hτ (key n) hx

/-- The bounds that the limiter computes, for any joint: near the exact ones for some wanted velocities within the speed limit. -/
theorem limits_speed (hr : RoundsTo F u η B) {s : JState F} {e v kp kv lo hi x w : ℝ} (g : GuardedF s.joint e v kp kv lo hi) (big : F) (hx : IsVal s.position x)
    (hw : IsVal s.velocity w) {Pv : ℝ} (p3 : |w| + v ≤ Pv) (r3 : Pv ≤ B) (r4 : kv * ((1 + u) * Pv + η) ≤ B) :
    ∃ a b p q, IsVal (s.getLimits big).1 a ∧ IsVal (s.getLimits big).2 b ∧ -v ≤ p ∧ p ≤ q ∧ q ≤ v ∧
      |a - clamp e (-kv * (w - p))| ≤ slack u η kv Pv ∧ |b - clamp e (-kv * (w - q))| ≤ slack u η kv Pv := by
  obtain ⟨⟨lim, saf, hl, hs, he, hv, hkp, hkv, hlo, hhi⟩, e0, v0, kp0, kv0, hsoft⟩ := g
  obtain ⟨p, q, e1, e2, p1, pq, q1, _⟩ := velBounds_float (s := s) hv hkp hlo hhi v0 kp0 hsoft hx
  have hq : ∀ z, -v ≤ z → z ≤ v → |w - z| ≤ Pv := by
    intro z h1 h2
    refine (abs_sub _ _).trans ?_
    have : |z| ≤ v := abs_le.2 ⟨h1, h2⟩
    linarith
  obtain ⟨y1, hy1, m1⟩ := gain_near hr hkv hw e1 kv0 (hq p p1 (pq.trans q1)) r3 r4
  obtain ⟨y2, hy2, m2⟩ := gain_near hr hkv hw e2 kv0 (hq q (p1.trans pq) q1) r3 r4
  unfold JState.getLimits
  rw [hs, hl]
  dsimp only
  have l1 := loClamp_val (b := -saf.kVelocity * (s.velocity - (s.velBounds lim saf).1)) he e0
  have l2 := hiClamp_val (b := -saf.kVelocity * (s.velocity - (s.velBounds lim saf).2)) he e0
  rw [show val (-saf.kVelocity * (s.velocity - (s.velBounds lim saf).1)) = some (y1 : EReal) from hy1, loClamp_real e0] at l1
  rw [show val (-saf.kVelocity * (s.velocity - (s.velBounds lim saf).2)) = some (y2 : EReal) from hy2, hiClamp_real] at l2
  exact ⟨_, _, p, q, l1, l2, p1, pq, q1, clamp_near m1, clamp_near m2⟩

/-- **C115, speed.**  Any joint with limits and safety parameters, calibrated or not, continuous or not: in floating point arithmetic, too, it never exceeds its speed limit by more than the error of the velocity plus (load + `E`) /
velocity gain, where `E` makes up for the rounding. -/
theorem C115_speed (hr : RoundsTo F u η B) (big : F) {lim : JLimits ℝ} {saf : JSafety ℝ} {N G E : ℝ} (σ : Nat → JState F) (p w X V f m dt : Nat → ℝ) (c : Nat → F)
    (g : Describes (σ 0).joint lim saf) (hσ : ∀ n, (σ n).joint = (σ 0).joint) (hval : ∀ n, IsVal (σ n).position (p n) ∧ IsVal (σ n).velocity (w n)) (hread : ∀ n, |w n - V n| ≤ N)
    (hcmd : ∀ n, val (c n) ≠ none) (hf : ∀ n, IsVal (JState.enforceLimits big { σ n with commanded := c n }).commanded (f n)) (hkv : 0 < saf.kVelocity) (hG : G + E ≤ lim.effort)
    (herr : slack u η saf.kVelocity (2 * lim.velocity + overspeed saf N (G + E) + N) ≤ E) (hr1 : 2 * lim.velocity + overspeed saf N (G + E) + N ≤ B)
    (hr2 : saf.kVelocity * ((1 + u) * (2 * lim.velocity + overspeed saf N (G + E) + N) + η) ≤ B) (hs : ∀ n, 0 < m n ∧ 0 ≤ dt n ∧ saf.kVelocity * dt n ≤ m n)
    (hm : ∀ n, Carried (m n) (dt n) G (f n) (X n) (V n) (X (n + 1)) (V (n + 1))) (h0 : |V 0| ≤ lim.velocity + overspeed saf N (G + E))
    (n : Nat) (τ x v : ℝ) (hτ0 : 0 ≤ τ) (hτ : τ ≤ dt n) (hx : Carried (m n) τ G (f n) (X n) (V n) x v) : |v| ≤ lim.velocity + overspeed saf N (G + E) := by
  have stp : ∀ n τ x v, 0 ≤ τ → τ ≤ dt n → |V n| ≤ lim.velocity + overspeed saf N (G + E) → Carried (m n) τ G (f n) (X n) (V n) x v → |v| ≤ lim.velocity + overspeed saf N (G + E) := by
    intro n τ x v h1 h2 h3 h4
    have g' : Describes ({ σ n with commanded := c n } : JState F).joint lim saf := by rw [← hσ n] at g; exact g
    obtain ⟨a, b, ha, hb, -, -, -, hy⟩ := C103_ordered (s := { σ n with commanded := c n }) g' big (hval n).1 (hval n).2
    obtain ⟨y, hy, y1, y2⟩ := hy (hcmd n)
    have e : y = f n := by
      have h : val _ = _ := hy; have h' : val _ = _ := hf n; rw [h] at h'; exact_mod_cast (Option.some.inj h')
    subst e
    obtain ⟨f1, f2⟩ := abs_le.1 h3
    obtain ⟨v1, v2⟩ := abs_le.1 (hread n)
    obtain ⟨a', b', pl, ql, ha', hb', w1, wm, w3, n1, n2⟩ := limits_speed hr (s := { σ n with commanded := c n }) g' big (hval n).1 (hval n).2 (Pv := 2 * lim.velocity + overspeed saf N (G + E) + N)
      (by have : |w n| ≤ lim.velocity + overspeed saf N (G + E) + N := abs_le.2 ⟨by linarith, by linarith⟩
          linarith) hr1 hr2
    have ea : a' = a := by
      have h : val _ = _ := ha; have h' : val _ = _ := ha'; rw [h] at h'; exact_mod_cast (Option.some.inj h').symm
    have eb : b' = b := by
      have h : val _ = _ := hb; have h' : val _ = _ := hb'; rw [h] at h'; exact_mod_cast (Option.some.inj h').symm
    subst ea; subst eb
    have n1 := abs_le.1 (n1.trans herr)
    have n2 := abs_le.1 (n2.trans herr)
    obtain ⟨A, hA⟩ : ∃ A, A = clamp lim.effort (-saf.kVelocity * (w n - pl)) := ⟨_, rfl⟩
    obtain ⟨Bv, hB⟩ : ∃ Bv, Bv = clamp lim.effort (-saf.kVelocity * (w n - ql)) := ⟨_, rfl⟩
    rw [← hA] at n1
    rw [← hB] at n2
    have hAB : A ≤ Bv := by
      rw [hA, hB]
      refine clamp_mono _ ?_
      have h2 := mul_le_mul_of_nonneg_left wm g.kv
      linarith
    have hE : 0 ≤ E := by linarith
    obtain ⟨f', hf'⟩ : ∃ f', f' = max A (min Bv (f n)) := ⟨_, rfl⟩
    have hff : |f n - f'| ≤ E := by
      rw [hf']
      rcases le_total Bv (f n) with h1 | h1
      · rw [min_eq_left h1, max_eq_right hAB]; exact abs_le.2 ⟨by linarith, by linarith⟩
      · rw [min_eq_right h1]
        rcases le_total A (f n) with h2 | h2
        · rw [max_eq_right h2, sub_self, abs_zero]; exact hE
        · rw [max_eq_left h2]; exact abs_le.2 ⟨by linarith, by linarith⟩
    have b1 : A ≤ f' := by rw [hf']; exact le_max_left _ _
    have b2 : f' ≤ Bv := by rw [hf']; exact max_le hAB (min_le_left _ _)
    rw [hA] at b1
    rw [hB] at b2
    obtain ⟨_, _, c3, c4⟩ := (h4.off (hs n).1 h1 hff).bounds
    have b1' : -f' ≤ clamp lim.effort (-saf.kVelocity * (-w n - -pl)) := by
      rw [show -saf.kVelocity * (-w n - -pl) = -(-saf.kVelocity * (w n - pl)) by ring, clamp_neg _ _ g.effort]
      linarith
    unfold overspeed at f1 f2 ⊢
    have k1 := loaded_speed hkv hG (hs n).1 h1 h2 (hs n).2.2 f2 w3 (by linarith : V n - N ≤ w n) b2 c4
    have k2 := loaded_speed (v := -V n) (v' := -v) hkv hG (hs n).1 h1 h2 (hs n).2.2 (by linarith) (show -pl ≤ lim.velocity by linarith) (by linarith : -V n - N ≤ -w n) b1'
      (by rw [show -f' + (G + E) = -(f' - (G + E)) by ring, velAfter_neg]; linarith)
    exact abs_le.2 ⟨by linarith, k1⟩
  have key : ∀ n, |V n| ≤ lim.velocity + overspeed saf N (G + E) := by
    intro n
    induction n with
    | zero => exact h0
    | succ n ih => exact stp n _ _ _ (hs n).2.1 (le_refl _) ih (hm n)
  exact stp n τ x v hτ0 hτ (key n) hx

/-- The induction over the cycles: readings and motion need only be as described while the joint is safe. -/
theorem float_cycles (hr : RoundsTo F u η B) {big : F} {sim : Bool} {d : RtData F} (hd : d.Good) {p : Plant F} (h : Plant.Reach big sim d PlantIn.Tame p) {n0 : Nat} {jn : String} {uj : UJoint F}
    (found : ∀ r ∈ p.cycles, ∃ j, r.sent.Joint jn j) (desc : ∀ r ∈ p.cycles, ∀ j, r.sent.Joint jn j → j.joint = uj)
    (cal : ∀ n r j, n0 ≤ n → p.cycles[n]? = some r → r.sent.Joint jn j → j.calibrated = true)
    {lim : JLimits ℝ} {saf : JSafety ℝ} (g : Describes uj lim saf) (hty : uj.type = .revolute ∨ uj.type = .prismatic) {D N G E : ℝ} {X V m dt : Nat → ℝ} (hmu : MakesUp u η B lim saf D N G E)
    (hs : ∀ n, Withstands lim saf (m n) (dt n) D N (G + E))
    (hread : ∀ n r j, n0 ≤ n → p.cycles[n]? = some r → r.sent.Joint jn j → SafeUpTo lim saf D N (G + E) (X n) (V n) →
      ∃ q w, IsVal j.position q ∧ IsVal j.velocity w ∧ |q - X n| ≤ D ∧ |w - V n| ≤ N)
    (hnan : ∀ n r j, n0 ≤ n → p.cycles[n]? = some r → r.sent.Joint jn j → val j.commanded ≠ none)
    (hmove : ∀ n r j f, n0 ≤ n → p.cycles[n]? = some r → n + 1 < p.cycles.length → r.sent.Joint jn j → SafeUpTo lim saf D N (G + E) (X n) (V n) → IsVal j.commanded f → |f| ≤ lim.effort →
      Carried (m n) (dt n) G f (X n) (V n) (X (n + 1)) (V (n + 1)))
    (h0 : SafeUpTo lim saf D N (G + E) (X n0) (V n0)) (n : Nat) (r : CycleRec F) (j : JState F) (hn : n0 ≤ n) (hrn : p.cycles[n]? = some r) (hj : r.sent.Joint jn j) :
    SafeUpTo lim saf D N (G + E) (X n) (V n) ∧ ∃ f, IsVal j.commanded f ∧ |f| ≤ lim.effort ∧
      ∀ τ x v, 0 ≤ τ → τ ≤ dt n → Carried (m n) τ G f (X n) (V n) x v → SafeUpTo lim saf D N (G + E) x v := by
  have stp : ∀ n r j, n0 ≤ n → p.cycles[n]? = some r → r.sent.Joint jn j → SafeUpTo lim saf D N (G + E) (X n) (V n) →
      ∃ f, IsVal j.commanded f ∧ |f| ≤ lim.effort ∧ ∀ τ x v, 0 ≤ τ → τ ≤ dt n → Carried (m n) τ G f (X n) (V n) x v → SafeUpTo lim saf D N (G + E) x v := by
    intro n r j hn hrn hj hsf
    have hmem := List.mem_of_getElem? hrn
    have e := desc r hmem j hj
    have g' : Describes j.joint lim saf := by rw [e]; exact g
    obtain ⟨q, w, hq, hw, q1, w1⟩ := hread n r j hn hrn hj hsf
    have hcal := cal n r j hn hrn hj
    have hno := hnan n r j hn hrn hj
    obtain ⟨s, hs', he⟩ := (h.ginv hd).ready r hmem
    obtain ⟨i, _, hji⟩ := hj
    have hjm := List.mem_of_getElem? hji
    rw [(C48_effort_only_commands _ _ hs' he).2] at hjm
    obtain ⟨j0, _, rfl⟩ := List.mem_map.1 hjm
    obtain ⟨a, b, ha, hb, a1, -, b1, hy⟩ := C103_ordered (s := j0) g' big hq hw
    have hne : val j0.commanded ≠ none := fun e => hno (C29_nan_passes big j0 e)
    obtain ⟨y, hy, y1, y2⟩ := hy hne
    exact ⟨y, hy, abs_le.2 ⟨a1.trans y1, y2.trans b1⟩, fun τ x v h1 h2 h3 =>
      float_step (s := j0) hr g' ⟨hcal, by change (JState.enforceLimits big j0).joint.type = _ ∨ (JState.enforceLimits big j0).joint.type = _; rw [e]; exact hty⟩ hq hw q1 w1 hmu (hs n) ha hb y1 y2 hsf h1 h2 h3⟩
  have key : ∀ k, n0 + k < p.cycles.length → SafeUpTo lim saf D N (G + E) (X (n0 + k)) (V (n0 + k)) := by
    intro k
    induction k with
    | zero => exact fun _ => h0
    | succ k ih =>
      intro hk
      have hlt : n0 + k < p.cycles.length := by omega
      have hr' := List.getElem?_eq_getElem hlt
      obtain ⟨j1, hj1⟩ := found _ (List.mem_of_getElem? hr')
      obtain ⟨f1, hf1, hf2, hst⟩ := stp (n0 + k) _ j1 (by omega) hr' hj1 (ih hlt)
      exact hst _ _ _ (hs _).time (le_refl _) (hmove (n0 + k) _ j1 f1 (by omega) hr' (by omega) hj1 (ih hlt) hf1 hf2)
  have hlt := (List.getElem?_eq_some_iff.1 hrn).1
  have hk := key (n - n0) (by omega)
  rw [show n0 + (n - n0) = n by omega] at hk
  exact ⟨hk, stp n r j hn hrn hj hk⟩

/-- From cycle `n0` on, joint `jn` is at `X n` with velocity `V n` when cycle `n` begins; the state holds finite numbers for it that are off by at most `D` and `N`; the effort that has been sent is not NaN; and under it and under a
load of at most `G` the joint moves until the next cycle. -/
structure Plant.JointMovesF (p : Plant F) (n0 : Nat) (jn : String) (D N G : ℝ) (X V m dt : Nat → ℝ) : Prop where
  read : ∀ n r j, n0 ≤ n → p.cycles[n]? = some r → r.sent.Joint jn j → ∃ q w, IsVal j.position q ∧ IsVal j.velocity w ∧ |q - X n| ≤ D ∧ |w - V n| ≤ N
  noNan : ∀ n r j, n0 ≤ n → p.cycles[n]? = some r → r.sent.Joint jn j → val j.commanded ≠ none
  move : ∀ n r j f, n0 ≤ n → p.cycles[n]? = some r → n + 1 < p.cycles.length → r.sent.Joint jn j → IsVal j.commanded f → Carried (m n) (dt n) G f (X n) (V n) (X (n + 1)) (V (n + 1))

/-- **C115, the whole robot.**  The control loop computing with rounding, whatever is loaded, unloaded and switched and whatever the controllers command. -/
theorem C115_robot (hr : RoundsTo F u η B) {big : F} {sim : Bool} {d : RtData F} (hd : d.Good) {p : Plant F} (h : Plant.Reach big sim d PlantIn.Tame p) {n0 : Nat} {jn : String} {uj : UJoint F}
    (found : ∀ r ∈ p.cycles, ∃ j, r.sent.Joint jn j) (desc : ∀ r ∈ p.cycles, ∀ j, r.sent.Joint jn j → j.joint = uj)
    (cal : ∀ n r j, n0 ≤ n → p.cycles[n]? = some r → r.sent.Joint jn j → j.calibrated = true)
    {lim : JLimits ℝ} {saf : JSafety ℝ} (g : Describes uj lim saf) (hty : uj.type = .revolute ∨ uj.type = .prismatic) {D N G E : ℝ} {X V m dt : Nat → ℝ} (hmu : MakesUp u η B lim saf D N G E)
    (hs : ∀ n, Withstands lim saf (m n) (dt n) D N (G + E)) (hm : p.JointMovesF n0 jn D N G X V m dt) (h0 : SafeUpTo lim saf D N (G + E) (X n0) (V n0))
    (n : Nat) (r : CycleRec F) (j : JState F) (hn : n0 ≤ n) (hrn : p.cycles[n]? = some r) (hj : r.sent.Joint jn j) (f : ℝ) (hf : IsVal j.commanded f) (τ x v : ℝ) (hτ0 : 0 ≤ τ) (hτ : τ ≤ dt n)
    (hx : Carried (m n) τ G f (X n) (V n) x v) : SafeUpTo lim saf D N (G + E) x v := by
  obtain ⟨_, f', hf', _, hst⟩ := float_cycles hr hd h found desc cal g hty hmu hs (fun n r j hn hr hj _ => hm.read n r j hn hr hj) hm.noNan
    (fun n r j f hn hr hl hj _ hf _ => hm.move n r j f hn hr hl hj hf) h0 n r j hn hrn hj
  have ey : f' = f := by
    have h : val _ = _ := hf'; have h' : val _ = _ := hf; rw [h] at h'; exact_mod_cast (Option.some.inj h')
  subst ey
  exact hst τ x v hτ0 hτ hx

end

/-! ## Double precision -/

/-- **C115, double precision.**  Double precision arithmetic, with gradual underflow, is a rounding of this kind for numbers up to `2 ^ 100`. -/
theorem C115_double : RoundsTo Full (1 / 2 ^ 53) (1 / 2 ^ 1075) (2 ^ 100) := by
  have h1 : (0 : ℝ) < 2 ^ 1075 := pow_pos two_pos _
  have h2 : (2 : ℝ) ^ 102 ≤ 2 ^ 1024 := pow_le_pow_right₀ one_le_two (by norm_num)
  have h3 : (1 : ℝ) ≤ 2 ^ 1075 := one_le_pow₀ one_le_two
  refine ⟨by positivity, by positivity, fun x hx => ⟨rnd x, ?_, rnd_err x⟩⟩
  have e := rnd_err x
  have h4 : (1 : ℝ) / 2 ^ 1075 ≤ 1 := (div_le_one h1).2 h3
  have h5 : (1 : ℝ) / 2 ^ 53 * |x| ≤ |x| := by
    have : (1 : ℝ) / 2 ^ 53 ≤ 1 := by norm_num
    nlinarith [abs_nonneg x]
  generalize (1 : ℝ) / 2 ^ 1075 = η at e h4
  generalize (2 : ℝ) ^ 1075 = q at h1 h3
  have h6 : |rnd x| < 2 ^ 102 := by
    have t : |rnd x| ≤ |rnd x - x| + |x| := by simpa using abs_add_le (rnd x - x) x
    have : (2 : ℝ) ^ 102 = 4 * 2 ^ 100 := by norm_num
    have : (1 : ℝ) ≤ 2 ^ 100 := by norm_num
    linarith
  obtain ⟨h7, h8⟩ := abs_lt.1 h6
  change rndE x = _
  unfold rndE
  generalize (2 : ℝ) ^ 1024 = M at h2 ⊢
  rw [if_neg (by linarith), if_neg (by linarith)]

/-- The example of C113, with any rounding that is precise enough. -/
theorem light_makesUp {u η B : ℝ} (u0 : 0 ≤ u) (u1 : u ≤ 1/10000000) (η0 : 0 ≤ η) (η1 : η ≤ 1/10000000) (hB : 1000 ≤ B) :
    MakesUp u η B ⟨0, 2, 30, 3⟩ ⟨1/10, 19/10, 20, 4⟩ (1/100) (1/10) 2 (1/1000) := by
  have h1 : u * u ≤ u := by nlinarith
  have h2 : u * η ≤ η := by nlinarith
  have h3 : 0 ≤ u * η := mul_nonneg u0 η0
  refine ⟨?_, ?_, ?_, ?_, ?_⟩ <;> simp only [slack, overshoot, overspeed] <;> norm_num <;> nlinarith

theorem double_eta : (0 : ℝ) ≤ 1 / 2 ^ 1075 ∧ (1 : ℝ) / 2 ^ 1075 ≤ 1 / 10000000 := by
  have h1 : (0 : ℝ) < 2 ^ 1075 := pow_pos two_pos _
  have h2 : (2 : ℝ) ^ 30 ≤ 2 ^ 1075 := pow_le_pow_right₀ one_le_two (by norm_num)
  generalize (2 : ℝ) ^ 1075 = q at h1 h2
  exact ⟨by positivity, one_div_le_one_div_of_le (by norm_num) (le_trans (by norm_num) h2)⟩

theorem light_double : MakesUp (1 / 2 ^ 53) (1 / 2 ^ 1075) (2 ^ 100) ⟨0, 2, 30, 3⟩ ⟨1/10, 19/10, 20, 4⟩ (1/100) (1/10) 2 (1/1000) :=
  light_makesUp (by positivity) (by norm_num) double_eta.1 double_eta.2 (by norm_num)

theorem light_withstandsF : Withstands (F := ℝ) ⟨0, 2, 30, 3⟩ ⟨1/10, 19/10, 20, 4⟩ (1/20) (1/100) (1/100) (1/10) (2 + 1/1000) := by
  refine ⟨?_, ?_, ?_, ?_, ?_, ?_, ?_, ?_, ?_, ?_, ?_⟩ <;> norm_num

section
noncomputable local instance : Zero Full := ⟨⟨some 0⟩⟩
local instance : Add Full := ⟨fun a _ => a⟩
noncomputable local instance : FLit Full := ⟨fun _ => 0, fun _ => 0⟩
noncomputable local instance : FTrig Full := ⟨0, id, id, id, id, id, id⟩

/-- The joint of C113's example, in double precision. -/
noncomputable def lightF : UJoint Full :=
  ⟨"light", .revolute, some ⟨⟨some (0 : ℝ)⟩, ⟨some (2 : ℝ)⟩, ⟨some (30 : ℝ)⟩, ⟨some (3 : ℝ)⟩⟩,
    some ⟨⟨some ((1/10 : ℝ) : EReal)⟩, ⟨some ((19/10 : ℝ) : EReal)⟩, ⟨some (20 : ℝ)⟩, ⟨some (4 : ℝ)⟩⟩, none⟩

theorem lightF_described : Describes lightF ⟨0, 2, 30, 3⟩ ⟨1/10, 19/10, 20, 4⟩ :=
  ⟨⟨_, _, rfl, rfl, rfl, rfl, rfl, rfl, rfl, rfl⟩, by norm_num, by norm_num, by norm_num, by norm_num, by norm_num⟩

/-- What is read of the joint at `x` with velocity `v`: a hundredth less, a tenth slower. -/
noncomputable def readF (st : JStats Full) (x v : ℝ) : JState Full :=
  ⟨lightF, ⟨some ((x - 1/100 : ℝ) : EReal)⟩, ⟨some ((v - 1/10 : ℝ) : EReal)⟩, ⟨some (0 : ℝ)⟩, st, ⟨some (0 : ℝ)⟩, true, ⟨some (0 : ℝ)⟩⟩

/-- The effort sent if the controllers command 30. -/
noncomputable def sentF (st : JStats Full) (x v : ℝ) : ℝ :=
  ((JState.enforceLimits ⟨some ⊤⟩ { readF st x v with commanded := ⟨some (30 : ℝ)⟩ }).commanded.v.getD 0).toReal

/-- The joint, `n` cycles after it was at 1, if a load of 2 pulls it up. -/
noncomputable def pulledF (st : JStats Full) : Nat → ℝ × ℝ
  | 0 => (1, 0)
  | n + 1 =>
    let q := pulledF st n
    (posAfter (1/20) (1/100) (sentF st q.1 q.2 + 2) q.1 q.2, velAfter (1/20) (1/100) (sentF st q.1 q.2 + 2) q.2)

theorem sentF_val (st : JStats Full) (x v : ℝ) : IsVal (JState.enforceLimits ⟨some ⊤⟩ { readF st x v with commanded := ⟨some (30 : ℝ)⟩ }).commanded (sentF st x v) := by
  obtain ⟨a, b, -, -, -, -, -, hy⟩ := C103_ordered (s := { readF st x v with commanded := ⟨some ((30 : ℝ) : EReal)⟩ }) lightF_described ⟨some ⊤⟩ rfl rfl
  obtain ⟨y, hy, -, -⟩ := hy (fun h => by cases h)
  have h : (JState.enforceLimits ⟨some ⊤⟩ { readF st x v with commanded := ⟨some (30 : ℝ)⟩ }).commanded.v = some (y : EReal) := hy
  unfold sentF IsVal
  rw [h]
  exact h

theorem carried_constF {m τ G f x v : ℝ} (hm : 0 < m) (hG : 0 ≤ G) (ht : 0 ≤ τ) : Carried m τ G f x v (posAfter m τ (f + G) x v) (velAfter m τ (f + G) v) := by
  have a : 0 ≤ G / m := div_nonneg hG hm.le
  constructor
  · rw [show posAfter m τ (f + G) x v - posAfter m τ f x v = G / m * τ ^ 2 / 2 by unfold posAfter; ring, abs_of_nonneg (by positivity)]
  · rw [show velAfter m τ (f + G) v - velAfter m τ f v = G / m * τ by unfold velAfter; ring, abs_of_nonneg (by positivity)]

/-- C115_stays_inside, in double precision: for ever inside the hard limit 2, against the load, the errors of the readings and of the arithmetic, and the controllers. -/
example (st : JStats Full) (n : Nat) : (pulledF st n).1 ≤ 1941/1000 ∧ |(pulledF st n).2| ≤ 7201/1000 := by
  have hov : overshoot (⟨1/10, 19/10, 20, 4⟩ : JSafety ℝ) (1/100) (1/10) (2 + 1/1000) = 400125/10000000 := by norm_num [overshoot, overspeed]
  have hsp : overspeed (⟨1/10, 19/10, 20, 4⟩ : JSafety ℝ) (1/10) (2 + 1/1000) = 60025/100000 := by norm_num [overspeed]
  have := C115_stays_inside C115_double ⟨some ⊤⟩ (lim := ⟨0, 2, 30, 3⟩) (saf := ⟨1/10, 19/10, 20, 4⟩) (D := 1/100) (N := 1/10) (G := 2) (E := 1/1000)
    (fun n => readF st (pulledF st n).1 (pulledF st n).2) (fun n => (pulledF st n).1 - 1/100) (fun n => (pulledF st n).2 - 1/10) (fun n => (pulledF st n).1) (fun n => (pulledF st n).2)
    (fun n => sentF st (pulledF st n).1 (pulledF st n).2) (fun _ => 1/20) (fun _ => 1/100) (fun _ => ⟨some (30 : ℝ)⟩) lightF_described ⟨rfl, Or.inl rfl⟩ (fun _ => ⟨rfl, rfl⟩) (fun _ => ⟨rfl, rfl⟩)
    (fun n => ⟨by simp only [sub_sub_cancel_left, abs_neg]; norm_num [abs_le], by simp only [sub_sub_cancel_left, abs_neg]; norm_num [abs_le]⟩) (fun _ h => by cases h)
    (fun n => sentF_val st _ _) light_double (fun _ => light_withstandsF) (fun n => carried_constF (by norm_num) (by norm_num) (by norm_num)) (by
      unfold SafeUpTo; rw [hov, hsp]
      refine ⟨?_, ?_, ?_, ?_, ?_⟩ <;> norm_num [pulledF, JLimits.faster, JSafety.wider, abs_le]) n 0 (pulledF st n).1 (pulledF st n).2 (le_refl _) (by norm_num)
    ⟨by norm_num [posAfter], by norm_num [velAfter]⟩
  have h := this.upper
  have h' := this.fast
  rw [hov] at h
  rw [hsp] at h'
  change (pulledF st n).1 ≤ 19/10 + 400125/10000000 at h
  change |(pulledF st n).2| ≤ 2 * (3 + 60025/100000) at h'
  exact ⟨by linarith, by linarith⟩

/-- C115_speed, in double precision, at the same joint. -/
example (st : JStats Full) (n : Nat) : |(pulledF st n).2| ≤ 3601/1000 := by
  have hsp : overspeed (⟨1/10, 19/10, 20, 4⟩ : JSafety ℝ) (1/10) (2 + 1/1000) = 60025/100000 := by norm_num [overspeed]
  have h := light_double
  obtain ⟨u0, η0, -⟩ := C115_double
  have u1 : (1 : ℝ) / 2 ^ 53 ≤ 1 / 10000000 := by norm_num
  have η1 := double_eta.2
  have B1 : (1000 : ℝ) ≤ 2 ^ 100 := by norm_num
  have hr := C115_double
  generalize (1 : ℝ) / 2 ^ 53 = u at u0 u1 hr
  generalize (1 : ℝ) / 2 ^ 1075 = η at η0 η1 hr
  generalize (2 : ℝ) ^ 100 = B at B1 hr
  have h1 : u * u ≤ u := by nlinarith
  have h2 : u * η ≤ η := by nlinarith
  have h3 : 0 ≤ u * η := mul_nonneg u0 η0
  have := C115_speed hr ⟨some ⊤⟩ (lim := ⟨0, 2, 30, 3⟩) (saf := ⟨1/10, 19/10, 20, 4⟩) (N := 1/10) (G := 2) (E := 1/1000)
    (fun n => readF st (pulledF st n).1 (pulledF st n).2) (fun n => (pulledF st n).1 - 1/100) (fun n => (pulledF st n).2 - 1/10) (fun n => (pulledF st n).1) (fun n => (pulledF st n).2)
    (fun n => sentF st (pulledF st n).1 (pulledF st n).2) (fun _ => 1/20) (fun _ => 1/100) (fun _ => ⟨some (30 : ℝ)⟩) lightF_described (fun _ => rfl) (fun _ => ⟨rfl, rfl⟩)
    (fun n => by simp only [sub_sub_cancel_left, abs_neg]; norm_num [abs_le]) (fun _ h => by cases h)
    (fun n => sentF_val st _ _) (by norm_num) (by norm_num) (by rw [hsp]; simp only [slack]; norm_num; nlinarith) (by rw [hsp]; norm_num; linarith) (by rw [hsp]; norm_num; nlinarith)
    (fun _ => by norm_num) (fun n => carried_constF (by norm_num) (by norm_num) (by norm_num)) (by rw [hsp]; norm_num [pulledF]) n 0 (pulledF st n).1 (pulledF st n).2 (le_refl _) (by norm_num)
    ⟨by norm_num [posAfter], by norm_num [velAfter]⟩
  rw [hsp] at this
  exact this.trans (by norm_num)

end

/-! ## The running system

The execution of the PR2's description from the example of C113; rational arithmetic is correctly rounded. -/

section
attribute [local instance] exactCmp demoTrig demoLit decimalParse ratRound

theorem ratRounds (B : ℝ) : RoundsTo ℚ 0 0 B := ⟨le_refl _, le_refl _, fun x _ => ⟨x, rfl, by simp⟩⟩

theorem ratVal {q : ℚ} {x : ℝ} : IsVal q x ↔ (q : ℝ) = x := by
  simp only [IsVal, val, Option.some.injEq, EReal.coe_eq_coe_iff]

theorem carried_cast {m τ G f x v x' v' : ℚ} (h : Carried m τ G f x v x' v') : Carried (m : ℝ) τ G f x v x' v' := by
  obtain ⟨h1, h2⟩ := h
  constructor
  · have := (Rat.cast_le (K := ℝ)).2 h1
    unfold posAfter at this ⊢
    push_cast at this; exact this
  · have := (Rat.cast_le (K := ℝ)).2 h2
    unfold velAfter at this ⊢
    push_cast at this; exact this

theorem carried_jointF {p : Plant ℚ} {n0 : Nat} {jn : String} {D N G : ℚ} {X V m dt : Nat → ℚ} (h : p.JointCarried n0 jn D N G X V m dt) :
    p.JointMovesF n0 jn (D : ℝ) N G (fun n => X n) (fun n => V n) (fun n => m n) (fun n => dt n) := by
  refine ⟨fun n r j hn hr hj => ⟨j.position, j.velocity, rfl, rfl, ?_⟩, fun n r j hn hr hj h => (by cases h), fun n r j f hn hr hl hj hf => ?_⟩
  · obtain ⟨h1, h2⟩ := h.read n r j hn hr hj
    exact ⟨by exact_mod_cast h1, by exact_mod_cast h2⟩
  · rw [ratVal] at hf
    subst hf
    exact carried_cast (h.move n r j hn hr hl hj)

/-- C115_robot: the laser's tilt joint of the shipped description, at most a fiftieth beyond its soft limit. -/
example (n : Nat) (r : CycleRec ℚ) (j : JState ℚ) (hr : pr2Run.cycles[n]? = some r) (hj : r.sent.Joint "laser_tilt_mount_joint" j) (τ x v : ℝ) (h0 : 0 ≤ τ) (h1 : τ ≤ 1/1000)
    (hx : Carried (((pr2Inertia * (-605/100) ^ 2 : ℚ)) : ℝ) τ (605/10000) (j.commanded : ℝ) ((pr2Q n / (-605/100) + 1/500 : ℚ) : ℝ) ((pr2W n / (-605/100) : ℚ) : ℝ) x v) :
    x ≤ 143353/100000 + 2/100 := by
  have hrow : Row.simple "laser_tilt_mount_trans" "laser_tilt_mount_motor" "laser_tilt_mount_joint" "-6.05" ∈ pr2Rows := by
    refine List.mem_of_getElem? (i := 15) rfl
  have hg : ("laser_tilt_mount_joint", (⟨-3927 / 5000, 148353 / 100000, 13 / 20, 10⟩ : JLimits ℚ), (⟨-3677 / 5000, 143353 / 100000, 100, 1 / 20⟩ : JSafety ℚ)) ∈ pr2Guards :=
    List.mem_of_getElem? (i := 1) rfl
  obtain ⟨u, hju, hgu, hty⟩ := guards_joint (fun q => by simp [FLit.lit]) (pr2_read _ pr2_names.2) hg
  obtain ⟨idx, ht, hde⟩ := complete_described (new := pr2New) decimals_read (pr2_read _ pr2_names.2) pr2_motors hrow
  have hnd : ((pr2Trans pr2New).flatMap (·.actNames)).Nodup := by rw [(complete_ts _).2]; decide +kernel
  have jc := pr2Carried.atJoint pr2_loaded.1 hnd pr2_later pr2Reach ht hde (firstChild _ _ _ rfl) (saysOf _ _ _ rfl) (firstChild _ _ _ rfl) (saysOf _ _ _ rfl)
    (Or.inr ⟨(first_none _ _).1 rfl, firstChild _ _ _ rfl⟩) rfl (k := -605/100) (by decide +kernel) (by norm_num) pr2Calibrated (ρ0 := 1/500) (R := 1/500) (by norm_num [abs_le]) (fun _ => by norm_num [pr2Inertia])
  have cyc := fun r (hr : r ∈ pr2Run.cycles) => C98_simple_cycle pr2_loaded.1 hnd pr2_later pr2Reach hr ht hde (firstChild _ _ _ rfl) (saysOf _ _ _ rfl) (firstChild _ _ _ rfl) (saysOf _ _ _ rfl)
    (Or.inr ⟨(first_none _ _).1 rfl, firstChild _ _ _ rfl⟩) rfl
  have gF : Describes u ⟨-3927 / 5000, 148353 / 100000, 13 / 20, 10⟩ ⟨-3677 / 5000, 143353 / 100000, 100, 1 / 20⟩ :=
    ⟨⟨_, _, hgu.hlim, hgu.hsaf, by rw [ratVal]; norm_num [JLimits.cast], by rw [ratVal]; norm_num [JLimits.cast], by rw [ratVal]; norm_num [JSafety.cast], by rw [ratVal]; norm_num [JSafety.cast],
      by rw [ratVal]; norm_num [JSafety.cast], by rw [ratVal]; norm_num [JSafety.cast]⟩, by norm_num, by norm_num, by norm_num, by norm_num, by norm_num⟩
  have jcF := carried_jointF jc
  have hov : overshoot (⟨-3677 / 5000, 143353 / 100000, 100, 1 / 20⟩ : JSafety ℝ) ((1 / 50 / |(-605/100 : ℚ)| + 1/500 : ℚ) : ℝ) ((0 / |(-605/100 : ℚ)| : ℚ) : ℝ) (((1 / 100 * |(-605/100 : ℚ)| : ℚ) : ℝ) + 1/1000) ≤ 2/100 := by
    norm_num [overshoot, overspeed, abs_of_pos, abs_of_neg]
  have := C115_robot (ratRounds 1000000) pr2Good (pr2Reach.mono fun i hi => hi.tame) (n0 := 0) (jn := "laser_tilt_mount_joint") (uj := u) (E := 1/1000)
    (fun r hr => by obtain ⟨_, _, _, j', _, _, _, e, _⟩ := cyc r hr; exact ⟨j', e⟩)
    (fun r hr j hj => by
      obtain ⟨_, _, _, j', _, _, _, e, e2, _⟩ := cyc r hr
      cases hj.unique e
      rw [hju] at e2; exact (Option.some.inj e2).symm)
    (fun n r j hn hr hj => (pr2Calibrated n r hn hr).2 j hj) gF (Or.inl hty)
    (by refine ⟨?_, ?_, ?_, ?_, ?_⟩ <;> norm_num [slack, overshoot, overspeed, abs_of_pos, abs_of_neg])
    (fun n => by refine ⟨?_, ?_, ?_, ?_, ?_, ?_, ?_, ?_, ?_, ?_, ?_⟩ <;> norm_num [pr2Inertia, abs_of_pos, abs_of_neg]) jcF
    (by
      have e1 : pr2Q 0 = -799/100 := by decide +kernel
      have e2 : pr2W 0 = -10 := by decide +kernel
      simp only [e1, e2]
      unfold SafeUpTo overshoot overspeed
      refine ⟨?_, ?_, ?_, ?_, ?_⟩ <;> norm_num [JLimits.faster, JSafety.wider, abs_le, abs_div, abs_of_pos])
    n r j (Nat.zero_le _) hr hj j.commanded rfl τ x v h0 (by push_cast; exact h1)
    (by rw [show ((1 / 100 * |(-605/100 : ℚ)| : ℚ) : ℝ) = 605/10000 by norm_num [abs_of_pos, abs_of_neg]]; exact hx)
  have h := this.upper
  change x ≤ 143353/100000 + overshoot _ _ _ _ at h
  linarith

end
end Pr2
