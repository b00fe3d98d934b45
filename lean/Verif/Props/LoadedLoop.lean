import Verif.Props.Shipped
import Mathlib.Analysis.Calculus.MeanValue

/-!
# C113: the safety limits under load

C93 is about a joint that nothing but the commanded effort accelerates, and whose readings are exact.  Here a load acts on the joint - gravity, friction, contact, rounded
efforts - and the readings have errors; all that is known of them is their size.
-/

namespace Pr2
set_option linter.unusedVariables false

section exact
variable {F : Type} [Field F] [LinearOrder F] [IsStrictOrderedRing F]
attribute [local instance] exactCmp

/-! ## Specification -/

/-- The mechanics: an inertia `m` moves for a time `τ` under a constant effort `f` and a load of size at most `G`, which may vary in any way, from position `x` and velocity `v` to `x'` and `v'`
(`carried_of_motion`: every such motion has this property). -/
structure Carried (m τ G f x v x' v' : F) : Prop where
  pos : |x' - posAfter m τ f x v| ≤ G / m * τ ^ 2 / 2
  vel : |v' - velAfter m τ f v| ≤ G / m * τ

/-- The description suits the mechanics, with position readings wrong by at most `D`, velocity readings by at most `N`, and a load of at most `G`. -/
structure Withstands (lim : JLimits F) (saf : JSafety F) (m dt D N G : F) : Prop where
  mass : 0 < m
  time : 0 ≤ dt
  kp : 0 < saf.kPosition
  kv : 0 < saf.kVelocity
  damped : 4 * m * saf.kPosition ≤ saf.kVelocity
  slow : saf.kVelocity * dt ≤ m
  errD : 0 ≤ D
  errN : 0 ≤ N
  load : 0 ≤ G
  room : saf.kVelocity * N + G ≤ saf.kVelocity * lim.velocity
  strong : saf.kVelocity * (lim.velocity + N) + 2 * G ≤ lim.effort

/-- How much faster than the speed limit: the error of the velocity, and the speed at which the damping balances the load. -/
def overspeed (saf : JSafety F) (N G : F) : F := N + G / saf.kVelocity
/-- How far beyond the soft limits: the error of the position, and the distance from which the position gain makes up for that speed. -/
def overshoot (saf : JSafety F) (D N G : F) : F := D + overspeed saf N G / saf.kPosition
/-- Limits and soft limits, moved by these. -/
def JLimits.faster (lim : JLimits F) (w : F) : JLimits F := { lim with velocity := lim.velocity + w }
def JSafety.wider (saf : JSafety F) (w : F) : JSafety F := { saf with softLower := saf.softLower - w, softUpper := saf.softUpper + w }

/-- Safe, up to the load and the errors. -/
def SafeUpTo (lim : JLimits F) (saf : JSafety F) (D N G x v : F) : Prop := Safe (lim.faster (overspeed saf N G)) (saf.wider (overshoot saf D N G)) x v

/-! ## One cycle -/

theorem loaded_upper {kp kv vmax E m dt τ su D N G x v xr vr f x' v' : F} (hkp : 0 < kp) (hkv : 0 < kv) (hvm : 0 ≤ vmax) (hm : 0 < m) (h0 : 0 ≤ τ) (hτ : τ ≤ dt)
    (hd : 4 * m * kp ≤ kv) (hs : kv * dt ≤ m) (hN : 0 ≤ N) (hG : 0 ≤ G) (hroom : kv * N + G ≤ kv * vmax) (hE : kv * (vmax + N) + 2 * G ≤ E)
    (hx : x ≤ su + (D + (N + G / kv) / kp)) (hv : v ≤ 2 * (kp * (su + (D + (N + G / kv) / kp) - x))) (hv' : v ≤ 2 * (vmax + (N + G / kv)))
    (hxr : x - D ≤ xr) (hvr : v - N ≤ vr) (hf : f ≤ clamp E (-kv * (vr - clamp vmax (-kp * (xr - su)))))
    (hx' : x' ≤ posAfter m τ (f + G) x v) (hvv : v' ≤ velAfter m τ (f + G) v) :
    x' ≤ su + (D + (N + G / kv) / kp) ∧ v' ≤ 2 * (kp * (su + (D + (N + G / kv) / kp) - x')) ∧ v' ≤ 2 * (vmax + (N + G / kv)) := by
  obtain ⟨μ, hμ⟩ : ∃ μ, μ = N + G / kv := ⟨_, rfl⟩
  rw [← hμ] at hx hv hv' ⊢
  have hGk : kv * (G / kv) = G := by field_simp
  have kμ : kv * μ = kv * N + G := by rw [hμ, mul_add, hGk]
  have μ0 : 0 ≤ μ := by rw [hμ]; positivity
  have μ1 : μ ≤ vmax := le_of_mul_le_mul_left (by rw [kμ]; exact hroom) hkv
  obtain ⟨su', hsu'⟩ : ∃ s, s = su + (D + μ / kp) := ⟨_, rfl⟩
  rw [← hsu'] at hx hv ⊢
  have hkpm : kp * (μ / kp) = μ := by field_simp
  have hgap : kp * (su' - x) = kp * (su + D - x) + μ := by
    have : kp * (su' - x) = kp * (su + D - x) + kp * (μ / kp) := by rw [hsu']; ring
    rw [this, hkpm]
  have hgap0 : 0 ≤ kp * (su' - x) := mul_nonneg hkp.le (by linarith)
  -- the bound that the limiter uses, and the one that holds of the true state
  obtain ⟨W, hW⟩ : ∃ W, W = min (vmax + μ) (kp * (su' - x)) := ⟨_, rfl⟩
  have hc : clamp vmax (-kp * (xr - su)) ≤ W - μ := by
    have h1 : -kp * (xr - su) ≤ kp * (su + D - x) := by
      have : kp * (su - xr) ≤ kp * (su + D - x) := mul_le_mul_of_nonneg_left (by linarith) hkp.le
      linarith
    refine (clamp_mono _ h1).trans ?_
    unfold clamp
    refine max_le ?_ ?_
    · rw [hW]
      have : 0 ≤ min (vmax + μ) (kp * (su' - x)) := le_min (by linarith) hgap0
      linarith
    · rw [hW]
      rcases le_total (vmax + μ) (kp * (su' - x)) with h | h
      · rw [min_eq_left h]; linarith [min_le_left vmax (kp * (su + D - x))]
      · rw [min_eq_right h]; linarith [min_le_right vmax (kp * (su + D - x))]
  have W0 : 0 ≤ W := by rw [hW]; exact le_min (by linarith) hgap0
  have W1 : W ≤ vmax + μ := by rw [hW]; exact min_le_left _ _
  have hvW : v ≤ 2 * W := by
    rw [hW]
    rcases le_total (vmax + μ) (kp * (su' - x)) with h | h
    · rw [min_eq_left h]; exact hv'
    · rw [min_eq_right h]; exact hv
  have hfG : f + G ≤ kv * (W - v) := by
    have h1 : f ≤ max (-E) (kv * (N + (W - μ) - v)) := by
      refine hf.trans ?_
      generalize clamp vmax (-kp * (xr - su)) = C at hc ⊢
      unfold clamp
      refine max_le_max (le_refl _) ((min_le_right _ _).trans ?_)
      rw [show -kv * (vr - C) = kv * (C - vr) by ring]
      exact mul_le_mul_of_nonneg_left (by linarith) hkv.le
    rcases le_max_iff.1 h1 with h | h
    · have h2 : kv * (v - W) ≤ kv * (vmax + μ) := mul_le_mul_of_nonneg_left (by linarith) hkv.le
      have h3 : kv * (vmax + μ) = kv * (vmax + N) + G := by rw [mul_add, kμ]; ring
      have h4 : kv * (W - v) = -(kv * (v - W)) := by ring
      linarith
    · have h2 : kv * (N + (W - μ) - v) = kv * (W - v) + kv * N - kv * μ := by ring
      rw [h2, kμ] at h
      linarith
  -- an unlimited limiter of the true state would allow as much
  obtain ⟨E', hE'⟩ : ∃ E', E' = max (kv * (vmax + μ)) |kv * (W - v)| := ⟨_, rfl⟩
  have hcl : clamp (vmax + μ) (-kp * (x - su')) = W := by
    rw [show -kp * (x - su') = kp * (su' - x) by ring, hW]
    unfold clamp
    exact max_eq_right (le_min (by linarith) (by linarith))
  have hfin : f + G ≤ clamp E' (-kv * (v - clamp (vmax + μ) (-kp * (x - su')))) := by
    rw [hcl, show -kv * (v - W) = kv * (W - v) by ring]
    refine hfG.trans ?_
    have h1 : |kv * (W - v)| ≤ E' := by rw [hE']; exact le_max_right _ _
    unfold clamp
    exact le_max_of_le_right (le_min ((le_abs_self _).trans h1) (le_refl _))
  obtain ⟨r1, r2, r3⟩ := closed_upper hkp.le hkv.le (by linarith : 0 ≤ vmax + μ) hm h0 hτ hd hs (by rw [hE']; exact le_max_left _ _) hx hv hv' hfin
  refine ⟨hx'.trans r1, hvv.trans (r2.trans ?_), hvv.trans r3⟩
  have := mul_le_mul_of_nonneg_left (show su' - posAfter m τ (f + G) x v ≤ su' - x' by linarith) hkp.le
  linarith

theorem Carried.bounds {m τ G f x v x' v' : F} (h : Carried m τ G f x v x' v') :
    posAfter m τ (f - G) x v ≤ x' ∧ x' ≤ posAfter m τ (f + G) x v ∧ velAfter m τ (f - G) v ≤ v' ∧ v' ≤ velAfter m τ (f + G) v := by
  obtain ⟨p1, p2⟩ := abs_le.1 h.pos
  obtain ⟨v1, v2⟩ := abs_le.1 h.vel
  have e1 : ∀ c : F, posAfter m τ (f + c) x v = posAfter m τ f x v + c / m * τ ^ 2 / 2 := fun c => by unfold posAfter; ring
  have e2 : ∀ c : F, velAfter m τ (f + c) v = velAfter m τ f v + c / m * τ := fun c => by unfold velAfter; ring
  rw [sub_eq_add_neg f G, e1, e1, e2, e2, neg_div, neg_mul, neg_mul, neg_div]
  exact ⟨by linarith, by linarith, by linarith, by linarith⟩

/-- One cycle. -/
theorem loaded_step {big : F} {s : JState F} {lim : JLimits F} {saf : JSafety F} {m dt τ D N G x v x' v' : F} (g : Guarded s.joint lim saf) (hp : s.posLimited)
    (hs : Withstands lim saf m dt D N G) (hb : s.InBounds big) (hx : |s.position - x| ≤ D) (hv : |s.velocity - v| ≤ N) (h : SafeUpTo lim saf D N G x v) (h0 : 0 ≤ τ) (hτ : τ ≤ dt)
    (hc : Carried m τ G s.commanded x v x' v') : SafeUpTo lim saf D N G x' v' := by
  obtain ⟨b1, b2⟩ := hb
  rw [getLimits_eq g, (velBounds_eq g).1 hp] at b1 b2
  dsimp only at b1 b2
  obtain ⟨f1, f2⟩ := abs_le.1 h.fast
  obtain ⟨x1, x2⟩ := abs_le.1 hx
  obtain ⟨v1, v2⟩ := abs_le.1 hv
  obtain ⟨c1, c2, c3, c4⟩ := hc.bounds
  have hup := h.up
  have hdn := h.down
  have hlo := h.lower
  have hhi := h.upper
  unfold SafeUpTo
  simp only [JLimits.faster, JSafety.wider, overshoot, overspeed] at f1 f2 hup hdn hlo hhi ⊢
  obtain ⟨u1, u2, u3⟩ := loaded_upper hs.kp hs.kv g.velocity hs.mass h0 hτ hs.damped hs.slow hs.errN hs.load hs.room hs.strong hhi hup f2 (by linarith : x - D ≤ s.position)
    (by linarith : v - N ≤ s.velocity) b2 c2 c4
  have b1' : -s.commanded ≤ clamp lim.effort (-saf.kVelocity * (-s.velocity - clamp lim.velocity (-saf.kPosition * (-s.position - -saf.softLower)))) := by
    have e : -saf.kVelocity * (-s.velocity - clamp lim.velocity (-saf.kPosition * (-s.position - -saf.softLower))) =
        -(-saf.kVelocity * (s.velocity - clamp lim.velocity (-saf.kPosition * (s.position - saf.softLower)))) := by
      rw [show -saf.kPosition * (-s.position - -saf.softLower) = -(-saf.kPosition * (s.position - saf.softLower)) by ring, clamp_neg _ _ g.velocity]
      ring
    rw [e, clamp_neg _ _ g.effort]
    linarith
  have eg : -s.commanded + G = -(s.commanded - G) := by ring
  obtain ⟨l1, l2, l3⟩ := loaded_upper (su := -saf.softLower) (D := D) (x := -x) (v := -v) (xr := -s.position) (vr := -s.velocity) (x' := -x') (v' := -v') hs.kp hs.kv g.velocity hs.mass h0 hτ
    hs.damped hs.slow hs.errN hs.load hs.room hs.strong (by linarith)
    (by rw [show ∀ a b c : F, -a + b - -c = c - (a - b) from fun a b c => by ring]; exact hdn) (by linarith) (by linarith) (by linarith) b1'
    (by rw [eg, posAfter_neg]; linarith) (by rw [eg, velAfter_neg]; linarith)
  rw [show ∀ a b c : F, -a + b - -c = c - (a - b) from fun a b c => by ring] at l2
  exact ⟨by linarith, u1, u2, l2, abs_le.2 ⟨by linarith, u3⟩⟩

/-- The speed limit, upper side. -/
theorem loaded_speed {kv vmax E m dt τ N G v b vr f v' : F} (hkv : 0 < kv) (hE : G ≤ E) (hm : 0 < m) (h0 : 0 ≤ τ) (hτ : τ ≤ dt) (hs : kv * dt ≤ m)
    (hv : v ≤ vmax + (N + G / kv)) (hb : b ≤ vmax) (hvr : v - N ≤ vr) (hf : f ≤ clamp E (-kv * (vr - b))) (hv' : v' ≤ velAfter m τ (f + G) v) : v' ≤ vmax + (N + G / kv) := by
  obtain ⟨μ, hμ⟩ : ∃ μ, μ = N + G / kv := ⟨_, rfl⟩
  rw [← hμ] at hv ⊢
  have kμ : kv * μ = kv * N + G := by rw [hμ]; field_simp
  have h1 : f + G ≤ kv * (vmax + μ - v) := by
    have e : kv * (vmax + μ - v) = kv * (vmax + N - v) + G := by
      have : kv * (vmax + μ - v) = kv * (vmax - v) + kv * μ := by ring
      rw [this, kμ]; ring
    have hvn : 0 ≤ kv * (vmax + μ - v) := mul_nonneg hkv.le (by linarith)
    unfold clamp at hf
    rcases le_max_iff.1 hf with h | h
    · linarith
    · have h2 : -kv * (vr - b) ≤ kv * (vmax + N - v) := by
        rw [show -kv * (vr - b) = kv * (b - vr) by ring]
        exact mul_le_mul_of_nonneg_left (by linarith) hkv.le
      have := h.trans (min_le_right _ _)
      linarith
  refine hv'.trans (closed_speed (E := |kv * (vmax + μ - v)|) (b := vmax + μ) hkv.le (abs_nonneg _) hm h0 hτ hs hv (le_refl _) ?_)
  refine h1.trans ?_
  rw [show -kv * (v - (vmax + μ)) = kv * (vmax + μ - v) by ring]
  unfold clamp
  exact le_max_of_le_right (le_min (le_abs_self _) (le_refl _))

theorem loaded_speed_step {big : F} {s : JState F} {lim : JLimits F} {saf : JSafety F} {m dt τ N G x v x' v' : F} (g : Guarded s.joint lim saf) (hkv : 0 < saf.kVelocity) (hG : G ≤ lim.effort)
    (hm : 0 < m) (hs : saf.kVelocity * dt ≤ m) (hb : s.InBounds big) (hv : |s.velocity - v| ≤ N) (h : |v| ≤ lim.velocity + overspeed saf N G) (h0 : 0 ≤ τ) (hτ : τ ≤ dt)
    (hc : Carried m τ G s.commanded x v x' v') : |v'| ≤ lim.velocity + overspeed saf N G := by
  obtain ⟨b1, b2⟩ := hb
  rw [getLimits_eq g] at b1 b2
  dsimp only at b1 b2
  obtain ⟨f1, f2⟩ := abs_le.1 h
  obtain ⟨w1, w3⟩ := velBounds_range g
  obtain ⟨v1, v2⟩ := abs_le.1 hv
  obtain ⟨_, _, c3, c4⟩ := hc.bounds
  have b1' : -s.commanded ≤ clamp lim.effort (-saf.kVelocity * (-s.velocity - -(s.velBounds lim saf).1)) := by
    rw [show -saf.kVelocity * (-s.velocity - -(s.velBounds lim saf).1) = -(-saf.kVelocity * (s.velocity - (s.velBounds lim saf).1)) by ring, clamp_neg _ _ g.effort]
    linarith
  unfold overspeed at f1 f2 ⊢
  have h1 := loaded_speed hkv hG hm h0 hτ hs f2 w3 (by linarith : v - N ≤ s.velocity) b2 c4
  have h2 := loaded_speed (v := -v) (v' := -v') hkv hG hm h0 hτ hs (by linarith) (show -(s.velBounds lim saf).1 ≤ lim.velocity by linarith) (by linarith : -v - N ≤ -s.velocity) b1'
    (by rw [show -s.commanded + G = -(s.commanded - G) by ring, velAfter_neg]; linarith)
  exact abs_le.2 ⟨by linarith, h1⟩

/-! ## All cycles -/

/-- **C113, position.**  `σ n` is a calibrated revolute or prismatic joint as it is read in cycle `n`, `X n` and `V n` are its true position and velocity.  In every cycle the controllers
command any effort `c n`; the joint moves under what the limiter makes of it, and under the load.  If it is safe (up to load and errors) at the beginning, it is safe in all cycles and at every
moment between them: it never leaves its soft limits by more than the error of the position plus (error of the velocity + load / velocity gain) / position gain. -/
theorem C113_stays_inside (big : F) {lim : JLimits F} {saf : JSafety F} {D N G : F} (σ : Nat → JState F) (X V c m dt : Nat → F) (g : Guarded (σ 0).joint lim saf) (hp : (σ 0).posLimited)
    (hσ : ∀ n, (σ n).joint = (σ 0).joint ∧ (σ n).calibrated = (σ 0).calibrated) (hread : ∀ n, |(σ n).position - X n| ≤ D ∧ |(σ n).velocity - V n| ≤ N)
    (hs : ∀ n, Withstands lim saf (m n) (dt n) D N G)
    (hm : ∀ n, Carried (m n) (dt n) G (JState.enforceLimits big { σ n with commanded := c n }).commanded (X n) (V n) (X (n + 1)) (V (n + 1)))
    (h0 : SafeUpTo lim saf D N G (X 0) (V 0)) (n : Nat) (τ x v : F) (hτ0 : 0 ≤ τ) (hτ : τ ≤ dt n)
    (hx : Carried (m n) τ G (JState.enforceLimits big { σ n with commanded := c n }).commanded (X n) (V n) x v) : SafeUpTo lim saf D N G x v := by
  have stp : ∀ n τ x v, 0 ≤ τ → τ ≤ dt n → SafeUpTo lim saf D N G (X n) (V n) →
      Carried (m n) τ G (JState.enforceLimits big { σ n with commanded := c n }).commanded (X n) (V n) x v → SafeUpTo lim saf D N G x v := by
    intro n τ x v h1 h2 h3 h4
    obtain ⟨i1, i2⟩ := hσ n
    have g' : Guarded ({ σ n with commanded := c n } : JState F).joint lim saf := by rw [← i1] at g; exact g
    exact loaded_step (big := big) (s := JState.enforceLimits big { σ n with commanded := c n }) g' (by
      obtain ⟨q1, q2⟩ := hp
      exact ⟨i2.trans q1, by change (σ n).joint.type = _ ∨ (σ n).joint.type = _; rw [i1]; exact q2⟩) (hs n) (enforced_inBounds big g') (hread n).1 (hread n).2 h3 h1 h2 h4
  have key : ∀ n, SafeUpTo lim saf D N G (X n) (V n) := by
    intro n
    induction n with
    | zero => exact h0
    | succ n ih => exact stp n _ _ _ (hs n).time (le_refl _) ih (hm n)
  exact stp n τ x v hτ0 hτ (key n) hx

omit [IsStrictOrderedRing F] in
/-- **C113, hard limits.**  So if the hard limits are further away than that, the joint never reaches them. -/
theorem C113_hard {lim : JLimits F} {saf : JSafety F} {D N G x v : F} (h : SafeUpTo lim saf D N G x v) (hl : lim.lower ≤ saf.softLower - overshoot saf D N G)
    (hu : saf.softUpper + overshoot saf D N G ≤ lim.upper) : lim.lower ≤ x ∧ x ≤ lim.upper :=
  ⟨hl.trans h.lower, h.upper.trans hu⟩

/-- **C113, speed.**  Any joint with limits and safety parameters, calibrated or not: it never exceeds its speed limit by more than the error of the velocity plus load / velocity gain. -/
theorem C113_speed (big : F) {lim : JLimits F} {saf : JSafety F} {N G : F} (σ : Nat → JState F) (X V c m dt : Nat → F) (g : Guarded (σ 0).joint lim saf)
    (hσ : ∀ n, (σ n).joint = (σ 0).joint) (hread : ∀ n, |(σ n).velocity - V n| ≤ N) (hkv : 0 < saf.kVelocity) (hG : G ≤ lim.effort)
    (hs : ∀ n, 0 < m n ∧ 0 ≤ dt n ∧ saf.kVelocity * dt n ≤ m n)
    (hm : ∀ n, Carried (m n) (dt n) G (JState.enforceLimits big { σ n with commanded := c n }).commanded (X n) (V n) (X (n + 1)) (V (n + 1)))
    (h0 : |V 0| ≤ lim.velocity + overspeed saf N G) (n : Nat) (τ x v : F) (hτ0 : 0 ≤ τ) (hτ : τ ≤ dt n)
    (hx : Carried (m n) τ G (JState.enforceLimits big { σ n with commanded := c n }).commanded (X n) (V n) x v) : |v| ≤ lim.velocity + overspeed saf N G := by
  have stp : ∀ n τ x v, 0 ≤ τ → τ ≤ dt n → |V n| ≤ lim.velocity + overspeed saf N G →
      Carried (m n) τ G (JState.enforceLimits big { σ n with commanded := c n }).commanded (X n) (V n) x v → |v| ≤ lim.velocity + overspeed saf N G := by
    intro n τ x v h1 h2 h3 h4
    have g' : Guarded ({ σ n with commanded := c n } : JState F).joint lim saf := by rw [← hσ n] at g; exact g
    exact loaded_speed_step (big := big) (s := JState.enforceLimits big { σ n with commanded := c n }) g' hkv hG (hs n).1 (hs n).2.2 (enforced_inBounds big g') (hread n) h3 h1 h2 h4
  have key : ∀ n, |V n| ≤ lim.velocity + overspeed saf N G := by
    intro n
    induction n with
    | zero => exact h0
    | succ n ih => exact stp n _ _ _ (hs n).2.1 (le_refl _) ih (hm n)
  exact stp n τ x v hτ0 hτ (key n) hx

/-- **C113, the overshoot is attained.**  A joint at rest beyond its soft limit by load / (position gain * velocity gain) stays there for ever, held by the load, whatever is commanded that is not
below the load. -/
theorem C113_attained (big : F) {s : JState F} {lim : JLimits F} {saf : JSafety F} {G m dt : F} (g : Guarded s.joint lim saf) (hp : s.posLimited) (hs : Withstands lim saf m dt 0 0 G)
    (hx : s.position = saf.softUpper + G / (saf.kPosition * saf.kVelocity)) (hv : s.velocity = 0) (hc : -G ≤ s.commanded) :
    s.position = saf.softUpper + overshoot saf 0 0 G ∧ SafeUpTo lim saf 0 0 G s.position s.velocity ∧
      Carried m dt G (s.enforceLimits big).commanded s.position s.velocity s.position s.velocity := by
  have kp := hs.kp
  have kv := hs.kv
  have e0 : overshoot saf 0 0 G = G / (saf.kPosition * saf.kVelocity) := by unfold overshoot overspeed; field_simp; ring
  have ep : -saf.kPosition * (s.position - saf.softUpper) = -(G / saf.kVelocity) := by rw [hx]; field_simp; ring
  have hGv : G / saf.kVelocity ≤ lim.velocity := by
    rw [div_le_iff₀ kv]; have := hs.room; linarith
  have hG0 : 0 ≤ G / saf.kVelocity := div_nonneg hs.load kv.le
  have hGE : G ≤ lim.effort := by
    have h1 := hs.strong
    have h2 : 0 ≤ saf.kVelocity * (lim.velocity + 0) := mul_nonneg kv.le (by linarith [g.velocity])
    linarith [hs.load]
  have eb : (s.velBounds lim saf).2 = -(G / saf.kVelocity) := by
    rw [(velBounds_eq g).1 hp]
    dsimp only
    rw [ep]
    unfold clamp
    rw [min_eq_right (by linarith), max_eq_right (by linarith)]
  have eu : (s.getLimits big).2 = -G := by
    rw [getLimits_eq g]
    dsimp only
    rw [eb, hv, show -saf.kVelocity * (0 - -(G / saf.kVelocity)) = -G by field_simp; ring]
    unfold clamp
    rw [min_eq_right (by linarith [hs.load]), max_eq_right (by linarith)]
  have ec : (s.enforceLimits big).commanded = -G := by
    rw [enforce_eq, eu]
    exact min_eq_right (hc.trans (le_max_left _ _))
  have hov : 0 ≤ overshoot saf 0 0 G := by rw [e0]; exact div_nonneg hs.load (mul_pos kp kv).le
  refine ⟨by rw [e0, hx], ?_, ?_⟩
  · have e1 : s.position = saf.softUpper + overshoot saf 0 0 G := by rw [e0, hx]
    have hsp : 0 ≤ overspeed saf 0 G := by unfold overspeed; linarith
    have := g.soft
    refine ⟨?_, ?_, ?_, ?_, ?_⟩
    · change saf.softLower - overshoot saf 0 0 G ≤ _; linarith
    · change _ ≤ saf.softUpper + overshoot saf 0 0 G; linarith
    · change _ ≤ 2 * (saf.kPosition * (saf.softUpper + overshoot saf 0 0 G - s.position)); rw [e1, hv]; simp
    · change _ ≤ 2 * (saf.kPosition * (s.position - (saf.softLower - overshoot saf 0 0 G)))
      rw [hv]
      have : 0 ≤ saf.kPosition * (s.position - (saf.softLower - overshoot saf 0 0 G)) := mul_nonneg kp.le (by linarith)
      linarith
    · change |s.velocity| ≤ 2 * (lim.velocity + overspeed saf 0 G)
      rw [hv, abs_zero]; linarith [g.velocity]
  · rw [ec, hv]
    have a1 : 0 ≤ G / m := div_nonneg hs.load hs.mass.le
    constructor
    · have : s.position - posAfter m dt (-G) s.position 0 = G / m * dt ^ 2 / 2 := by unfold posAfter; rw [neg_div]; ring
      rw [this, abs_of_nonneg (by positivity)]
    · have : (0 : F) - velAfter m dt (-G) 0 = G / m * dt := by unfold velAfter; rw [neg_div]; ring
      rw [this, abs_of_nonneg (mul_nonneg a1 hs.time)]

/-! ## The whole robot, from the description to the motors -/

variable [FLit F] [iTrig : FTrig F]

/-- From cycle `n0` on, joint `jn` of the robot is at `X n` with velocity `V n` when cycle `n` begins, it is read with errors of at most `D` and `N`, and moves until the next cycle under the effort that has been sent and a
load of at most `G`. -/
structure Plant.JointCarried (p : Plant F) (n0 : Nat) (jn : String) (D N G : F) (X V m dt : Nat → F) : Prop where
  read : ∀ n r j, n0 ≤ n → p.cycles[n]? = some r → r.sent.Joint jn j → |j.position - X n| ≤ D ∧ |j.velocity - V n| ≤ N
  move : ∀ n r j, n0 ≤ n → p.cycles[n]? = some r → n + 1 < p.cycles.length → r.sent.Joint jn j → Carried (m n) (dt n) G j.commanded (X n) (V n) (X (n + 1)) (V (n + 1))

/-- **C113, the whole robot.**  Whatever is loaded, unloaded and switched and whatever the controllers command. -/
theorem C113_robot {big : F} {sim : Bool} {d : RtData F} (hd : d.Good) {p : Plant F} (h : Plant.Reach big sim d PlantIn.Tame p) {n0 : Nat} {jn : String} {u : UJoint F}
    (found : ∀ r ∈ p.cycles, ∃ j, r.sent.Joint jn j) (desc : ∀ r ∈ p.cycles, ∀ j, r.sent.Joint jn j → j.joint = u)
    (cal : ∀ n r j, n0 ≤ n → p.cycles[n]? = some r → r.sent.Joint jn j → j.calibrated = true)
    {lim : JLimits F} {saf : JSafety F} (g : Guarded u lim saf) (hty : u.type = .revolute ∨ u.type = .prismatic)
    {D N G : F} {X V m dt : Nat → F} (hs : ∀ n, Withstands lim saf (m n) (dt n) D N G) (hm : p.JointCarried n0 jn D N G X V m dt) (h0 : SafeUpTo lim saf D N G (X n0) (V n0))
    (n : Nat) (r : CycleRec F) (j : JState F) (hn : n0 ≤ n) (hr : p.cycles[n]? = some r) (hj : r.sent.Joint jn j) (τ x v : F) (hτ0 : 0 ≤ τ) (hτ : τ ≤ dt n)
    (hx : Carried (m n) τ G j.commanded (X n) (V n) x v) : SafeUpTo lim saf D N G x v := by
  have stp : ∀ n r j, n0 ≤ n → p.cycles[n]? = some r → r.sent.Joint jn j → SafeUpTo lim saf D N G (X n) (V n) → ∀ τ x v, 0 ≤ τ → τ ≤ dt n →
      Carried (m n) τ G j.commanded (X n) (V n) x v → SafeUpTo lim saf D N G x v := by
    intro n r j hn hr hj hsf τ x v h1 h2 h3
    have hmem := List.mem_of_getElem? hr
    have e := desc r hmem j hj
    have g' : Guarded j.joint lim saf := by rw [e]; exact g
    exact loaded_step g' ⟨cal n r j hn hr hj, by rw [e]; exact hty⟩ (hs n) (sent_bounds hd h hmem hj g') (hm.read n r j hn hr hj).1 (hm.read n r j hn hr hj).2 hsf h1 h2 h3
  have key : ∀ k, n0 + k < p.cycles.length → SafeUpTo lim saf D N G (X (n0 + k)) (V (n0 + k)) := by
    intro k
    induction k with
    | zero => exact fun _ => h0
    | succ k ih =>
      intro hk
      have hlt : n0 + k < p.cycles.length := by omega
      have hr' := List.getElem?_eq_getElem hlt
      obtain ⟨j1, hj1⟩ := found _ (List.mem_of_getElem? hr')
      exact stp (n0 + k) _ j1 (by omega) hr' hj1 (ih hlt) _ _ _ (hs _).time (le_refl _) (hm.move (n0 + k) _ j1 (by omega) hr' (by omega) hj1)
  have hlt := (List.getElem?_eq_some_iff.1 hr).1
  refine stp n r j hn hr hj ?_ τ x v hτ0 hτ hx
  have := key (n - n0) (by omega)
  rwa [show n0 + (n - n0) = n by omega] at this

/-- From cycle `n0` on, motor `an` is at `Q n` with velocity `W n` when cycle `n` begins, it is read with errors of at most `D` and `N`, and moves until the next cycle under the effort it has been sent and a load of at
most `G`. -/
structure Plant.MotorCarried (p : Plant F) (n0 : Nat) (an : String) (D N G : F) (Q W I dt : Nat → F) : Prop where
  read : ∀ n r a, n0 ≤ n → p.cycles[n]? = some r → r.entry.Motor an a → |a.position - Q n| ≤ D ∧ |a.velocity - W n| ≤ N
  move : ∀ n r a, n0 ≤ n → p.cycles[n]? = some r → n + 1 < p.cycles.length → r.sent.Motor an a → Carried (I n) (dt n) G a.effort (Q n) (W n) (Q (n + 1)) (W (n + 1))

/-- A motor's motion, at the joint. -/
theorem Carried.gear {I τ G c q v q' v' k ρ : F} (hI : I ≠ 0) (hk : k ≠ 0) (h : Carried I τ G (c / k) q v q' v') :
    Carried (I * k ^ 2) τ (G * |k|) c (q / k + ρ) (v / k) (q' / k + ρ) (v' / k) := by
  have hk' : |k| ≠ 0 := abs_ne_zero.2 hk
  have e : k ^ 2 = |k| ^ 2 := (sq_abs k).symm
  constructor
  · have e1 : q' / k + ρ - posAfter (I * k ^ 2) τ c (q / k + ρ) (v / k) = (q' - posAfter I τ (c / k) q v) / k := by
      rw [← simple_pos (ρ := ρ) hI hk]; ring
    rw [e1, abs_div, e]
    refine (div_le_div_of_nonneg_right h.pos (abs_nonneg k)).trans (le_of_eq ?_)
    field_simp
  · have e1 : v' / k - velAfter (I * k ^ 2) τ c (v / k) = (v' - velAfter I τ (c / k) v) / k := by
      rw [← simple_vel hI hk]; ring
    rw [e1, abs_div, e]
    refine (div_le_div_of_nonneg_right h.vel (abs_nonneg k)).trans (le_of_eq ?_)
    field_simp

variable [Parse F]
variable {l : TransLoader F} {urdf : Xml → Option (String → Option (UJoint F))} {root : Xml} {joint : String → Option (UJoint F)} {acts : List (Actuator F)}
  {ts : List (Trans F)} {s0 : RState F} {t : Trans F} {x : Xml}

/-- The motor's motion, at the joint. -/
theorem Plant.MotorCarried.atJoint (h : Loaded l urdf root joint acts ts s0) (hm : (ts.flatMap (·.actNames)).Nodup) {big : F} {sim : Bool} {d : RtData F} (hs : Later s0 d.robot)
    {p : Plant F} (hp : Plant.Reach big sim d PlantIn.Mannered p) (ht : t ∈ ts) {t0 : SimpleT F} (hd : Described (.simple t0) x joint acts t)
    {jel ael mel : Xml} {jn an red : String} (h1 : x.FirstChild "joint" jel) (h2 : jel.Says "name" jn) (h3 : x.FirstChild "actuator" ael) (h4 : ael.Says "name" an)
    (h5 : ReductionElement x ael mel) (h6 : mel.text = some red) {k : F} (hk : k = Parse.atof red) (hk0 : k ≠ 0) {n0 : Nat} {ρ ρ0 R : F} (hc : p.CalibratedFrom n0 jn ρ) (hρ : |ρ - ρ0| ≤ R)
    {D N G : F} {Q W I dt : Nat → F} (hI : ∀ n, 0 < I n) (hmv : p.MotorCarried n0 an D N G Q W I dt) :
    p.JointCarried n0 jn (D / |k| + R) (N / |k|) (G * |k|) (fun n => Q n / k + ρ0) (fun n => W n / k) (fun n => I n * k ^ 2) dt := by
  subst hk
  have cyc := fun r (hr : r ∈ p.cycles) => C98_simple_cycle h hm hs hp hr ht hd h1 h2 h3 h4 h5 h6
  generalize (Parse.atof red : F) = k at *
  constructor
  · intro n r j hn hr hj
    obtain ⟨a0, i, b, j', c1, c2, c3, c4, c5, c6, c7, _⟩ := cyc r (List.mem_of_getElem? hr)
    cases hj.unique c4
    obtain ⟨e1, e2⟩ := hmv.read n r a0 hn hr c1
    rw [c6, c7, (hc n r hn hr).1 i c2]
    constructor
    · have e : a0.position / k + ρ - (Q n / k + ρ0) = (a0.position - Q n) / k + (ρ - ρ0) := by ring
      rw [e]
      refine (abs_add_le _ _).trans (add_le_add ?_ hρ)
      rw [abs_div]; exact div_le_div_of_nonneg_right e1 (abs_nonneg k)
    · have e : a0.velocity / k - W n / k = (a0.velocity - W n) / k := by ring
      rw [e, abs_div]; exact div_le_div_of_nonneg_right e2 (abs_nonneg k)
  · intro n r j hn hr hl hj
    obtain ⟨a0, i, b, j', c1, c2, c3, c4, c5, c6, c7, c8, c9, c10, c11⟩ := cyc r (List.mem_of_getElem? hr)
    cases hj.unique c4
    have := hmv.move n r b hn hr hl c3
    rw [c11] at this
    exact this.gear (hI n).ne' hk0

/-- **C113, from the description to the motors.**  The joint of a simple transmission of a robot loaded from its description.  The motor is read with errors, it is loaded, and the joint's reference position, which the calibration has
found, is off by at most `R`.  Then the joint stays inside the described soft limits, up to the load and the errors, at all times from cycle `n0` on. -/
theorem C113_simple (h : Loaded l urdf root joint acts ts s0) (hm : (ts.flatMap (·.actNames)).Nodup) {big : F} {sim : Bool} {d : RtData F} (hg : d.Good) (hs : Later s0 d.robot)
    {p : Plant F} (hp : Plant.Reach big sim d PlantIn.Mannered p) (ht : t ∈ ts) {t0 : SimpleT F} (hd : Described (.simple t0) x joint acts t)
    {jel ael mel : Xml} {jn an red : String} (h1 : x.FirstChild "joint" jel) (h2 : jel.Says "name" jn) (h3 : x.FirstChild "actuator" ael) (h4 : ael.Says "name" an)
    (h5 : ReductionElement x ael mel) (h6 : mel.text = some red) {k : F} (hk : k = Parse.atof red) (hk0 : k ≠ 0) {u : UJoint F} (hu : joint jn = some u) {lim : JLimits F} {saf : JSafety F}
    (g : Guarded u lim saf) (hty : u.type = .revolute ∨ u.type = .prismatic) {n0 : Nat} {ρ ρ0 R : F} (hc : p.CalibratedFrom n0 jn ρ) (hρ : |ρ - ρ0| ≤ R) {D N G : F} {Q W I dt : Nat → F}
    (hmv : p.MotorCarried n0 an D N G Q W I dt) (hI : ∀ n, 0 < I n) (hsu : ∀ n, Withstands lim saf (I n * k ^ 2) (dt n) (D / |k| + R) (N / |k|) (G * |k|))
    (h0 : SafeUpTo lim saf (D / |k| + R) (N / |k|) (G * |k|) (Q n0 / k + ρ0) (W n0 / k))
    (n : Nat) (r : CycleRec F) (a : Actuator F) (hn : n0 ≤ n) (hr : p.cycles[n]? = some r) (ha : r.sent.Motor an a) (τ q w : F) (hτ0 : 0 ≤ τ) (hτ : τ ≤ dt n)
    (hq : Carried (I n) τ G a.effort (Q n) (W n) q w) : SafeUpTo lim saf (D / |k| + R) (N / |k|) (G * |k|) (q / k + ρ0) (w / k) := by
  have jc := hmv.atJoint h hm hs hp ht hd h1 h2 h3 h4 h5 h6 hk hk0 hc hρ hI
  have cyc := fun r (hr : r ∈ p.cycles) => C98_simple_cycle h hm hs hp hr ht hd h1 h2 h3 h4 h5 h6
  rw [← hk] at cyc
  obtain ⟨a0, i, b, j, c1, c2, c3, c4, c5, c6, c7, c8, c9, c10, c11⟩ := cyc r (List.mem_of_getElem? hr)
  cases ha.unique c3
  rw [c11] at hq
  refine C113_robot hg (hp.mono fun i hi => hi.tame) ?_ ?_ (fun n r j hn hr hj => (hc n r hn hr).2 j hj) g hty hsu jc h0 n r j hn hr c4 τ _ _ hτ0 hτ (hq.gear (hI n).ne' hk0)
  · intro r hr
    obtain ⟨_, _, _, j', _, _, _, e, _⟩ := cyc r hr
    exact ⟨j', e⟩
  · intro r hr j hj
    obtain ⟨_, _, _, j', _, _, _, e, e2, _⟩ := cyc r hr
    cases hj.unique e
    rw [hu] at e2; exact (Option.some.inj e2).symm

/-! ## The PR2 -/

/-- Loads, at the joint, that the joints of C99's table withstand (newton metres). -/
def pr2Loads : List (String × ℚ) := [
  ("head_tilt_joint", 7 / 2), ("laser_tilt_mount_joint", 7 / 100), ("r_upper_arm_roll_joint", 6), ("r_shoulder_pan_joint", 4), ("r_shoulder_lift_joint", 4), ("r_elbow_flex_joint", 9),
  ("l_upper_arm_roll_joint", 6), ("l_shoulder_pan_joint", 4), ("l_shoulder_lift_joint", 4), ("l_elbow_flex_joint", 9)]

theorem pr2Loads_all : pr2Loads.map (·.1) = pr2Guards.map (·.1) := by decide +kernel
theorem pr2Loads_file : ∀ g ∈ pr2Guards, ∀ e ∈ pr2Loads, e.1 = g.1 → 0 < g.2.2.kPosition ∧ 0 < g.2.2.kVelocity ∧ g.2.2.kVelocity * (1 / 50) + e.2 ≤ g.2.2.kVelocity * g.2.1.velocity ∧
    g.2.2.kVelocity * (g.2.1.velocity + 1 / 50) + 2 * e.2 ≤ g.2.1.effort ∧ g.2.1.lower ≤ g.2.2.softLower - (1 / 100 + (1 / 50 + e.2 / g.2.2.kVelocity) / g.2.2.kPosition) ∧
    g.2.2.softUpper + (1 / 100 + (1 / 50 + e.2 / g.2.2.kVelocity) / g.2.2.kPosition) ≤ g.2.1.upper := by decide +kernel

variable {new : Nat → NewTrans F}

/-- **C113, the PR2.**  On the robot of the completed description, a joint of the table - head tilt, laser tilt, and of both arms shoulder pan and lift, upper arm roll and elbow - that is safe in some cycle
never reaches a hard limit that the file states from then on, whatever controllers command, if the load at the joint is at most that of the table, the joint's position (with the calibration) is read to a hundredth of a radian and its
velocity to a fiftieth of a radian per second, and its inertia is at least `k_velocity` times the length of the cycle and at most `k_velocity / (4 k_position)`. -/
theorem C113_pr2 (hlit : ∀ q : ℚ, (FLit.lit q : F) = q) (hd : ReadsDecimals F) (hu : ReadsUrdf urdf pr2Complete joint) (hm : ∀ r ∈ pr2Rows, ∀ m ∈ r.motors, ∃ a ∈ acts, a.name = m)
    (h : Loaded (pluginLoader new) urdf pr2Complete joint acts (pr2Trans new) s0) {big : F} {sim : Bool} {d : RtData F} (hg : d.Good) (hs : Later s0 d.robot)
    {p : Plant F} (hp : Plant.Reach big sim d PlantIn.Mannered p) {n an jn red : String} (hr : Row.simple n an jn red ∈ pr2Rows) {lim : JLimits ℚ} {saf : JSafety ℚ} (hgd : (jn, lim, saf) ∈ pr2Guards)
    {L : ℚ} (hL : (jn, L) ∈ pr2Loads) {k : ℚ} (hk : decimal red = some k) {n0 : Nat} {ρ ρ0 R : F} (hc : p.CalibratedFrom n0 jn ρ) (hρ : |ρ - ρ0| ≤ R) {D N G : F} {Q W I dt : Nat → F}
    (hmv : p.MotorCarried n0 an D N G Q W I dt) (hI : ∀ n, 0 < I n) (hdt : ∀ n, 0 ≤ dt n) (hD0 : 0 ≤ D) (hN0 : 0 ≤ N) (hG0 : 0 ≤ G)
    (hD : D / |(k : F)| + R ≤ 1 / 100) (hN : N / |(k : F)| ≤ 1 / 50) (hG : G * |(k : F)| ≤ L)
    (hheavy : ∀ n, (saf.kVelocity : F) * dt n ≤ I n * (k : F) ^ 2) (hlight : ∀ n, 4 * (I n * (k : F) ^ 2) * (saf.kPosition : F) ≤ saf.kVelocity)
    (h0 : SafeUpTo (lim.cast : JLimits F) saf.cast (D / |(k : F)| + R) (N / |(k : F)|) (G * |(k : F)|) (Q n0 / k + ρ0) (W n0 / k))
    (i : Nat) (r : CycleRec F) (a : Actuator F) (hi : n0 ≤ i) (hri : p.cycles[i]? = some r) (ha : r.sent.Motor an a) (τ q w : F) (hτ0 : 0 ≤ τ) (hτ : τ ≤ dt i)
    (hq : Carried (I i) τ G a.effort (Q i) (W i) q w) : (lim.lower : F) ≤ q / k + ρ0 ∧ q / k + ρ0 ≤ (lim.upper : F) := by
  obtain ⟨u, hju, hgu, hty⟩ := guards_joint hlit hu hgd
  obtain ⟨idx, ht, hde⟩ := complete_described (new := new) hd hu hm hr
  obtain ⟨q', hq', hq0⟩ := pr2_reductions _ hr red (by simp [Row.reductions])
  rw [hk] at hq'; cases hq'
  have hk0 : (k : F) ≠ 0 := by exact_mod_cast hq0
  obtain ⟨p1, p2, p3, p4, p5, p6⟩ := pr2Loads_file _ hgd _ hL rfl
  dsimp only at p1 p2 p3 p4 p5 p6
  have R0 : 0 ≤ R := (abs_nonneg _).trans hρ
  have q1 : (0 : F) < saf.kPosition := by exact_mod_cast p1
  have q2 : (0 : F) < saf.kVelocity := by exact_mod_cast p2
  have q3 : (saf.kVelocity : F) * (1 / 50) + L ≤ saf.kVelocity * lim.velocity := by
    have := (Rat.cast_le (K := F)).2 p3
    push_cast at this; exact this
  have q4 : (saf.kVelocity : F) * (lim.velocity + 1 / 50) + 2 * L ≤ lim.effort := by
    have := (Rat.cast_le (K := F)).2 p4
    push_cast at this; exact this
  have q5 : (lim.lower : F) ≤ saf.softLower - (1 / 100 + (1 / 50 + (L : F) / saf.kVelocity) / saf.kPosition) := by
    have := (Rat.cast_le (K := F)).2 p5
    push_cast at this; exact this
  have q6 : (saf.softUpper : F) + (1 / 100 + (1 / 50 + (L : F) / saf.kVelocity) / saf.kPosition) ≤ lim.upper := by
    have := (Rat.cast_le (K := F)).2 p6
    push_cast at this; exact this
  have kN : (saf.kVelocity : F) * (N / |(k : F)|) ≤ saf.kVelocity * (1 / 50) := mul_le_mul_of_nonneg_left hN q2.le
  have dk : 0 ≤ D / |(k : F)| + R := add_nonneg (div_nonneg hD0 (abs_nonneg _)) R0
  have nk : 0 ≤ N / |(k : F)| := div_nonneg hN0 (abs_nonneg _)
  have gk : 0 ≤ G * |(k : F)| := mul_nonneg hG0 (abs_nonneg _)
  have := C113_simple h (by rw [(complete_ts new).2]; decide +kernel) hg hs hp ht hde (firstChild _ _ _ rfl) (saysOf _ _ _ rfl) (firstChild _ _ _ rfl) (saysOf _ _ _ rfl)
    (Or.inr ⟨(first_none _ _).1 rfl, firstChild _ _ _ rfl⟩) rfl (k := (k : F)) (by rw [hd.atof red k hk, hlit]) hk0 hju hgu (Or.inl hty) hc hρ hmv hI
    (fun n => ⟨mul_pos (hI n) (lt_of_le_of_ne (sq_nonneg _) (pow_ne_zero 2 hk0).symm), hdt n, q1, q2, hlight n, hheavy n, dk, nk, gk,
      by change (saf.kVelocity : F) * _ + _ ≤ saf.kVelocity * lim.velocity; linarith,
      by change (saf.kVelocity : F) * (lim.velocity + _) + _ ≤ lim.effort; rw [mul_add] at q4 ⊢; linarith⟩) h0 i r a hi hri ha τ q w hτ0 hτ hq
  have hov : overshoot (saf.cast : JSafety F) (D / |(k : F)| + R) (N / |(k : F)|) (G * |(k : F)|) ≤ 1 / 100 + (1 / 50 + (L : F) / saf.kVelocity) / saf.kPosition := by
    change D / |(k : F)| + R + (N / |(k : F)| + G * |(k : F)| / saf.kVelocity) / saf.kPosition ≤ _
    gcongr
  exact C113_hard this (by change (lim.lower : F) ≤ saf.softLower - _; linarith) (by change (saf.softUpper : F) + _ ≤ lim.upper; linarith)

end exact

/-! ## Motions -/

/-- A motion in real time: from time 0 on position and velocity have derivatives, and the acceleration differs from what the effort alone causes by what a load of size at most `G`
causes.  Then the motion is `Carried`. -/
theorem carried_of_motion {m G f T : ℝ} (hm : 0 < m) {x v a : ℝ → ℝ} (hx : ∀ t, 0 ≤ t → t ≤ T → HasDerivAt x (v t) t) (hv : ∀ t, 0 ≤ t → t ≤ T → HasDerivAt v (a t) t)
    (hG : ∀ t, 0 ≤ t → t ≤ T → |m * a t - f| ≤ G) {τ : ℝ} (h0 : 0 ≤ τ) (hτ : τ ≤ T) : Carried m τ G f (x 0) (v 0) (x τ) (v τ) := by
  have ha : ∀ t, 0 ≤ t → t ≤ T → |a t - f / m| ≤ G / m := by
    intro t h1 h2
    have e : a t - f / m = (m * a t - f) / m := by field_simp
    rw [e, abs_div, abs_of_pos hm]
    exact div_le_div_of_nonneg_right (hG t h1 h2) hm.le
  have vel : ∀ t, 0 ≤ t → t ≤ T → |v t - velAfter m t f (v 0)| ≤ G / m * t := by
    intro t h1 h2
    have := norm_image_sub_le_of_norm_deriv_le_segment' (f := fun s => v s - f / m * s) (f' := fun s => a s - f / m) (a := 0) (b := t) (C := G / m)
      (fun s hs => ((hv s hs.1 (hs.2.trans h2)).sub (by simpa using (hasDerivAt_id s).const_mul (f / m))).hasDerivWithinAt)
      (fun s hs => by rw [Real.norm_eq_abs]; exact ha s hs.1 (hs.2.le.trans h2)) t ⟨h1, le_refl _⟩
    rw [Real.norm_eq_abs] at this
    have e : v t - velAfter m t f (v 0) = v t - f / m * t - (v 0 - f / m * 0) := by unfold velAfter; ring
    rw [e, show G / m * t = G / m * (t - 0) by ring]
    exact this
  refine ⟨?_, vel τ h0 hτ⟩
  have hB : ∀ s : ℝ, HasDerivAt (fun s => G / m * s ^ 2 / 2) (G / m * s) s := by
    intro s
    have := ((hasDerivAt_pow 2 s).const_mul (G / m)).div_const 2
    refine this.congr_deriv ?_
    push_cast; ring
  have hD : ∀ s, 0 ≤ s → s ≤ T → HasDerivAt (fun s => x s - posAfter m s f (x 0) (v 0)) (v s - velAfter m s f (v 0)) s := by
    intro s h1 h2
    unfold posAfter velAfter
    refine (hx s h1 h2).sub ?_
    have h3 : HasDerivAt (fun s : ℝ => x 0 + v 0 * s + f / m * s ^ 2 / 2) (0 + v 0 * 1 + f / m * (((2 : ℕ) : ℝ) * s ^ (2 - 1)) / 2) s :=
      ((hasDerivAt_const s (x 0)).add ((hasDerivAt_id s).const_mul (v 0))).add (((hasDerivAt_pow 2 s).const_mul (f / m)).div_const 2)
    refine h3.congr_deriv ?_
    push_cast; ring
  have := image_norm_le_of_norm_deriv_right_le_deriv_boundary (f := fun s => x s - posAfter m s f (x 0) (v 0)) (f' := fun s => v s - velAfter m s f (v 0)) (a := 0) (b := τ)
    (B := fun s => G / m * s ^ 2 / 2) (B' := fun s => G / m * s)
    (fun s hs => (hD s hs.1 (hs.2.trans hτ)).continuousAt.continuousWithinAt)
    (fun s hs => (hD s hs.1 (hs.2.le.trans hτ)).hasDerivWithinAt) (by simp [posAfter]) hB
    (fun s hs => by rw [Real.norm_eq_abs]; exact vel s hs.1 (hs.2.le.trans hτ)) (x := τ) ⟨h0, le_refl _⟩
  rwa [Real.norm_eq_abs] at this

/-! ## Examples -/

section examples
attribute [local instance] exactCmp demoTrig demoLit

/-- What the encoder says: a hundredth less, a tenth slower. -/
def misread (s : JState ℚ) : JState ℚ := { s with position := s.position - 1/100, velocity := s.velocity - 1/10 }
/-- The joint of C93's example (soft limits 1/10 and 19/10) some cycles later, if a load of 2 pulls it up, the readings are wrong and the controllers always command 30. -/
def pulled : Nat → JState ℚ
  | 0 => lightState
  | n + 1 =>
    let f := (JState.enforceLimits 1000 { misread (pulled n) with commanded := 30 }).commanded
    { pulled n with position := posAfter (1/20) (1/100) (f + 2) (pulled n).position (pulled n).velocity, velocity := velAfter (1/20) (1/100) (f + 2) (pulled n).velocity }

theorem light_withstands : Withstands (F := ℚ) ⟨0, 2, 30, 3⟩ ⟨1/10, 19/10, 20, 4⟩ (1/20) (1/100) (1/100) (1/10) 2 := by
  refine ⟨?_, ?_, ?_, ?_, ?_, ?_, ?_, ?_, ?_, ?_, ?_⟩ <;> norm_num

theorem carried_const {m τ G f x v : ℚ} (hm : 0 < m) (hG : 0 ≤ G) (ht : 0 ≤ τ) : Carried m τ G f x v (posAfter m τ (f + G) x v) (velAfter m τ (f + G) v) := by
  have a : 0 ≤ G / m := div_nonneg hG hm.le
  constructor
  · rw [show posAfter m τ (f + G) x v - posAfter m τ f x v = G / m * τ ^ 2 / 2 by unfold posAfter; ring, abs_of_nonneg (by positivity)]
  · rw [show velAfter m τ (f + G) v - velAfter m τ f v = G / m * τ by unfold velAfter; ring, abs_of_nonneg (by positivity)]

theorem pulled_same (n : Nat) : (pulled n).joint = lightJoint ∧ (pulled n).calibrated = true := by
  induction n with
  | zero => exact ⟨rfl, rfl⟩
  | succ n ih => exact ih

/-- C113_stays_inside: for ever at most 4 hundredths beyond the soft limit 19/10, so inside the hard limit 2. -/
example (n : Nat) : (pulled n).position ≤ 194/100 ∧ (pulled n).position ≤ 2 := by
  have hov : overshoot (⟨1/10, 19/10, 20, 4⟩ : JSafety ℚ) (1/100) (1/10) 2 = 4/100 := by norm_num [overshoot, overspeed]
  have hsp : overspeed (⟨1/10, 19/10, 20, 4⟩ : JSafety ℚ) (1/10) 2 = 6/10 := by norm_num [overspeed]
  have := C113_stays_inside 1000 (lim := ⟨0, 2, 30, 3⟩) (saf := ⟨1/10, 19/10, 20, 4⟩) (D := 1/100) (N := 1/10) (G := 2) (fun n => misread (pulled n)) (fun n => (pulled n).position)
    (fun n => (pulled n).velocity) (fun _ => 30) (fun _ => 1/20) (fun _ => 1/100) light_guarded ⟨rfl, Or.inl rfl⟩
    (fun n => ⟨(pulled_same n).1.trans (pulled_same 0).1.symm, (pulled_same n).2.trans (pulled_same 0).2.symm⟩)
    (fun n => ⟨by simp only [misread, sub_sub_cancel_left, abs_neg]; norm_num [abs_le], by simp only [misread, sub_sub_cancel_left, abs_neg]; norm_num [abs_le]⟩) (fun _ => light_withstands)
    (fun n => carried_const (by norm_num) (by norm_num) (by norm_num)) (by
      unfold SafeUpTo; rw [hov, hsp]
      refine ⟨?_, ?_, ?_, ?_, ?_⟩ <;> norm_num [pulled, lightState, JLimits.faster, JSafety.wider, abs_le]) n 0 (pulled n).position (pulled n).velocity (le_refl _) (by norm_num)
    ⟨by norm_num [posAfter], by norm_num [velAfter]⟩
  have h := this.upper
  rw [hov] at h
  change (pulled n).position ≤ 19/10 + 4/100 at h
  exact ⟨by linarith, by linarith⟩

/-- … and it does leave its soft limits, nearly by as much: the position that the safety controller is meant to guard is not held against a load. -/
example : 1939/1000 < (pulled 40).position := by decide +kernel

/-- C113_speed at the same joint: the load and the error make it faster than 3, at most by 6 tenths. -/
example (n : Nat) : |(pulled n).velocity| ≤ 36/10 := by
  have hsp : overspeed (⟨1/10, 19/10, 20, 4⟩ : JSafety ℚ) (1/10) 2 = 6/10 := by norm_num [overspeed]
  have := C113_speed 1000 (lim := ⟨0, 2, 30, 3⟩) (saf := ⟨1/10, 19/10, 20, 4⟩) (N := 1/10) (G := 2) (fun n => misread (pulled n)) (fun n => (pulled n).position)
    (fun n => (pulled n).velocity) (fun _ => 30) (fun _ => 1/20) (fun _ => 1/100) light_guarded (fun n => (pulled_same n).1.trans (pulled_same 0).1.symm)
    (fun n => by simp only [misread, sub_sub_cancel_left, abs_neg]; norm_num [abs_le]) (by norm_num) (by norm_num) (fun _ => by norm_num)
    (fun n => carried_const (by norm_num) (by norm_num) (by norm_num)) (by rw [hsp]; norm_num [pulled, lightState, abs_le]) n 0 (pulled n).position (pulled n).velocity (le_refl _) (by norm_num)
    ⟨by norm_num [posAfter], by norm_num [velAfter]⟩
  rw [hsp] at this
  exact this.trans (by norm_num)

/-- C113_attained: held at 1.925 by a load of 2. -/
example := C113_attained 1000 (s := { lightState with position := 77/40, velocity := 0, commanded := 30 }) (lim := ⟨0, 2, 30, 3⟩) (saf := ⟨1/10, 19/10, 20, 4⟩) (G := 2) (m := 1/20) (dt := 1/100) light_guarded
  ⟨rfl, Or.inl rfl⟩ (by refine ⟨?_, ?_, ?_, ?_, ?_, ?_, ?_, ?_, ?_, ?_, ?_⟩ <;> norm_num) (by norm_num) rfl (by norm_num)

attribute [local instance] decimalParse

/-- The laser's tilt motor, in truth: what is read, and a fiftieth. -/
def pr2Q (n : Nat) : ℚ := ((((pr2Run.cycles[n]?).bind (·.entry.acts.find? (·.name == "laser_tilt_mount_motor"))).map (·.position)).getD 0) + 1/50
def pr2W (n : Nat) : ℚ := (((pr2Run.cycles[n]?).bind (·.entry.acts.find? (·.name == "laser_tilt_mount_motor"))).map (·.velocity)).getD 0

/-- Sending leaves the readings. -/
def pr2Same (k : Nat) : Bool :=
  match ((pr2Run.cycles[k]?).bind (·.sent.acts.find? (·.name == "laser_tilt_mount_motor"))), ((pr2Run.cycles[k]?).bind (·.entry.acts.find? (·.name == "laser_tilt_mount_motor"))) with
  | some a, some b => a.position == b.position && a.velocity == b.velocity
  | _, _ => false
theorem pr2Sames : ∀ k < 6, pr2Same k = true := by decide +kernel

theorem pr2Calibrated : pr2Run.CalibratedFrom 0 "laser_tilt_mount_joint" 0 := by
  intro k r _ hr
  obtain ⟨h1, h2⟩ := pr2Cal r (List.mem_of_getElem? hr)
  exact ⟨fun j ⟨i, _, hj⟩ => h1 j (List.mem_of_getElem? hj), fun j ⟨i, _, hj⟩ => h2 j (List.mem_of_getElem? hj)⟩
theorem pr2Carried : pr2Run.MotorCarried 0 "laser_tilt_mount_motor" (1/50) 0 (1/100) pr2Q pr2W (fun _ => pr2Inertia) (fun _ => 1/1000) := by
  have hQ : ∀ n r a, pr2Run.cycles[n]? = some r → r.entry.Motor "laser_tilt_mount_motor" a → pr2Q n = a.position + 1/50 ∧ pr2W n = a.velocity := by
    intro n r a hr ha
    unfold pr2Q pr2W
    rw [hr, Option.bind_some, motor_find ha]
    exact ⟨rfl, rfl⟩
  constructor
  · intro n r a _ hr ha
    obtain ⟨e1, e2⟩ := hQ n r a hr ha
    rw [e1, e2]
    norm_num [abs_le]
  · intro k r a _ hr hl ha
    have hk : k < 5 := by rw [pr2Length] at hl; omega
    have hst := pr2Steps k hk
    have hps := pr2Sames k (by omega)
    unfold pr2Step at hst
    unfold pr2Same at hps
    have hr' := List.getElem?_eq_getElem hl
    rw [hr, hr'] at hst
    rw [hr] at hps
    dsimp only [Option.bind_some] at hst hps
    rw [motor_find ha] at hst hps
    unfold pr2Q pr2W
    rw [hr, hr', Option.bind_some, Option.bind_some]
    generalize (pr2Run.cycles[k + 1]).entry.acts.find? (·.name == "laser_tilt_mount_motor") = oa at hst ⊢
    generalize r.entry.acts.find? (·.name == "laser_tilt_mount_motor") = ob at hps ⊢
    cases oa with
    | none => simp at hst
    | some a' =>
      cases ob with
      | none => simp at hps
      | some b =>
        simp only [Bool.and_eq_true, beq_iff_eq] at hst hps
        simp only [Option.map_some, Option.getD_some]
        rw [hst.1, hst.2, hps.1, hps.2]
        constructor
        · rw [show ∀ f x v : ℚ, posAfter pr2Inertia (1/1000) f x v + 1/50 - posAfter pr2Inertia (1/1000) f (x + 1/50) v = 0 from fun f x v => by unfold posAfter; ring]
          norm_num [pr2Inertia]
        · rw [sub_self]; norm_num [pr2Inertia]

/-- C113_pr2 (so C113_simple and C113_robot): the laser's tilt joint of the shipped description, with encoder and calibration off, and a load at the motor of 1/100, so 0.06 at the joint. -/
example (n : Nat) (r : CycleRec ℚ) (a : Actuator ℚ) (hr : pr2Run.cycles[n]? = some r) (ha : r.sent.Motor "laser_tilt_mount_motor" a) (τ q w : ℚ) (h0 : 0 ≤ τ) (h1 : τ ≤ 1/1000)
    (hq : Carried pr2Inertia τ (1/100) a.effort (pr2Q n) (pr2W n) q w) : q / (-605/100) + 1/500 ≤ 148353/100000 := by
  have hrow : Row.simple "laser_tilt_mount_trans" "laser_tilt_mount_motor" "laser_tilt_mount_joint" "-6.05" ∈ pr2Rows := by
    refine List.mem_of_getElem? (i := 15) rfl
  have hg : ("laser_tilt_mount_joint", (⟨-3927 / 5000, 148353 / 100000, 13 / 20, 10⟩ : JLimits ℚ), (⟨-3677 / 5000, 143353 / 100000, 100, 1 / 20⟩ : JSafety ℚ)) ∈ pr2Guards :=
    List.mem_of_getElem? (i := 1) rfl
  have hl : ("laser_tilt_mount_joint", (7 / 100 : ℚ)) ∈ pr2Loads := List.mem_of_getElem? (i := 1) rfl
  have := (C113_pr2 (fun q => by simp [FLit.lit]) decimals_read (pr2_read _ pr2_names.2) pr2_motors pr2_loaded.1 pr2Good pr2_later pr2Reach hrow hg hl (k := -605/100) (by decide +kernel) pr2Calibrated (ρ0 := 1/500) (R := 1/500)
    (by norm_num [abs_le]) pr2Carried (fun _ => by norm_num [pr2Inertia]) (fun _ => by norm_num) (by norm_num) (by norm_num) (by norm_num) (by norm_num [abs_div, abs_of_pos]) (by norm_num) (by norm_num [abs_div, abs_of_pos])
    (fun _ => by norm_num [pr2Inertia]) (fun _ => by norm_num [pr2Inertia]) ?_ n r a (Nat.zero_le _) hr ha τ q w h0 h1 (by simpa using hq)).2
  · simpa using this
  · have e1 : pr2Q 0 = -799/100 := by decide +kernel
    have e2 : pr2W 0 = -10 := by decide +kernel
    rw [e1, e2]
    unfold SafeUpTo overshoot overspeed
    refine ⟨?_, ?_, ?_, ?_, ?_⟩ <;> norm_num [JSafety.cast, JLimits.cast, JLimits.faster, JSafety.wider, abs_le, abs_div, abs_of_pos]

end examples

end Pr2
