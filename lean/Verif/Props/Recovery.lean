import Verif.Props.ClosedLoop
import Mathlib.Algebra.Order.Archimedean.Basic

/-!
# C97: the safety limits bring a joint back

C93 says that a joint which is inside its soft limits stays inside.  Here the joint is anywhere and has any velocity (it was pushed, or it has been calibrated outside its
soft limits).  The limiter brings it back, whatever the controllers command: for any margin there is a cycle from which on the joint is within its limits up to that margin.
-/

namespace Pr2
set_option linter.unusedVariables false

section exact
variable {F : Type} [Field F] [LinearOrder F] [IsStrictOrderedRing F]
attribute [local instance] exactCmp

/-- The same safety parameters with the soft limits moved outwards by `ε`. -/
def JSafety.widened (saf : JSafety F) (ε : F) : JSafety F := { saf with softLower := saf.softLower - ε, softUpper := saf.softUpper + ε }

/-! ## One cycle, upper side -/

/-- Up to the margin `ε`, the joint is safe on its upper side. -/
def UpOk (kp vmax su x v : F) : Prop := x ≤ su ∧ v ≤ 2 * (kp * (su - x)) ∧ v ≤ 2 * vmax

theorem clamp_le_self {a x : F} (hx : -a ≤ x) : clamp a x ≤ x := max_le hx (min_le_right _ _)
theorem clamp_le_of_le {a x y : F} (hx : x ≤ y) (hy : -a ≤ y) : clamp a x ≤ y := max_le hy ((min_le_right _ _).trans hx)

/-- An effort of at most `-e` for at least `d`. -/
theorem brakes {m M τ d e f v : F} (hm : 0 < m) (hM : m ≤ M) (hd : 0 ≤ d) (hτ : d ≤ τ) (he : 0 ≤ e) (hf : f ≤ -e) : velAfter m τ f v ≤ v - e * d / M := by
  have hM0 : 0 < M := hm.trans_le hM
  have h1 : e * d / M ≤ e / m * τ := by
    rw [div_mul_eq_mul_div]
    calc e * d / M ≤ e * d / m := div_le_div_of_nonneg_left (mul_nonneg he hd) hm hM
      _ ≤ e * τ / m := (div_le_div_iff_of_pos_right hm).2 (mul_le_mul_of_nonneg_left hτ he)
  have h2 : f / m * τ ≤ -(e / m * τ) := by
    rw [← neg_mul, ← neg_div]
    exact mul_le_mul_of_nonneg_right ((div_le_div_iff_of_pos_right hm).2 hf) (hd.trans hτ)
  unfold velAfter
  linarith

/-- The velocity exceeds the velocity bound by at least `u`: the limiter brakes. -/
theorem excess {kv E u v W f : F} (hkv : 0 ≤ kv) (hu : u ≤ v - W) (hf : f ≤ clamp E (-kv * (v - W))) : f ≤ -min E (kv * u) := by
  refine hf.trans (max_le (neg_le_neg (min_le_left _ _)) ((min_le_right _ _).trans ?_))
  have h1 : kv * u ≤ kv * (v - W) := mul_le_mul_of_nonneg_left hu hkv
  have h2 : min E (kv * u) ≤ kv * u := min_le_right _ _
  have h3 : -kv * (v - W) = -(kv * (v - W)) := by ring
  linarith

/-- A joint that is not yet safe up to `ε`, and that does not move back fast enough, is faster than the velocity bound by at least half of `w`. -/
theorem not_up_excess {kp vmax su ε w x v : F} (hkp : 0 < kp) (hvm : 0 < vmax) (hε : 0 < ε) (hw : w = min vmax (kp * ε)) (hn : ¬UpOk kp vmax (su + ε) x v) (hv : -(w / 2) < v) :
    w / 2 ≤ v - clamp vmax (-kp * (x - su)) := by
  have w1 : w ≤ vmax := by rw [hw]; exact min_le_left _ _
  have w2 : w ≤ kp * ε := by rw [hw]; exact min_le_right _ _
  have w0 : 0 < w := by rw [hw]; exact lt_min hvm (mul_pos hkp hε)
  by_cases hx : x ≤ su + ε
  · have e1 : kp * (su + ε - x) = kp * (su - x) + kp * ε := by ring
    have e2 : -kp * (x - su) = kp * (su - x) := by ring
    have h0 : 0 ≤ kp * (su + ε - x) := mul_nonneg hkp.le (by linarith)
    rw [e2]
    rcases lt_or_ge (2 * vmax) v with h | h
    · have := clamp_le hvm.le (kp * (su - x))
      linarith
    · have h2 : 2 * (kp * (su + ε - x)) < v := by
        by_contra hc
        exact hn ⟨hx, not_lt.1 hc, h⟩
      have : clamp vmax (kp * (su - x)) ≤ kp * (su + ε - x) - w := clamp_le_of_le (by linarith) (by linarith)
      linarith
  · have h1 : kp * ε ≤ kp * (x - su) := mul_le_mul_of_nonneg_left (by linarith [not_le.1 hx]) hkp.le
    have : clamp vmax (-kp * (x - su)) ≤ -w := clamp_le_of_le (by linarith) (by linarith)
    linarith

/-- Once the joint moves back at half of `w` it goes on doing so until it is safe. -/
theorem keeps_returning {kp kv vmax E m τ dt su ε w x v f : F} (hkp : 0 < kp) (hkv : 0 ≤ kv) (hvm : 0 < vmax) (hE : 0 ≤ E) (hm : 0 < m) (h0 : 0 ≤ τ) (hτ : τ ≤ dt)
    (hs : kv * dt ≤ m) (hε : 0 < ε) (hw : w = min vmax (kp * ε)) (hx : su + ε < x) (hv : v ≤ -(w / 2)) (hf : f ≤ clamp E (-kv * (v - clamp vmax (-kp * (x - su))))) :
    velAfter m τ f v ≤ -(w / 2) := by
  have w1 : w ≤ vmax := by rw [hw]; exact min_le_left _ _
  have w2 : w ≤ kp * ε := by rw [hw]; exact min_le_right _ _
  have w0 : 0 < w := by rw [hw]; exact lt_min hvm (mul_pos hkp hε)
  have h1 : kp * ε ≤ kp * (x - su) := mul_le_mul_of_nonneg_left (by linarith) hkp.le
  have hW : clamp vmax (-kp * (x - su)) ≤ -w := clamp_le_of_le (by linarith) (by linarith)
  refine closed_speed (vmax := -(w / 2)) hkv hE hm h0 hτ hs hv (by linarith) hf

/-! ## All cycles, upper side -/

variable [Archimedean F]

/-- A quantity that decreases by at least `c` in each cycle. -/
theorem falls {c : F} (q : Nat → F) (N : Nat) (h : ∀ n, n < N → q (n + 1) ≤ q n - c) : q N ≤ q 0 - N • c := by
  induction N with
  | zero => simp
  | succ n ih => rw [succ_nsmul]; linarith [h n (by omega), ih fun k hk => h k (by omega)]

/-- A quantity that increases by at most `c` in each cycle. -/
theorem rises {c : F} (q : Nat → F) (N : Nat) (h : ∀ n, n < N → q (n + 1) ≤ q n + c) : q N ≤ q 0 + N • c := by
  have := falls (c := -c) q N (fun n hn => by linarith [h n hn])
  rw [smul_neg] at this
  linarith

/-- Upper side: the joint becomes safe up to any margin, within a number of cycles that depends only on where it begins. -/
theorem returns_up {kp kv vmax E ε M d : F} (su X V : F) (hkp : 0 < kp) (hkv : 0 < kv) (hvm : 0 < vmax) (hE : 0 < E) (hM : 0 < M) (hε : 0 < ε) (hd : 0 < d) :
    ∃ N : Nat, ∀ x v f m dt : Nat → F, x 0 ≤ X → v 0 ≤ V → (∀ n, n < N → 0 < m n ∧ m n ≤ M) → (∀ n, n < N → d ≤ dt n) → (∀ n, n < N → kv * dt n ≤ m n) →
      (∀ n, n < N → x (n + 1) = posAfter (m n) (dt n) (f n) (x n) (v n)) → (∀ n, n < N → v (n + 1) = velAfter (m n) (dt n) (f n) (v n)) →
      (∀ n, n < N → f n ≤ clamp E (-kv * (v n - clamp vmax (-kp * (x n - su))))) → ∃ n, n ≤ N ∧ UpOk kp vmax (su + ε) (x n) (v n) := by
  obtain ⟨w, hw⟩ : ∃ w, w = min vmax (kp * ε) := ⟨_, rfl⟩
  have w0 : 0 < w := by rw [hw]; exact lt_min hvm (mul_pos hkp hε)
  have e0 : 0 < min E (kv * (w / 2)) := lt_min hE (mul_pos hkv (by linarith))
  obtain ⟨N1, hN1⟩ := Archimedean.arch (V + w / 2) (div_pos (mul_pos e0 hd) hM)
  obtain ⟨B, hB⟩ : ∃ B, B = max V vmax := ⟨_, rfl⟩
  have B1 : V ≤ B := by rw [hB]; exact le_max_left _ _
  have B2 : vmax ≤ B := by rw [hB]; exact le_max_right _ _
  have hBT : 0 ≤ B * (M / kv) := mul_nonneg (by linarith) (div_nonneg hM.le hkv.le)
  obtain ⟨N2, hN2⟩ := Archimedean.arch (X + N1 • (B * (M / kv)) - (su + ε)) (mul_pos (half_pos w0) hd)
  refine ⟨N1 + N2, fun x v f m dt hx0 hv0 hm hdt hs hx hv hf => ?_⟩
  by_contra hall
  have hall : ∀ n, n ≤ N1 + N2 → ¬UpOk kp vmax (su + ε) (x n) (v n) := fun n hn h => hall ⟨n, hn, h⟩
  -- first the velocity
  have step1 : ∃ n, n ≤ N1 ∧ v n ≤ -(w / 2) := by
    by_contra hc
    have hc : ∀ n, n ≤ N1 → -(w / 2) < v n := fun n hn => not_le.1 fun h => hc ⟨n, hn, h⟩
    have := falls (c := min E (kv * (w / 2)) * d / M) v N1 (fun n hn => by
      rw [hv n (by omega)]
      exact brakes (hm n (by omega)).1 (hm n (by omega)).2 hd.le (hdt n (by omega)) e0.le
        (excess hkv.le (not_up_excess hkp hvm hε hw (hall n (by omega)) (hc n (by omega))) (hf n (by omega))))
    linarith [hc N1 (le_refl _)]
  obtain ⟨n1, hn1, hN⟩ := step1
  have out : ∀ n, n ≤ N1 + N2 → v n ≤ -(w / 2) → su + ε < x n := by
    intro n hn h
    by_contra hc
    have hc := not_lt.1 hc
    exact hall n hn ⟨hc, by linarith [mul_nonneg hkp.le (sub_nonneg.2 hc)], by linarith⟩
  -- the position cannot get far meanwhile
  have fast : ∀ n, n ≤ n1 → v n ≤ B := by
    intro n
    induction n with
    | zero => intro _; linarith
    | succ n ih =>
      intro hn
      rw [hv n (by omega)]
      exact closed_speed hkv.le hE.le (hm n (by omega)).1 (hd.le.trans (hdt n (by omega))) (le_refl _) (hs n (by omega)) (ih (by omega)) ((clamp_le hvm.le _).trans B2) (hf n (by omega))
  have mean : ∀ n, n < N1 + N2 → x (n + 1) = x n + (v n + v (n + 1)) / 2 * dt n := by
    intro n hn
    rw [hx n hn, hv n hn]; unfold posAfter velAfter; ring
  have far : x n1 ≤ X + N1 • (B * (M / kv)) := by
    have h1 := rises (c := B * (M / kv)) x n1 (fun n hn => by
      rw [mean n (by omega)]
      have hdn : dt n ≤ M / kv := by
        rw [le_div_iff₀ hkv]
        linarith [hs n (by omega), (hm n (by omega)).2]
      have h2 : (v n + v (n + 1)) / 2 * dt n ≤ B * dt n := mul_le_mul_of_nonneg_right (by linarith [fast n (by omega), fast (n + 1) (by omega)]) (hd.le.trans (hdt n (by omega)))
      have h3 : B * dt n ≤ B * (M / kv) := mul_le_mul_of_nonneg_left hdn (by linarith)
      linarith)
    have h2 : n1 • (B * (M / kv)) ≤ N1 • (B * (M / kv)) := nsmul_le_nsmul_left hBT hn1
    linarith
  have step2 : ∀ k, k ≤ N2 → v (n1 + k) ≤ -(w / 2) := by
    intro k
    induction k with
    | zero => exact fun _ => hN
    | succ k ih =>
      intro hk
      rw [show n1 + (k + 1) = n1 + k + 1 by omega, hv _ (by omega)]
      exact keeps_returning hkp hkv.le hvm hE.le (hm _ (by omega)).1 (hd.le.trans (hdt _ (by omega))) (le_refl _) (hs _ (by omega)) hε hw (out _ (by omega) (ih (by omega)))
        (ih (by omega)) (hf _ (by omega))
  have h9 := falls (c := w / 2 * d) (fun k => x (n1 + k)) N2 (fun k hk => by
    have h1 := step2 k (by omega)
    have h2 := step2 (k + 1) (by omega)
    rw [show n1 + (k + 1) = n1 + k + 1 by omega] at h2 ⊢
    have e := mean (n1 + k) (by omega)
    have h3 : (v (n1 + k) + v (n1 + k + 1)) / 2 * dt (n1 + k) ≤ -(w / 2) * dt (n1 + k) := mul_le_mul_of_nonneg_right (by linarith) (hd.le.trans (hdt _ (by omega)))
    have h4 : w / 2 * d ≤ w / 2 * dt (n1 + k) := mul_le_mul_of_nonneg_left (hdt _ (by omega)) (by linarith)
    have h5 : -(w / 2) * dt (n1 + k) = -(w / 2 * dt (n1 + k)) := by ring
    change x (n1 + k + 1) ≤ x (n1 + k) - w / 2 * d
    linarith)
  have h10 := out (n1 + N2) (by omega) (step2 N2 (le_refl _))
  change x (n1 + N2) ≤ x n1 - N2 • (w / 2 * d) at h9
  linarith

/-- Upper side: once safe up to a margin, always safe up to it. -/
theorem stays_up {kp kv vmax E m dt τ su ε x v f : F} (hkp : 0 ≤ kp) (hkv : 0 ≤ kv) (hvm : 0 ≤ vmax) (hm : 0 < m) (h0 : 0 ≤ τ) (hτ : τ ≤ dt)
    (hd : 4 * m * kp ≤ kv) (hs : kv * dt ≤ m) (hE : kv * vmax ≤ E) (hε : 0 ≤ ε) (h : UpOk kp vmax (su + ε) x v)
    (hf : f ≤ clamp E (-kv * (v - clamp vmax (-kp * (x - su))))) : UpOk kp vmax (su + ε) (posAfter m τ f x v) (velAfter m τ f v) := by
  refine closed_upper hkp hkv hvm hm h0 hτ hd hs hE h.1 h.2.1 h.2.2 (hf.trans (clamp_mono _ ?_))
  have h1 : clamp vmax (-kp * (x - su)) ≤ clamp vmax (-kp * (x - (su + ε))) := clamp_mono _ (by
    have := mul_nonneg hkp hε
    have e : -kp * (x - (su + ε)) = -kp * (x - su) + kp * ε := by ring
    linarith)
  have h2 := mul_le_mul_of_nonneg_left h1 hkv
  have e1 : ∀ b, -kv * (v - b) = kv * b - kv * v := fun b => by ring
  rw [e1, e1]
  linarith

/-- Speed, upper side: the speed limit is exceeded by any margin only for a number of cycles that depends on the velocity at the beginning. -/
theorem slows {kv vmax E ε M d : F} (V : F) (hkv : 0 < kv) (hE : 0 < E) (hM : 0 < M) (hε : 0 < ε) (hd : 0 < d) :
    ∃ N : Nat, ∀ v b f m dt : Nat → F, v 0 ≤ V → (∀ n, n < N → 0 < m n ∧ m n ≤ M) → (∀ n, n < N → d ≤ dt n) → (∀ n, n < N → v (n + 1) = velAfter (m n) (dt n) (f n) (v n)) →
      (∀ n, n < N → b n ≤ vmax) → (∀ n, n < N → f n ≤ clamp E (-kv * (v n - b n))) → ∃ n, n ≤ N ∧ v n ≤ vmax + ε := by
  have e0 : 0 < min E (kv * ε) := lt_min hE (mul_pos hkv hε)
  obtain ⟨N, hN⟩ := Archimedean.arch (V - (vmax + ε)) (div_pos (mul_pos e0 hd) hM)
  refine ⟨N, fun v b f m dt hv0 hm hdt hv hb hf => ?_⟩
  by_contra hc
  have hc : ∀ n, n ≤ N → vmax + ε < v n := fun n hn => not_le.1 fun h => hc ⟨n, hn, h⟩
  have := falls (c := min E (kv * ε) * d / M) v N (fun n hn => by
    rw [hv n hn]
    exact brakes (hm n hn).1 (hm n hn).2 hd.le (hdt n hn) e0.le (excess hkv.le (by linarith [hb n hn, hc n (by omega)]) (hf n hn)))
  linarith [hc N (le_refl _)]

/-- From a cycle on. -/
theorem from_then_on {P : Nat → Prop} {L N : Nat} (h : ∃ n, n ≤ N ∧ P n) (hs : ∀ n, n + 1 < L → P n → P (n + 1)) (n : Nat) (hn : N ≤ n) (hL : n < L) : P n := by
  obtain ⟨k, hk, hP⟩ := h
  have : ∀ i, k + i < L → P (k + i) := by
    intro i
    induction i with
    | zero => exact fun _ => hP
    | succ i ih => exact fun hi => hs (k + i) (by omega) (ih (by omega))
  have := this (n - k) (by omega)
  rwa [show k + (n - k) = n by omega] at this

/-! ## Both sides -/

/-- What the limiter guarantees of the effort, upper and (mirrored) lower side. -/
theorem inBounds_sides {big : F} {s : JState F} {lim : JLimits F} {saf : JSafety F} (g : Guarded s.joint lim saf) (hb : s.InBounds big) :
    s.commanded ≤ clamp lim.effort (-saf.kVelocity * (s.velocity - (s.velBounds lim saf).2)) ∧
    -s.commanded ≤ clamp lim.effort (-saf.kVelocity * (-s.velocity - -(s.velBounds lim saf).1)) := by
  obtain ⟨b1, b2⟩ := hb
  rw [getLimits_eq g] at b1 b2
  dsimp only at b1 b2
  refine ⟨b2, ?_⟩
  rw [show -saf.kVelocity * (-s.velocity - -(s.velBounds lim saf).1) = -(-saf.kVelocity * (s.velocity - (s.velBounds lim saf).1)) by ring, clamp_neg _ _ g.effort]
  linarith

/-- A joint in `L` successive cycles, whose effort is always one that the limiter leaves alone.  Cycles last at least `d`; the inertia is at most `M`. -/
structure Limited (big : F) (lim : JLimits F) (saf : JSafety F) (d M : F) (L : Nat) (m dt : Nat → F) (j : Nat → JState F) : Prop where
  guarded : ∀ n, n < L → Guarded (j n).joint lim saf
  bounds : ∀ n, n < L → (j n).InBounds big
  driven : ∀ n, n + 1 < L → Driven (m n) (dt n) (j n) (j (n + 1))
  mass : ∀ n, n < L → 0 < m n ∧ m n ≤ M
  time : ∀ n, n < L → d ≤ dt n
  slow : ∀ n, n < L → saf.kVelocity * dt n ≤ m n

theorem limited_slows {lim : JLimits F} {saf : JSafety F} {d M ε : F} (v0 : F) (hkv : 0 < saf.kVelocity) (hE : 0 < lim.effort) (hd : 0 < d) (hε : 0 < ε) :
    ∃ N : Nat, ∀ big L m dt j, Limited big lim saf d M L m dt j → (j 0).velocity = v0 → ∀ n, N ≤ n → n < L → ∀ τ, 0 ≤ τ → τ ≤ dt n →
      |velAfter (m n) τ (j n).commanded (j n).velocity| ≤ lim.velocity + ε := by
  by_cases hM : 0 < M
  swap
  · exact ⟨0, fun big L m dt j h _ n _ hn => absurd ((h.mass n hn).1.trans_le (h.mass n hn).2) hM⟩
  obtain ⟨N1, h1⟩ := Pr2.slows (kv := saf.kVelocity) (vmax := lim.velocity) (E := lim.effort) (ε := ε) (M := M) (d := d) v0 hkv hE hM hε hd
  obtain ⟨N2, h2⟩ := Pr2.slows (kv := saf.kVelocity) (vmax := lim.velocity) (E := lim.effort) (ε := ε) (M := M) (d := d) (-v0) hkv hE hM hε hd
  refine ⟨max N1 N2, fun big L m dt j h hv0 n hn hL => ?_⟩
  have l1 : N1 ≤ n := (le_max_left _ _).trans hn
  have l2 : N2 ≤ n := (le_max_right _ _).trans hn
  have r1 := fun i hi => (velBounds_range (h.guarded i hi)).1
  have r2 := fun i hi => (velBounds_range (h.guarded i hi)).2
  have s1 := fun i hi => (inBounds_sides (h.guarded i hi) (h.bounds i hi)).1
  have s2 := fun i hi => (inBounds_sides (h.guarded i hi) (h.bounds i hi)).2
  have up := from_then_on (P := fun i => (j i).velocity ≤ lim.velocity + ε) (h1 (fun i => (j i).velocity) (fun i => ((j i).velBounds lim saf).2) (fun i => (j i).commanded) m dt
    hv0.le (fun i hi => h.mass i (by omega)) (fun i hi => h.time i (by omega)) (fun i hi => (h.driven i (by omega)).velocity) (fun i hi => r2 i (by omega)) (fun i hi => s1 i (by omega)))
    (fun i hi hP => by
      rw [(h.driven i hi).velocity]
      exact closed_speed hkv.le hE.le (h.mass i (by omega)).1 (hd.le.trans (h.time i (by omega))) (le_refl _) (h.slow i (by omega)) hP (by linarith [r2 i (by omega)]) (s1 i (by omega))) n l1 hL
  have down := from_then_on (P := fun i => -(j i).velocity ≤ lim.velocity + ε) (h2 (fun i => -(j i).velocity) (fun i => -((j i).velBounds lim saf).1) (fun i => -(j i).commanded) m dt
    (by rw [hv0]) (fun i hi => h.mass i (by omega)) (fun i hi => h.time i (by omega)) (fun i hi => by rw [(h.driven i (by omega)).velocity, velAfter_neg])
    (fun i hi => by linarith [r1 i (by omega)]) (fun i hi => s2 i (by omega)))
    (fun i hi hP => by
      rw [(h.driven i hi).velocity, ← velAfter_neg]
      exact closed_speed hkv.le hE.le (h.mass i (by omega)).1 (hd.le.trans (h.time i (by omega))) (le_refl _) (h.slow i (by omega)) hP (by linarith [r1 i (by omega)]) (s2 i (by omega))) n l2 hL
  intro τ h0 hτ
  refine abs_le.2 ⟨?_, closed_speed hkv.le hE.le (h.mass n hL).1 h0 hτ (h.slow n hL) up (by linarith [r2 n hL]) (s1 n hL)⟩
  have := closed_speed hkv.le hE.le (h.mass n hL).1 h0 hτ (h.slow n hL) down (by linarith [r1 n hL]) (s2 n hL)
  rw [velAfter_neg] at this
  linarith

theorem limited_returns {lim : JLimits F} {saf : JSafety F} {d M ε : F} (x0 v0 : F) (hkp : 0 < saf.kPosition) (hkv : 0 < saf.kVelocity) (hvm : 0 < lim.velocity) (hd : 0 < d)
    (hε : 0 < ε) :
    ∃ N : Nat, ∀ big L m dt j, Limited big lim saf d M L m dt j → (∀ n, n < L → (j n).posLimited) → (∀ n, n < L → Suits lim saf (m n) (dt n)) → (j 0).position = x0 → (j 0).velocity = v0 →
      ∀ n, N ≤ n → n < L → ∀ τ, 0 ≤ τ → τ ≤ dt n →
      Safe lim (saf.widened ε) (posAfter (m n) τ (j n).commanded (j n).position (j n).velocity) (velAfter (m n) τ (j n).commanded (j n).velocity) := by
  by_cases hM : 0 < M
  swap
  · exact ⟨0, fun big L m dt j h _ _ _ _ n _ hn => absurd ((h.mass n hn).1.trans_le (h.mass n hn).2) hM⟩
  by_cases hE : 0 < lim.effort
  swap
  · exact ⟨0, fun big L m dt j h _ hs _ _ n _ hn => absurd ((mul_pos hkv hvm).trans_le (hs n hn).strong) hE⟩
  obtain ⟨N1, h1⟩ := returns_up (kp := saf.kPosition) (kv := saf.kVelocity) (vmax := lim.velocity) (E := lim.effort) (ε := ε) (M := M) (d := d) saf.softUpper x0 v0 hkp hkv hvm hE hM hε hd
  obtain ⟨N2, h2⟩ := returns_up (kp := saf.kPosition) (kv := saf.kVelocity) (vmax := lim.velocity) (E := lim.effort) (ε := ε) (M := M) (d := d) (-saf.softLower) (-x0) (-v0) hkp hkv hvm hE hM
    hε hd
  refine ⟨max N1 N2, fun big L m dt j h hp hs hx0 hv0 n hn hL => ?_⟩
  have l1 : N1 ≤ n := (le_max_left _ _).trans hn
  have l2 : N2 ≤ n := (le_max_right _ _).trans hn
  have bu : ∀ n, n < L → (j n).commanded ≤ clamp lim.effort (-saf.kVelocity * ((j n).velocity - clamp lim.velocity (-saf.kPosition * ((j n).position - saf.softUpper)))) := by
    intro n hn
    have := (inBounds_sides (h.guarded n hn) (h.bounds n hn)).1
    rwa [(velBounds_eq (h.guarded n hn)).1 (hp n hn)] at this
  have bl : ∀ n, n < L → -(j n).commanded ≤ clamp lim.effort (-saf.kVelocity * (-(j n).velocity - clamp lim.velocity (-saf.kPosition * (-(j n).position - -saf.softLower)))) := by
    intro n hn
    have := (inBounds_sides (h.guarded n hn) (h.bounds n hn)).2
    rw [(velBounds_eq (h.guarded n hn)).1 (hp n hn)] at this
    dsimp only at this
    rwa [← clamp_neg _ _ hvm.le, show -(-saf.kPosition * ((j n).position - saf.softLower)) = -saf.kPosition * (-(j n).position - -saf.softLower) by ring] at this
  have su : ∀ n, n < L → ∀ τ, 0 ≤ τ → τ ≤ dt n → UpOk saf.kPosition lim.velocity (saf.softUpper + ε) (j n).position (j n).velocity →
      UpOk saf.kPosition lim.velocity (saf.softUpper + ε) (posAfter (m n) τ (j n).commanded (j n).position (j n).velocity) (velAfter (m n) τ (j n).commanded (j n).velocity) :=
    fun n hn τ h0 hτ hu => stays_up hkp.le hkv.le hvm.le (hs n hn).mass h0 hτ (hs n hn).damped (hs n hn).slow (hs n hn).strong hε.le hu (bu n hn)
  have sl : ∀ n, n < L → ∀ τ, 0 ≤ τ → τ ≤ dt n → UpOk saf.kPosition lim.velocity (-saf.softLower + ε) (-(j n).position) (-(j n).velocity) →
      UpOk saf.kPosition lim.velocity (-saf.softLower + ε) (-posAfter (m n) τ (j n).commanded (j n).position (j n).velocity) (-velAfter (m n) τ (j n).commanded (j n).velocity) := by
    intro n hn τ h0 hτ hu
    rw [← posAfter_neg, ← velAfter_neg]
    exact stays_up hkp.le hkv.le hvm.le (hs n hn).mass h0 hτ (hs n hn).damped (hs n hn).slow (hs n hn).strong hε.le hu (bl n hn)
  have q1 := from_then_on (P := fun i => UpOk saf.kPosition lim.velocity (saf.softUpper + ε) (j i).position (j i).velocity)
    (h1 (fun n => (j n).position) (fun n => (j n).velocity) (fun n => (j n).commanded) m dt hx0.le hv0.le (fun i hi => h.mass i (by omega)) (fun i hi => h.time i (by omega))
      (fun i hi => h.slow i (by omega)) (fun i hi => (h.driven i (by omega)).position) (fun i hi => (h.driven i (by omega)).velocity) (fun i hi => bu i (by omega))) (fun i hi hP => by
      rw [(h.driven i hi).position, (h.driven i hi).velocity]
      exact su i (by omega) _ (hs i (by omega)).time (le_refl _) hP) n l1 hL
  have q2 := from_then_on (P := fun i => UpOk saf.kPosition lim.velocity (-saf.softLower + ε) (-(j i).position) (-(j i).velocity))
    (h2 (fun n => -(j n).position) (fun n => -(j n).velocity) (fun n => -(j n).commanded) m dt (by rw [hx0]) (by rw [hv0]) (fun i hi => h.mass i (by omega)) (fun i hi => h.time i (by omega))
      (fun i hi => h.slow i (by omega)) (fun i hi => by rw [(h.driven i (by omega)).position, posAfter_neg]) (fun i hi => by rw [(h.driven i (by omega)).velocity, velAfter_neg])
      (fun i hi => bl i (by omega))) (fun i hi hP => by
      rw [(h.driven i hi).position, (h.driven i hi).velocity]
      exact sl i (by omega) _ (hs i (by omega)).time (le_refl _) hP) n l2 hL
  intro τ h0 hτ
  obtain ⟨a1, a2, a3⟩ := su n hL τ h0 hτ q1
  obtain ⟨c1, c2, c3⟩ := sl n hL τ h0 hτ q2
  rw [show ∀ a b : F, -a + ε - -b = b - (a - ε) from fun a b => by ring] at c2
  exact ⟨by change saf.softLower - ε ≤ _; linarith, a1, a2, c2, abs_le.2 ⟨by linarith, a3⟩⟩

/-- The cycles of one joint, with any commands. -/
theorem limited_of_commands (big : F) {lim : JLimits F} {saf : JSafety F} (σ : Nat → JState F) (c m dt : Nat → F) (g : Guarded (σ 0).joint lim saf) {d M : F}
    (hm : ∀ n, Driven (m n) (dt n) (JState.enforceLimits big { σ n with commanded := c n }) (σ (n + 1))) (h1 : ∀ n, 0 < m n ∧ m n ≤ M) (h2 : ∀ n, d ≤ dt n)
    (h3 : ∀ n, saf.kVelocity * dt n ≤ m n) (L : Nat) :
    Limited big lim saf d M L m dt (fun n => JState.enforceLimits big { σ n with commanded := c n }) ∧ ∀ n, (σ n).joint = (σ 0).joint ∧ (σ n).calibrated = (σ 0).calibrated := by
  have key : ∀ n, (σ n).joint = (σ 0).joint ∧ (σ n).calibrated = (σ 0).calibrated := by
    intro n
    induction n with
    | zero => exact ⟨rfl, rfl⟩
    | succ n ih => exact ⟨(hm n).joint.trans ih.1, (hm n).calibrated.trans ih.2⟩
  have g' : ∀ n, Guarded ({ σ n with commanded := c n } : JState F).joint lim saf := by
    intro n; rw [← (key n).1] at g; exact g
  exact ⟨⟨fun n _ => g' n, fun n _ => enforced_inBounds big (g' n), fun n _ => ⟨(hm n).joint, (hm n).calibrated, (hm n).position, (hm n).velocity⟩, fun n _ => h1 n, fun n _ => h2 n,
    fun n _ => h3 n⟩, key⟩

/-- **C97, position.**  A calibrated revolute or prismatic joint whose description suits its mechanics, with gains and a speed limit that are not zero, is at the beginning at
any position `x0` and has any velocity `v0`.  In every cycle the controllers command any effort `c n` whatever; the limiter makes it the effort that drives the joint until
the next cycle.  Cycles last at least `d` and the inertia is at most `M`.  For every margin `ε` there is a number `N` of cycles, which does not depend on what the
controllers do, after which the joint is, at every moment, within its soft limits up to `ε` (and does not move towards one faster than `Safe` allows). -/
theorem C97_comes_back {lim : JLimits F} {saf : JSafety F} (hkp : 0 < saf.kPosition) (hkv : 0 < saf.kVelocity) (hvm : 0 < lim.velocity) {M d : F} (hd : 0 < d) (x0 v0 ε : F) (hε : 0 < ε) :
    ∃ N : Nat, ∀ (big : F) (σ : Nat → JState F) (c m dt : Nat → F), Guarded (σ 0).joint lim saf → (σ 0).posLimited → (∀ n, Suits lim saf (m n) (dt n)) →
      (∀ n, d ≤ dt n) → (∀ n, m n ≤ M) → (∀ n, Driven (m n) (dt n) (JState.enforceLimits big { σ n with commanded := c n }) (σ (n + 1))) →
      (σ 0).position = x0 → (σ 0).velocity = v0 → ∀ n, N ≤ n → ∀ τ, 0 ≤ τ → τ ≤ dt n →
      let f := (JState.enforceLimits big { σ n with commanded := c n }).commanded
      Safe lim (saf.widened ε) (posAfter (m n) τ f (σ n).position (σ n).velocity) (velAfter (m n) τ f (σ n).velocity) := by
  obtain ⟨N, hN⟩ := limited_returns (M := M) x0 v0 hkp hkv hvm hd hε
  refine ⟨N, fun big σ c m dt g hp hs hdt hM hm hx hv n hn τ h0 hτ => ?_⟩
  obtain ⟨h, key⟩ := limited_of_commands big σ c m dt g hm (fun n => ⟨(hs n).mass, hM n⟩) hdt (fun n => (hs n).slow) (n + 1)
  exact hN _ _ _ _ _ h (fun n _ => by
    obtain ⟨q1, q2⟩ := hp
    exact ⟨(key n).2.trans q1, by change (σ n).joint.type = _ ∨ (σ n).joint.type = _; rw [(key n).1]; exact q2⟩) (fun n _ => hs n) hx hv n hn (by omega) τ h0 hτ

/-- **C97, speed.**  Any joint with limits and safety parameters, calibrated or not, and with any velocity `v0` at the beginning: for every margin `ε` there is a number of
cycles, which does not depend on what the controllers do, after which its speed is, at every moment, below the speed limit up to that margin. -/
theorem C97_slows_down {lim : JLimits F} {saf : JSafety F} (hkv : 0 < saf.kVelocity) (hE : 0 < lim.effort) {M d : F} (hd : 0 < d) (v0 ε : F) (hε : 0 < ε) :
    ∃ N : Nat, ∀ (big : F) (σ : Nat → JState F) (c m dt : Nat → F), Guarded (σ 0).joint lim saf → (∀ n, 0 < m n ∧ m n ≤ M) → (∀ n, saf.kVelocity * dt n ≤ m n) →
      (∀ n, d ≤ dt n) → (∀ n, Driven (m n) (dt n) (JState.enforceLimits big { σ n with commanded := c n }) (σ (n + 1))) →
      (σ 0).velocity = v0 → ∀ n, N ≤ n → ∀ τ, 0 ≤ τ → τ ≤ dt n →
      |velAfter (m n) τ (JState.enforceLimits big { σ n with commanded := c n }).commanded (σ n).velocity| ≤ lim.velocity + ε := by
  obtain ⟨N, hN⟩ := limited_slows (M := M) v0 hkv hE hd hε
  exact ⟨N, fun big σ c m dt g hM hs hdt hm hv n hn τ h0 hτ => hN _ _ _ _ _ (limited_of_commands big σ c m dt g hm hM hdt hs (n + 1)).1 hv n hn (by omega) τ h0 hτ⟩

/-! ## The whole robot -/

variable [FLit F] [iTrig : FTrig F]

/-- **C97, the whole robot.**  Whatever is loaded, unloaded and switched, whatever the controllers command: joint `k` of the robot has a description that suits its mechanics;
between two cycles it moves under the effort the hardware has been sent; it is calibrated; in the first cycle it is at any position `x0` and has any velocity `v0`.  For
every margin there is a number `N`, which depends on none of what happens, such that from cycle `N` on the joint is, at every moment, within its soft limits and below its
speed limit up to that margin. -/
theorem C97_robot {lim : JLimits F} {saf : JSafety F} (hkp : 0 < saf.kPosition) (hkv : 0 < saf.kVelocity) (hvm : 0 < lim.velocity) (hE : 0 < lim.effort) {M δ : F} (hδ : 0 < δ)
    (x0 v0 ε : F) (hε : 0 < ε) :
    ∃ N : Nat, ∀ (big : F) (sim : Bool) (d : RtData F), d.Good → ∀ (k : Nat) (j0 : JState F), d.robot.joints[k]? = some j0 → Guarded j0.joint lim saf →
      ∀ mass dt : Nat → F, (∀ n, Suits lim saf (mass n) (dt n)) → (∀ n, δ ≤ dt n) → (∀ n, mass n ≤ M) →
      ∀ p : Plant F, Plant.Reach big sim d PlantIn.Tame p →
      ∀ j : Nat → JState F, (∀ n r, p.cycles[n]? = some r → r.sent.joints[k]? = some (j n) ∧ (j n).posLimited) →
      (∀ n, n + 1 < p.cycles.length → Driven (mass n) (dt n) (j n) (j (n + 1))) → (j 0).position = x0 → (j 0).velocity = v0 →
      ∀ n, N ≤ n → n < p.cycles.length → ∀ τ, 0 ≤ τ → τ ≤ dt n →
      Safe lim (saf.widened ε) (posAfter (mass n) τ (j n).commanded (j n).position (j n).velocity) (velAfter (mass n) τ (j n).commanded (j n).velocity) ∧
      |velAfter (mass n) τ (j n).commanded (j n).velocity| ≤ lim.velocity + ε := by
  obtain ⟨N1, h1⟩ := limited_returns (M := M) x0 v0 hkp hkv hvm hδ hε
  obtain ⟨N2, h2⟩ := limited_slows (M := M) v0 hkv hE hδ hε
  refine ⟨max N1 N2, fun big sim d hd k j0 hj0 g mass dt hs hdt hM p h j hj hm hx hv n hn hL τ h0 hτ => ?_⟩
  have at_ : ∀ n, n < p.cycles.length → Guarded (j n).joint lim saf ∧ (j n).InBounds big ∧ (j n).posLimited := by
    intro n hn
    obtain ⟨a, b⟩ := hj n _ (List.getElem?_eq_getElem hn)
    obtain ⟨e, i⟩ := sent_inBounds hd h (List.getElem_mem hn) hj0 a
    have g' : Guarded (j n).joint lim saf := by rw [e]; exact g
    exact ⟨g', i lim saf g', b⟩
  have hl : Limited big lim saf δ M p.cycles.length mass dt j :=
    ⟨fun n hn => (at_ n hn).1, fun n hn => (at_ n hn).2.1, hm, fun n _ => ⟨(hs n).mass, hM n⟩, fun n _ => hdt n, fun n _ => (hs n).slow⟩
  exact ⟨h1 _ _ _ _ _ hl (fun n hn => (at_ n hn).2.2) (fun n _ => hs n) hx hv n ((le_max_left _ _).trans hn) hL τ h0 hτ,
    h2 _ _ _ _ _ hl hv n ((le_max_right _ _).trans hn) hL τ h0 hτ⟩

end exact

/-! ## Concrete cases; the position gain is needed -/

section examples
attribute [local instance] exactCmp demoTrig demoLit

/-- The joint of C93, but far outside its soft limits and still moving away from them. -/
def farState : JState ℚ := ⟨lightJoint, 5, 7, 0, .fresh 0, 0, true, 0⟩

/-- C97: a controller pushes outwards with full effort, for ever; the joint comes back nevertheless. -/
example : ∃ N, ∀ n, N ≤ n → (pushed (1/20) (1/100) 30 farState n).position ≤ 191/100 ∧ |(pushed (1/20) (1/100) 30 farState n).velocity| ≤ 301/100 := by
  obtain ⟨N1, h1⟩ := C97_comes_back (lim := ⟨0, 2, 30, 3⟩) (saf := ⟨1/10, 19/10, 20, 4⟩) (M := (1/20 : ℚ)) (d := 1/100) (by norm_num) (by norm_num) (by norm_num) (by norm_num) 5 7 (1/100) (by norm_num)
  obtain ⟨N2, h2⟩ := C97_slows_down (lim := ⟨0, 2, 30, 3⟩) (saf := ⟨1/10, 19/10, 20, 4⟩) (M := (1/20 : ℚ)) (d := 1/100) (by norm_num) (by norm_num) (by norm_num) 7 (1/100) (by norm_num)
  refine ⟨max N1 N2, fun n hn => ⟨?_, ?_⟩⟩
  · have h := (h1 1000 (pushed (1/20) (1/100) 30 farState) (fun _ => 30) (fun _ => 1/20) (fun _ => 1/100) light_guarded ⟨rfl, Or.inl rfl⟩ (fun _ => light_suits) (fun _ => le_refl _)
      (fun _ => le_refl _) (pushed_driven _ _ _ _) rfl rfl n ((le_max_left _ _).trans hn) 0 (le_refl _) (by norm_num)).upper
    unfold posAfter at h
    have e : (JSafety.widened (⟨1/10, 19/10, 20, 4⟩ : JSafety ℚ) (1/100)).softUpper = 191/100 := by norm_num [JSafety.widened]
    rw [e] at h
    simpa using h
  · have h := h2 1000 (pushed (1/20) (1/100) 30 farState) (fun _ => 30) (fun _ => 1/20) (fun _ => 1/100) light_guarded (fun _ => ⟨by norm_num, le_refl _⟩) (fun _ => by norm_num)
      (fun _ => le_refl _) (pushed_driven _ _ _ _) rfl n ((le_max_right _ _).trans hn) 0 (le_refl _) (by norm_num)
    unfold velAfter at h
    norm_num at h ⊢
    exact h

/-- … and not at once. -/
example : 5 < (pushed (1/20) (1/100) 30 farState 2).position ∧ (pushed (1/20) (1/100) 30 farState 20).position < 5 := by decide +kernel

/-- The same joint without a position gain, at rest outside. -/
def lazyJoint : UJoint ℚ := ⟨"wrist", .revolute, some ⟨0, 2, 30, 3⟩, some ⟨1/10, 19/10, 0, 4⟩, none⟩
def lazyState : JState ℚ := ⟨lazyJoint, 5, 0, 0, .fresh 0, 0, true, 0⟩

/-- **C97, the position gain is needed.**  Without it (the default of the description format) the limiter lets a joint rest outside its soft limits for ever, although the
description complies with all other conditions. -/
theorem C97_gain_counterexample : Guarded lazyState.joint ⟨0, 2, 30, 3⟩ ⟨1/10, 19/10, 0, 4⟩ ∧ lazyState.posLimited ∧
    Suits (F := ℚ) ⟨0, 2, 30, 3⟩ ⟨1/10, 19/10, 0, 4⟩ (1/20) (1/100) ∧ ∀ n, (pushed (1/20) (1/100) 0 lazyState n).position = 5 := by
  refine ⟨⟨rfl, rfl, ?_, ?_, ?_, ?_, ?_⟩, ⟨rfl, Or.inl rfl⟩, ⟨?_, ?_, ?_, ?_, ?_⟩, ?_⟩
  iterate 10 norm_num
  have : ∀ n, pushed (1/20) (1/100) 0 lazyState n = lazyState := by
    intro n
    induction n with
    | zero => rfl
    | succ n ih =>
      unfold pushed
      rw [ih]
      have e : (JState.enforceLimits 1000 { lazyState with commanded := 0 }).commanded = 0 := by decide +kernel
      have e2 : JState.enforceLimits 1000 { lazyState with commanded := 0 } = lazyState := by
        have : JState.enforceLimits 1000 { lazyState with commanded := 0 } =
          { lazyState with commanded := (JState.enforceLimits 1000 { lazyState with commanded := 0 }).commanded } := rfl
        rw [this, e]; rfl
      rw [e2]
      norm_num [posAfter, velAfter, lazyState]
  intro n
  rw [this n]
  rfl

/-- C97: the hypotheses of `C97_robot` are met by the run of C93, with a load and a switch call. -/
example : ∃ N, ∀ n, N ≤ n → n < 10 → (loopAt n).position ≤ 2 := by
  obtain ⟨N, h⟩ := C97_robot (lim := ⟨0, 2, 30, 3⟩) (saf := ⟨1/10, 19/10, 20, 4⟩) (M := (1/20 : ℚ)) (δ := 1/100) (by norm_num) (by norm_num) (by norm_num) (by norm_num) (by norm_num)
    (301/200) (1/2) (1/10) (by norm_num)
  refine ⟨N, fun n hn h10 => ?_⟩
  have e0 : (loopAt 0).position = 301/200 ∧ (loopAt 0).velocity = 1/2 := by decide +kernel
  have h := (h 1000 false loopRt loopGood 0 loopJoint rfl light_guarded (fun _ => 1/20) (fun _ => 1/100) (fun _ => light_suits) (fun _ => le_refl _) (fun _ => le_refl _) loopRun loopReach loopAt
    (fun n r h => ⟨(loopAt_spec n r h).1, (loopAt_spec n r h).2.1⟩) (fun n hn => by
      rw [loopLength] at hn
      obtain ⟨a, b⟩ := loopMoves n (by omega)
      have e1 := loopAt_spec n _ (List.getElem?_eq_getElem (by rw [loopLength]; omega))
      have e2 := loopAt_spec (n + 1) _ (List.getElem?_eq_getElem (by rw [loopLength]; omega))
      exact ⟨e2.2.2.trans e1.2.2.symm, e2.2.1.1.trans e1.2.1.1.symm, a, b⟩) e0.1 e0.2 n hn (by rw [loopLength]; exact h10) 0 (le_refl _) (by norm_num)).1.upper
  unfold posAfter at h
  have e : (JSafety.widened (⟨1/10, 19/10, 20, 4⟩ : JSafety ℚ) (1/10)).softUpper = 2 := by norm_num [JSafety.widened]
  rw [e] at h
  simpa using h

end examples
end Pr2
