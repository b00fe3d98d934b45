import Verif.Props.LoadedLoop
import Verif.Props.Recovery

/-!
# C114: the safety limits bring a loaded joint back

C97 with a load and with reading errors (as in C113): a joint that is anywhere and has any velocity returns to its limits, up to the distance of C113 and any margin.
-/

namespace Pr2
set_option linter.unusedVariables false

section exact
variable {F : Type} [Field F] [LinearOrder F] [IsStrictOrderedRing F]
attribute [local instance] exactCmp

/-! ## One cycle, upper side -/

/-- The effort with the load, in terms of the true position and velocity. -/
theorem loaded_bound {kp kv vmax E su D N G x v xr vr f : F} (hkp : 0 < kp) (hkv : 0 < kv) (hxr : x - D ≤ xr) (hvr : v - N ≤ vr)
    (hf : f ≤ clamp E (-kv * (vr - clamp vmax (-kp * (xr - su))))) :
    f + G ≤ max (-(E - G)) (-kv * (v - (clamp vmax (kp * (su + D - x)) + (N + G / kv)))) := by
  have hGk : kv * (G / kv) = G := by field_simp
  have hc : clamp vmax (-kp * (xr - su)) ≤ clamp vmax (kp * (su + D - x)) := clamp_mono _ (by
    have : kp * (su - xr) ≤ kp * (su + D - x) := mul_le_mul_of_nonneg_left (by linarith) hkp.le
    linarith)
  generalize clamp vmax (-kp * (xr - su)) = C at hc hf
  generalize clamp vmax (kp * (su + D - x)) = C' at hc ⊢
  unfold clamp at hf
  rcases le_max_iff.1 hf with h | h
  · exact le_max_of_le_left (by linarith)
  · refine le_max_of_le_right ?_
    have h1 := h.trans (min_le_right _ _)
    have h2 : kv * (C - vr) ≤ kv * (C' + N - v) := mul_le_mul_of_nonneg_left (by linarith) hkv.le
    have e : -kv * (v - (C' + (N + G / kv))) = kv * (C' + N - v) + kv * (G / kv) := by ring
    rw [e, hGk]
    linarith

theorem loaded_want {kp vmax su D μ x : F} (hkp : 0 < kp) (hvm : 0 ≤ vmax) :
    clamp vmax (kp * (su + D - x)) + μ ≤ vmax + μ ∧ clamp vmax (kp * (su + D - x)) + μ ≤ max (-(vmax - μ)) (kp * (su + (D + μ / kp) - x)) := by
  have e : kp * (su + (D + μ / kp) - x) = kp * (su + D - x) + μ := by
    have : kp * (μ / kp) = μ := by field_simp
    rw [show kp * (su + (D + μ / kp) - x) = kp * (su + D - x) + kp * (μ / kp) by ring, this]
  rw [e]
  generalize kp * (su + D - x) = y
  refine ⟨by linarith [clamp_le hvm y], ?_⟩
  unfold clamp
  rcases max_choice (-vmax) (min vmax y) with h | h
  · rw [h]; exact le_max_of_le_left (by linarith)
  · rw [h]; exact le_max_of_le_right (by linarith [min_le_right vmax y])

theorem speed_keeps {kv E m dt τ v W V f : F} (hkv : 0 ≤ kv) (hE : 0 ≤ E) (hm : 0 < m) (h0 : 0 ≤ τ) (hτ : τ ≤ dt) (hs : kv * dt ≤ m) (hv : v ≤ V) (hW : W ≤ V)
    (hf : f ≤ max (-E) (-kv * (v - W))) : velAfter m τ f v ≤ V := by
  rcases le_max_iff.1 hf with h | h
  · have : f / m * τ ≤ 0 := mul_nonpos_of_nonpos_of_nonneg (div_nonpos_of_nonpos_of_nonneg (by linarith) hm.le) h0
    unfold velAfter; linarith
  · refine closed_speed (E := |(-kv * (v - W))|) hkv (abs_nonneg _) hm h0 hτ hs hv hW (h.trans ?_)
    unfold clamp
    exact le_max_of_le_right (le_min (le_abs_self _) (le_refl _))

theorem excess_loaded {kv E u v W f : F} (hkv : 0 ≤ kv) (hu : u ≤ v - W) (hf : f ≤ max (-E) (-kv * (v - W))) : f ≤ -min E (kv * u) := by
  refine hf.trans (max_le (neg_le_neg (min_le_left _ _)) ?_)
  have h1 : kv * u ≤ kv * (v - W) := mul_le_mul_of_nonneg_left hu hkv
  have h2 : min E (kv * u) ≤ kv * u := min_le_right _ _
  have h3 : -kv * (v - W) = -(kv * (v - W)) := by ring
  linarith

/-- A joint that is not yet safe up to `ε` and does not move back fast enough is faster than wanted by at least half of `w`. -/
theorem not_up_loaded {kp vlo vhi su ε w x v W : F} (hkp : 0 < kp) (hlo : 0 < vlo) (hlh : vlo ≤ vhi) (hε : 0 < ε) (hw : w = min vlo (kp * ε)) (hW1 : W ≤ vhi)
    (hW2 : W ≤ max (-vlo) (kp * (su - x))) (hn : ¬UpOk kp vhi (su + ε) x v) (hv : -(w / 2) < v) : w / 2 ≤ v - W := by
  have w1 : w ≤ vlo := by rw [hw]; exact min_le_left _ _
  have w2 : w ≤ kp * ε := by rw [hw]; exact min_le_right _ _
  have w0 : 0 < w := by rw [hw]; exact lt_min hlo (mul_pos hkp hε)
  have e1 : kp * (su + ε - x) = kp * (su - x) + kp * ε := by ring
  by_cases hx : x ≤ su + ε
  · have h0 : 0 ≤ kp * (su + ε - x) := mul_nonneg hkp.le (by linarith)
    rcases lt_or_ge (2 * vhi) v with h | h
    · linarith
    · have h2 : 2 * (kp * (su + ε - x)) < v := by
        by_contra hc
        exact hn ⟨hx, not_lt.1 hc, h⟩
      have : W ≤ kp * (su + ε - x) - w := hW2.trans (max_le (by linarith) (by linarith))
      linarith
  · have h1 : kp * (su + ε - x) ≤ 0 := mul_nonpos_of_nonneg_of_nonpos hkp.le (by linarith [not_le.1 hx])
    have : W ≤ -w := hW2.trans (max_le (by linarith) (by linarith))
    linarith

/-! ## All cycles, upper side -/

variable [Archimedean F]

theorem returns_loaded {kp kv vlo vhi E ε M d : F} (su X V : F) (hkp : 0 < kp) (hkv : 0 < kv) (hlo : 0 < vlo) (hlh : vlo ≤ vhi) (hE : 0 < E) (hM : 0 < M) (hε : 0 < ε) (hd : 0 < d) :
    ∃ N : Nat, ∀ x v f W m dt : Nat → F, x 0 ≤ X → v 0 ≤ V → (∀ n, n < N → 0 < m n ∧ m n ≤ M) → (∀ n, n < N → d ≤ dt n) → (∀ n, n < N → kv * dt n ≤ m n) →
      (∀ n, n < N → x (n + 1) ≤ posAfter (m n) (dt n) (f n) (x n) (v n)) → (∀ n, n < N → v (n + 1) ≤ velAfter (m n) (dt n) (f n) (v n)) →
      (∀ n, n < N → f n ≤ max (-E) (-kv * (v n - W n))) → (∀ n, n < N → W n ≤ vhi ∧ W n ≤ max (-vlo) (kp * (su - x n))) → ∃ n, n ≤ N ∧ UpOk kp vhi (su + ε) (x n) (v n) := by
  obtain ⟨w, hw⟩ : ∃ w, w = min vlo (kp * ε) := ⟨_, rfl⟩
  have w0 : 0 < w := by rw [hw]; exact lt_min hlo (mul_pos hkp hε)
  have w1 : w ≤ vlo := by rw [hw]; exact min_le_left _ _
  have w2 : w ≤ kp * ε := by rw [hw]; exact min_le_right _ _
  have e0 : 0 < min E (kv * (w / 2)) := lt_min hE (mul_pos hkv (by linarith))
  obtain ⟨N1, hN1⟩ := Archimedean.arch (V + w / 2) (div_pos (mul_pos e0 hd) hM)
  obtain ⟨B, hB⟩ : ∃ B, B = max V vhi := ⟨_, rfl⟩
  have B1 : V ≤ B := by rw [hB]; exact le_max_left _ _
  have B2 : vhi ≤ B := by rw [hB]; exact le_max_right _ _
  have hBT : 0 ≤ B * (M / kv) := mul_nonneg (by linarith) (div_nonneg hM.le hkv.le)
  obtain ⟨N2, hN2⟩ := Archimedean.arch (X + N1 • (B * (M / kv)) - (su + ε)) (mul_pos (half_pos w0) hd)
  refine ⟨N1 + N2, fun x v f W m dt hx0 hv0 hm hdt hs hx hv hf hW => ?_⟩
  by_contra hall
  have hall : ∀ n, n ≤ N1 + N2 → ¬UpOk kp vhi (su + ε) (x n) (v n) := fun n hn h => hall ⟨n, hn, h⟩
  have step1 : ∃ n, n ≤ N1 ∧ v n ≤ -(w / 2) := by
    by_contra hc
    have hc : ∀ n, n ≤ N1 → -(w / 2) < v n := fun n hn => not_le.1 fun h => hc ⟨n, hn, h⟩
    have := falls (c := min E (kv * (w / 2)) * d / M) v N1 (fun n hn =>
      (hv n (by omega)).trans (brakes (hm n (by omega)).1 (hm n (by omega)).2 hd.le (hdt n (by omega)) e0.le
        (excess_loaded hkv.le (not_up_loaded hkp hlo hlh hε hw (hW n (by omega)).1 (hW n (by omega)).2 (hall n (by omega)) (hc n (by omega))) (hf n (by omega)))))
    linarith [hc N1 (le_refl _)]
  obtain ⟨n1, hn1, hN⟩ := step1
  have out : ∀ n, n ≤ N1 + N2 → v n ≤ -(w / 2) → su + ε < x n := by
    intro n hn h
    by_contra hc
    have hc := not_lt.1 hc
    exact hall n hn ⟨hc, by linarith [mul_nonneg hkp.le (sub_nonneg.2 hc)], by linarith⟩
  have fast' : ∀ n, n < N1 + N2 → v n ≤ B → velAfter (m n) (dt n) (f n) (v n) ≤ B := fun n hn h =>
    speed_keeps hkv.le hE.le (hm n hn).1 (hd.le.trans (hdt n hn)) (le_refl _) (hs n hn) h ((hW n hn).1.trans B2) (hf n hn)
  have fast : ∀ n, n ≤ N1 + N2 → v n ≤ B := by
    intro n
    induction n with
    | zero => intro _; linarith
    | succ n ih => exact fun hn => (hv n (by omega)).trans (fast' n (by omega) (ih (by omega)))
  have mean : ∀ n b, n < N1 + N2 → v n ≤ b → velAfter (m n) (dt n) (f n) (v n) ≤ b → x (n + 1) ≤ x n + b * dt n := by
    intro n b hn h1 h2
    have e : posAfter (m n) (dt n) (f n) (x n) (v n) = x n + (v n + velAfter (m n) (dt n) (f n) (v n)) / 2 * dt n := by unfold posAfter velAfter; ring
    have := hx n hn
    rw [e] at this
    have h3 : (v n + velAfter (m n) (dt n) (f n) (v n)) / 2 * dt n ≤ b * dt n := mul_le_mul_of_nonneg_right (by linarith) (hd.le.trans (hdt n hn))
    linarith
  have far : x n1 ≤ X + N1 • (B * (M / kv)) := by
    have h1 := rises (c := B * (M / kv)) x n1 (fun n hn => by
      have hn' : n < N1 + N2 := by omega
      have hdn : dt n ≤ M / kv := by
        rw [le_div_iff₀ hkv]
        linarith [hs n hn', (hm n hn').2]
      have h2 := mean n B hn' (fast n hn'.le) (fast' n hn' (fast n hn'.le))
      have h3 : B * dt n ≤ B * (M / kv) := mul_le_mul_of_nonneg_left hdn (by linarith)
      linarith)
    have h2 : n1 • (B * (M / kv)) ≤ N1 • (B * (M / kv)) := nsmul_le_nsmul_left hBT hn1
    linarith
  have back : ∀ n, n < N1 + N2 → v n ≤ -(w / 2) → velAfter (m n) (dt n) (f n) (v n) ≤ -(w / 2) := by
    intro n hn h
    have ho := out n hn.le h
    refine speed_keeps hkv.le hE.le (hm n hn).1 (hd.le.trans (hdt n hn)) (le_refl _) (hs n hn) h ?_ (hf n hn)
    have h1 : kp * (su + ε - x n) ≤ 0 := mul_nonpos_of_nonneg_of_nonpos hkp.le (by linarith)
    have e1 : kp * (su + ε - x n) = kp * (su - x n) + kp * ε := by ring
    exact (hW n hn).2.trans (max_le (by linarith) (by linarith))
  have step2 : ∀ k, k ≤ N2 → v (n1 + k) ≤ -(w / 2) := by
    intro k
    induction k with
    | zero => exact fun _ => hN
    | succ k ih => exact fun hk => (hv (n1 + k) (by omega)).trans (back (n1 + k) (by omega) (ih (by omega)))
  have h9 := falls (c := w / 2 * d) (fun k => x (n1 + k)) N2 (fun k hk => by
    have h1 := step2 k (by omega)
    have h2 := mean (n1 + k) _ (by omega) h1 (back (n1 + k) (by omega) h1)
    have h4 : w / 2 * d ≤ w / 2 * dt (n1 + k) := mul_le_mul_of_nonneg_left (hdt _ (by omega)) (by linarith)
    have h5 : -(w / 2) * dt (n1 + k) = -(w / 2 * dt (n1 + k)) := by ring
    change x (n1 + k + 1) ≤ x (n1 + k) - w / 2 * d
    linarith)
  have h10 := out (n1 + N2) (by omega) (step2 N2 (le_refl _))
  change x (n1 + N2) ≤ x n1 - N2 • (w / 2 * d) at h9
  linarith

theorem slows_loaded {kv vmax E ε M d : F} (V : F) (hkv : 0 < kv) (hE : 0 < E) (hM : 0 < M) (hε : 0 < ε) (hd : 0 < d) :
    ∃ N : Nat, ∀ v b f m dt : Nat → F, v 0 ≤ V → (∀ n, n < N → 0 < m n ∧ m n ≤ M) → (∀ n, n < N → d ≤ dt n) → (∀ n, n < N → v (n + 1) ≤ velAfter (m n) (dt n) (f n) (v n)) →
      (∀ n, n < N → b n ≤ vmax) → (∀ n, n < N → f n ≤ max (-E) (-kv * (v n - b n))) → ∃ n, n ≤ N ∧ v n ≤ vmax + ε := by
  have e0 : 0 < min E (kv * ε) := lt_min hE (mul_pos hkv hε)
  obtain ⟨N, hN⟩ := Archimedean.arch (V - (vmax + ε)) (div_pos (mul_pos e0 hd) hM)
  refine ⟨N, fun v b f m dt hv0 hm hdt hv hb hf => ?_⟩
  by_contra hc
  have hc : ∀ n, n ≤ N → vmax + ε < v n := fun n hn => not_le.1 fun h => hc ⟨n, hn, h⟩
  have := falls (c := min E (kv * ε) * d / M) v N (fun n hn =>
    (hv n hn).trans (brakes (hm n hn).1 (hm n hn).2 hd.le (hdt n hn) e0.le (excess_loaded hkv.le (by linarith [hb n hn, hc n (by omega)]) (hf n hn))))
  linarith [hc N (le_refl _)]

/-! ## Both sides -/

/-- A joint in `L` successive cycles, whose effort is always one that the limiter leaves alone, with its true positions and velocities. -/
structure CarriedOn (big : F) (lim : JLimits F) (saf : JSafety F) (N G d M : F) (L : Nat) (m dt : Nat → F) (j : Nat → JState F) (X V : Nat → F) : Prop where
  guarded : ∀ n, n < L → Guarded (j n).joint lim saf
  bounds : ∀ n, n < L → (j n).InBounds big
  read : ∀ n, n < L → |(j n).velocity - V n| ≤ N
  move : ∀ n, n + 1 < L → Carried (m n) (dt n) G (j n).commanded (X n) (V n) (X (n + 1)) (V (n + 1))
  mass : ∀ n, n < L → 0 < m n ∧ m n ≤ M
  time : ∀ n, n < L → d ≤ dt n
  slow : ∀ n, n < L → saf.kVelocity * dt n ≤ m n

omit [Archimedean F] in
theorem loaded_bound' {kv E N G v vr b f : F} (hkv : 0 < kv) (hvr : v - N ≤ vr) (hf : f ≤ clamp E (-kv * (vr - b))) : f + G ≤ max (-(E - G)) (-kv * (v - (b + (N + G / kv)))) := by
  have hGk : kv * (G / kv) = G := by field_simp
  unfold clamp at hf
  rcases le_max_iff.1 hf with h | h
  · exact le_max_of_le_left (by linarith)
  · refine le_max_of_le_right ?_
    have h1 := h.trans (min_le_right _ _)
    have h2 : kv * (b - vr) ≤ kv * (b + N - v) := mul_le_mul_of_nonneg_left (by linarith) hkv.le
    have e : -kv * (v - (b + (N + G / kv))) = kv * (b + N - v) + kv * (G / kv) := by ring
    rw [e, hGk]
    linarith

theorem carried_slows {lim : JLimits F} {saf : JSafety F} {N G d M ε : F} (v0 : F) (hkv : 0 < saf.kVelocity) (hG : 0 ≤ G) (hE : G < lim.effort) (hd : 0 < d) (hε : 0 < ε) :
    ∃ K : Nat, ∀ big L m dt j X V, CarriedOn big lim saf N G d M L m dt j X V → V 0 = v0 → ∀ n, K ≤ n → n < L → ∀ τ x v, 0 ≤ τ → τ ≤ dt n →
      Carried (m n) τ G (j n).commanded (X n) (V n) x v → |v| ≤ lim.velocity + overspeed saf N G + ε := by
  by_cases hM : 0 < M
  swap
  · exact ⟨0, fun big L m dt j X V h _ n _ hn => absurd ((h.mass n hn).1.trans_le (h.mass n hn).2) hM⟩
  have hE' : 0 < lim.effort - G := by linarith
  obtain ⟨N1, h1⟩ := slows_loaded (kv := saf.kVelocity) (vmax := lim.velocity + overspeed saf N G) (E := lim.effort - G) (ε := ε) (M := M) (d := d) v0 hkv hE' hM hε hd
  obtain ⟨N2, h2⟩ := slows_loaded (kv := saf.kVelocity) (vmax := lim.velocity + overspeed saf N G) (E := lim.effort - G) (ε := ε) (M := M) (d := d) (-v0) hkv hE' hM hε hd
  refine ⟨max N1 N2, fun big L m dt j X V h hv0 n hn hL => ?_⟩
  have l1 : N1 ≤ n := (le_max_left _ _).trans hn
  have l2 : N2 ≤ n := (le_max_right _ _).trans hn
  have r1 : ∀ i, i < L → -((j i).velBounds lim saf).1 + (N + G / saf.kVelocity) ≤ lim.velocity + overspeed saf N G := fun i hi => by
    have := (velBounds_range (h.guarded i hi)).1; unfold overspeed; linarith
  have r2 : ∀ i, i < L → ((j i).velBounds lim saf).2 + (N + G / saf.kVelocity) ≤ lim.velocity + overspeed saf N G := fun i hi => by
    have := (velBounds_range (h.guarded i hi)).2; unfold overspeed; linarith
  have s1 := fun i (hi : i < L) => loaded_bound' (N := N) (G := G) (v := V i) hkv (by linarith [(abs_le.1 (h.read i hi)).1]) (inBounds_sides (h.guarded i hi) (h.bounds i hi)).1
  have s2 := fun i (hi : i < L) => loaded_bound' (N := N) (G := G) (v := -V i) hkv (by linarith [(abs_le.1 (h.read i hi)).2]) (inBounds_sides (h.guarded i hi) (h.bounds i hi)).2
  have up1 : ∀ i τ x v, i < L → 0 ≤ τ → τ ≤ dt i → Carried (m i) τ G (j i).commanded (X i) (V i) x v → V i ≤ lim.velocity + overspeed saf N G + ε → v ≤ lim.velocity + overspeed saf N G + ε :=
    fun i τ x v hi h0 hτ hc hV => hc.bounds.2.2.2.trans (speed_keeps hkv.le hE'.le (h.mass i hi).1 h0 hτ (h.slow i hi) hV (by linarith [r2 i hi]) (s1 i hi))
  have ng : ∀ c v m τ : F, velAfter m τ (-c + G) (-v) = -velAfter m τ (c - G) v := fun c v m τ => by rw [show -c + G = -(c - G) by ring, velAfter_neg]
  have dn1 : ∀ i τ x v, i < L → 0 ≤ τ → τ ≤ dt i → Carried (m i) τ G (j i).commanded (X i) (V i) x v → -V i ≤ lim.velocity + overspeed saf N G + ε → -v ≤ lim.velocity + overspeed saf N G + ε :=
    fun i τ x v hi h0 hτ hc hV => by
      have := speed_keeps hkv.le hE'.le (h.mass i hi).1 h0 hτ (h.slow i hi) hV (by linarith [r1 i hi]) (s2 i hi)
      rw [ng] at this
      linarith [hc.bounds.2.2.1]
  have up := from_then_on (P := fun i => V i ≤ lim.velocity + overspeed saf N G + ε) (h1 V _ (fun i => (j i).commanded + G) m dt hv0.le (fun i hi => h.mass i (by omega)) (fun i hi => h.time i (by omega))
    (fun i hi => (h.move i (by omega)).bounds.2.2.2) (fun i hi => r2 i (by omega)) (fun i hi => s1 i (by omega)))
    (fun i hi hP => up1 i _ _ _ (by omega) (hd.le.trans (h.time i (by omega))) (le_refl _) (h.move i hi) hP) n l1 hL
  have down := from_then_on (P := fun i => -V i ≤ lim.velocity + overspeed saf N G + ε) (h2 (fun i => -V i) _ (fun i => -(j i).commanded + G) m dt (by rw [hv0]) (fun i hi => h.mass i (by omega))
    (fun i hi => h.time i (by omega)) (fun i hi => by rw [ng]; exact neg_le_neg (h.move i (by omega)).bounds.2.2.1) (fun i hi => r1 i (by omega)) (fun i hi => s2 i (by omega)))
    (fun i hi hP => dn1 i _ _ _ (by omega) (hd.le.trans (h.time i (by omega))) (le_refl _) (h.move i hi) hP) n l2 hL
  intro τ x v h0 hτ hc
  exact abs_le.2 ⟨by linarith [dn1 n τ x v hL h0 hτ hc down], up1 n τ x v hL h0 hτ hc up⟩

omit [Archimedean F] in
/-- Withstanding with a greater error. -/
theorem Withstands.more {lim : JLimits F} {saf : JSafety F} {m dt D N G ε : F} (h : Withstands lim saf m dt D N G) (hε : 0 ≤ ε) : Withstands lim saf m dt (D + ε) N G :=
  { h with errD := by linarith [h.errD] }

theorem carried_returns {lim : JLimits F} {saf : JSafety F} {D N G d M ε : F} (x0 v0 : F) (hroom : saf.kVelocity * N + G < saf.kVelocity * lim.velocity) (hd : 0 < d) (hε : 0 < ε) :
    ∃ K : Nat, ∀ big L m dt j X V, CarriedOn big lim saf N G d M L m dt j X V → (∀ n, n < L → |(j n).position - X n| ≤ D) → (∀ n, n < L → (j n).posLimited) → (∀ n, n < L → Withstands lim saf (m n) (dt n) D N G) → X 0 = x0 → V 0 = v0 →
      ∀ n, K ≤ n → n < L → ∀ τ x v, 0 ≤ τ → τ ≤ dt n → Carried (m n) τ G (j n).commanded (X n) (V n) x v → SafeUpTo lim saf (D + ε) N G x v := by
  by_cases hM : 0 < M
  swap
  · exact ⟨0, fun big L m dt j X V h _ _ _ _ _ n _ hn => absurd ((h.mass n hn).1.trans_le (h.mass n hn).2) hM⟩
  by_cases hw : ∃ m dt, Withstands lim saf m dt D N G
  swap
  · exact ⟨0, fun big L m dt j X V h _ _ hs _ _ n _ hn => absurd ⟨_, _, hs n hn⟩ hw⟩
  obtain ⟨m', dt', hw⟩ := hw
  have hkp := hw.kp
  have hkv := hw.kv
  obtain ⟨μ, hμ⟩ : ∃ μ, μ = N + G / saf.kVelocity := ⟨_, rfl⟩
  have kμ : saf.kVelocity * μ = saf.kVelocity * N + G := by rw [hμ]; field_simp
  have μ0 : 0 ≤ μ := by rw [hμ]; exact add_nonneg hw.errN (div_nonneg hw.load hkv.le)
  have μ1 : μ < lim.velocity := lt_of_mul_lt_mul_left (by rw [kμ]; exact hroom) hkv.le
  have hlo : 0 < lim.velocity - μ := by linarith
  have hE : 0 < lim.effort - G := by
    have h1 := hw.strong
    have h2 : 0 < saf.kVelocity * (lim.velocity + N) := mul_pos hkv (by linarith [hw.errN])
    linarith [hw.load]
  obtain ⟨N1, h1⟩ := returns_loaded (kp := saf.kPosition) (kv := saf.kVelocity) (vlo := lim.velocity - μ) (vhi := lim.velocity + μ) (E := lim.effort - G) (ε := ε) (M := M) (d := d)
    (saf.softUpper + (D + μ / saf.kPosition)) x0 v0 hkp hkv hlo (by linarith) hE hM hε hd
  obtain ⟨N2, h2⟩ := returns_loaded (kp := saf.kPosition) (kv := saf.kVelocity) (vlo := lim.velocity - μ) (vhi := lim.velocity + μ) (E := lim.effort - G) (ε := ε) (M := M) (d := d)
    (-saf.softLower + (D + μ / saf.kPosition)) (-x0) (-v0) hkp hkv hlo (by linarith) hE hM hε hd
  refine ⟨max N1 N2, fun big L m dt j X V h hpos hp hs hx0 hv0 n hn hL => ?_⟩
  have l1 : N1 ≤ n := (le_max_left _ _).trans hn
  have l2 : N2 ≤ n := (le_max_right _ _).trans hn
  have hvm : 0 ≤ lim.velocity := by linarith
  have bu : ∀ n, n < L → (j n).commanded ≤ clamp lim.effort (-saf.kVelocity * ((j n).velocity - clamp lim.velocity (-saf.kPosition * ((j n).position - saf.softUpper)))) := by
    intro n hn
    have := (inBounds_sides (h.guarded n hn) (h.bounds n hn)).1
    rwa [(velBounds_eq (h.guarded n hn)).1 (hp n hn)] at this
  have bl : ∀ n, n < L → -(j n).commanded ≤ clamp lim.effort (-saf.kVelocity * (-(j n).velocity - clamp lim.velocity (-saf.kPosition * (-(j n).position - -saf.softLower)))) := by
    intro n hn
    have := (inBounds_sides (h.guarded n hn) (h.bounds n hn)).2
    rw [(velBounds_eq (h.guarded n hn)).1 (hp n hn)] at this
    dsimp only at this
    rwa [← clamp_neg _ _ hvm, show -(-saf.kPosition * ((j n).position - saf.softLower)) = -saf.kPosition * (-(j n).position - -saf.softLower) by ring] at this
  have rx : ∀ n, n < L → X n - D ≤ (j n).position := fun n hn => by linarith [(abs_le.1 (hpos n hn)).1]
  have rv : ∀ n, n < L → V n - N ≤ (j n).velocity := fun n hn => by linarith [(abs_le.1 (h.read n hn)).1]
  have rx' : ∀ n, n < L → -X n - D ≤ -(j n).position := fun n hn => by linarith [(abs_le.1 (hpos n hn)).2]
  have rv' : ∀ n, n < L → -V n - N ≤ -(j n).velocity := fun n hn => by linarith [(abs_le.1 (h.read n hn)).2]
  have ng : ∀ c v m τ : F, velAfter m τ (-c + G) (-v) = -velAfter m τ (c - G) v := fun c v m τ => by rw [show -c + G = -(c - G) by ring, velAfter_neg]
  have np : ∀ c x v m τ : F, posAfter m τ (-c + G) (-x) (-v) = -posAfter m τ (c - G) x v := fun c x v m τ => by rw [show -c + G = -(c - G) by ring, posAfter_neg]
  have sE : ∀ a b : F, a + (b + μ / saf.kPosition) + ε = a + (b + ε + μ / saf.kPosition) := fun a b => by ring
  have su : ∀ n, n < L → ∀ τ x v, 0 ≤ τ → τ ≤ dt n → Carried (m n) τ G (j n).commanded (X n) (V n) x v →
      UpOk saf.kPosition (lim.velocity + μ) (saf.softUpper + (D + μ / saf.kPosition) + ε) (X n) (V n) → UpOk saf.kPosition (lim.velocity + μ) (saf.softUpper + (D + μ / saf.kPosition) + ε) x v := by
    intro n hn τ x v h0 hτ hc ⟨u1, u2, u3⟩
    have hs := hs n hn
    rw [sE] at u1 u2 ⊢
    rw [hμ] at u1 u2 u3 ⊢
    exact loaded_upper hkp hkv hvm hs.mass h0 hτ hs.damped hs.slow hs.errN hs.load hs.room hs.strong u1 u2 u3 (by linarith [rx n hn]) (rv n hn) (bu n hn) hc.bounds.2.1 hc.bounds.2.2.2
  have sl : ∀ n, n < L → ∀ τ x v, 0 ≤ τ → τ ≤ dt n → Carried (m n) τ G (j n).commanded (X n) (V n) x v →
      UpOk saf.kPosition (lim.velocity + μ) (-saf.softLower + (D + μ / saf.kPosition) + ε) (-X n) (-V n) → UpOk saf.kPosition (lim.velocity + μ) (-saf.softLower + (D + μ / saf.kPosition) + ε) (-x) (-v) := by
    intro n hn τ x v h0 hτ hc ⟨u1, u2, u3⟩
    have hs := hs n hn
    rw [sE] at u1 u2 ⊢
    rw [hμ] at u1 u2 u3 ⊢
    exact loaded_upper hkp hkv hvm hs.mass h0 hτ hs.damped hs.slow hs.errN hs.load hs.room hs.strong u1 u2 u3 (by linarith [rx' n hn]) (rv' n hn) (bl n hn)
      (by rw [np]; exact neg_le_neg hc.bounds.1) (by rw [ng]; exact neg_le_neg hc.bounds.2.2.1)
  have q1 := from_then_on (P := fun i => UpOk saf.kPosition (lim.velocity + μ) (saf.softUpper + (D + μ / saf.kPosition) + ε) (X i) (V i))
    (h1 X V (fun n => (j n).commanded + G) (fun n => clamp lim.velocity (saf.kPosition * (saf.softUpper + D - X n)) + μ) m dt hx0.le hv0.le (fun i hi => h.mass i (by omega)) (fun i hi => h.time i (by omega))
      (fun i hi => h.slow i (by omega)) (fun i hi => (h.move i (by omega)).bounds.2.1) (fun i hi => (h.move i (by omega)).bounds.2.2.2)
      (fun i hi => by rw [hμ]; exact loaded_bound hkp hkv (rx i (by omega)) (rv i (by omega)) (bu i (by omega))) (fun i hi => loaded_want hkp hvm))
    (fun i hi hP => su i (by omega) _ _ _ (hs i (by omega)).time (le_refl _) (h.move i hi) hP) n l1 hL
  have q2 := from_then_on (P := fun i => UpOk saf.kPosition (lim.velocity + μ) (-saf.softLower + (D + μ / saf.kPosition) + ε) (-X i) (-V i))
    (h2 (fun i => -X i) (fun i => -V i) (fun n => -(j n).commanded + G) (fun n => clamp lim.velocity (saf.kPosition * (-saf.softLower + D - -X n)) + μ) m dt (by rw [hx0]) (by rw [hv0])
      (fun i hi => h.mass i (by omega)) (fun i hi => h.time i (by omega)) (fun i hi => h.slow i (by omega)) (fun i hi => by rw [np]; exact neg_le_neg (h.move i (by omega)).bounds.1)
      (fun i hi => by rw [ng]; exact neg_le_neg (h.move i (by omega)).bounds.2.2.1)
      (fun i hi => by rw [hμ]; exact loaded_bound hkp hkv (rx' i (by omega)) (rv' i (by omega)) (bl i (by omega))) (fun i hi => loaded_want hkp hvm))
    (fun i hi hP => sl i (by omega) _ _ _ (hs i (by omega)).time (le_refl _) (h.move i hi) hP) n l2 hL
  intro τ x v h0 hτ hc
  obtain ⟨a1, a2, a3⟩ := su n hL τ x v h0 hτ hc q1
  obtain ⟨c1, c2, c3⟩ := sl n hL τ x v h0 hτ hc q2
  rw [sE] at a1 a2 c1 c2
  rw [hμ] at a1 a2 a3 c1 c2 c3
  rw [show ∀ a b c : F, -a + b - -c = c - (a - b) from fun a b c => by ring] at c2
  refine ⟨?_, a1, a2, c2, abs_le.2 ⟨?_, a3⟩⟩
  · change saf.softLower - (D + ε + (N + G / saf.kVelocity) / saf.kPosition) ≤ x; linarith
  · change -(2 * (lim.velocity + (N + G / saf.kVelocity))) ≤ v; linarith

omit [Archimedean F] in
/-- The cycles of one joint, with any commands. -/
theorem carried_of_commands (big : F) {lim : JLimits F} {saf : JSafety F} {N G : F} (σ : Nat → JState F) (X V c m dt : Nat → F) (g : Guarded (σ 0).joint lim saf) {d M : F}
    (hσ : ∀ n, (σ n).joint = (σ 0).joint) (hread : ∀ n, |(σ n).velocity - V n| ≤ N)
    (hm : ∀ n, Carried (m n) (dt n) G (JState.enforceLimits big { σ n with commanded := c n }).commanded (X n) (V n) (X (n + 1)) (V (n + 1))) (h1 : ∀ n, 0 < m n ∧ m n ≤ M) (h2 : ∀ n, d ≤ dt n)
    (h3 : ∀ n, saf.kVelocity * dt n ≤ m n) (L : Nat) : CarriedOn big lim saf N G d M L m dt (fun n => JState.enforceLimits big { σ n with commanded := c n }) X V := by
  have g' : ∀ n, Guarded ({ σ n with commanded := c n } : JState F).joint lim saf := by
    intro n; rw [← hσ n] at g; exact g
  exact ⟨fun n _ => g' n, fun n _ => enforced_inBounds big (g' n), fun n _ => hread n, fun n _ => hm n, fun n _ => h1 n, fun n _ => h2 n, fun n _ => h3 n⟩

/-- **C114, position.**  A calibrated revolute or prismatic joint is at the beginning at any position `x0` and has any velocity `v0`.  Position and velocity are read with errors of at most `D` and `N`, a load of at
most `G` acts on it, in every cycle the controllers command any effort.  If the description suits the mechanics (`Withstands`, and the speed limit leaves some room), then for every margin `ε` there is a number of cycles,
which depends neither on commands, nor on loads, nor on errors, after which the joint is at every moment within its soft limits up to `ε` and the distance of C113. -/
theorem C114_comes_back {lim : JLimits F} {saf : JSafety F} {D N G : F} (hroom : saf.kVelocity * N + G < saf.kVelocity * lim.velocity) {M d : F} (hd : 0 < d) (x0 v0 ε : F) (hε : 0 < ε) :
    ∃ K : Nat, ∀ (big : F) (σ : Nat → JState F) (X V c m dt : Nat → F), Guarded (σ 0).joint lim saf → (σ 0).posLimited →
      (∀ n, (σ n).joint = (σ 0).joint ∧ (σ n).calibrated = (σ 0).calibrated) → (∀ n, |(σ n).position - X n| ≤ D ∧ |(σ n).velocity - V n| ≤ N) →
      (∀ n, Withstands lim saf (m n) (dt n) D N G) → (∀ n, d ≤ dt n) → (∀ n, m n ≤ M) →
      (∀ n, Carried (m n) (dt n) G (JState.enforceLimits big { σ n with commanded := c n }).commanded (X n) (V n) (X (n + 1)) (V (n + 1))) →
      X 0 = x0 → V 0 = v0 → ∀ n, K ≤ n → ∀ τ x v, 0 ≤ τ → τ ≤ dt n →
      Carried (m n) τ G (JState.enforceLimits big { σ n with commanded := c n }).commanded (X n) (V n) x v → SafeUpTo lim saf (D + ε) N G x v := by
  obtain ⟨K, hK⟩ := carried_returns (D := D) (M := M) x0 v0 hroom hd hε
  refine ⟨K, fun big σ X V c m dt g hp hσ hread hs hdt hM hm hx hv n hn τ x v h0 hτ hc => ?_⟩
  have h := carried_of_commands big σ X V c m dt g (fun n => (hσ n).1) (fun n => (hread n).2) hm (fun n => ⟨(hs n).mass, hM n⟩) hdt (fun n => (hs n).slow) (n + 1)
  exact hK _ _ _ _ _ _ _ h (fun n _ => (hread n).1) (fun n _ => by
    obtain ⟨q1, q2⟩ := hp
    exact ⟨(hσ n).2.trans q1, by change (σ n).joint.type = _ ∨ (σ n).joint.type = _; rw [(hσ n).1]; exact q2⟩) (fun n _ => hs n) hx hv n hn (by omega) τ x v h0 hτ hc

/-- **C114, speed.**  Any joint with limits and safety parameters, calibrated or not, with any velocity at the beginning. -/
theorem C114_slows_down {lim : JLimits F} {saf : JSafety F} {N G : F} (hkv : 0 < saf.kVelocity) (hG : 0 ≤ G) (hE : G < lim.effort) {M d : F} (hd : 0 < d) (v0 ε : F) (hε : 0 < ε) :
    ∃ K : Nat, ∀ (big : F) (σ : Nat → JState F) (X V c m dt : Nat → F), Guarded (σ 0).joint lim saf → (∀ n, (σ n).joint = (σ 0).joint) → (∀ n, |(σ n).velocity - V n| ≤ N) →
      (∀ n, 0 < m n ∧ m n ≤ M) → (∀ n, saf.kVelocity * dt n ≤ m n) → (∀ n, d ≤ dt n) →
      (∀ n, Carried (m n) (dt n) G (JState.enforceLimits big { σ n with commanded := c n }).commanded (X n) (V n) (X (n + 1)) (V (n + 1))) →
      V 0 = v0 → ∀ n, K ≤ n → ∀ τ x v, 0 ≤ τ → τ ≤ dt n →
      Carried (m n) τ G (JState.enforceLimits big { σ n with commanded := c n }).commanded (X n) (V n) x v → |v| ≤ lim.velocity + overspeed saf N G + ε := by
  obtain ⟨K, hK⟩ := carried_slows (N := N) (M := M) v0 hkv hG hE hd hε
  refine ⟨K, fun big σ X V c m dt g hσ hread hM hs hdt hm hv n hn τ x v h0 hτ hc => ?_⟩
  exact hK _ _ _ _ _ _ _ (carried_of_commands big σ X V c m dt g hσ hread hm hM hdt hs (n + 1)) hv n hn (by omega) τ x v h0 hτ hc

/-! ## The whole robot, from the description to the motors -/

variable [FLit F] [iTrig : FTrig F]

/-- **C114, the whole robot.**  Whatever is loaded, unloaded and switched and whatever the controllers command: the number of cycles depends on none of that. -/
theorem C114_robot {lim : JLimits F} {saf : JSafety F} {D N G : F} (hroom : saf.kVelocity * N + G < saf.kVelocity * lim.velocity) {M δ : F} (hδ : 0 < δ) (x0 v0 ε : F) (hε : 0 < ε) :
    ∃ K : Nat, ∀ (big : F) (sim : Bool) (d : RtData F), d.Good → ∀ p : Plant F, Plant.Reach big sim d PlantIn.Tame p → ∀ (n0 : Nat) (jn : String) (u : UJoint F),
      (∀ r ∈ p.cycles, ∃ j, r.sent.Joint jn j) → (∀ r ∈ p.cycles, ∀ j, r.sent.Joint jn j → j.joint = u) →
      (∀ n r j, n0 ≤ n → p.cycles[n]? = some r → r.sent.Joint jn j → j.calibrated = true) → Guarded u lim saf → u.type = .revolute ∨ u.type = .prismatic →
      ∀ X V m dt : Nat → F, (∀ n, Withstands lim saf (m n) (dt n) D N G) → (∀ n, δ ≤ dt n) → (∀ n, m n ≤ M) → p.JointCarried n0 jn D N G X V m dt → X n0 = x0 → V n0 = v0 →
      ∀ n r j, n0 + K ≤ n → p.cycles[n]? = some r → r.sent.Joint jn j → ∀ τ x v, 0 ≤ τ → τ ≤ dt n → Carried (m n) τ G j.commanded (X n) (V n) x v →
      SafeUpTo lim saf (D + ε) N G x v ∧ |v| ≤ lim.velocity + overspeed saf N G + ε := by
  obtain ⟨K1, h1⟩ := carried_returns (D := D) (M := M) x0 v0 hroom hδ hε
  by_cases hw : ∃ m dt, Withstands lim saf m dt D N G
  swap
  · exact ⟨0, fun big sim d hd p h n0 jn u _ _ _ _ _ X V m dt hs => absurd ⟨_, _, hs 0⟩ hw⟩
  obtain ⟨m', dt', hw⟩ := hw
  have hE : G < lim.effort := by
    have h1 := hw.strong
    have h2 : 0 < saf.kVelocity * lim.velocity := lt_of_le_of_lt (add_nonneg (mul_nonneg hw.kv.le hw.errN) hw.load) hroom
    have h3 : 0 ≤ saf.kVelocity * N := mul_nonneg hw.kv.le hw.errN
    rw [mul_add] at h1
    linarith [hw.load]
  obtain ⟨K2, h2⟩ := carried_slows (N := N) (M := M) v0 hw.kv hw.load hE hδ hε
  refine ⟨max K1 K2, fun big sim d hd p h n0 jn u found desc cal g hty X V m dt hs hdt hM hm hx hv n r j hn hr hj τ x v h0 hτ hc => ?_⟩
  have hlt := (List.getElem?_eq_some_iff.1 hr).1
  have pick : ∀ i, ∃ j : JState F, ∀ r, p.cycles[n0 + i]? = some r → r.sent.Joint jn j := by
    intro i
    by_cases hi : n0 + i < p.cycles.length
    · obtain ⟨j, hj⟩ := found _ (List.getElem_mem hi)
      refine ⟨j, fun r hr => ?_⟩
      rw [List.getElem?_eq_getElem hi] at hr
      cases hr; exact hj
    · refine ⟨j, fun r hr => absurd (List.getElem?_eq_some_iff.1 hr).1 hi⟩
  choose q hq using pick
  have at_ : ∀ i, i < p.cycles.length - n0 → ∃ r, p.cycles[n0 + i]? = some r ∧ r ∈ p.cycles ∧ r.sent.Joint jn (q i) := fun i hi =>
    have hi' : n0 + i < p.cycles.length := by omega
    ⟨_, List.getElem?_eq_getElem hi', List.getElem_mem hi', hq i _ (List.getElem?_eq_getElem hi')⟩
  have gd : ∀ i, i < p.cycles.length - n0 → Guarded (q i).joint lim saf := fun i hi => by
    obtain ⟨r, _, hr, hj⟩ := at_ i hi
    rw [desc r hr _ hj]; exact g
  have hl : CarriedOn big lim saf N G δ M (p.cycles.length - n0) (fun i => m (n0 + i)) (fun i => dt (n0 + i)) q (fun i => X (n0 + i)) (fun i => V (n0 + i)) := by
    refine ⟨gd, fun i hi => ?_, fun i hi => ?_, fun i hi => ?_, fun i _ => ⟨(hs _).mass, hM _⟩, fun i _ => hdt _, fun i _ => (hs _).slow⟩
    · obtain ⟨r, _, hr, hj⟩ := at_ i hi
      exact sent_bounds hd h hr hj (gd i hi)
    · obtain ⟨r, e, hr, hj⟩ := at_ i hi
      exact (hm.read _ r _ (by omega) e hj).2
    · obtain ⟨r, e, hr, hj⟩ := at_ i (by omega)
      exact hm.move _ r _ (by omega) e (by omega) hj
  obtain ⟨i, rfl⟩ : ∃ i, n = n0 + i := ⟨n - n0, by omega⟩
  cases (hq i r hr).unique hj
  refine ⟨h1 _ _ _ _ _ _ _ hl (fun i hi => ?_) (fun i hi => ?_) (fun i _ => hs _) hx hv i ((le_max_left K1 K2).trans (by omega)) (by omega) τ x v h0 hτ hc,
    h2 _ _ _ _ _ _ _ hl hv i ((le_max_right K1 K2).trans (by omega)) (by omega) τ x v h0 hτ hc⟩
  · obtain ⟨r, e, hr, hj⟩ := at_ i hi
    exact (hm.read _ r _ (by omega) e hj).1
  · obtain ⟨r, e, hr, hj⟩ := at_ i hi
    exact ⟨cal _ r _ (by omega) e hj, by rw [desc r hr _ hj]; exact hty⟩

variable [Parse F]

/-- **C114, from the description to the motors.**  The joint of a simple transmission of any robot loaded from its description: motor load, encoder errors and calibration error as in C113.  The motor may be anywhere and have any
velocity in cycle `n0`. -/
theorem C114_simple {lim : JLimits F} {saf : JSafety F} {k D N G R : F} (hk0 : k ≠ 0) (hroom : saf.kVelocity * (N / |k|) + G * |k| < saf.kVelocity * lim.velocity) {M δ : F} (hδ : 0 < δ) (x0 v0 ε : F) (hε : 0 < ε) :
    ∃ K : Nat, ∀ {l : TransLoader F} {urdf : Xml → Option (String → Option (UJoint F))} {root : Xml} {joint : String → Option (UJoint F)} {acts : List (Actuator F)} {ts : List (Trans F)} {s0 : RState F} {t : Trans F}
      {x : Xml}, Loaded l urdf root joint acts ts s0 → (ts.flatMap (·.actNames)).Nodup → ∀ {big : F} {sim : Bool} {d : RtData F}, d.Good → Later s0 d.robot →
      ∀ {p : Plant F}, Plant.Reach big sim d PlantIn.Mannered p → t ∈ ts → ∀ {t0 : SimpleT F}, Described (.simple t0) x joint acts t →
      ∀ {jel ael mel : Xml} {jn an red : String}, x.FirstChild "joint" jel → jel.Says "name" jn → x.FirstChild "actuator" ael → ael.Says "name" an →
      ReductionElement x ael mel → mel.text = some red → k = Parse.atof red → ∀ {u : UJoint F}, joint jn = some u → Guarded u lim saf → u.type = .revolute ∨ u.type = .prismatic →
      ∀ {n0 : Nat} {ρ ρ0 : F}, p.CalibratedFrom n0 jn ρ → |ρ - ρ0| ≤ R → ∀ {Q W I dt : Nat → F}, p.MotorCarried n0 an D N G Q W I dt → (∀ n, 0 < I n) → (∀ n, I n * k ^ 2 ≤ M) → (∀ n, δ ≤ dt n) →
      (∀ n, Withstands lim saf (I n * k ^ 2) (dt n) (D / |k| + R) (N / |k|) (G * |k|)) → Q n0 / k + ρ0 = x0 → W n0 / k = v0 →
      ∀ (n : Nat) (r : CycleRec F) (a : Actuator F), n0 + K ≤ n → p.cycles[n]? = some r → r.sent.Motor an a → ∀ τ q w : F, 0 ≤ τ → τ ≤ dt n → Carried (I n) τ G a.effort (Q n) (W n) q w →
      SafeUpTo lim saf (D / |k| + R + ε) (N / |k|) (G * |k|) (q / k + ρ0) (w / k) ∧ |w / k| ≤ lim.velocity + overspeed saf (N / |k|) (G * |k|) + ε := by
  obtain ⟨K, hK⟩ := C114_robot (lim := lim) (saf := saf) (D := D / |k| + R) (N := N / |k|) (G := G * |k|) hroom (M := M) hδ x0 v0 ε hε
  refine ⟨K, ?_⟩
  intro l urdf root joint acts ts s0 t x h hm big sim d hg hs p hp ht t0 hd jel ael mel jn an red h1 h2 h3 h4 h5 h6 hk u hu g hty n0 ρ ρ0 hc hρ Q W I dt hmv hI hM hdt hsu e1 e2 n r a hn hr ha τ q w hτ0 hτ hq
  have jc := hmv.atJoint h hm hs hp ht hd h1 h2 h3 h4 h5 h6 hk hk0 hc hρ hI
  have cyc := fun r (hr : r ∈ p.cycles) => C98_simple_cycle h hm hs hp hr ht hd h1 h2 h3 h4 h5 h6
  rw [← hk] at cyc
  obtain ⟨a0, i, b, j, c1, c2, c3, c4, c5, c6, c7, c8, c9, c10, c11⟩ := cyc r (List.mem_of_getElem? hr)
  cases ha.unique c3
  rw [c11] at hq
  refine hK big sim d hg p (hp.mono fun i hi => hi.tame) n0 jn u ?_ ?_ (fun n r j hn hr hj => (hc n r hn hr).2 j hj) g hty _ _ _ _ hsu hdt hM jc e1 e2 n r j hn hr c4 τ _ _ hτ0 hτ (hq.gear (hI n).ne' hk0)
  · intro r hr
    obtain ⟨_, _, _, j', _, _, _, e, _⟩ := cyc r hr
    exact ⟨j', e⟩
  · intro r hr j hj
    obtain ⟨_, _, _, j', _, _, _, e, e2, _⟩ := cyc r hr
    cases hj.unique e
    rw [hu] at e2; exact (Option.some.inj e2).symm

end exact

/-! ## Examples -/

section examples
attribute [local instance] exactCmp demoTrig demoLit

/-- The joint of C113's example (a load of 2 pulls it up, the readings are wrong, the controllers always command 30), but at the beginning far outside and moving away. -/
def pulledFar : Nat → JState ℚ
  | 0 => farState
  | n + 1 =>
    let f := (JState.enforceLimits 1000 { misread (pulledFar n) with commanded := 30 }).commanded
    { pulledFar n with position := posAfter (1/20) (1/100) (f + 2) (pulledFar n).position (pulledFar n).velocity, velocity := velAfter (1/20) (1/100) (f + 2) (pulledFar n).velocity }

theorem pulledFar_same (n : Nat) : (pulledFar n).joint = lightJoint ∧ (pulledFar n).calibrated = true := by
  induction n with
  | zero => exact ⟨rfl, rfl⟩
  | succ n ih => exact ih

/-- C114: it comes back, up to 0.04 (C113) and a hundredth, and slows down, up to 0.6 and a hundredth. -/
example : ∃ K, ∀ n, K ≤ n → (pulledFar n).position ≤ 195/100 ∧ |(pulledFar n).velocity| ≤ 361/100 := by
  have hov : overshoot (⟨1/10, 19/10, 20, 4⟩ : JSafety ℚ) (1/100 + 1/100) (1/10) 2 = 5/100 := by norm_num [overshoot, overspeed]
  have hsp : overspeed (⟨1/10, 19/10, 20, 4⟩ : JSafety ℚ) (1/10) 2 = 6/10 := by norm_num [overspeed]
  have hr : ∀ n, |(misread (pulledFar n)).position - (pulledFar n).position| ≤ 1/100 ∧ |(misread (pulledFar n)).velocity - (pulledFar n).velocity| ≤ 1/10 := fun n =>
    ⟨by simp only [misread, sub_sub_cancel_left, abs_neg]; norm_num [abs_le], by simp only [misread, sub_sub_cancel_left, abs_neg]; norm_num [abs_le]⟩
  obtain ⟨K1, h1⟩ := C114_comes_back (lim := ⟨0, 2, 30, 3⟩) (saf := ⟨1/10, 19/10, 20, 4⟩) (D := 1/100) (N := 1/10) (G := 2) (by norm_num) (M := (1/20 : ℚ)) (d := 1/100) (by norm_num) 5 7 (1/100) (by norm_num)
  obtain ⟨K2, h2⟩ := C114_slows_down (lim := ⟨0, 2, 30, 3⟩) (saf := ⟨1/10, 19/10, 20, 4⟩) (N := 1/10) (G := 2) (by norm_num) (by norm_num) (by norm_num) (M := (1/20 : ℚ)) (d := 1/100) (by norm_num) 7 (1/100) (by norm_num)
  refine ⟨max K1 K2, fun n hn => ⟨?_, ?_⟩⟩
  · have h := (h1 1000 (fun n => misread (pulledFar n)) (fun n => (pulledFar n).position) (fun n => (pulledFar n).velocity) (fun _ => 30) (fun _ => 1/20) (fun _ => 1/100) light_guarded ⟨rfl, Or.inl rfl⟩
      (fun n => ⟨(pulledFar_same n).1.trans (pulledFar_same 0).1.symm, (pulledFar_same n).2.trans (pulledFar_same 0).2.symm⟩) hr (fun _ => light_withstands) (fun _ => le_refl _) (fun _ => le_refl _)
      (fun n => carried_const (by norm_num) (by norm_num) (by norm_num)) rfl rfl n ((le_max_left _ _).trans hn) 0 (pulledFar n).position (pulledFar n).velocity (le_refl _) (by norm_num)
      ⟨by norm_num [posAfter], by norm_num [velAfter]⟩).upper
    rw [hov] at h
    change (pulledFar n).position ≤ 19/10 + 5/100 at h
    linarith
  · have h := h2 1000 (fun n => misread (pulledFar n)) (fun n => (pulledFar n).position) (fun n => (pulledFar n).velocity) (fun _ => 30) (fun _ => 1/20) (fun _ => 1/100) light_guarded
      (fun n => (pulledFar_same n).1.trans (pulledFar_same 0).1.symm) (fun n => (hr n).2) (fun _ => ⟨by norm_num, le_refl _⟩) (fun _ => by norm_num) (fun _ => le_refl _)
      (fun n => carried_const (by norm_num) (by norm_num) (by norm_num)) rfl n ((le_max_right _ _).trans hn) 0 (pulledFar n).position (pulledFar n).velocity (le_refl _) (by norm_num)
      ⟨by norm_num [posAfter], by norm_num [velAfter]⟩
    rw [hsp] at h
    exact h.trans (by norm_num)

/-- … and not at once. -/
example : 5 < (pulledFar 2).position ∧ (pulledFar 40).position < 5 := by decide +kernel

attribute [local instance] decimalParse

/-- C114_simple (so C114_robot): the laser's tilt joint of the shipped description meets the hypotheses. -/
example : ∃ K, ∀ (n : Nat) (r : CycleRec ℚ) (a : Actuator ℚ), K ≤ n → pr2Run.cycles[n]? = some r → r.sent.Motor "laser_tilt_mount_motor" a → ∀ τ q w : ℚ, 0 ≤ τ → τ ≤ 1/1000 →
    Carried pr2Inertia τ (1/100) a.effort (pr2Q n) (pr2W n) q w → q / (-605/100) + 1/500 ≤ 148353/100000 := by
  have hrow : Row.simple "laser_tilt_mount_trans" "laser_tilt_mount_motor" "laser_tilt_mount_joint" "-6.05" ∈ pr2Rows := by
    refine List.mem_of_getElem? (i := 15) rfl
  have hg : ("laser_tilt_mount_joint", (⟨-3927 / 5000, 148353 / 100000, 13 / 20, 10⟩ : JLimits ℚ), (⟨-3677 / 5000, 143353 / 100000, 100, 1 / 20⟩ : JSafety ℚ)) ∈ pr2Guards :=
    List.mem_of_getElem? (i := 1) rfl
  obtain ⟨u, hju, hgu, hty⟩ := guards_joint (F := ℚ) (fun q => by simp [FLit.lit]) (pr2_read _ pr2_names.2) hg
  obtain ⟨idx, ht, hde⟩ := complete_described (new := pr2New) decimals_read (pr2_read _ pr2_names.2) pr2_motors hrow
  obtain ⟨K, hK⟩ := C114_simple (lim := (JLimits.cast ⟨-3927 / 5000, 148353 / 100000, 13 / 20, 10⟩ : JLimits ℚ)) (saf := (JSafety.cast ⟨-3677 / 5000, 143353 / 100000, 100, 1 / 20⟩ : JSafety ℚ)) (k := -605/100)
    (D := 1/50) (N := 0) (G := 1/100) (R := 1/500) (by norm_num) (by norm_num [JLimits.cast, JSafety.cast, abs_div, abs_of_pos]) (M := 1/10000) (δ := 1/1000) (by norm_num) (-(-799/605) + 1/500) (10/(605/100)) (1/1000) (by norm_num)
  refine ⟨K, fun n r a hn hr ha τ q w h0 hτ hq => ?_⟩
  have := (hK pr2_loaded.1 (by rw [(complete_ts pr2New).2]; decide +kernel) pr2Good pr2_later pr2Reach ht hde (firstChild _ _ _ rfl) (saysOf _ _ _ rfl) (firstChild _ _ _ rfl) (saysOf _ _ _ rfl)
    (Or.inr ⟨(first_none _ _).1 rfl, firstChild _ _ _ rfl⟩) rfl (by decide +kernel) hju hgu (Or.inl hty) pr2Calibrated (ρ0 := 1/500) (by norm_num [abs_le]) pr2Carried (fun _ => by norm_num [pr2Inertia])
    (fun _ => by norm_num [pr2Inertia]) (fun _ => by norm_num)
    (fun _ => by refine ⟨?_, ?_, ?_, ?_, ?_, ?_, ?_, ?_, ?_, ?_, ?_⟩ <;> norm_num [JLimits.cast, JSafety.cast, pr2Inertia, abs_div, abs_of_pos]) (by
      have e1 : pr2Q 0 = -799/100 := by decide +kernel
      rw [e1]; norm_num) (by
      have e2 : pr2W 0 = -10 := by decide +kernel
      rw [e2]; norm_num) n r a (by omega) hr ha τ q w h0 hτ hq).1.upper
  refine this.trans ?_
  norm_num [JSafety.wider, JSafety.cast, overshoot, overspeed, abs_div, abs_of_pos]

end examples

end Pr2
