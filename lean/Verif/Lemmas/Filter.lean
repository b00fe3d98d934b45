import Mathlib.Analysis.SpecificLimits.Basic
import Mathlib.Tactic.Linarith
import Mathlib.Tactic.FieldSimp
import Mathlib.Tactic.Ring
import Mathlib.Tactic.LinearCombination

/-! # Discrete filters over the reals -/

namespace Pr2
open Filter Topology

/-- A stable first order recurrence with vanishing input vanishes. -/
theorem firstOrder_tendsto {ρ : ℝ} (hρ : |ρ| < 1) {x b : ℕ → ℝ} (h : ∀ n, x (n+1) = ρ * x n + b n) (hb : Tendsto b atTop (𝓝 0)) :
    Tendsto x atTop (𝓝 0) := by
  rw [Metric.tendsto_atTop] at hb ⊢
  intro ε hε
  have h1 : 0 < 1 - |ρ| := by linarith
  obtain ⟨N, hN⟩ := hb (ε / 2 * (1 - |ρ|)) (by positivity)
  have key : ∀ k, |x (N + k)| ≤ |ρ| ^ k * |x N| + ε / 2 := by
    intro k
    induction k with
    | zero => simp; linarith
    | succ k ih =>
      have hbk := hN (N + k) (by omega)
      rw [Real.dist_eq, sub_zero] at hbk
      have : x (N + (k + 1)) = ρ * x (N + k) + b (N + k) := h (N + k)
      rw [this]
      calc |ρ * x (N + k) + b (N + k)| ≤ |ρ| * |x (N + k)| + |b (N + k)| := by
            rw [← abs_mul]; exact abs_add_le _ _
        _ ≤ |ρ| * (|ρ| ^ k * |x N| + ε / 2) + ε / 2 * (1 - |ρ|) :=
            add_le_add (mul_le_mul_of_nonneg_left ih (abs_nonneg _)) hbk.le
        _ = |ρ| ^ (k + 1) * |x N| + ε / 2 := by rw [pow_succ]; ring
  have hp : Tendsto (fun k => |ρ| ^ k * |x N|) atTop (𝓝 0) := by
    have := (tendsto_pow_atTop_nhds_zero_of_lt_one (abs_nonneg ρ) hρ).mul_const |x N|
    simpa using this
  rw [Metric.tendsto_atTop] at hp
  obtain ⟨K, hK⟩ := hp (ε / 2) (by linarith)
  refine ⟨N + K, fun n hn => ?_⟩
  obtain ⟨k, rfl⟩ : ∃ k, n = N + k := ⟨n - N, by omega⟩
  have h2 := hK k (by omega)
  rw [Real.dist_eq, sub_zero] at h2 ⊢
  have h3 := key k
  have h4 := le_abs_self (|ρ| ^ k * |x N|)
  linarith

theorem ratio_lt {q : ℝ} (hq : 0 < q) : |(1 - q) / (1 + q)| < 1 := by
  rw [abs_lt]
  have : 0 < 1 + q := by linarith
  constructor
  · rw [lt_div_iff₀ this]; linarith
  · rw [div_lt_iff₀ this]; linarith

/-- `x` follows `d` through a first order low pass with the trapezoidal rule. -/
theorem lowPass_tendsto {h lam : ℝ} (hq : 0 < h * lam) {x v d : ℕ → ℝ} (hx : ∀ n, x (n+1) = x n + h * (v (n+1) + v n))
    (hv : ∀ n, v n = d n - lam * x n) (hd : Tendsto d atTop (𝓝 0)) : Tendsto x atTop (𝓝 0) ∧ Tendsto v atTop (𝓝 0) := by
  have h1 : (1 + h * lam) ≠ 0 := by linarith
  have hx0 : Tendsto x atTop (𝓝 0) := by
    refine firstOrder_tendsto (ratio_lt hq) (b := fun n => h / (1 + h * lam) * (d (n+1) + d n)) ?_ ?_
    · intro n
      have e1 := hx n
      rw [hv n, hv (n+1)] at e1
      field_simp
      linear_combination e1
    · have : Tendsto (fun n => d (n+1) + d n) atTop (𝓝 (0 + 0)) := ((tendsto_add_atTop_iff_nat 1).2 hd).add hd
      have := this.const_mul (h / (1 + h * lam))
      simpa using this
  refine ⟨hx0, ?_⟩
  have : Tendsto (fun n => d n - lam * x n) atTop (𝓝 (0 - lam * 0)) := hd.sub (hx0.const_mul lam)
  simp only [mul_zero, sub_zero] at this
  exact (funext hv : v = _) ▸ this

/-- The critically damped second order filter with the trapezoidal rule converges to the limit of its input. -/
theorem critical_tendsto {h lam U : ℝ} {u : ℕ → ℝ} (hu : Tendsto u atTop (𝓝 U)) (hq : 0 < h * lam) {x v a : ℕ → ℝ}
    (hx : ∀ n, x (n+1) = x n + h * (v (n+1) + v n))
    (hv : ∀ n, v (n+1) = v n + h * (a (n+1) + a n)) (ha : ∀ n, a n = lam * lam * (u n - x n) - 2 * lam * v n) :
    Tendsto x atTop (𝓝 U) ∧ Tendsto v atTop (𝓝 0) := by
  have h1 : (1 + h * lam) ≠ 0 := by linarith
  have hu0 : Tendsto (fun n => u n - U) atTop (𝓝 0) := by simpa using hu.sub_const U
  have hb : Tendsto (fun n => h * lam * lam / (1 + h * lam) * ((u (n+1) - U) + (u n - U))) atTop (𝓝 0) := by
    have e : Tendsto (fun n => (u (n+1) - U) + (u n - U)) atTop (𝓝 (0 + 0)) := ((tendsto_add_atTop_iff_nat 1).2 hu0).add hu0
    simpa using e.const_mul (h * lam * lam / (1 + h * lam))
  have hy : Tendsto (fun n => v n + lam * (x n - U)) atTop (𝓝 0) := by
    refine firstOrder_tendsto (ratio_lt hq) ?_ hb
    intro n
    have e1 := hx n
    have e2 := hv n
    rw [ha n, ha (n+1)] at e2
    rw [div_mul_eq_mul_div, div_mul_eq_mul_div, ← add_div, eq_div_iff h1]
    linear_combination (1 : ℝ) * e2 + lam * e1
  have := lowPass_tendsto (h := h) (lam := lam) hq (x := fun n => x n - U) (v := v) (d := fun n => v n + lam * (x n - U))
    (by intro n; rw [hx n]; ring) (by intro n; ring) hy
  refine ⟨?_, this.2⟩
  have h2 := this.1.add_const U
  simpa using h2

end Pr2
