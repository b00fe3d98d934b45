import Verif.Spec.Real
import Mathlib.Data.Int.Log
import Mathlib.Algebra.Order.Round

/-! # Floating point arithmetic with rounding

`IeeeArith F`: what IEEE 754 says about the basic operations with round to nearest: if the result is finite, then it differs from the exact
result by at most the relative error `u` (for double 2⁻⁵³) plus the underflow error `η` (for double 2⁻¹⁰⁷⁵), and the operands are finite (the
divisor of a finite quotient may be infinite, but is not zero).  Nothing is said of results that overflow or are NaN.
Multiplication by the literal 2 is exact. -/

namespace Pr2
open IeeeLike

/-- The value of `a` is the real number `x`. -/
def IsVal {F : Type} [FCmp F] [Neg F] [IeeeLike F] (a : F) (x : ℝ) : Prop := val a = some (x : EReal)

/-- Floating point numbers with rounding errors. -/
class IeeeArith (F : Type) [FCmp F] [Neg F] [Add F] [Sub F] [Mul F] [Div F] [FLit F] extends IeeeLike F where
  u : ℝ
  η : ℝ
  u_nonneg : 0 ≤ u
  η_nonneg : 0 ≤ η
  add : ∀ (a b : F) (z : ℝ), IsVal (a + b) z → ∃ x y, IsVal a x ∧ IsVal b y ∧ |z - (x + y)| ≤ u * |x + y| + η
  sub : ∀ (a b : F) (z : ℝ), IsVal (a - b) z → ∃ x y, IsVal a x ∧ IsVal b y ∧ |z - (x - y)| ≤ u * |x - y| + η
  mul : ∀ (a b : F) (z : ℝ), IsVal (a * b) z → ∃ x y, IsVal a x ∧ IsVal b y ∧ |z - x * y| ≤ u * |x * y| + η
  div : ∀ (a b : F) (z : ℝ), IsVal (a / b) z → ∃ x, IsVal a x ∧ ∀ y, IsVal b y → y ≠ 0 ∧ |z - x / y| ≤ u * |x / y| + η
  twice : ∀ (a : F) (z : ℝ), IsVal (FLit.lit 2 * a) z → ∃ x, IsVal a x ∧ z = 2 * x

/-! ## The finite binary64 numbers -/

/-- Exponent of the unit in the last place of a double of the size of `x`. -/
noncomputable def ulpExp (x : ℝ) : ℤ := max (Int.log 2 |x| - 52) (-1074)

/-- Round to nearest. -/
noncomputable def rnd (x : ℝ) : ℝ := round (x / 2 ^ ulpExp x) * 2 ^ ulpExp x

/-- Representable (exponents not bounded above): 53 bits, and a multiple of the smallest subnormal number. -/
def Rep (x : ℝ) : Prop := ∃ n e : ℤ, -1074 ≤ e ∧ |n| ≤ 2 ^ 53 ∧ x = n * 2 ^ e

theorem two_zpow_pos (e : ℤ) : (0 : ℝ) < 2 ^ e := zpow_pos (by norm_num) e

theorem rnd_err (x : ℝ) : |rnd x - x| ≤ 1 / 2 ^ 53 * |x| + 1 / 2 ^ 1075 := by
  by_cases hx : x = 0
  · subst hx
    have : rnd 0 = 0 := by unfold rnd; simp
    rw [this]; simp
  have h2 := two_zpow_pos (ulpExp x)
  have h1 : |rnd x - x| ≤ 2 ^ ulpExp x / 2 := by
    have e : rnd x - x = -(x / 2 ^ ulpExp x - round (x / 2 ^ ulpExp x)) * 2 ^ ulpExp x := by
      unfold rnd
      rw [neg_mul, sub_mul, div_mul_cancel₀ _ h2.ne']
      ring
    rw [e, abs_mul, abs_neg, abs_of_pos h2]
    have := abs_sub_round (x / 2 ^ ulpExp x)
    nlinarith
  refine h1.trans ?_
  unfold ulpExp
  rcases le_total (Int.log 2 |x| - 52) (-1074) with h | h
  · rw [max_eq_right h]
    have : (2 : ℝ) ^ (-1074 : ℤ) / 2 = 1 / 2 ^ 1075 := by
      rw [zpow_neg, show (1074 : ℤ) = ((1074 : ℕ) : ℤ) from rfl, zpow_natCast, pow_succ (2 : ℝ) 1074]
      field_simp
    rw [this]
    have := abs_nonneg x
    have : 0 ≤ 1 / 2 ^ 53 * |x| := by positivity
    linarith
  · rw [max_eq_left h]
    have hl : (2 : ℝ) ^ Int.log 2 |x| ≤ |x| := by
      have := Int.zpow_log_le_self (b := 2) (r := |x|) (by norm_num) (abs_pos.2 hx)
      exact_mod_cast this
    have : (2 : ℝ) ^ (Int.log 2 |x| - 52) / 2 = 1 / 2 ^ 53 * 2 ^ Int.log 2 |x| := by
      rw [zpow_sub₀ (by norm_num), show (52 : ℤ) = ((52 : ℕ) : ℤ) from rfl, zpow_natCast, pow_succ (2 : ℝ) 52]
      field_simp
    rw [this]
    have : 1 / 2 ^ 53 * (2 : ℝ) ^ Int.log 2 |x| ≤ 1 / 2 ^ 53 * |x| := by gcongr
    have : (0 : ℝ) ≤ 1 / 2 ^ 1075 := by positivity
    linarith

theorem rep_rnd (x : ℝ) : Rep (rnd x) := by
  refine ⟨round (x / 2 ^ ulpExp x), ulpExp x, le_max_right _ _, ?_, rfl⟩
  have h2 := two_zpow_pos (ulpExp x)
  have hx : |x / 2 ^ ulpExp x| < 2 ^ 53 := by
    rw [abs_div, abs_of_pos h2, div_lt_iff₀ h2]
    have h1 : |x| < (2 : ℝ) ^ (Int.log 2 |x| + 1) := by
      have := Int.lt_zpow_succ_log_self (b := 2) (by norm_num) |x|
      exact_mod_cast this
    have h3 : (2 : ℝ) ^ (Int.log 2 |x| + 1) ≤ 2 ^ (53 + ulpExp x) := by
      apply zpow_le_zpow_right₀ (by norm_num)
      have := le_max_left (Int.log 2 |x| - 52) (-1074)
      unfold ulpExp; omega
    have h4 : (2 : ℝ) ^ (53 + ulpExp x) = 2 ^ 53 * 2 ^ ulpExp x := by
      rw [zpow_add₀ (by norm_num), show (53 : ℤ) = ((53 : ℕ) : ℤ) from rfl, zpow_natCast]
    rw [← h4]
    exact h1.trans_le h3
  have hr := abs_sub_round (x / 2 ^ ulpExp x)
  have h5 : |(round (x / 2 ^ ulpExp x) : ℝ)| < 2 ^ 53 + 1 := by
    have := abs_sub_abs_le_abs_sub (round (x / 2 ^ ulpExp x) : ℝ) (x / 2 ^ ulpExp x)
    rw [abs_sub_comm] at this
    linarith
  have h6 : |round (x / 2 ^ ulpExp x)| < 2 ^ 53 + 1 := by exact_mod_cast h5
  omega

theorem rnd_of_rep {x : ℝ} (h : Rep x) : rnd x = x := by
  -- `x` is a multiple of its unit in the last place
  suffices hm : ∃ m : ℤ, x = m * 2 ^ ulpExp x by
    obtain ⟨m, hm⟩ := hm
    have h2 := two_zpow_pos (ulpExp x)
    have : x / 2 ^ ulpExp x = m := by rw [div_eq_iff h2.ne']; exact hm
    unfold rnd
    rw [this, round_intCast]
    exact hm.symm
  obtain ⟨n, e, he, hn, hx⟩ := h
  by_cases hn0 : n = 0
  · exact ⟨0, by rw [hx, hn0]; simp⟩
  have hxpos : 0 < |x| := by
    rw [hx, abs_pos]
    have := two_zpow_pos e
    have : (n : ℝ) ≠ 0 := by exact_mod_cast hn0
    positivity
  have habs : |x| = |(n : ℝ)| * 2 ^ e := by rw [hx, abs_mul, abs_of_pos (two_zpow_pos e)]
  have hlog : (2 : ℝ) ^ Int.log 2 |x| ≤ |x| := by
    have := Int.zpow_log_le_self (b := 2) (r := |x|) (by norm_num) hxpos
    exact_mod_cast this
  have mult : ulpExp x ≤ e → ∃ m : ℤ, x = m * 2 ^ ulpExp x := by
    intro hle
    refine ⟨n * 2 ^ (e - ulpExp x).toNat, ?_⟩
    have : (e - ulpExp x).toNat = e - ulpExp x := Int.toNat_of_nonneg (by omega)
    push_cast
    rw [mul_assoc, ← zpow_natCast (2 : ℝ), this, ← zpow_add₀ (by norm_num : (2 : ℝ) ≠ 0), sub_add_cancel]
    exact hx
  by_cases hlt : |n| < 2 ^ 53
  · apply mult
    have h1 : (2 : ℝ) ^ Int.log 2 |x| < 2 ^ (53 + e) := by
      refine hlog.trans_lt ?_
      rw [habs, zpow_add₀ (by norm_num), show (53 : ℤ) = ((53 : ℕ) : ℤ) from rfl, zpow_natCast]
      have : |(n : ℝ)| < 2 ^ 53 := by exact_mod_cast hlt
      exact mul_lt_mul_of_pos_right this (two_zpow_pos e)
    have h2 := (zpow_lt_zpow_iff_right₀ (by norm_num : (1 : ℝ) < 2)).1 h1
    unfold ulpExp
    exact max_le (by omega) he
  · have hn2 : |n| = 2 ^ 53 := le_antisymm hn (not_lt.1 hlt)
    have h1 : (2 : ℝ) ^ Int.log 2 |x| ≤ 2 ^ (53 + e) := by
      refine hlog.trans ?_
      rw [habs, zpow_add₀ (by norm_num), show (53 : ℤ) = ((53 : ℕ) : ℤ) from rfl, zpow_natCast]
      have : |(n : ℝ)| = 2 ^ 53 := by exact_mod_cast hn2
      rw [this]
    have h2 := (zpow_le_zpow_iff_right₀ (by norm_num : (1 : ℝ) < 2)).1 h1
    by_cases h3 : ulpExp x ≤ e
    · exact mult h3
    · have h4 : ulpExp x = e + 1 := by
        unfold ulpExp at h3 ⊢
        have := max_le (a := Int.log 2 |x| - 52) (b := -1074) (c := e + 1) (by omega) (by omega)
        omega
      rw [h4]
      have hs : n = 2 ^ 53 ∨ n = -2 ^ 53 := by
        rcases abs_choice n with h | h
        · left; rw [← hn2, h]
        · right; rw [← hn2, h]; ring
      rcases hs with h | h
      · refine ⟨2 ^ 52, ?_⟩
        rw [hx, h, zpow_add₀ (by norm_num)]
        push_cast; ring
      · refine ⟨-2 ^ 52, ?_⟩
        rw [hx, h, zpow_add₀ (by norm_num)]
        push_cast; ring

theorem rep_twice {x : ℝ} (h : Rep x) : Rep (2 * x) := by
  obtain ⟨n, e, he, hn, rfl⟩ := h
  refine ⟨n, e + 1, by omega, hn, ?_⟩
  rw [zpow_add₀ (by norm_num)]; ring

theorem rep_neg {x : ℝ} (h : Rep x) : Rep (-x) := by
  obtain ⟨n, e, he, hn, rfl⟩ := h
  exact ⟨-n, e, he, by rw [abs_neg]; exact hn, by push_cast; ring⟩

theorem rep_two : Rep 2 := ⟨2, 0, by norm_num, by norm_num, by norm_num⟩
theorem rep_zero : Rep 0 := ⟨0, 0, by norm_num, by norm_num, by norm_num⟩

/-- Double precision numbers: finite ones, and one more for all that is not finite (this instance need not tell infinities and NaN apart). -/
structure Dbl where
  v : Option ℝ
  rep : ∀ x ∈ v, Rep x

namespace Dbl

/-- Rounding; overflow gives no number. -/
noncomputable def ofReal (x : ℝ) : Dbl := ⟨if |rnd x| < 2 ^ 1024 then some (rnd x) else none, by
  intro y hy
  split at hy
  · cases hy; exact rep_rnd x
  · cases hy⟩

/-- An operation on finite numbers. -/
noncomputable def lift2 (f : ℝ → ℝ → Option ℝ) (a b : Dbl) : Dbl :=
  match a.v, b.v with
  | some x, some y => match f x y with
    | some z => ofReal z
    | none => ⟨none, by simp⟩
  | _, _ => ⟨none, by simp⟩

noncomputable instance : Add Dbl := ⟨lift2 (fun x y => some (x + y))⟩
noncomputable instance : Sub Dbl := ⟨lift2 (fun x y => some (x - y))⟩
noncomputable instance : Mul Dbl := ⟨lift2 (fun x y => some (x * y))⟩
noncomputable instance : Div Dbl := ⟨lift2 (fun x y => if y = 0 then none else some (x / y))⟩
noncomputable instance : Zero Dbl := ⟨⟨some 0, by rintro x ⟨⟩; exact rep_zero⟩⟩
noncomputable instance : Neg Dbl := ⟨fun a => ⟨a.v.map (fun x => -x), by
  intro x hx
  obtain ⟨y, hy, rfl⟩ := Option.map_eq_some_iff.1 hx
  exact rep_neg (a.rep y hy)⟩⟩
noncomputable instance : FLit Dbl := ⟨fun q => ofReal q, fun n => ofReal (n / 1000000000)⟩
noncomputable instance : FTrig Dbl :=
  let f1 (f : ℝ → ℝ) (a : Dbl) : Dbl := lift2 (fun x _ => some (f x)) a a
  ⟨ofReal Real.pi, f1 Real.sqrt, f1 Real.sin, f1 Real.cos, f1 Real.arccos, f1 Real.arcsin, f1 (toIocMod Real.two_pi_pos (-Real.pi))⟩
noncomputable instance : FCmp Dbl where
  lt a b := match a.v, b.v with
    | some x, some y => decide (x < y)
    | _, _ => false
  eq a b := match a.v, b.v with
    | some x, some y => decide (x = y)
    | _, _ => false

noncomputable instance : IeeeLike Dbl where
  val a := a.v.map (fun x => (x : EReal))
  lt_iff a b := by
    rcases a with ⟨_ | x, ha⟩ <;> rcases b with ⟨_ | y, hb⟩ <;> simp [FCmp.lt]
  eq_iff a b := by
    rcases a with ⟨_ | x, ha⟩ <;> rcases b with ⟨_ | y, hb⟩ <;> simp [FCmp.eq]
    exact eq_comm
  neg a := by
    rcases a with ⟨_ | x, ha⟩ <;> simp [Neg.neg]
    rfl

theorem isVal_iff (a : Dbl) (x : ℝ) : IsVal a x ↔ a.v = some x := by
  unfold IsVal
  rcases a with ⟨_ | y, ha⟩ <;> simp [val]

theorem ofReal_val {x z : ℝ} (h : IsVal (ofReal x) z) : z = rnd x := by
  rw [isVal_iff] at h
  unfold ofReal at h
  dsimp only at h
  split at h
  · cases h; rfl
  · cases h

theorem lift2_val {f : ℝ → ℝ → Option ℝ} {a b : Dbl} {z : ℝ} (h : IsVal (lift2 f a b) z) :
    ∃ x y w, IsVal a x ∧ IsVal b y ∧ f x y = some w ∧ z = rnd w := by
  unfold lift2 at h
  split at h
  · rename_i x y hx hy
    split at h
    · rename_i w hw
      exact ⟨x, y, w, (isVal_iff a x).2 hx, (isVal_iff b y).2 hy, hw, ofReal_val h⟩
    · rw [isVal_iff] at h; cases h
  · rw [isVal_iff] at h; cases h

theorem isVal_unique {a : Dbl} {x y : ℝ} (h : IsVal a x) (k : IsVal a y) : x = y := by
  rw [isVal_iff] at h k
  rw [h] at k; exact Option.some.inj k

/-- Double precision arithmetic meets the assumptions. -/
noncomputable instance : IeeeArith Dbl where
  u := 1 / 2 ^ 53
  η := 1 / 2 ^ 1075
  u_nonneg := by positivity
  η_nonneg := by positivity
  add a b z h := by
    obtain ⟨x, y, w, hx, hy, hw, rfl⟩ := lift2_val h
    cases hw
    exact ⟨x, y, hx, hy, rnd_err _⟩
  sub a b z h := by
    obtain ⟨x, y, w, hx, hy, hw, rfl⟩ := lift2_val h
    cases hw
    exact ⟨x, y, hx, hy, rnd_err _⟩
  mul a b z h := by
    obtain ⟨x, y, w, hx, hy, hw, rfl⟩ := lift2_val h
    cases hw
    exact ⟨x, y, hx, hy, rnd_err _⟩
  div a b z h := by
    obtain ⟨x, y, w, hx, hy, hw, rfl⟩ := lift2_val h
    refine ⟨x, hx, fun y' hy' => ?_⟩
    cases isVal_unique hy hy'
    split at hw
    · cases hw
    · cases hw
      exact ⟨‹_›, rnd_err _⟩
  twice a z h := by
    obtain ⟨x, y, w, hx, hy, hw, rfl⟩ := lift2_val h
    cases hw
    have h2 : x = 2 := by
      rw [ofReal_val hx]
      push_cast
      exact rnd_of_rep rep_two
    have hr : Rep y := a.rep y ((isVal_iff a y).1 hy)
    exact ⟨y, hy, by rw [h2]; exact rnd_of_rep (rep_twice hr)⟩

end Dbl

end Pr2
