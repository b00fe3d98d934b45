import Verif.Spec.Float

/-!
# Correctly rounded arithmetic with infinities and NaN

`IeeeRound F`: the result of an operation on finite numbers is the exact one, rounded by a monotone function that leaves zero alone - to nearest with any rule for ties, or
towards anything, overflow included - and infinities follow the usual rules.  IEEE 754 arithmetic is of this kind in each of its rounding modes.
-/

namespace Pr2
open IeeeLike

/-- Correctly rounded floating point numbers. -/
class IeeeRound (F : Type) [FCmp F] [Neg F] [Sub F] [Mul F] [Div F] extends IeeeLike F where
  /-- the rounded value of a real number; infinite if it overflows -/
  rd : ℝ → EReal
  mono : Monotone rd
  zero : rd 0 = 0
  sub : ∀ (a b : F) (x y : ℝ), IsVal a x → IsVal b y → val (a - b) = some (rd (x - y))
  mul : ∀ (a b : F) (x y : ℝ), IsVal a x → IsVal b y → val (a * b) = some (rd (x * y))
  mul_top : ∀ (a b : F) (x : ℝ), IsVal a x → val b = some ⊤ → val (a * b) = if x = 0 then none else some (if 0 < x then ⊤ else ⊥)
  mul_bot : ∀ (a b : F) (x : ℝ), IsVal a x → val b = some ⊥ → val (a * b) = if x = 0 then none else some (if 0 < x then ⊥ else ⊤)
  div : ∀ (a b : F) (x y : ℝ), IsVal a x → IsVal b y → y ≠ 0 → val (a / b) = some (rd (x / y))

/-! ## Double precision with infinities -/

theorem round_mono' {x y : ℝ} (h : x ≤ y) : round x ≤ round y := by
  rw [round_eq, round_eq]
  exact Int.floor_mono (by linarith)

/-- Rounding does not pass a multiple of the unit in the last place. -/
theorem rnd_le_mult {x : ℝ} (m : ℤ) (h : x ≤ m * 2 ^ ulpExp x) : rnd x ≤ m * 2 ^ ulpExp x := by
  have h2 := two_zpow_pos (ulpExp x)
  unfold rnd
  have h3 : round (x / 2 ^ ulpExp x) ≤ m := by
    rw [← round_intCast (α := ℝ) m]
    exact round_mono' ((div_le_iff₀ h2).2 h)
  have h4 : (round (x / 2 ^ ulpExp x) : ℝ) ≤ m := by exact_mod_cast h3
  gcongr

theorem mult_le_rnd {x : ℝ} (m : ℤ) (h : m * 2 ^ ulpExp x ≤ x) : m * 2 ^ ulpExp x ≤ rnd x := by
  have h2 := two_zpow_pos (ulpExp x)
  unfold rnd
  have h3 : m ≤ round (x / 2 ^ ulpExp x) := by
    rw [← round_intCast (α := ℝ) m]
    exact round_mono' ((le_div_iff₀ h2).2 h)
  have h4 : (m : ℝ) ≤ round (x / 2 ^ ulpExp x) := by exact_mod_cast h3
  gcongr

theorem pow_mult (a b : ℤ) (h : b ≤ a) : (2 : ℝ) ^ a = ((2 ^ (a - b).toNat : ℤ) : ℝ) * 2 ^ b := by
  push_cast
  rw [← zpow_natCast, Int.toNat_of_nonneg (by omega), ← zpow_add₀ (by norm_num), sub_add_cancel]

theorem neg_pow_mult (a b : ℤ) (h : b ≤ a) : -(2 : ℝ) ^ a = ((-2 ^ (a - b).toNat : ℤ) : ℝ) * 2 ^ b := by
  rw [pow_mult a b h]; push_cast; ring

theorem rnd_zero : rnd 0 = 0 := by unfold rnd; simp

theorem rnd_nonneg {x : ℝ} (h : 0 ≤ x) : 0 ≤ rnd x := by
  have := mult_le_rnd (x := x) 0 (by simpa using h)
  simpa using this

theorem rnd_nonpos {x : ℝ} (h : x ≤ 0) : rnd x ≤ 0 := by
  have := rnd_le_mult (x := x) 0 (by simpa using h)
  simpa using this

/-- Numbers of different sizes are separated by a power of two that is a multiple of both units. -/
theorem separating {x y : ℝ} (hy : y ≠ 0) (h : ulpExp x < ulpExp y) :
    ulpExp x ≤ Int.log 2 |y| ∧ ulpExp y ≤ Int.log 2 |y| ∧ |x| ≤ 2 ^ Int.log 2 |y| ∧ (2 : ℝ) ^ Int.log 2 |y| ≤ |y| := by
  have h1 : Int.log 2 |x| - 52 ≤ ulpExp x := le_max_left _ _
  have h2 : -1074 ≤ ulpExp x := le_max_right _ _
  have h3 : ulpExp y = Int.log 2 |y| - 52 := by
    unfold ulpExp at h h2 ⊢
    rcases max_choice (Int.log 2 |y| - 52) (-1074) with e | e <;> omega
  have h4 : |x| < (2 : ℝ) ^ (Int.log 2 |x| + 1) := by
    have := Int.lt_zpow_succ_log_self (b := 2) (by norm_num) |x|
    exact_mod_cast this
  have h5 : (2 : ℝ) ^ Int.log 2 |y| ≤ |y| := by
    have := Int.zpow_log_le_self (b := 2) (r := |y|) (by norm_num) (abs_pos.2 hy)
    exact_mod_cast this
  refine ⟨by omega, by omega, h4.le.trans (zpow_le_zpow_right₀ (by norm_num) (by omega)), h5⟩

theorem ulpExp_mono {x y : ℝ} (hx : x ≠ 0) (h : |x| ≤ |y|) : ulpExp x ≤ ulpExp y := by
  unfold ulpExp
  have := Int.log_mono_right (b := 2) (abs_pos.2 hx) h
  omega

theorem rnd_same {x y : ℝ} (h : x ≤ y) (he : ulpExp x = ulpExp y) : rnd x ≤ rnd y := by
  have h2 := two_zpow_pos (ulpExp y)
  unfold rnd
  rw [he]
  have h3 : round (x / 2 ^ ulpExp y) ≤ round (y / 2 ^ ulpExp y) := round_mono' (by gcongr)
  have h4 : (round (x / 2 ^ ulpExp y) : ℝ) ≤ round (y / 2 ^ ulpExp y) := by exact_mod_cast h3
  gcongr

/-- Rounding to nearest is monotone. -/
theorem rnd_mono : Monotone rnd := by
  intro x y h
  by_cases hx : x = 0
  · subst hx; rw [rnd_zero]; exact rnd_nonneg h
  by_cases hy : y = 0
  · subst hy; rw [rnd_zero]; exact rnd_nonpos h
  rcases lt_or_ge x 0 with hx0 | hx0
  · rcases lt_or_ge y 0 with hy0 | hy0
    · -- both negative
      have habs : |y| ≤ |x| := by rw [abs_of_neg hx0, abs_of_neg hy0]; linarith
      rcases (ulpExp_mono hy habs).lt_or_eq with hlt | he
      · obtain ⟨h1, h2, h3, h4⟩ := separating hx hlt
        rw [abs_of_neg hx0] at h1 h2 h3 h4
        rw [abs_of_neg hy0] at h3
        have e1 := rnd_le_mult (x := x) (-2 ^ (Int.log 2 (-x) - ulpExp x).toNat) (by rw [← neg_pow_mult _ _ h2]; linarith)
        have e2 := mult_le_rnd (x := y) (-2 ^ (Int.log 2 (-x) - ulpExp y).toNat) (by rw [← neg_pow_mult _ _ h1]; linarith)
        rw [← neg_pow_mult _ _ h2] at e1
        rw [← neg_pow_mult _ _ h1] at e2
        exact e1.trans e2
      · exact rnd_same h he.symm
    · exact (rnd_nonpos hx0.le).trans (rnd_nonneg hy0)
  · have hy0 : 0 ≤ y := hx0.trans h
    have habs : |x| ≤ |y| := by rw [abs_of_nonneg hx0, abs_of_nonneg hy0]; exact h
    rcases (ulpExp_mono hx habs).lt_or_eq with hlt | he
    · obtain ⟨h1, h2, h3, h4⟩ := separating hy hlt
      rw [abs_of_nonneg hy0] at h1 h2 h3 h4
      rw [abs_of_nonneg hx0] at h3
      have e1 := rnd_le_mult (x := x) (2 ^ (Int.log 2 y - ulpExp x).toNat) (by rw [← pow_mult _ _ h1]; exact h3)
      have e2 := mult_le_rnd (x := y) (2 ^ (Int.log 2 y - ulpExp y).toNat) (by rw [← pow_mult _ _ h2]; exact h4)
      rw [← pow_mult _ _ h1] at e1
      rw [← pow_mult _ _ h2] at e2
      exact e1.trans e2
    · exact rnd_same h he

/-- Rounding to nearest with overflow to the infinities. -/
noncomputable def rndE (x : ℝ) : EReal := if 2 ^ 1024 ≤ rnd x then ⊤ else if rnd x ≤ -2 ^ 1024 then ⊥ else (rnd x : EReal)

theorem rndE_mono : Monotone rndE := by
  intro x y h
  have hr := rnd_mono h
  unfold rndE
  by_cases h1 : 2 ^ 1024 ≤ rnd x
  · rw [if_pos h1, if_pos (h1.trans hr)]
  · rw [if_neg h1]
    by_cases h2 : 2 ^ 1024 ≤ rnd y
    · rw [if_pos h2]; exact le_top
    · rw [if_neg h2]
      by_cases h3 : rnd y ≤ -2 ^ 1024
      · rw [if_pos h3, if_pos (hr.trans h3)]
      · rw [if_neg h3]
        split
        · exact bot_le
        · exact_mod_cast hr

theorem rndE_zero : rndE 0 = 0 := by
  unfold rndE
  rw [rnd_zero, if_neg (by norm_num), if_neg (by norm_num)]
  rfl

/-- Double precision numbers with infinities (and NaN, `none`). -/
structure Full where
  v : Option EReal

namespace Full

noncomputable instance : FCmp Full where
  lt a b := match a.v, b.v with
    | some x, some y => @decide (x < y) (Classical.dec _)
    | _, _ => false
  eq a b := match a.v, b.v with
    | some x, some y => @decide (x = y) (Classical.dec _)
    | _, _ => false
noncomputable instance : Neg Full := ⟨fun a => ⟨a.v.map (fun x => -x)⟩⟩
open Classical in
noncomputable instance : Sub Full := ⟨fun a b => ⟨match a.v, b.v with
  | some x, some y => if (x = ⊤ ∧ y = ⊤) ∨ (x = ⊥ ∧ y = ⊥) then none else if x = ⊤ ∨ x = ⊥ ∨ y = ⊤ ∨ y = ⊥ then some (x - y) else some (rndE (x.toReal - y.toReal))
  | _, _ => none⟩⟩
open Classical in
noncomputable instance : Mul Full := ⟨fun a b => ⟨match a.v, b.v with
  | some x, some y =>
    if x = ⊤ ∨ x = ⊥ ∨ y = ⊤ ∨ y = ⊥ then (if x = 0 ∨ y = 0 then none else some (x * y)) else some (rndE (x.toReal * y.toReal))
  | _, _ => none⟩⟩
open Classical in
noncomputable instance : Div Full := ⟨fun a b => ⟨match a.v, b.v with
  | some x, some y =>
    if x = ⊤ ∨ x = ⊥ ∨ y = ⊤ ∨ y = ⊥ ∨ y = 0 then none else some (rndE (x.toReal / y.toReal))
  | _, _ => none⟩⟩

noncomputable instance : IeeeLike Full where
  val a := a.v
  lt_iff a b := by rcases a with ⟨_ | x⟩ <;> rcases b with ⟨_ | y⟩ <;> simp [FCmp.lt]
  eq_iff a b := by
    rcases a with ⟨_ | x⟩ <;> rcases b with ⟨_ | y⟩ <;> simp [FCmp.eq]
    exact eq_comm
  neg a := rfl

theorem isVal_eq {a : Full} {x : ℝ} (h : IsVal a x) : a = ⟨some (x : EReal)⟩ := by
  cases a; exact congrArg Full.mk h

/-- Double precision arithmetic is correctly rounded. -/
noncomputable instance : IeeeRound Full where
  rd := rndE
  mono := rndE_mono
  zero := rndE_zero
  sub a b x y hx hy := by
    rw [isVal_eq hx, isVal_eq hy]
    simp [val, HSub.hSub, Sub.sub]
  mul a b x y hx hy := by
    rw [isVal_eq hx, isVal_eq hy]
    simp [val, HMul.hMul, Mul.mul]
  mul_top a b x hx hb := by
    obtain ⟨b⟩ := b
    change b = some ⊤ at hb
    subst hb
    rw [isVal_eq hx]
    change (if (x : EReal) = ⊤ ∨ (x : EReal) = ⊥ ∨ (⊤ : EReal) = ⊤ ∨ (⊤ : EReal) = ⊥ then (if (x : EReal) = 0 ∨ (⊤ : EReal) = 0 then none else some ((x : EReal) * ⊤))
      else some (rndE ((x : EReal).toReal * (⊤ : EReal).toReal))) = _
    rw [if_pos (by simp)]
    by_cases h : x = 0
    · rw [if_pos h, if_pos (by simp [h])]
    · rw [if_neg h, if_neg (by simp [h])]
      rcases lt_or_gt_of_ne h with h' | h'
      · rw [if_neg (not_lt.2 h'.le), EReal.coe_mul_top_of_neg h']
      · rw [if_pos h', EReal.coe_mul_top_of_pos h']
  mul_bot a b x hx hb := by
    obtain ⟨b⟩ := b
    change b = some ⊥ at hb
    subst hb
    rw [isVal_eq hx]
    change (if (x : EReal) = ⊤ ∨ (x : EReal) = ⊥ ∨ (⊥ : EReal) = ⊤ ∨ (⊥ : EReal) = ⊥ then (if (x : EReal) = 0 ∨ (⊥ : EReal) = 0 then none else some ((x : EReal) * ⊥))
      else some (rndE ((x : EReal).toReal * (⊥ : EReal).toReal))) = _
    rw [if_pos (by simp)]
    by_cases h : x = 0
    · rw [if_pos h, if_pos (by simp [h])]
    · rw [if_neg h, if_neg (by simp [h])]
      rcases lt_or_gt_of_ne h with h' | h'
      · rw [if_neg (not_lt.2 h'.le), EReal.coe_mul_bot_of_neg h']
      · rw [if_pos h', EReal.coe_mul_bot_of_pos h']
  div a b x y hx hy h0 := by
    rw [isVal_eq hx, isVal_eq hy]
    simp [val, HDiv.hDiv, Div.div, h0]

end Full

end Pr2
