import Verif.Model.Num
import Mathlib.Data.EReal.Basic
import Mathlib.Data.EReal.Operations
import Mathlib.Order.Lattice
import Mathlib.Algebra.Order.Group.Abs

/-!
# Number systems the theorems are about

* `IeeeLike F`: every number is NaN or has a value in the extended reals, comparisons and negation are exact (as IEEE 754
  requires), comparisons with NaN are false.  *Nothing* is assumed of `+ - * /`: their results may be any number at all,
  in particular any rounding, overflow or NaN.
* exact arithmetic: a linearly ordered field with the comparison `exactCmp`.
-/

namespace Pr2

/-- Floating point numbers with exact comparison and negation, and arbitrary other arithmetic. -/
class IeeeLike (F : Type) [FCmp F] [Neg F] where
  /-- the value; `none` is NaN -/
  val : F → Option EReal
  lt_iff : ∀ a b, FCmp.lt a b = true ↔ ∃ x y, val a = some x ∧ val b = some y ∧ x < y
  eq_iff : ∀ a b, FCmp.eq a b = true ↔ ∃ x, val a = some x ∧ val b = some x
  neg : ∀ a, val (-a) = (val a).map (fun x => -x)

/-- Exact comparison. -/
@[reducible] def exactCmp (F : Type) [LinearOrder F] : FCmp F := ⟨fun a b => decide (a < b), fun a b => decide (a = b)⟩

section
variable {F : Type} [LinearOrder F]
attribute [local instance] exactCmp

theorem cmax_exact (a b : F) : cmax a b = max a b := by
  unfold cmax; simp only [FCmp.lt, decide_eq_true_eq]
  split
  · rw [max_eq_right (le_of_lt ‹_›)]
  · rw [max_eq_left (not_lt.1 ‹_›)]
theorem cmin_exact (a b : F) : cmin a b = min a b := by
  unfold cmin; simp only [FCmp.lt, decide_eq_true_eq]
  split
  · rw [min_eq_right (le_of_lt ‹_›)]
  · rw [min_eq_left (not_lt.1 ‹_›)]
theorem cnan_exact (a : F) : cnan a = false := by simp [cnan, FCmp.eq]
theorem fmin_exact (a b : F) : fmin a b = min a b := by
  unfold fmin; simp only [cnan_exact, Bool.false_eq_true, if_false]; exact cmin_exact a b
theorem fmax_exact (a b : F) : fmax a b = max a b := by
  unfold fmax; simp only [cnan_exact, Bool.false_eq_true, if_false]; exact cmax_exact a b
theorem fabs_exact {F : Type} [AddCommGroup F] [LinearOrder F] [IsOrderedAddMonoid F] (a : F) : @fabs F (exactCmp F) _ _ a = |a| := by
  unfold fabs; simp only [FCmp.lt, decide_eq_true_eq]
  split
  · rw [abs_of_neg ‹_›]
  · rw [abs_of_nonneg (not_lt.1 ‹_›)]
end

/-! A floating-point-like system: extended reals with NaN, in which every sum, difference and product is NaN. -/

@[reducible] def Weird := Option EReal

noncomputable instance : FCmp Weird where
  lt a b := match a, b with
    | some x, some y => @decide (x < y) (Classical.dec _)
    | _, _ => false
  eq a b := match a, b with
    | some x, some y => @decide (x = y) (Classical.dec _)
    | _, _ => false

noncomputable instance : Neg Weird := ⟨fun a => a.map (fun x => -x)⟩

noncomputable instance : IeeeLike Weird where
  val a := a
  lt_iff a b := by cases a <;> cases b <;> simp [FCmp.lt]
  eq_iff a b := by
    cases a <;> cases b <;> simp [FCmp.eq]
    exact eq_comm
  neg a := rfl

end Pr2
