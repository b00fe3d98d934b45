import Verif.Model.Transmissions
import Verif.Spec.Num
import Mathlib.Analysis.SpecialFunctions.Trigonometric.Inverse
import Mathlib.Algebra.Order.ToIntervalMod
import Mathlib.Tactic.FieldSimp
import Mathlib.Tactic.Ring
import Mathlib.Tactic.Linarith
import Mathlib.Tactic.NormNum

/-! # The real numbers as number system: exact arithmetic and exact library functions -/

namespace Pr2

noncomputable instance : FCmp ℝ := exactCmp ℝ
noncomputable instance : FLit ℝ := ⟨fun q => q, fun n => n / 1000000000⟩
noncomputable instance : FTrig ℝ := ⟨Real.pi, Real.sqrt, Real.sin, Real.cos, Real.arccos, Real.arcsin, toIocMod Real.two_pi_pos (-Real.pi)⟩

@[simp] theorem lit_real (q : ℚ) : (FLit.lit q : ℝ) = q := rfl
theorem sec_real (n : Int) : (FLit.sec n : ℝ) = n / 1000000000 := rfl
@[simp] theorem lt_real (a b : ℝ) : FCmp.lt a b = decide (a < b) := rfl
@[simp] theorem eq_real (a b : ℝ) : FCmp.eq a b = decide (a = b) := rfl
@[simp] theorem pi_real : (FTrig.pi : ℝ) = Real.pi := rfl
@[simp] theorem sqrt_real (x : ℝ) : FTrig.sqrt x = Real.sqrt x := rfl
@[simp] theorem sin_real (x : ℝ) : FTrig.sin x = Real.sin x := rfl
@[simp] theorem cos_real (x : ℝ) : FTrig.cos x = Real.cos x := rfl
@[simp] theorem acos_real (x : ℝ) : FTrig.acos x = Real.arccos x := rfl
@[simp] theorem asin_real (x : ℝ) : FTrig.asin x = Real.arcsin x := rfl
theorem normAngle_real (x : ℝ) : FTrig.normAngle x = toIocMod Real.two_pi_pos (-Real.pi) x := rfl
@[simp] theorem fabs_real (x : ℝ) : fabs x = |x| := fabs_exact x
@[simp] theorem cge_real (a b : ℝ) : cge a b = decide (b ≤ a) := by
  unfold cge; simp only [lt_real, eq_real]
  rw [← Bool.decide_or, decide_eq_decide, le_iff_lt_or_eq, eq_comm (a := a)]

/-- Position, velocity and measured effort of a joint. -/
def JState.motion {F : Type} (j : JState F) : F × F × F := (j.position, j.velocity, j.measured)
/-- Position, velocity and measured effort of an actuator. -/
def Actuator.motion {F : Type} (a : Actuator F) : F × F × F := (a.position, a.velocity, a.measured)
/-- Mechanical power of the measured efforts at the joints. -/
noncomputable def jointPower (js : List (JState ℝ)) : ℝ := (js.map (fun j => j.measured * j.velocity)).sum
/-- Mechanical power of the measured efforts at the actuators. -/
noncomputable def actPower (as : List (Actuator ℝ)) : ℝ := (as.map (fun a => a.measured * a.velocity)).sum
/-- Mechanical power of the commanded efforts at the joints. -/
noncomputable def jointCmdPower (js : List (JState ℝ)) : ℝ := (js.map (fun j => j.commanded * j.velocity)).sum
/-- Mechanical power of the commanded efforts at the actuators. -/
noncomputable def actCmdPower (as : List (Actuator ℝ)) : ℝ := (as.map (fun a => a.effort * a.velocity)).sum

end Pr2
