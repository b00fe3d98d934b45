import Mathlib.Data.Rat.Defs

/-!
# Numbers

C++ `double` code is modelled generically in a number type `F` with plain operator classes and the comparisons below.
Nothing is assumed of the operators; see `Verif.Spec.Num` for the number systems used in theorems.
-/

namespace Pr2

/-- Comparisons of C++ doubles. (language; used e.g. at joint.cpp:46-122) -/
class FCmp (F : Type) where
  /-- `a < b` -/
  lt : F → F → Bool
  /-- `a == b` -/
  eq : F → F → Bool

/-- Literals, and `ros::Duration::toSec` of a duration in nanoseconds. (language and roscpp; used e.g. at joint.cpp:71-73, pr2_belt_transmission.cpp:257-386) -/
class FLit (F : Type) where
  lit : ℚ → F
  sec : Int → F

/-- Library functions: `<cmath>`, `M_PI`, and `angles::normalize_angle` (the angle modulo a full turn, in `(-π, π]`). (external; used at joint_calibration_simulator.cpp:70-102, pr2_gripper_transmission.cpp:421-531) -/
class FTrig (F : Type) where
  pi : F
  sqrt : F → F
  sin : F → F
  cos : F → F
  acos : F → F
  asin : F → F
  normAngle : F → F

section
variable {F : Type} [FCmp F]

/-- `std::max(a, b)`: `(a < b) ? b : a`. (library; used at joint.cpp:88-122) -/
def cmax (a b : F) : F := if FCmp.lt a b then b else a
/-- `std::min(a, b)`: `(b < a) ? b : a`. (library; used at joint.cpp:88-122) -/
def cmin (a b : F) : F := if FCmp.lt b a then b else a
/-- `a >= b` (language; used e.g. at joint_calibration_simulator.cpp:93-150) -/
def cge (a b : F) : Bool := FCmp.lt b a || FCmp.eq a b
/-- `isnan`: differs from itself. (language; a number differs from itself iff it is NaN, used at pr2_belt_transmission.cpp:257-386) -/
def cnan (a : F) : Bool := !FCmp.eq a a
/-- C `fmin`: ignores a NaN argument. (library; joint.cpp:52) -/
def fmin (a b : F) : F := if cnan a then b else if cnan b then a else if FCmp.lt b a then b else a
/-- C `fmax`: ignores a NaN argument. (library; joint.cpp:53-55) -/
def fmax (a b : F) : F := if cnan a then b else if cnan b then a else if FCmp.lt a b then b else a
/-- C `fabs`. (library; joint.cpp:49-55) -/
def fabs [Zero F] [Neg F] (a : F) : F := if FCmp.lt a 0 then -a else a
end

end Pr2
