import Verif.Model.Cycle

/-!
# The publishing clocks with the range of `ros::Time`

`Verif.Model.Cycle` computes with unbounded times.  Here the same code (controller_manager.cpp:555-561 and 591-597) with `ros::Time` as it is: 32 bits of
seconds, no sign; an addition that leaves this range throws `std::runtime_error` (rostime, external package), which nothing in the realtime loop catches.
The steps of the loop are counted.
-/

namespace Pr2

/-- What a `ros::Time` can hold, in nanoseconds. (rostime, external; controller_manager.h:112-113) -/
def timeEnd : Int := 2 ^ 32 * 1000000000

/-- `ros::Time + ros::Duration`; `none`: it throws. (rostime, external; used at controller_manager.cpp:553-600) -/
def timeAdd (t d : Int) : Option Int := if 0 ≤ t + d ∧ t + d < timeEnd then some (t + d) else none

/-- `while (last + period < now) last = last + period;` (controller_manager.cpp:560-561, 596-597) from `last`: number of iterations and the final value of
`last`, `none` if an addition throws.  No outcome: it never ends. -/
inductive CatchUp32 (period now : Int) : Int → Nat → Option Int → Prop
  | throws {last : Int} : timeAdd last period = none → CatchUp32 period now last 0 none
  | done {last t : Int} : timeAdd last period = some t → ¬ t < now → CatchUp32 period now last 0 (some last)
  | step {last t : Int} {n : Nat} {r : Option Int} : timeAdd last period = some t → t < now → timeAdd last period = some t →
      CatchUp32 period now t n r → CatchUp32 period now last (n + 1) r

/-- The clock part of `publishJointState` (controller_manager.cpp:555-561) and `publishMechanismStatistics` (591-597): iterations and outcome. -/
inductive PubTick32 (period now : Int) (free : Bool) (last : Int) : Nat → Option (Int × Bool) → Prop
  | throws : timeAdd last period = none → PubTick32 period now free last 0 none
  | early {t : Int} : timeAdd last period = some t → ¬ now > t → PubTick32 period now free last 0 (some (last, false))
  | busy {t : Int} : timeAdd last period = some t → now > t → free = false → PubTick32 period now free last 0 (some (last, false))
  | publish {t : Int} {n : Nat} {r : Option Int} : timeAdd last period = some t → now > t → free = true → CatchUp32 period now last n r →
      PubTick32 period now free last n (r.map (fun l => (l, true)))

/-- Successive calls, each with its time and the result of `trylock`; the numbers of iterations and what was published, `none` if one throws. (no counterpart in the code; successive calls of controller_manager.cpp:553-586, 589-678) -/
inductive PubRun32 (period : Int) : Int → List (Int × Bool) → List Nat → Option (Int × List Bool) → Prop
  | nil {last : Int} : PubRun32 period last [] [] (some (last, []))
  | throws {last : Int} {c : Int × Bool} {cs : List (Int × Bool)} {n : Nat} : PubTick32 period c.1 c.2 last n none → PubRun32 period last (c :: cs) [n] none
  | cons {last : Int} {c : Int × Bool} {cs : List (Int × Bool)} {n : Nat} {l : Int} {b : Bool} {ns : List Nat} {r : Option (Int × List Bool)} :
      PubTick32 period c.1 c.2 last n (some (l, b)) → PubRun32 period l cs ns r →
      PubRun32 period last (c :: cs) (n :: ns) (r.map (fun x => (x.1, b :: x.2)))

end Pr2
