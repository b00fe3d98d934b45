import Verif.Model.TimeRange
import Verif.Model.Transmissions

/-!
# A simulated robot under a simulated clock

In a simulation each step first stamps the motors (`propagatePositionBackwards` of the transmissions) and then calls `update`, which now and then publishes
the statistics with these stamps.  The clock is simulated time: it stands still during a step, and between two steps it may do anything (a reset of the
simulation sets it back).
-/

namespace Pr2

/-- One simulation step: `ros::isStarted()`, the simulated time, and whether the statistics message is free (`trylock`). (no counterpart in the code; what
simple_transmission.cpp:231-245 and controller_manager.cpp:591-594 observe in one step) -/
structure SimStep where
  started : Bool
  now : Int
  free : Bool
  deriving DecidableEq

/-- What the transmissions see of it. (no counterpart in the code; Model/Transmissions `SimEnv`) -/
def SimStep.env (s : SimStep) : SimEnv := ⟨s.started, s.now, s.now⟩

/-- `ros::Time(in->timestamp_)` (controller_manager.cpp:638); `none`: throws `std::runtime_error`, since `ros::Time` has 32 bits of seconds and no sign
(rostime, external).  Simplification: the stamp in nanoseconds, without the rounding to a `double` in between, which keeps the sign. -/
def rosTime (ts : Int) : Option Int := if 0 ≤ ts ∧ ts < timeEnd then some ts else none

/-- Successive simulation steps with the clocks of the motors' transmissions and `last_published_mechanism_stats_`: for each step the stamps in the message,
if one was published; `none`: an exception leaves `update` (controller_manager.cpp:591-597 and 628-638; simple_transmission.cpp:230-250 and the same lines of the other
transmissions). -/
inductive SimRun32 (period : Int) : List SimClock → Int → List SimStep → Option (List (Option (List Int))) → Prop
  | nil {cs : List SimClock} {last : Int} : SimRun32 period cs last [] (some [])
  | clock {cs : List SimClock} {last : Int} {s : SimStep} {ss : List SimStep} {n : Nat} : PubTick32 period s.now s.free last n none → SimRun32 period cs last (s :: ss) none
  | quiet {cs : List SimClock} {last l : Int} {s : SimStep} {ss : List SimStep} {n : Nat} {r : Option (List (Option (List Int)))} :
      PubTick32 period s.now s.free last n (some (l, false)) → SimRun32 period (cs.map (·.tick s.env)) l ss r → SimRun32 period cs last (s :: ss) (r.map (none :: ·))
  | stamp {cs : List SimClock} {last l : Int} {s : SimStep} {ss : List SimStep} {n : Nat} :
      PubTick32 period s.now s.free last n (some (l, true)) → (cs.map (·.stamp s.now)).mapM rosTime = none → SimRun32 period cs last (s :: ss) none
  | publish {cs : List SimClock} {last l : Int} {s : SimStep} {ss : List SimStep} {n : Nat} {ts : List Int} {r : Option (List (Option (List Int)))} :
      PubTick32 period s.now s.free last n (some (l, true)) → (cs.map (·.stamp s.now)).mapM rosTime = some ts →
      SimRun32 period (cs.map (·.tick s.env)) l ss r → SimRun32 period cs last (s :: ss) (r.map (some ts :: ·))

end Pr2
