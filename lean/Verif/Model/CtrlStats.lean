import Verif.Model.Cycle
import Mathlib.Analysis.SpecialFunctions.Pow.NNReal

/-!
# Model of the controllers' time statistics

`Statistics::acc` (pr2_controller_manager/include/pr2_controller_manager/controller_spec.h:49-54) is a Boost accumulator set with the features `max`, `mean`
and `variance`; `publishMechanismStatistics` reports them (controller_manager.cpp:660-672).  Boost is external: the recurrences below are those of
`boost/accumulators/statistics/{max,mean,variance}.hpp`.  Arithmetic is exact (ℝ); the conversion to `ros::Duration` (rounding to nanoseconds) is left out.
-/

namespace Pr2

noncomputable section

/-- The state of the accumulator set (controller_spec.h:49-52): `count`, `max`, `sum` (for `mean`), `immediate_mean` and `variance`. -/
structure Acc where
  count : Nat
  max : ℝ
  sum : ℝ
  imean : ℝ
  var : ℝ

/-- A new accumulator set (controller_spec.h:60); `low` is the lowest `double`. -/
def Acc.new (low : ℝ) : Acc := ⟨0, low, 0, 0, 0⟩

/-- `stats->acc(x)` (controller_manager.cpp:154). -/
def Acc.add (a : Acc) (x : ℝ) : Acc :=
  let n := a.count + 1
  let m := (a.imean * ((n : ℝ) - 1) + x) / n
  { count := n
    max := if a.max < x then x else a.max
    sum := a.sum + x
    imean := m
    var := if n > 1 then a.var * ((n : ℝ) - 1) / n + (x - m) * (x - m) / ((n : ℝ) - 1) else a.var }

/-- `Duration::toSec` (controller_manager.cpp:154). -/
def toSec (ns : Int) : ℝ := ns / 1000000000

/-- The accumulator after the samples of a controller's statistics. (controller_spec.h:55, controller_manager.cpp:154) -/
def CStat.acc (low : ℝ) (st : CStat) : Acc := (st.samples.map toSec).foldl Acc.add (Acc.new low)

/-- A controller in the list the realtime loop uses, with the result of `isRunning()` (controller_spec.h:63-70). -/
structure Listed where
  name : String
  id : Nat
  running : Bool

/-- `pr2_mechanism_msgs::ControllerStatistics`; `none`: the division 0/0 (controller_manager.cpp:663-671). -/
structure CtrlRow where
  name : String
  timestamp : Int
  running : Bool
  maxTime : ℝ
  meanTime : Option ℝ
  varTime : ℝ
  overruns : UInt32
  lastOverrun : Int

/-- One entry (controller_manager.cpp:663-671; the name is written by load and unload, 346-348, 442-444, see C21). -/
def ctrlRow (low : ℝ) (now : Int) (st : Nat → CStat) (c : Listed) : CtrlRow :=
  let a := (st c.id).acc low
  { name := c.name
    timestamp := now
    running := c.running
    maxTime := a.max
    meanTime := if a.count = 0 then none else some (a.sum / a.count)
    varTime := Real.sqrt a.var
    overruns := (st c.id).overruns
    lastOverrun := (st c.id).lastOverrun }

/-- The loop over the controllers (controller_manager.cpp:660-672). -/
def ctrlRows (low : ℝ) (now : Int) (st : Nat → CStat) (listed : List Listed) : List CtrlRow := listed.map (ctrlRow low now st)

end

end Pr2
