import Verif.Props.ManagerTraces
import Verif.Props.SimpleWrist
import Verif.Model.Diagnostics
import Mathlib.Tactic.NormNum

/-!
# The project's own unit tests, replayed on the model

Validation of the model, not a proof of a property: what the tests under `*/test/` expect of the program, the model does on the same inputs.  (Expectations with a
tolerance are met exactly, the model's numbers being exact.)
-/

namespace Pr2

/-! ## `pr2_mechanism_model/test/test_wrist_transmission.cpp` -/

section wrist
attribute [local instance] exactCmp
local instance testLit : FLit ℚ := ⟨id, fun n => n / 1000000000⟩
local instance testTrig : FTrig ℚ := ⟨22 / 7, id, id, id, id, id, id⟩

def testSensor : CalSim ℚ := CalSim.fresh 0 0 0 0 false false
/-- `setReductions(ar, jr)`. -/
def testWrist (ar0 ar1 jr0 jr1 : ℚ) : WristT ℚ := ⟨ar0, ar1, jr0, jr1, 0, 0, ⟨false, 0⟩, testSensor, testSensor⟩
def testJoint : JState ℚ := JState.fresh ⟨"", .revolute, none, none, none⟩ 0
def testAct (pos vel meas eff : ℚ) : Actuator ℚ := { Actuator.fresh "" with position := pos, velocity := vel, measured := meas, effort := eff }

/-- `propagatePosition` of two actuators. -/
def testWristReads (t : WristT ℚ) (a0 a1 : Actuator ℚ) : Option (List (ℚ × ℚ × ℚ)) :=
  (t.propagatePosition [a0, a1] [testJoint, testJoint]).map (·.map (fun j => (j.position, j.velocity, j.measured)))
/-- `propagatePosition` and back (positions, velocities, measured efforts). -/
def wristThere (t : WristT ℚ) (a0 a1 : Actuator ℚ) : Option (List (ℚ × ℚ × ℚ)) := do
  let js ← t.propagatePosition [a0, a1] [testJoint, testJoint]
  let r ← t.propagatePositionBackwards ⟨true, 5, 6⟩ js [Actuator.fresh "", Actuator.fresh ""]
  some (r.2.map (fun a => (a.position, a.velocity, a.measured)))
/-- `propagateEffortBackwards` and back (commands). -/
def wristCommand (t : WristT ℚ) (a0 a1 : Actuator ℚ) : Option (List ℚ) := do
  let js ← t.propagateEffortBackwards [a0, a1] [testJoint, testJoint]
  let r ← t.propagateEffort js [Actuator.fresh "", Actuator.fresh ""]
  some (r.map (·.effort))

/-- `EasyNoGearingTest`: 104-129. -/
example : (testWristReads (testWrist 1 1 1 1) (testAct 1 0 0 0) (testAct 1 0 0 0)).map (·.map (·.1)) = some [0, -1] := by decide +kernel
example : (testWristReads (testWrist 1 1 1 1) (testAct 0 1 0 0) (testAct 0 (-1) 0 0)).map (·.map (·.2.1)) = some [1, 0] := by decide +kernel
example : (testWristReads (testWrist 1 1 1 1) (testAct 0 0 1 0) (testAct 0 0 (-1) 0)).map (·.map (·.2.2)) = some [2, 0] := by decide +kernel
/-- `EasyJointGearingTest`: 149-156. -/
example : (testWristReads (testWrist 1 1 10 100) (testAct 3 0 0 0) (testAct 1 0 0 0)).map (·.map (·.1)) = some [10 / 100, -2 / 100] := by decide +kernel
/-- `EasyMotorGearingTest`: 175-191. -/
example : (testWristReads (testWrist 10 100 1 1) (testAct 100 0 0 0) (testAct 0 0 0 0)).map (·.map (·.1)) = some [5, -5] := by decide +kernel
example : (testWristReads (testWrist 10 100 1 1) (testAct 0 0 0 0) (testAct 100 0 0 0)).map (·.map (·.1)) = some [-1 / 2, -1 / 2] := by decide +kernel
/-- `PropagateSanityCheck`: 219-259. -/
example : (wristThere (testWrist 10 100 20 40) (testAct 1 3 5 0) (testAct 2 4 6 0)) = some [(1, 3, 5), (2, 4, 6)] := by decide +kernel
example : (wristThere (testWrist 10 100 20 40) (testAct 0 1 5 0) (testAct 0 2 6 0)).map (·.map (·.2.1)) = some [1, 2] := by decide +kernel
example : (wristThere (testWrist 10 100 20 40) (testAct 0 3 1 0) (testAct 0 4 2 0)).map (·.map (·.2.2)) = some [1, 2] := by decide +kernel
example : wristCommand (testWrist 10 100 20 40) (testAct 0 3 5 1) (testAct 0 4 6 2) = some [1, 2] := by decide +kernel

/-! ## `pr2_mechanism_model/test/test_joint_calibration_simulator.cpp`, with `test/robot.xml`

All positions are within a half turn, so `angles::normalize_angle` is the identity. -/

/-- One `simulateJointCalibration` with the joint and the motor at these positions. -/
def testCalStep (u : UJoint ℚ) (s : CalSim ℚ × Actuator ℚ) (p : ℚ × ℚ) : CalSim ℚ × Actuator ℚ :=
  s.1.simulate { JState.fresh u 0 with position := p.1 } { s.2 with position := p.2 }
/-- After these positions: reading, rising edge valid, falling edge valid, last rising edge, last falling edge. -/
def testCalAfter (u : UJoint ℚ) (a : Actuator ℚ) (ps : List (ℚ × ℚ)) : Bool × Bool × Bool × ℚ × ℚ :=
  let r := (ps.foldl (testCalStep u) (testSensor, a)).2
  (r.calReading, r.risingValid, r.fallingValid, r.risingEdge, r.fallingEdge)
def testCont1 : UJoint ℚ := ⟨"continuous1", .continuous, none, none, some ⟨some (3 / 2), some 0⟩⟩
def testCont2 : UJoint ℚ := ⟨"continuous2", .continuous, none, none, some ⟨some 0, some (3 / 2)⟩⟩
def testRev : UJoint ℚ := ⟨"revolute", .revolute, some ⟨-100, 100, 30, 1⟩, none, some ⟨some (1 / 2), none⟩⟩
def calPath1 : List (ℚ × ℚ) := [(1 / 100, 0), (1, 10), (16 / 10, 16), (15001 / 10000, 150), (14 / 10, 14), (1 / 100, 999), (-1 / 10, -1)]
def calPath2 : List (ℚ × ℚ) := [(1 / 10, -1), (1, -1), (14 / 10, 15), (16 / 10, 16), (16 / 10, 15), (14 / 10, 14), (-1 / 10, 0), (1 / 10, -1)]
def calPath3 : List (ℚ × ℚ) := [(1 / 100, -1), (4 / 100, -1), (5 / 10, 5), (16 / 10, 16), (10, 100), (-10, -100)]

/-- `continuous1`: lines 85-128. -/
example : [1, 2, 3, 5, 7].map (fun n => testCalAfter testCont1 (Actuator.fresh "") (calPath1.take n)) =
    [(false, false, false, 0, 0), (false, false, false, 0, 0), (true, true, false, 10, 0), (false, true, false, 150, 0), (true, true, true, 150, 999)] := by decide +kernel

/-- The actuator with which `continuous2` and `revolute` are tested (132-133, 189-190). -/
def calActuator : Actuator ℚ := { Actuator.fresh "" with calReading := true }
/-- `continuous2`: lines 136-184. -/
example : [1, 2, 4, 6, 8].map (fun n => testCalAfter testCont2 calActuator (calPath2.take n)) =
    [(true, false, false, 0, 0), (true, false, false, 0, 0), (false, false, true, 0, 15), (true, false, true, 0, 15), (true, true, true, 0, 15)] := by decide +kernel
/-- `revolute`: lines 193-225. -/
example : [1, 2, 4, 6].map (fun n => testCalAfter testRev calActuator (calPath3.take n)) =
    [(false, false, false, 0, 0), (false, false, false, 0, 0), (true, true, false, 5, 0), (false, true, false, 100, 0)] := by decide +kernel

end wrist

/-! ## `pr2_controller_manager/test/test.cpp`, with `controller_test.launch`

`controller1` … `controller7` are well configured; `controller8`, `controller11` … `controller19` are of the right type but their `init` returns false
(`test/controllers/test_controller.cpp`), `controller9` has no such type, `controller10` none at all. -/

/-- The test package declares one class. -/
def testLoader : Loader := ⟨fun t => t == "pr2_controller_manager/TestController", ["pr2_controller_manager/TestController"], fun _ => "TestController",
  fun t => t == "pr2_controller_manager/TestController"⟩
/-- `load_controller` in the environment of the test. -/
def testLoad (name : String) : Op :=
  let type := if name = "controller10" then none else if name = "controller9" then some "#%$#$ \\ " else some "pr2_controller_manager/TestController"
  .load ⟨name, true, type, testLoader, ⟨[], [], [], fun _ => some (["controller1", "controller2", "controller3", "controller4", "controller5", "controller6",
    "controller7"].contains name)⟩⟩

/-- Both threads run until the call returns. -/
def testSettle : Nat → State → State
  | 0, s => s
  | n + 1, s => match s.nrt with
    | .idle => s
    | _ => testSettle n ((s.step .nrt).step tick)
/-- A call; its result is the last entry of the log. -/
def testCall (s : State) (op : Op) : State := testSettle 200 (s.step (.call op))
/-- Did the last call return true? -/
def State.lastOk (s : State) : Bool := match s.nlog.getLast? with
  | some r => r.res == .flag true
  | none => false
/-- A sequence of calls with what they are expected to return. -/
def expectCalls (s : State) : List (Op × Bool) → Option State
  | [] => some s
  | (op, b) :: l => let s := testCall s op; if s.lastOk == b && !s.bad then expectCalls s l else none
/-- `controllerState(name)` (lines 156-169) for `controller1` … `controller9`, from what `list_controllers` answers: `none`: unloaded, else whether running. -/
def testShown (s : State) : List (Option Bool) := match (testCall s .list).nlog.getLast? with
  | some ⟨_, .listing l, _, _, _⟩ => ["controller1", "controller2", "controller3", "controller4", "controller5", "controller6", "controller7", "controller8",
      "controller9"].map (fun n => l.lookup n)
  | _ => []

def testStart : State := (State.init false).run (firstInputs.map Act.rt)
/-- What the four spawners of the launch file do. -/
def testSpawn : List (Op × Bool) :=
  [(testLoad "controller1", true), (.switch ["controller1"] [] STRICT, true), (testLoad "controller2", true),
   (testLoad "controller3", true), (testLoad "controller4", true), (.switch ["controller3", "controller4"] [] STRICT, true),
   (testLoad "controller5", true), (testLoad "controller6", true)]
/-- `loading` (lines 276-323). -/
def testLoading : List (Op × Bool) :=
  ["controller1", "controller2", "controller3", "controller4", "controller5", "controller6"].map (fun n => (testLoad n, false)) ++
  [(testLoad "controller7", true)] ++
  ["controller9", "controller11", "controller12", "controller13", "controller14", "controller15", "controller16", "controller17", "controller18", "controller19",
    "controller10"].map (fun n => (testLoad n, false))
/-- `unloading` (325-366). -/
def testUnloading : List (Op × Bool) :=
  ["controller1", "controller3", "controller4"].map (fun n => (.unload n, false)) ++
  ["controller2", "controller5", "controller6", "controller7"].map (fun n => (.unload n, true)) ++ [(.unload "controller8", false)]
/-- `start_stop_strict` (368-438). -/
def testStrict : List (Op × Bool) :=
  [(.switch ["controller1"] [] STRICT, true), (.switch ["controller1", "controller2"] [] STRICT, false), (testLoad "controller2", true),
   (.switch ["controller1", "controller2"] [] STRICT, true), (.switch ["controller1", "controller2"] ["controller2"] STRICT, true),
   (.switch ["controller1", "controller2"] ["controller2", "controller5"] STRICT, false),
   (.switch ["controller1", "controller2"] ["controller2", "controller5", "controller4"] STRICT, false), (testLoad "controller5", true)]
def testStrict2 : List (Op × Bool) := [(.switch ["controller1", "controller2"] ["controller2", "controller5", "controller4"] STRICT, true)]
def testStrict3 : List (Op × Bool) := [(.switch ["controller1", "controller2"] ["controller2", "controller5", "controller4", "controller3"] STRICT, true)]
/-- `start_stop_best_effort` (441-472). -/
def testBest : List (Op × Bool) :=
  [(.switch ["controller1"] [] BEST_EFFORT, true), (.switch ["controller1", "controller3", "controller6"] [] BEST_EFFORT, true)]

/-- `spawner`: lines 253-273. -/
example : (expectCalls testStart testSpawn).map testShown = some [some true, some false, some true, some true, some false, some false, none, none, none] := by decide +kernel
example : (expectCalls testStart (testSpawn ++ testLoading)).map testShown = some [some true, some false, some true, some true, some false, some false, some false, none, none] := by decide +kernel
example : (expectCalls testStart (testSpawn ++ testLoading ++ testUnloading)).map testShown = some [some true, none, some true, some true, none, none, none, none, none] := by decide +kernel
example : (expectCalls testStart (testSpawn ++ testLoading ++ testUnloading ++ testStrict)).map testShown = some [some true, some true, some true, some true, some false, none, none, none, none] := by decide +kernel
example : (expectCalls testStart (testSpawn ++ testLoading ++ testUnloading ++ testStrict ++ testStrict2)).map testShown = some [some true, some true, some true, some false, some false, none, none, none, none] := by decide +kernel
example : (expectCalls testStart (testSpawn ++ testLoading ++ testUnloading ++ testStrict ++ testStrict2 ++ testStrict3)).map testShown = some [some true, some true, some false, some false, some false, none, none, none, none] := by decide +kernel
example : (expectCalls testStart (testSpawn ++ testLoading ++ testUnloading ++ testStrict ++ testStrict2 ++ testStrict3 ++ testBest)).map testShown = some [some true, some true, some true, some false, some false, none, none, none, none] := by decide +kernel

/-! ## `pr2_mechanism_diagnostics/test/mech_diag_test.py`, with `pub_mech_stats.py` and the launch files -/

section diag

/-- Numbers with a NaN (`none`). -/
@[reducible] def TestNum := Option Int
local instance : FCmp TestNum where
  lt a b := match a, b with | some x, some y => decide (x < y) | _, _ => false
  eq a b := match a, b with | some x, some y => decide (x = y) | _, _ => false
local instance : Zero TestNum := ⟨some 0⟩
local instance : Neg TestNum := ⟨fun a => a.map (fun x => -x)⟩
local instance : FNormal TestNum := ⟨fun a => match a with | some x => decide (x ≠ 0) | none => false⟩

/-- `joint_stat('my_joint', cal, nan)`; the other numbers of a new message are 0. -/
def testJointStat (cal nan : Bool) : SRow TestNum :=
  ⟨0, "my_joint", if nan then none else some 1, some 0, some 0, some 0, cal, false, some 0, some 0, some 0, some 0, some 0⟩
/-- `ctrl_stat('my_controller', True, overrun)`, made at time 100 s. -/
def testCtrlStat (overrun : Bool) : CRow := ⟨"my_controller", 100000000000, true, 0, 0, 0, if overrun then 10 else 0, if overrun then 95000000000 else 0⟩
/-- The same message every second from 100 s on, diagnostics half a second later; the last diagnostics. -/
def testDiag (cal nan overrun : Bool) : List (String × Level) :=
  let n := (List.range 5).foldl (fun n (k : Nat) =>
    let t : Int := 100000000000 + 1000000000 * k
    (n.1.mechCallback (some 1000) ⟨[(testJointStat cal nan, t)], [(testCtrlStat overrun, t)]⟩).publishDiag ⟨fun _ => t + 500000000, fun _ => t + 500000000, fun _ => t + 500000000⟩
      |>.swap) (DiagNode.fresh TestNum false false, [])
  n.2.map (fun s => (s.name, s.level))

example : testDiag true false false = [("Joint (my_joint)", .ok), ("Controller (my_controller)", .ok)] := rfl
/-- `nan_test.launch` -/
example : testDiag true true false = [("Joint (my_joint)", .error), ("Controller (my_controller)", .ok)] := rfl
/-- `uncal_test.launch` -/
example : testDiag false false false = [("Joint (my_joint)", .warn), ("Controller (my_controller)", .ok)] := rfl
/-- `overrun_test.launch` -/
example : testDiag true false true = [("Joint (my_joint)", .ok), ("Controller (my_controller)", .warn)] := rfl

end diag

end Pr2
