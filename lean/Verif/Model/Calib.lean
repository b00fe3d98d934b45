import Verif.Model.Joint
import Verif.Model.Hardware

/-! # Model of `pr2_mechanism_model/src/joint_calibration_simulator.cpp` -/

namespace Pr2

/-- `JointCalibrationSimulator` (joint_calibration_simulator.h). (joint_calibration_simulator.h:42-59) -/
structure CalSim (F : Type) where
  initialized : Bool
  hasRising : Bool
  hasFalling : Bool
  continuous : Bool
  rising : F
  falling : F
  gotInfo : Bool
  bump : Bool
  oldReading : Bool
  oldPos : F
  oldAsPos : F

section
variable {F : Type} [FCmp F] [Add F] [Sub F] [FTrig F]

/-- The constructor (joint_calibration_simulator.cpp:39-46) leaves the numbers, `bump` and the old reading uninitialised: arbitrary arguments. -/
def CalSim.fresh (rising falling oldPos oldAsPos : F) (bump oldReading : Bool) : CalSim F :=
  ⟨false, false, false, false, rising, falling, false, bump, oldReading, oldPos, oldAsPos⟩

/-- First half of `GetJointCalibrationInfo` (joint_calibration_simulator.cpp:52-62): read the edges from the description. -/
def CalSim.readEdges (c : CalSim F) (j : UJoint F) : CalSim F :=
  match j.calibration with
  | none => c
  | some cal =>
    let c := match cal.rising with | some r => { c with hasRising := true, rising := r } | none => c
    match cal.falling with | some f => { c with hasFalling := true, falling := f } | none => c

/-- Second half of `GetJointCalibrationInfo` (joint_calibration_simulator.cpp:66-82): continuous joints. -/
def CalSim.continuousEdges (c : CalSim F) : CalSim F :=
  let c := { c with continuous := true }
  let c := if c.hasRising && !c.hasFalling then { c with hasFalling := true, falling := c.rising + FTrig.pi } else c      -- 68-71
  let c := if !c.hasRising && c.hasFalling then { c with hasRising := true, rising := c.falling + FTrig.pi } else c       -- 72-75
  let c := { c with rising := FTrig.normAngle c.rising, falling := FTrig.normAngle c.falling }                            -- 76-77
  { c with bump := FCmp.lt c.rising c.falling }                                                                           -- 78-81

/-- `GetJointCalibrationInfo` (joint_calibration_simulator.cpp:48-89).  The `ROS_ERROR` at 85-86 has no effect. -/
def CalSim.getInfo (c : CalSim F) (j : UJoint F) : CalSim F :=
  let c := c.readEdges j
  let c := if j.type == .continuous then c.continuousEdges else c
  { c with gotInfo := true }

/-- Calibration reading (joint_calibration_simulator.cpp:101-122); `old` is the reading the actuator had. -/
def CalSim.reading (c : CalSim F) (pos : F) (old : Bool) : Bool :=
  if c.continuous then
    let p := FTrig.normAngle pos
    if c.bump then FCmp.lt c.rising p && FCmp.lt p c.falling
    else !(FCmp.lt p c.rising && FCmp.lt c.falling p)
  else if c.hasRising then FCmp.lt c.rising pos
  else if c.hasFalling then FCmp.lt pos c.falling
  else old

/-- `simulateJointCalibration` (joint_calibration_simulator.cpp:91-159). -/
def CalSim.simulate (c : CalSim F) (j : JState F) (a : Actuator F) : CalSim F × Actuator F :=
  let c := if c.gotInfo then c else c.getInfo j.joint                                                        -- 94
  let pos := j.position - j.reference                                                                        -- 97
  let asPos := a.position                                                                                    -- 98
  let a := { a with calReading := c.reading pos a.calReading }                                               -- 101-122
  let a :=
    if c.initialized && (c.oldReading != a.calReading) then                                                  -- 124-127
      if a.calReading then
        if FCmp.lt c.oldPos pos then { a with risingValid := true, risingEdge := c.oldAsPos }                -- 129-133
        else { a with fallingValid := true, fallingEdge := c.oldAsPos }                                      -- 134-138
      else
        if FCmp.lt c.oldPos pos then { a with fallingValid := true, fallingEdge := c.oldAsPos }              -- 141-145
        else { a with risingValid := true, risingEdge := c.oldAsPos }                                        -- 146-150
    else a
  ({ c with oldReading := a.calReading, oldPos := pos, oldAsPos := asPos, initialized := true }, a)          -- 155-158

end

end Pr2
