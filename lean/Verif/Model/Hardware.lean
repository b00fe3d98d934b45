import Verif.Model.Num
import Mathlib.Algebra.Notation.Defs

/-!
# Model of `pr2_hardware_interface/hardware_interface.h`

Actuators and the name-indexed component maps.  A component lives at an address (`Nat`); `getX`/`addX` work on pointers.
-/

namespace Pr2

/-- Members of `ActuatorState` that nothing in this repository computes with; they are only published (hardware_interface.h:92-122).
`max_effort_`, which is never read here, is left out. -/
structure ActInfo (F : Type) where
  deviceId : Int        -- `device_id_`
  encoderCount : Int
  encoderVelocity : F
  isEnabled : Bool
  commandedCurrent : F  -- `last_commanded_current_`
  executedCurrent : F
  measuredCurrent : F
  commandedEffort : F   -- `last_commanded_effort_`
  executedEffort : F
  motorVoltage : F
  encoderErrors : Int   -- `num_encoder_errors_`
  zeroOffset : F

/-- `ActuatorState()` (hardware_interface.h:51-75). -/
def ActInfo.fresh {F : Type} [Zero F] : ActInfo F := ⟨0, 0, 0, false, 0, 0, 0, 0, 0, 0, 0, 0⟩

/-- `Actuator` with its `ActuatorState` and `ActuatorCommand` (hardware_interface.h:49-155).  Fields of the state that nothing computes with, which are only
published, are in `info`. -/
structure Actuator (F : Type) where
  name : String
  sampleTs : Int        -- `state_.sample_timestamp_` (ns)
  ts : F                -- `state_.timestamp_`
  position : F
  velocity : F
  calReading : Bool
  risingValid : Bool
  fallingValid : Bool
  risingEdge : F
  fallingEdge : F
  halted : Bool
  measured : F          -- `state_.last_measured_effort_`
  enable : Bool         -- `command_.enable_`
  effort : F            -- `command_.effort_`
  info : ActInfo F

/-- `Actuator(name)` (hardware_interface.h:51-75, 128-130, 151). -/
def Actuator.fresh {F : Type} [Zero F] (name : String) : Actuator F :=
  ⟨name, 0, 0, 0, 0, false, false, false, 0, 0, false, 0, false, 0, ActInfo.fresh⟩

/-- One of the maps of `HardwareInterface` (hardware_interface.h:411-418): `std::map<std::string, T*>`, as an association list
without duplicate keys.  Simplification: the iteration order of `std::map` is not modelled here. -/
abbrev HwMap := List (String × Nat)

/-- `getActuator`, `getPressureSensor`, … (hardware_interface.h:424-497). -/
def HwMap.get (m : HwMap) (name : String) : Option Nat := (m.find? (fun p => p.1 == name)).map (·.2)

/-- `addActuator`, `addPressureSensor`, … (hardware_interface.h:504-585): `std::map::insert`, which does nothing and says so
if the key is present. -/
def HwMap.add (m : HwMap) (name : String) (ptr : Nat) : HwMap × Bool :=
  if m.any (fun p => p.1 == name) then (m, false) else (m ++ [(name, ptr)], true)

/-- `HardwareInterface` (hardware_interface.h:409-588): the eight maps. -/
structure HwMaps where
  actuators : HwMap
  pressureSensors : HwMap
  accelerometers : HwMap
  ftSensors : HwMap
  digitalOuts : HwMap
  projectors : HwMap
  analogIns : HwMap
  customHws : HwMap

/-- The kinds of components. (hardware_interface.h:374-381) -/
inductive HwKind where
  | actuator | pressureSensor | accelerometer | ftSensor | digitalOut | projector | analogIn | customHw
deriving DecidableEq, Repr

/-- A `HardwareInterface` without components. (hardware_interface.h:408-418) -/
def HwMaps.empty : HwMaps := ⟨[], [], [], [], [], [], [], []⟩

/-- `addActuator` … `addCustomHW` (hardware_interface.h:504-585). -/
def HwMaps.add (h : HwMaps) (k : HwKind) (name : String) (ptr : Nat) : HwMaps × Bool :=
  match k with
  | .actuator => let r := h.actuators.add name ptr; ({ h with actuators := r.1 }, r.2)                       -- 504-508
  | .pressureSensor => let r := h.pressureSensors.add name ptr; ({ h with pressureSensors := r.1 }, r.2)     -- 515-519
  | .accelerometer => let r := h.accelerometers.add name ptr; ({ h with accelerometers := r.1 }, r.2)        -- 526-530
  | .ftSensor => let r := h.ftSensors.add name ptr; ({ h with ftSensors := r.1 }, r.2)                       -- 537-541
  | .digitalOut => let r := h.digitalOuts.add name ptr; ({ h with digitalOuts := r.1 }, r.2)                 -- 548-552
  | .projector => let r := h.projectors.add name ptr; ({ h with projectors := r.1 }, r.2)                    -- 559-563
  | .analogIn => let r := h.analogIns.add name ptr; ({ h with analogIns := r.1 }, r.2)                       -- 570-574
  | .customHw => let r := h.customHws.add name ptr; ({ h with customHws := r.1 }, r.2)                       -- 581-585

/-- `getActuator` … `getCustomHW` (hardware_interface.h:424-497). -/
def HwMaps.get (h : HwMaps) (k : HwKind) (name : String) : Option Nat :=
  match k with
  | .actuator => h.actuators.get name              -- 424-427
  | .pressureSensor => h.pressureSensors.get name  -- 434-437
  | .accelerometer => h.accelerometers.get name    -- 444-447
  | .ftSensor => h.ftSensors.get name              -- 454-457
  | .digitalOut => h.digitalOuts.get name          -- 464-467
  | .projector => h.projectors.get name            -- 474-477
  | .analogIn => h.analogIns.get name              -- 484-487
  | .customHw => h.customHws.get name              -- 494-497

end Pr2
