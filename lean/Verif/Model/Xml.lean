import Verif.Model.Transmissions

/-!
# Model of the transmissions' `initXml` functions

TinyXML documents are abstract element trees.  Parsing of numbers (`atof`, `boost::lexical_cast<double>`, the wrist's `convertDouble`) is a
parameter.  Log messages have no effect (`printf`-ing a null `%s`, which the error paths do, is taken to print something).
-/

namespace Pr2

/-- A TinyXML element: tag, attributes, text (of the first child, `GetText`; `none`: NULL), child elements. (TinyXML, external; used e.g. at simple_transmission.cpp:51-130) -/
inductive Xml where
  | node (tag : String) (attrs : List (String × String)) (text : Option String) (kids : List Xml)

/-- The tag (TinyXML, external; compared by `FirstChildElement`, e.g. simple_transmission.cpp:54). -/
def Xml.tag : Xml → String | .node t _ _ _ => t
/-- `GetText()` (TinyXML, external; used e.g. at simple_transmission.cpp:87). -/
def Xml.text : Xml → Option String | .node _ _ t _ => t
/-- The child elements (TinyXML, external; e.g. simple_transmission.cpp:54). -/
def Xml.kids : Xml → List Xml | .node _ _ _ k => k
/-- `Attribute(name)`; `none`: NULL. (TinyXML, external; used e.g. at simple_transmission.cpp:51) -/
def Xml.attr : Xml → String → Option String | .node _ a _ _, n => (a.find? (fun p => p.1 == n)).map (·.2)
/-- `FirstChildElement(tag)`; `none`: NULL. (TinyXML, external; used e.g. at simple_transmission.cpp:54) -/
def Xml.first (x : Xml) (tag : String) : Option Xml := x.kids.find? (fun k => k.tag == tag)
/-- The loop `for (j = FirstChildElement(tag); j; j = j->NextSiblingElement(tag))`. (e.g. simple_transmission.cpp:92) -/
def Xml.all (x : Xml) (tag : String) : List Xml := x.kids.filter (fun k => k.tag == tag)

/-- Parsing of numbers. (`atof`, `boost::lexical_cast`, external; e.g. simple_transmission.cpp:87, 126) -/
class Parse (F : Type) where
  /-- C `atof`: total. -/
  atof : String → F
  /-- `boost::lexical_cast<double>`; `none`: throws. -/
  lexical : String → Option F
  /-- `convertDouble` (wrist_transmission.cpp:49-59); `none`: returns false. -/
  convert : String → Option F

/-- How an initialisation ends: undefined behaviour (null pointer), `return false`, or success. (e.g. simple_transmission.cpp:49-137) -/
inductive InitR (α : Type) where
  | crash
  | fail
  | ok (a : α)

/-- Initialisations work on the robot's actuators (they set `command_.enable_`). (hardware_interface.h:125-134; e.g. simple_transmission.cpp:49-137) -/
def Init (F α : Type) := List (Actuator F) → List (Actuator F) × InitR α

namespace Init
variable {F α β : Type}

/-- Going on (no counterpart in the code). -/
protected def pure (a : α) : Init F α := fun s => (s, .ok a)
/-- Sequencing: a `return false` or a crash ends the function (no counterpart in the code; the statements of e.g. simple_transmission.cpp:49-137). -/
protected def bind (m : Init F α) (f : α → Init F β) : Init F β := fun s =>
  match m s with
  | (s', .ok a) => f a s'
  | (s', .fail) => (s', .fail)
  | (s', .crash) => (s', .crash)

/-- Sequencing (no counterpart in the code). -/
instance : Monad (Init F) where
  pure := Init.pure
  bind := Init.bind

/-- Return false if NULL. (e.g. simple_transmission.cpp:55-60) -/
def need (o : Option α) : Init F α := fun s => match o with | some a => (s, .ok a) | none => (s, .fail)
/-- Dereference without check. (e.g. simple_transmission.cpp:89) -/
def deref (o : Option α) : Init F α := fun s => match o with | some a => (s, .ok a) | none => (s, .crash)
/-- `a = robot->getActuator(name)`, return false if NULL, `a->command_.enable_ = true` (e.g. simple_transmission.cpp:76-82; the lookup is by the
name under which the actuator was added, its own: hardware_interface.h:424, 504). -/
def enable (name : String) : Init F Unit := fun s =>
  match s.findIdx? (fun a => a.name == name) with
  | some i => (s.modify i (fun a => { a with enable := true }), .ok ())
  | none => (s, .fail)
end Init

/-- Any of the four transmissions. (transmission_plugins.xml:1-10) -/
inductive Body (F : Type) where
  | simple (t : SimpleT F)
  | wrist (t : WristT F)
  | gripper (t : GripperT F)
  | belt (t : BeltT F)

/-- `Transmission` (transmission.h:48-97). -/
structure Trans (F : Type) where
  name : String
  actNames : List String
  jointNames : List String
  body : Body F

section
variable {F : Type} [FCmp F] [Zero F] [Add F] [Sub F] [Mul F] [iDiv : Div F] [Neg F] [FLit F] [iTrig : FTrig F] [Parse F]
open Init FLit FTrig

/-- `name ? name : ""`. (e.g. simple_transmission.cpp:51-52) -/
def Xml.name (x : Xml) : String := (x.attr "name").getD ""

/-- One `simulated_actuated_joint` of a simple transmission (simple_transmission.cpp:92-134). -/
def SimpleT.simJoint (joint : String → Option (UJoint F)) (st : SimpleT F × List String) (j : Xml) : Init F (SimpleT F × List String) :=
  match j.attr "name" with
  | none => pure ({ st.1 with useSim := false }, st.2)
  | some n =>
    match joint n with
    | none => pure ({ st.1 with useSim := false }, st.2)
    | some _ => do
      let r ← need (j.attr "simulated_reduction")
      let v ← need (Parse.lexical r)
      pure ({ st.1 with useSim := true, simReduction := v }, st.2 ++ [n])

/-- Text of the mechanical reduction: child of the actuator, else of the element itself (simple_transmission.cpp:85-88). -/
def simpleReduction (x ael : Xml) : Init F String :=
  match ael.first "mechanicalReduction" with
  | some m => deref m.text
  | none => do let m ← deref (x.first "mechanicalReduction"); deref m.text

/-- `SimpleTransmission::initXml(elt, robot)` (simple_transmission.cpp:49-137). -/
def SimpleT.initXml (t : SimpleT F) (x : Xml) (joint : String → Option (UJoint F)) : Init F (Trans F) := do
  let jn ← need ((x.first "joint").bind (·.attr "name"))                     -- 54-60
  let _ ← need (joint jn)                                                    -- 62-72
  let ael ← need (x.first "actuator")                                        -- 74-75
  let an ← need (ael.attr "name")
  enable an                                                                  -- 76-82
  let red ← simpleReduction x ael                                            -- 85-88
  let st ← (x.all "simulated_actuated_joint").foldlM (SimpleT.simJoint joint)
    ({ t with reduction := Parse.atof red }, [jn])                           -- 91-135
  pure ⟨x.name, [an], st.2, .simple st.1⟩

/-- Optional offset of a wrist joint (wrist_transmission.cpp:136-152, 181-198). -/
def wristOffset (j : Xml) : Init F F :=
  match j.attr "offset" with
  | none => pure (lit 0)
  | some o => need (Parse.convert o)

/-- A joint of a wrist transmission: name, reduction, offset (wrist_transmission.cpp:110-152, 154-198). -/
def wristJoint (x : Xml) (tag : String) (joint : String → Option (UJoint F)) : Init F (String × F × F) := do
  let j ← deref (x.first tag)
  let jn ← need (j.attr "name")
  let _ ← need (joint jn)
  let red ← need (j.attr "mechanicalReduction")
  let off ← wristOffset j
  pure (jn, Parse.atof red, off)

/-- An actuator of a wrist transmission: name and reduction (wrist_transmission.cpp:74-91, 93-108). -/
def wristActuator (x : Xml) (tag : String) : Init F (String × F) := do
  let ael ← need (x.first tag)
  let an ← need (ael.attr "name")
  enable an
  let red ← need (ael.attr "mechanicalReduction")
  pure (an, Parse.atof red)

/-- `WristTransmission::initXml(elt, robot)` (wrist_transmission.cpp:68-202). -/
def WristT.initXml (t : WristT F) (x : Xml) (joint : String → Option (UJoint F)) : Init F (Trans F) := do
  let r ← wristActuator x "rightActuator"
  let l ← wristActuator x "leftActuator"
  let f ← wristJoint x "flexJoint" joint
  let ro ← wristJoint x "rollJoint" joint
  pure ⟨x.name, [r.1, l.1], [f.1, ro.1],
    .wrist { t with ar0 := r.2, ar1 := l.2, jr0 := f.2.1, jr1 := ro.2.1, off0 := f.2.2, off1 := ro.2.2 }⟩

/-- An optional coefficient of a gripper's gap joint (e.g. pr2_gripper_transmission.cpp:170-187): default if absent. -/
def gripperCoeff (j : Xml) (name : String) (dflt : F) : Init F F :=
  match j.attr name with
  | none => pure dflt
  | some s => need (Parse.lexical s)

/-- One `gap_joint` (pr2_gripper_transmission.cpp:142-342). -/
def GripperT.gapJoint (st : GripperT F × List String) (j : Xml) : Init F (GripperT F × List String) := do
  let n ← need (j.attr "name")
  let r ← need (j.attr "mechanical_reduction")
  let reduction ← need (Parse.lexical r)
  let screw ← gripperCoeff j "screw_reduction" (lit 2 / lit 1000)
  let gear ← gripperCoeff j "gear_ratio" (lit (2916 / 100))
  let theta0 ← gripperCoeff j "theta0" (lit (297571 / 100000) * pi / lit 180)
  let phi0 ← gripperCoeff j "phi0" (lit (2998717 / 100000) * pi / lit 180)
  let t0 ← gripperCoeff j "t0" (-(lit (19543 / 100000)) / lit 1000)
  let L0 ← gripperCoeff j "L0" (lit (3470821 / 100000) / lit 1000)
  let h ← gripperCoeff j "h" (lit (5200 / 1000) / lit 1000)
  let a ← gripperCoeff j "a" (lit (6756801 / 100000) / lit 1000)
  let b ← gripperCoeff j "b" (lit (4897193 / 100000) / lit 1000)
  let r ← gripperCoeff j "r" (lit (9150000 / 100000) / lit 1000)
  pure ({ st.1 with reduction, screw, gear, theta0, phi0, t0, L0, h, a, b, r }, st.2 ++ [n])

/-- One `passive_joint` (pr2_gripper_transmission.cpp:349-363). -/
def GripperT.passiveJoint (st : GripperT F × List String) (j : Xml) : Init F (GripperT F × List String) := do
  let n ← need (j.attr "name")
  pure ({ st.1 with passive := st.1.passive ++ [n] }, st.2 ++ [n])

/-- One `simulated_actuated_joint` of a gripper (pr2_gripper_transmission.cpp:366-412). -/
def GripperT.simJoint (st : GripperT F × List String) (j : Xml) : Init F (GripperT F × List String) := do
  let n ← need (j.attr "name")
  let r ← need (j.attr "simulated_reduction")
  let v ← need (Parse.lexical r)
  match j.attr "passive_actuated_joint" with
  | none => pure ({ st.1 with simReduction := v }, st.2 ++ [n])
  | some p => pure ({ st.1 with simReduction := v, hasPassive := true }, st.2 ++ [n, p])

/-- `PR2GripperTransmission::initXml(config)` (pr2_gripper_transmission.cpp:128-417): actuator name, transmission, joint names. -/
def GripperT.initXml1 (t : GripperT F) (x : Xml) : Init F (String × GripperT F × List String) := do
  let ael ← need (x.first "actuator")
  let an ← need (ael.attr "name")
  let st ← (x.all "gap_joint").foldlM GripperT.gapJoint (t, [])
  let st ← (x.all "passive_joint").foldlM GripperT.passiveJoint st
  let st ← (x.all "simulated_actuated_joint").foldlM GripperT.simJoint st
  pure (an, st.1, st.2)

/-- `PR2GripperTransmission::initXml(config, robot)` (pr2_gripper_transmission.cpp:93-125). -/
def GripperT.initXml (t : GripperT F) (x : Xml) (joint : String → Option (UJoint F)) : Init F (Trans F) := do
  let r ← t.initXml1 x
  enable r.1
  r.2.2.forM (fun n => do let _ ← need (joint n); pure ())
  pure ⟨x.name, [r.1], r.2.2, .gripper r.2.1⟩

/-- `PR2BeltCompensatorTransmission::initXml(elt, robot)` (pr2_belt_transmission.cpp:44-157). -/
def BeltT.initXml (t : BeltT F) (x : Xml) (joint : String → Option (UJoint F)) : Init F (Trans F) := do
  let jn ← need ((x.first "joint").bind (·.attr "name"))                     -- 49-55
  let _ ← need (joint jn)                                                    -- 57-67
  let ael ← need (x.first "actuator")                                        -- 69-77
  let an ← need (ael.attr "name")
  enable an
  let m ← deref (x.first "mechanicalReduction")                              -- 80
  let red ← deref m.text
  let c ← need (x.first "compensator")                                       -- 82-87
  let k ← need (c.attr "k_belt")
  let mass ← need (c.attr "mass_motor")
  let kd ← need (c.attr "kd_motor")
  let lm ← need (c.attr "lambda_motor")
  let lj ← need (c.attr "lambda_joint")
  let lc ← need (c.attr "lambda_combined")
  let k : F := Parse.atof k
  let compl := if FCmp.lt 0 k then lit 1 / k else lit 0                      -- 105
  pure ⟨x.name, [an], [jn], .belt { t with
    p := ⟨Parse.atof red, compl, sqrt (Parse.atof mass * compl), Parse.atof kd, Parse.atof lm, Parse.atof lj, Parse.atof lc⟩
    s := .init t.s.dt
    bk := .init }⟩

/-- The virtual `initXml(elt, robot)` of a newly constructed transmission object. (transmission.h:48-77, called at robot.cpp:111) -/
def Body.initXml (b : Body F) (x : Xml) (joint : String → Option (UJoint F)) : Init F (Trans F) :=
  match b with
  | .simple t => t.initXml x joint
  | .wrist t => t.initXml x joint
  | .gripper t => t.initXml x joint
  | .belt t => t.initXml x joint

/-- What the constructors guarantee (simple_transmission.h:51, wrist_transmission.cpp:61-65, pr2_gripper_transmission.h:58); everything else is uninitialised. -/
def Body.Constructed : Body F → Prop
  | .simple t => t.useSim = false
  | .wrist t => t.off0 = lit 0 ∧ t.off1 = lit 0
  | .gripper t => t.hasPassive = false ∧ t.passive = []
  | .belt _ => True

end

end Pr2
