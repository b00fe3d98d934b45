import Verif.Model.Xml

/-!
# Model of the transmissions' `initXml(elt)` — initialisation without a robot

The second overload of `initXml`, used by tools that have a transmission description but no robot (transmission.h:96).
-/

namespace Pr2

section
variable {F : Type} [FCmp F] [Zero F] [Add F] [Sub F] [Mul F] [iDiv : Div F] [Neg F] [FLit F] [iTrig : FTrig F] [Parse F]
open Init FLit FTrig

/-- One `simulated_actuated_joint` without a robot (simple_transmission.cpp:165-195). -/
def SimpleT.simJointOff (st : SimpleT F × List String) (j : Xml) : Init F (SimpleT F × List String) :=
  match j.attr "name" with
  | none => pure ({ st.1 with useSim := false }, st.2)
  | some n => do
    let r ← need (j.attr "simulated_reduction")
    let v ← need (Parse.lexical r)
    pure ({ st.1 with useSim := true, simReduction := v }, st.2 ++ [n])

/-- `SimpleTransmission::initXml(elt)` (simple_transmission.cpp:139-197). -/
def SimpleT.initXmlOff (t : SimpleT F) (x : Xml) : Init F (Trans F) := do
  let jn ← need ((x.first "joint").bind (·.attr "name"))                     -- 144-151
  let an ← need ((x.first "actuator").bind (·.attr "name"))                  -- 153-160
  let m ← deref (x.first "mechanicalReduction")                              -- 162
  let red ← deref m.text
  let st ← (x.all "simulated_actuated_joint").foldlM SimpleT.simJointOff ({ t with reduction := Parse.atof red }, [jn])
  pure ⟨x.name, [an], st.2, .simple st.1⟩

/-- An actuator of a wrist transmission (wrist_transmission.cpp:210-224, 226-240). -/
def wristActuatorOff (x : Xml) (tag : String) : Init F (String × F) := do
  let ael ← need (x.first tag)
  let an ← need (ael.attr "name")
  let red ← need (ael.attr "mechanicalReduction")
  pure (an, Parse.atof red)

/-- Name and reduction of a wrist joint; the last argument is the text the C++ holds in `joint_offset` when it converts the offset
(wrist_transmission.cpp:243-276, 278-308). -/
def wristJointOff (j : Xml) (offset : Option String) : Init F (String × F × F) := do
  let jn ← need (j.attr "name")
  let red ← need (j.attr "mechanicalReduction")
  let off ← (match offset with
    | none => pure (lit 0)
    | some o => need (Parse.convert o))
  pure (jn, Parse.atof red, off)

/-- `WristTransmission::initXml(elt)` (wrist_transmission.cpp:204-311).  `joint_offset` is not reassigned between the two joints, so the roll joint
gets the flex joint's offset (line 292). -/
def WristT.initXmlOff (t : WristT F) (x : Xml) : Init F (Trans F) := do
  let r ← wristActuatorOff x "rightActuator"
  let l ← wristActuatorOff x "leftActuator"
  let jf ← deref (x.first "flexJoint")
  let f ← wristJointOff jf (jf.attr "offset")
  let jr ← deref (x.first "rollJoint")
  let ro ← wristJointOff jr (jf.attr "offset")
  pure ⟨x.name, [r.1, l.1], [f.1, ro.1],
    .wrist { t with ar0 := r.2, ar1 := l.2, jr0 := f.2.1, jr1 := ro.2.1, off0 := f.2.2, off1 := ro.2.2 }⟩

/-- `PR2GripperTransmission::initXml(config)` as a transmission (pr2_gripper_transmission.cpp:128-417). -/
def GripperT.initXmlOff (t : GripperT F) (x : Xml) : Init F (Trans F) := do
  let r ← t.initXml1 x
  pure ⟨x.name, [r.1], r.2.2, .gripper r.2.1⟩

/-- `PR2BeltCompensatorTransmission::initXml(elt)` (pr2_belt_transmission.cpp:159-254).  The actuator's name is not checked: a missing one is a
`std::string` made from NULL. -/
def BeltT.initXmlOff (t : BeltT F) (x : Xml) : Init F (Trans F) := do
  let jn ← need ((x.first "joint").bind (·.attr "name"))                     -- 164-172
  let an ← deref ((x.first "actuator").bind (·.attr "name"))                 -- 174-176
  let m ← deref (x.first "mechanicalReduction")                              -- 178
  let red ← deref m.text
  let c ← need (x.first "compensator")                                       -- 180-185
  let k ← need (c.attr "k_belt")
  let mass ← need (c.attr "mass_motor")
  let kd ← need (c.attr "kd_motor")
  let lm ← need (c.attr "lambda_motor")
  let lj ← need (c.attr "lambda_joint")
  let lc ← need (c.attr "lambda_combined")
  let k : F := Parse.atof k
  let compl := if FCmp.lt 0 k then lit 1 / k else lit 0
  pure ⟨x.name, [an], [jn], .belt { t with
    p := ⟨Parse.atof red, compl, sqrt (Parse.atof mass * compl), Parse.atof kd, Parse.atof lm, Parse.atof lj, Parse.atof lc⟩
    s := .init t.s.dt
    bk := .init }⟩

/-- The virtual `initXml(elt)`. (transmission.h:48-77) -/
def Body.initXmlOff (b : Body F) (x : Xml) : Init F (Trans F) :=
  match b with
  | .simple t => t.initXmlOff x
  | .wrist t => t.initXmlOff x
  | .gripper t => t.initXmlOff x
  | .belt t => t.initXmlOff x

end
end Pr2
