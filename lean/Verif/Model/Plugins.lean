import Verif.Model.Robot

/-!
# Model of `pr2_mechanism_model/transmission_plugins.xml`

The transmission classes this package declares, and the plugin loader with exactly these.
-/

namespace Pr2

/-- The declared classes (transmission_plugins.xml:3-8), in the order of `getDeclaredClasses` (a `std::map`). -/
def pluginClasses : List String :=
  ["pr2_mechanism_model/GripperTransmission", "pr2_mechanism_model/PR2BeltCompensatorTransmission", "pr2_mechanism_model/PR2GripperTransmission",
   "pr2_mechanism_model/SimpleTransmission", "pr2_mechanism_model/WristTransmission"]

/-- `ClassLoader::getName` (pluginlib): what follows the last '/' or ':'. (external; used at controller_manager.cpp:278, robot.cpp:92) -/
def pluginName (c : String) : String := String.ofList (c.toList.reverse.takeWhile (fun ch => ch != '/' && ch != ':')).reverse

/-- Newly constructed objects of the four classes (their uninitialised members are arbitrary). (transmission_plugins.xml:1-10, robot.cpp:102) -/
structure NewTrans (F : Type) where
  simple : SimpleT F
  wrist : WristT F
  gripper : GripperT F
  belt : BeltT F

/-- `pluginlib::ClassLoader<Transmission>("pr2_mechanism_model", …)` (robot.cpp:65-67) with the classes of transmission_plugins.xml.  `GripperTransmission` is declared
(transmission_plugins.xml:5) but there is no such class: `createInstance` throws.  Simplification: no other package declares transmissions. -/
def pluginLoader {F : Type} (new : Nat → NewTrans F) : TransLoader F where
  available ty := pluginClasses.contains ty
  classes := pluginClasses
  getName := pluginName
  create k ty :=
    if ty = "pr2_mechanism_model/SimpleTransmission" then some (.simple (new k).simple)
    else if ty = "pr2_mechanism_model/WristTransmission" then some (.wrist (new k).wrist)
    else if ty = "pr2_mechanism_model/PR2GripperTransmission" then some (.gripper (new k).gripper)
    else if ty = "pr2_mechanism_model/PR2BeltCompensatorTransmission" then some (.belt (new k).belt)
    else none

end Pr2
