import Verif.Props.Scheduler
import Verif.Props.Controller
import Verif.Props.Manager
import Verif.Props.ManagerTraces
import Verif.Props.Live
import Verif.Props.Clients
import Verif.Props.Joint
import Verif.Props.SimpleWrist
import Verif.Props.Calib
import Verif.Props.Belt
import Verif.Props.Gripper
import Verif.Props.Robot
import Verif.Props.RobotState
import Verif.Props.Chain
import Verif.Props.Publish
import Verif.Props.Cycle
import Verif.Props.Hardware
import Verif.Props.Diagnostics
import Verif.Props.XmlOffline
import Verif.Props.Restore
import Verif.Props.ClientsTotal
import Verif.Props.Lifecycle
import Verif.Props.Threads
import Verif.Props.Tso
import Verif.Props.TsoLive
import Verif.Props.CtrlStats
import Verif.Props.Scripts
import Verif.Props.Plant
import Verif.Props.PlantStats
import Verif.Props.PlantPublish
import Verif.Props.BeltOde
import Verif.Props.Enable
import Verif.Props.SimRobot
import Verif.Props.Rounding
import Verif.Props.ClosedLoop
import Verif.Props.Describes
import Verif.Props.Readings
import Verif.Props.SimCalib
import Verif.Props.Recovery
import Verif.Props.Stack
import Verif.Props.Shipped
import Verif.Props.RepoTests
import Verif.Props.WaitFree
import Verif.Model.Kinematics
import Verif.Lemmas.Kinematics
import Verif.Props.Kinematics
import Verif.Props.GripperUnits
import Verif.Props.Monitoring
import Verif.Spec.Round
import Verif.Props.SoftFloat
import Verif.Model.KdlTree
import Verif.Props.TreeInit
import Verif.Lemmas.Providers
import Verif.Props.Providers
import Verif.Props.Shutdown
import Verif.Props.CalibEdge
import Verif.Model.TimeRange
import Verif.Props.TimeRange
import Verif.Props.CommandLine
import Verif.Props.SpawnerOthers
import Verif.Props.SimStamps
import Verif.Props.FloatStats
import Verif.Props.Glitch
import Verif.Props.BeltEffort
import Verif.Props.MotorBounds
import Verif.Props.Pr2Motors
import Verif.Model.TsoSc
import Verif.Props.TsoSc
import Verif.Props.LoadedLoop
import Verif.Props.LoadedRecovery
import Verif.Props.FloatLoop
import Verif.Props.FloatGear
import Verif.Props.LoadedWrist
import Verif.Props.WristRecovery
import Verif.Props.FloatRecovery
import Verif.Props.FloatGripper
import Verif.Props.Fresh
import Verif.Props.Containment
import Verif.Props.Order
import Verif.Props.OrderXml
import Verif.Props.PublishControl
import Verif.Props.Commute
import Verif.Props.Isolation
