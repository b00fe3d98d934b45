import Verif.Model.Calib

/-!
# Model of the transmissions' `propagate*` functions

`simple_transmission.cpp`, `wrist_transmission.cpp`, `pr2_gripper_transmission.cpp`, `pr2_belt_transmission.cpp`.

The vectors of pointers are modelled as lists of the values pointed to; the caller writes the results back, in order.  The joint
pointers a robot state hands to a transmission are distinct; the two actuator pointers of a wrist transmission may be equal, for which
writing back in order gives the same result as the code except for the simulated calibration sensors.
`none` means that an assertion fails and the process aborts (assertions are compiled in).
-/

namespace Pr2

/-- The simulated actuator clock of a transmission: `simulated_actuator_timestamp_initialized_`, `simulated_actuator_start_time_`.
No constructor initialises them, so the initial value is arbitrary. (simple_transmission.h:73-74, wrist_transmission.h:97-98, pr2_gripper_transmission.h:116-117, pr2_belt_transmission.h:109-110) -/
structure SimClock where
  inited : Bool
  start : Int

/-- What the `propagatePositionBackwards` functions observe of ROS: `ros::isStarted()` and the results of `ros::Time::now()`. (simple_transmission.cpp:231-245, wrist_transmission.cpp:348-363, pr2_gripper_transmission.cpp:655-670, pr2_belt_transmission.cpp:612-626) -/
structure SimEnv where
  started : Bool
  now : Int
  now' : Int     -- the second reading (wrist)

/-- Update of the clock (simple_transmission.cpp:230-246, wrist 335-353, gripper 649-667, belt 609-625). -/
def SimClock.tick (c : SimClock) (e : SimEnv) : SimClock :=
  if c.inited then c else if e.started then ⟨true, e.now⟩ else c

/-- The time stamp set (same lines): zero until initialised, then time since start. (simple_transmission.cpp:231-245) -/
def SimClock.stamp (c : SimClock) (now : Int) : Int := if c.inited then now - c.start else 0

section
variable {F : Type} [FCmp F] [Zero F] [Add F] [Sub F] [Mul F] [iDiv : Div F] [Neg F] [FLit F] [iTrig : FTrig F]
open FLit FTrig

/-- Sets both time stamps of an actuator (the lines above, and simple_transmission.cpp:248, wrist 355-356, gripper 669, belt 627). -/
def Actuator.stamped (a : Actuator F) (t : Int) : Actuator F := { a with sampleTs := t, ts := sec t }

/-! ## Simple transmission -/

/-- `SimpleTransmission` (simple_transmission.h). (simple_transmission.h:48-76) -/
structure SimpleT (F : Type) where
  reduction : F         -- `mechanical_reduction_`
  simReduction : F      -- `simulated_reduction_`
  useSim : Bool         -- `use_simulated_actuated_joint_`
  clock : SimClock
  cal : CalSim F

/-- The passive joint of a simulated screw (simple_transmission.cpp:212-216, gripper 588-592, 597-601). -/
def JState.passive (j : JState F) : JState F := { j with position := 0, velocity := 0, measured := 0, reference := 0, calibrated := true }

/-- State of the joint from the actuator (simple_transmission.cpp:205-207). -/
def SimpleT.forward (t : SimpleT F) (a : Actuator F) (j : JState F) : JState F :=
  { j with
    position := a.position / t.reduction + j.reference
    velocity := a.velocity / t.reduction
    measured := a.measured * t.reduction }

/-- `SimpleTransmission::propagatePosition` (simple_transmission.cpp:199-218). -/
def SimpleT.propagatePosition (t : SimpleT F) (as : List (Actuator F)) (js : List (JState F)) : Option (List (JState F)) :=
  match as, js, t.useSim with
  | [a], [j], false => some [t.forward a j]
  | [a], [j, k], true => some [t.forward a j, k.passive]
  | _, _, _ => none

/-- State of the actuator from the joint (simple_transmission.cpp:226-251). -/
def SimpleT.backward (t : SimpleT F) (e : SimEnv) (j : JState F) (a : Actuator F) : SimpleT F × Actuator F :=
  let a := { a with
    position := (j.position - j.reference) * t.reduction
    velocity := j.velocity * t.reduction
    measured := j.measured / t.reduction }
  let a := a.stamped (t.clock.stamp e.now)
  let r := t.cal.simulate j a
  ({ t with clock := t.clock.tick e, cal := r.1 }, r.2)

/-- `SimpleTransmission::propagatePositionBackwards` (simple_transmission.cpp:220-253). -/
def SimpleT.propagatePositionBackwards (t : SimpleT F) (e : SimEnv) (js : List (JState F)) (as : List (Actuator F)) :
    Option (SimpleT F × List (Actuator F)) :=
  match as, js, t.useSim with
  | [a], [j], false => let r := t.backward e j a; some (r.1, [r.2])
  | [a], [j, _], true => let r := t.backward e j a; some (r.1, [r.2])
  | _, _, _ => none

/-- `SimpleTransmission::propagateEffort` (simple_transmission.cpp:255-263). -/
def SimpleT.propagateEffort (t : SimpleT F) (js : List (JState F)) (as : List (Actuator F)) : Option (List (Actuator F)) :=
  match as, js, t.useSim with
  | [a], [j], false => some [{ a with enable := true, effort := j.commanded / t.reduction }]
  | [a], [j, _], true => some [{ a with enable := true, effort := j.commanded / t.reduction }]
  | _, _, _ => none

/-- `SimpleTransmission::propagateEffortBackwards` (simple_transmission.cpp:265-279). -/
def SimpleT.propagateEffortBackwards (t : SimpleT F) (as : List (Actuator F)) (js : List (JState F)) : Option (List (JState F)) :=
  match as, js, t.useSim with
  | [a], [j], false => some [{ j with commanded := a.effort * t.reduction }]
  | [a], [j, k], true => some [j, { k with commanded := a.effort * t.reduction / t.simReduction }]
  | _, _, _ => none

/-! ## Wrist transmission -/

/-- `WristTransmission` (wrist_transmission.h:68-100).  Index 0 is the right motor / flex joint, 1 the left motor / roll joint. -/
structure WristT (F : Type) where
  ar0 : F       -- `actuator_reduction_`
  ar1 : F
  jr0 : F       -- `joint_reduction_`
  jr1 : F
  off0 : F      -- `joint_offset_`
  off1 : F
  clock : SimClock
  cal0 : CalSim F
  cal1 : CalSim F

/-- `WristTransmission::propagatePosition` (wrist_transmission.cpp:314-329). -/
def WristT.propagatePosition (t : WristT F) (as : List (Actuator F)) (js : List (JState F)) : Option (List (JState F)) :=
  match as, js with
  | [a0, a1], [j0, j1] => some
      [{ j0 with
          position := ((a0.position / t.ar0 - a1.position / t.ar1) / (lit 2 * t.jr0)) + j0.reference + t.off0
          velocity := (a0.velocity / t.ar0 - a1.velocity / t.ar1) / (lit 2 * t.jr0)
          measured := t.jr0 * (a0.measured * t.ar0 - a1.measured * t.ar1) },
       { j1 with
          position := ((-a0.position / t.ar0 - a1.position / t.ar1) / (lit 2 * t.jr1)) + j1.reference + t.off1
          velocity := (-a0.velocity / t.ar0 - a1.velocity / t.ar1) / (lit 2 * t.jr1)
          measured := t.jr1 * (-a0.measured * t.ar0 - a1.measured * t.ar1) }]
  | _, _ => none

/-- `WristTransmission::propagatePositionBackwards` (wrist_transmission.cpp:331-374).  The calibration sensor of the flex joint is that
of the left motor and vice versa (372-373). -/
def WristT.propagatePositionBackwards (t : WristT F) (e : SimEnv) (js : List (JState F)) (as : List (Actuator F)) :
    Option (WristT F × List (Actuator F)) :=
  match as, js with
  | [a0, a1], [j0, j1] =>
    let a0 := { a0 with
      position := ((j0.position - j0.reference - t.off0) * t.jr0 - (j1.position - j1.reference - t.off1) * t.jr1) * t.ar0
      velocity := (j0.velocity * t.jr0 - j1.velocity * t.jr1) * t.ar0
      measured := (j0.measured / t.jr0 - j1.measured / t.jr1) / (lit 2 * t.ar0) }
    let a1 := { a1 with
      position := (-(j0.position - j0.reference - t.off0) * t.jr0 - (j1.position - j1.reference - t.off1) * t.jr1) * t.ar1
      velocity := (-j0.velocity * t.jr0 - j1.velocity * t.jr1) * t.ar1
      measured := (-j0.measured / t.jr0 - j1.measured / t.jr1) / (lit 2 * t.ar1) }
    let a0 := a0.stamped (t.clock.stamp e.now)
    let a1 := a1.stamped (t.clock.stamp e.now')
    let r1 := t.cal0.simulate j0 a1
    let r0 := t.cal1.simulate j1 a0
    some ({ t with clock := t.clock.tick e, cal0 := r1.1, cal1 := r0.1 }, [r0.2, r1.2])
  | _, _ => none

/-- `WristTransmission::propagateEffort` (wrist_transmission.cpp:376-387). -/
def WristT.propagateEffort (t : WristT F) (js : List (JState F)) (as : List (Actuator F)) : Option (List (Actuator F)) :=
  match as, js with
  | [a0, a1], [j0, j1] => some
      [{ a0 with enable := true, effort := (j0.commanded / t.jr0 - j1.commanded / t.jr1) / (lit 2 * t.ar0) },
       { a1 with enable := true, effort := (-j0.commanded / t.jr0 - j1.commanded / t.jr1) / (lit 2 * t.ar1) }]
  | _, _ => none

/-- `WristTransmission::propagateEffortBackwards` (wrist_transmission.cpp:389-398). -/
def WristT.propagateEffortBackwards (t : WristT F) (as : List (Actuator F)) (js : List (JState F)) : Option (List (JState F)) :=
  match as, js with
  | [a0, a1], [j0, j1] => some
      [{ j0 with commanded := t.jr0 * (a0.effort * t.ar0 - a1.effort * t.ar1) },
       { j1 with commanded := t.jr1 * (-a0.effort * t.ar0 - a1.effort * t.ar1) }]
  | _, _ => none

/-! ## Gripper transmission -/

/-- `PR2GripperTransmission` (pr2_gripper_transmission.h:55-120). -/
structure GripperT (F : Type) where
  reduction : F       -- `gap_mechanical_reduction_`
  simReduction : F
  hasPassive : Bool   -- `has_simulated_passive_actuated_joint_`
  passive : List String   -- `passive_joints_`
  screw : F           -- `screw_reduction_`
  gear : F            -- `gear_ratio_`
  theta0 : F
  phi0 : F
  t0 : F
  L0 : F
  h : F
  a : F
  b : F
  r : F
  clock : SimClock
  cal : CalSim F

/-- `RAD2MR` (pr2_gripper_transmission.h:113). -/
def rad2mr : F := lit 1 / (lit 2 * pi)
/-- `TOL` (pr2_gripper_transmission.h:114). -/
def tol : F := lit (1 / 100000)

/-- `x < -1 ? -1 : x > 1 ? 1 : x` (pr2_gripper_transmission.cpp:430, 447). -/
def clampU (u : F) : F := if FCmp.lt u (-lit 1) then -lit 1 else if FCmp.lt (lit 1) u then lit 1 else u

/-- Cosine of the linkage angle (pr2_gripper_transmission.cpp:428-429, 445-446).  `pow(x, 2)` is modelled as `x * x`. -/
def GripperT.linkU (t : GripperT F) (mr : F) : F :=
  (t.a * t.a + t.b * t.b - t.h * t.h - (t.L0 + mr * t.screw / t.gear) * (t.L0 + mr * t.screw / t.gear)) / (lit 2 * t.a * t.b)

/-- Outputs of `computeGapStates`. (pr2_gripper_transmission.cpp:421-472) -/
structure GapOut (F : Type) where
  theta : F
  dtheta_dMR : F
  dt_dtheta : F
  dt_dMR : F
  gapSize : F
  gapVelocity : F
  gapEffort : F

/-- `computeGapStates` (pr2_gripper_transmission.cpp:421-472). -/
def GripperT.computeGapStates (t : GripperT F) (mr mrDot mt : F) : GapOut F :=
  let theta := t.theta0 - t.phi0 + acos (clampU (t.linkU mr))                           -- 428-431
  let gapSize := t.t0 + t.r * (sin theta - sin t.theta0)                                -- 437
  let mr' := if cge mr 0 then mr else 0                                                 -- 443
  let u := clampU (t.linkU mr')                                                         -- 445-447
  let tmpTheta := t.theta0 - t.phi0 + acos u                                            -- 448
  let arg := lit 1 - u * u                                                              -- 451
  let arg := if FCmp.lt tol arg then arg else tol                                       -- 452
  let du := -(t.L0 * t.screw) / (t.gear * t.a * t.b) - mr' / (t.a * t.b) * ((t.screw / t.gear) * (t.screw / t.gear))   -- 454-455
  let dtheta_dMR := -lit 1 / sqrt arg * du                                              -- 457
  let dt_dtheta := t.r * cos tmpTheta                                                   -- 459
  let dt_dMR := dt_dtheta * dtheta_dMR                                                  -- 460
  { theta, dtheta_dMR, dt_dtheta, dt_dMR, gapSize
    gapVelocity := mrDot * dt_dMR                                                       -- 461
    gapEffort := mt / dt_dMR / rad2mr }                                                 -- 470

/-- Outputs of `inverseGapStates`. (pr2_gripper_transmission.cpp:478-531) -/
structure InvOut (F : Type) where
  mr : F
  dMR_dtheta : F
  dtheta_dt : F
  dMR_dt : F

/-- `inverseGapStates1` (pr2_gripper_transmission.cpp:494-531). -/
def GripperT.inverseGapStates1 (t : GripperT F) (theta : F) : InvOut F :=
  let arg := -lit 2 * t.a * t.b * cos (theta - t.theta0 + t.phi0) - t.h * t.h + t.a * t.a + t.b * t.b            -- 503-504
  let pos := FCmp.lt 0 arg                                                                                        -- 505
  let mr := if pos then t.gear / t.screw * (sqrt arg - t.L0) else t.gear / t.screw * (0 - t.L0)                   -- 507, 513
  let dMR_dtheta := if pos then t.gear / (lit 2 * t.screw) / sqrt arg * lit 2 * t.a * t.b * sin (theta + t.phi0 - t.theta0)
    else 0                                                                                                        -- 508-509, 514
  let gapSize := t.t0 + t.r * (sin theta - sin t.theta0)                                                          -- 518
  let u := (gapSize - t.t0) / t.r + sin t.theta0                                                                  -- 526
  let arg2 := lit 1 - u * u                                                                                       -- 527
  let arg2 := if FCmp.lt tol arg2 then arg2 else tol                                                              -- 528
  let dtheta_dt := lit 1 / sqrt arg2 / t.r                                                                        -- 529
  { mr, dMR_dtheta, dtheta_dt, dMR_dt := fabs dMR_dtheta * dtheta_dt }                                            -- 524, 530

/-- `x > 1 ? 1 : x < -1 ? -1 : x` (pr2_gripper_transmission.cpp:483). -/
def clampS (s : F) : F := if FCmp.lt (lit 1) s then lit 1 else if FCmp.lt s (-lit 1) then -lit 1 else s

/-- `inverseGapStates` (pr2_gripper_transmission.cpp:478-488). -/
def GripperT.inverseGapStates (t : GripperT F) (gapSize : F) : InvOut F :=
  t.inverseGapStates1 (asin (clampS ((gapSize - t.t0) / t.r + sin t.theta0)))

/-- `PR2GripperTransmission::propagatePosition` (pr2_gripper_transmission.cpp:537-613). -/
def GripperT.propagatePosition (t : GripperT F) (as : List (Actuator F)) (js : List (JState F)) : Option (List (JState F)) :=
  match as, js with
  | [a], j :: rest =>
    if rest.length = t.passive.length + (if t.hasPassive then 2 else 1) then
      let mr := a.position / t.reduction * rad2mr                                       -- 551
      let mrDot := a.velocity / t.reduction * rad2mr                                    -- 554
      let mt := a.measured / t.reduction                                                -- 569
      let g := t.computeGapStates mr mrDot mt
      some ({ j with position := g.gapSize * lit 2, velocity := g.gapVelocity * lit 2, measured := g.gapEffort / lit 2 } ::
        ((rest.take t.passive.length).map (fun k =>
          { k with position := g.theta - t.theta0, velocity := g.dtheta_dMR * mrDot,
                   measured := mt / g.dtheta_dMR / rad2mr, reference := mt / g.dtheta_dMR / rad2mr })) ++            -- 588-594
        (rest.drop t.passive.length).map JState.passive)                                -- 596-611
    else none
  | _, _ => none

/-- `PR2GripperTransmission::propagatePositionBackwards` (pr2_gripper_transmission.cpp:616-677).  The assertion at 622 wants exactly
one joint if there is no passive actuated joint. -/
def GripperT.propagatePositionBackwards (t : GripperT F) (e : SimEnv) (js : List (JState F)) (as : List (Actuator F)) :
    Option (GripperT F × List (Actuator F)) :=
  match as, js with
  | [a], j :: rest =>
    if rest.length = (if t.hasPassive then t.passive.length + 2 else 0) then
      let i := t.inverseGapStates (j.position / lit 2)                                  -- 632-634
      let jointRate := j.velocity / lit 2 * i.dtheta_dt                                 -- 635-636
      let a := { a with
        position := i.mr * t.reduction / rad2mr                                         -- 643
        velocity := jointRate * i.dMR_dtheta * t.reduction / rad2mr                     -- 647
        measured := lit 2 * j.commanded / i.dMR_dt * rad2mr * t.reduction }             -- 638, 652
      let a := a.stamped (t.clock.stamp e.now)
      let r := t.cal.simulate j a
      some ({ t with clock := t.clock.tick e, cal := r.1 }, [r.2])
    else none
  | _, _ => none

/-- `PR2GripperTransmission::propagateEffort` (pr2_gripper_transmission.cpp:679-708). -/
def GripperT.propagateEffort (t : GripperT F) (js : List (JState F)) (as : List (Actuator F)) : Option (List (Actuator F)) :=
  match as, js with
  | [a], j :: rest =>
    if rest.length = t.passive.length + (if t.hasPassive then 2 else 1) then
      let i := t.inverseGapStates (j.position / lit 2)
      some [{ a with enable := true, effort := lit 2 * j.commanded / i.dMR_dt * rad2mr * t.reduction }]
    else none
  | _, _ => none

/-- `PR2GripperTransmission::propagateEffortBackwards` (pr2_gripper_transmission.cpp:710-744). -/
def GripperT.propagateEffortBackwards (t : GripperT F) (as : List (Actuator F)) (js : List (JState F)) : Option (List (JState F)) :=
  match as, js with
  | [a], j :: rest =>
    if rest.length = t.passive.length + 2 ∧ FCmp.lt 0 t.simReduction = true then
      let mr := a.position / t.reduction * rad2mr
      let mrDot := a.velocity / t.reduction * rad2mr
      let mt := a.effort / t.reduction
      let g := t.computeGapStates mr mrDot mt
      some (j :: rest.modify t.passive.length (fun k => { k with commanded := g.gapEffort / t.simReduction }))
    else none
  | _, _ => none

/-! ## Belt transmission -/

/-- `PR2BeltCompensatorTransmission` (pr2_belt_transmission.h): parameters. (pr2_belt_transmission.h:70-76) -/
structure BeltP (F : Type) where
  reduction : F
  compl : F       -- `trans_compl_`
  tau : F         -- `trans_tau_`
  kd : F          -- `Kd_motor_`
  lamMotor : F
  lamJoint : F
  lamCombo : F

/-- Filter state, forward part. (pr2_belt_transmission.h:66-93) -/
structure BeltS (F : Type) where
  lastTs : Int    -- `last_timestamp_`
  dt : F
  motorPos : F
  motorVel : F
  jnt1Pos : F
  jnt1Vel : F
  jnt1Acc : F
  deflPos : F
  deflVel : F
  deflAcc : F
  jointPos : F
  jointVel : F
  deltaMotorVel : F
  damping : F     -- `last_motor_damping_force_`

/-- Filter state, backward (simulation) part. (pr2_belt_transmission.h:97-107) -/
structure BeltB (F : Type) where
  lastTs : Int
  halfdt : F
  force : F
  motorPos : F
  motorVel : F
  motorAcc : F
  jointPos : F
  jointVel : F

/-- `PR2BeltCompensatorTransmission` (pr2_belt_transmission.h:47-113). -/
structure BeltT (F : Type) where
  p : BeltP F
  s : BeltS F
  bk : BeltB F
  clock : SimClock
  cal : CalSim F

/-- Initial filter state (pr2_belt_transmission.cpp:137-156).  `dt` is not initialised. -/
def BeltS.init (dt : F) : BeltS F := ⟨0, dt, 0, 0, 0, 0, 0, 0, 0, 0, 0, 0, 0, 0⟩
/-- Initial filter state of the backward part (pr2_belt_transmission.cpp:137-156). -/
def BeltB.init : BeltB F := ⟨0, 0, 0, 0, 0, 0, 0, 0⟩

/-- `(dt*lambda < 2.0 ? lambda : 2.0/dt)` (pr2_belt_transmission.cpp:291, 353, 407). -/
def limLam (dt lam : F) : F := if FCmp.lt (dt * lam) (lit 2) then lam else lit 2 / dt

/-- Method 1: filtered motor position (pr2_belt_transmission.cpp:290-300): `(pos, vel, acc)`. -/
def beltJnt1 (dt lambda motorPos pos vel acc : F) : F × F × F :=
  let lam := limLam dt lambda
  let v := vel + lit (1/2) * dt * acc
  let x := pos + lit (1/2) * dt * (v + vel)
  let acc' := (lam * lam * (motorPos - x) - lit 2 * lam * v) / (lit 1 + lit (1/2) * dt * lit 2 * lam + lit (1/4) * dt * dt * lam * lam)
  let v' := vel + lit (1/2) * dt * (acc' + acc)
  let x' := pos + lit (1/2) * dt * (v' + vel)
  (x', v', acc')

/-- Method 2: transmission deflection (pr2_belt_transmission.cpp:315-335): `(pos, vel, acc)`. -/
def beltDefl (dt tau stretch pos vel acc : F) : F × F × F :=
  if FCmp.eq tau 0 then (stretch, 0, 0)
  else
    let tau' := if FCmp.lt dt (lit 2 * tau) then tau else dt / lit 2
    let v := vel + lit (1/2) * dt * acc
    let x := pos + lit (1/2) * dt * (v + vel)
    let acc' := (stretch - x - lit 2 * tau' * v) / (tau' * tau' + lit 2 * tau' * lit (1/2) * dt + lit (1/4) * dt * dt)
    let v' := vel + lit (1/2) * dt * (acc' + acc)
    let x' := pos + lit (1/2) * dt * (v' + vel)
    (x', v', acc')

/-- Combination (pr2_belt_transmission.cpp:345-359): `(pos, vel)`. -/
def beltCombo (dt lambda jnt1Pos jnt1Vel jnt2Pos pos vel : F) : F × F :=
  if FCmp.eq lambda 0 then (jnt1Pos, jnt1Vel)
  else
    let lam := limLam dt lambda
    let x := pos + lit (1/2) * dt * vel
    let v := (jnt1Vel + lam * (jnt2Pos - x)) / (lit 1 + lit (1/2) * dt * lam)
    (pos + lit (1/2) * dt * (v + vel), v)

/-- The estimator (pr2_belt_transmission.cpp:262-273, 290-359, 369-385): new filter state from a sample time, motor position and effort. -/
def BeltS.estimate (p : BeltP F) (s : BeltS F) (ts : Int) (pos meas : F) : BeltS F :=
  let dt := sec (ts - s.lastTs)
  let motorPos := pos / p.reduction
  let motorVel := if FCmp.lt 0 dt then (motorPos - s.motorPos) / dt else 0
  let force := meas * p.reduction
  let j1 := beltJnt1 dt p.lamJoint motorPos s.jnt1Pos s.jnt1Vel s.jnt1Acc
  let d := beltDefl dt p.tau (p.compl * force) s.deflPos s.deflVel s.deflAcc
  let c := beltCombo dt p.lamCombo j1.1 j1.2.1 (motorPos - d.1) s.jointPos s.jointVel
  { lastTs := ts, dt := dt, motorPos := motorPos, motorVel := motorVel
    jnt1Pos := j1.1, jnt1Vel := j1.2.1, jnt1Acc := j1.2.2
    deflPos := d.1, deflVel := d.2.1, deflAcc := d.2.2
    jointPos := c.1, jointVel := c.2
    deltaMotorVel := motorVel - s.motorVel
    damping := s.damping }

/-- `PR2BeltCompensatorTransmission::propagatePosition` (pr2_belt_transmission.cpp:257-386). -/
def BeltT.propagatePosition (t : BeltT F) (as : List (Actuator F)) (js : List (JState F)) : Option (BeltT F × List (JState F)) :=
  match as, js with
  | [a], [j] =>
    let s := t.s.estimate t.p a.sampleTs a.position a.measured
    some ({ t with s := s }, [{ j with position := s.jointPos + j.reference, velocity := s.jointVel, measured := a.measured * t.p.reduction }])
  | _, _ => none

/-- The damping force (pr2_belt_transmission.cpp:400-412). -/
def BeltS.dampingForce (p : BeltP F) (s : BeltS F) : F :=
  if FCmp.eq p.lamMotor 0 then -p.kd * s.motorVel
  else
    let lam := limLam s.dt p.lamMotor
    ((lit 1 - lit (1/2) * s.dt * lam) * s.damping - p.kd * s.deltaMotorVel) / (lit 1 + lit (1/2) * s.dt * lam)

/-- `PR2BeltCompensatorTransmission::propagateEffort` (pr2_belt_transmission.cpp:388-421).  It does not set `enable_`. -/
def BeltT.propagateEffort (t : BeltT F) (js : List (JState F)) (as : List (Actuator F)) : Option (BeltT F × List (Actuator F)) :=
  match as, js with
  | [a], [j] =>
    let f := t.s.dampingForce t.p
    some ({ t with s := { t.s with damping := f } }, [{ a with effort := (j.commanded + f) / t.p.reduction }])
  | _, _ => none

/-- Motor simulation step common to both backward functions (pr2_belt_transmission.cpp:494-514, 577-588): `(pos, vel, acc)`. -/
def beltMotor (p : BeltP F) (b : BeltB F) (halfdt tau force jointPos jointVel : F) : F × F × F :=
  let v := b.motorVel + halfdt * (b.motorAcc + 0)
  let x := b.motorPos + halfdt * (b.motorVel + v)
  let spring := (lit 2 * tau * (v - jointVel) + (x - jointPos)) / p.compl
  let acc := (force - spring) * p.compl / (tau * tau + lit 2 * tau * halfdt + halfdt * halfdt)
  let v' := b.motorVel + halfdt * (b.motorAcc + acc)
  (b.motorPos + halfdt * (b.motorVel + v'), v', acc)

/-- The condition for a rigid transmission. (pr2_belt_transmission.cpp:478, 561) -/
def BeltP.rigid (p : BeltP F) : Bool := FCmp.eq p.compl 0 || FCmp.eq p.tau 0

/-- `(halfdt < trans_tau_ ? trans_tau_ : halfdt)` (pr2_belt_transmission.cpp:490, 573). -/
def BeltP.simTau (p : BeltP F) (halfdt : F) : F := if FCmp.lt halfdt p.tau then p.tau else halfdt

/-- `PR2BeltCompensatorTransmission::propagateEffortBackwards` (pr2_belt_transmission.cpp:436-528). -/
def BeltT.propagateEffortBackwards (t : BeltT F) (as : List (Actuator F)) (js : List (JState F)) : Option (BeltT F × List (JState F)) :=
  match as, js with
  | [a], [j] =>
    let halfdt := lit (1/2) * sec (a.sampleTs - t.bk.lastTs)
    let force := a.effort * t.p.reduction
    let spring :=
      if t.p.rigid then force
      else
        let tau := t.p.simTau halfdt
        let jv := t.bk.jointVel
        let jp := t.bk.jointPos + halfdt * (t.bk.jointVel + jv)
        let m := beltMotor t.p t.bk halfdt tau force jp jv
        (lit 2 * tau * (m.2.1 - jv) + (m.1 - jp)) / t.p.compl
    some ({ t with bk := { t.bk with lastTs := a.sampleTs, halfdt := halfdt, force := force } }, [{ j with commanded := spring }])
  | _, _ => none

/-- `PR2BeltCompensatorTransmission::propagatePositionBackwards` (pr2_belt_transmission.cpp:531-635). -/
def BeltT.propagatePositionBackwards (t : BeltT F) (e : SimEnv) (js : List (JState F)) (as : List (Actuator F)) :
    Option (BeltT F × List (Actuator F)) :=
  match as, js with
  | [a], [j] =>
    let jp := j.position - j.reference
    let jv := j.velocity
    let m := if t.p.rigid then (jp, jv, 0) else beltMotor t.p t.bk t.bk.halfdt (t.p.simTau t.bk.halfdt) t.bk.force jp jv
    let a := { a with position := m.1 * t.p.reduction, velocity := m.2.1 * t.p.reduction, measured := t.bk.force / t.p.reduction }
    let a := a.stamped (t.clock.stamp e.now)
    let r := t.cal.simulate j a
    some ({ t with bk := { t.bk with motorPos := m.1, motorVel := m.2.1, motorAcc := m.2.2, jointPos := jp, jointVel := jv }
                   clock := t.clock.tick e, cal := r.1 }, [r.2])
  | _, _ => none

end

end Pr2
