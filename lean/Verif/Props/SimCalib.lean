import Verif.Props.Readings
import Verif.Props.Calib

/-!
# C96: the simulated calibration sensors of a whole robot

A simulator propagates joint positions backwards to the motors; each transmission then simulates the calibration sensor of its joint.  Here: which motor's sensor shows
which joint, and when edges are recorded, for a robot loaded from a description and over its whole life.
-/

namespace Pr2
open Init FLit FTrig
set_option linter.unusedSectionVars false
set_option linter.unusedVariables false

section
variable {F : Type} [FCmp F] [Zero F] [Add F] [Sub F] [Mul F] [iDiv : Div F] [Neg F] [FLit F] [iTrig : FTrig F]

/-! ## Specification -/

/-- The element `x` has a child `tag` (the first of that tag counts) with this name. -/
def Xml.Calls (x : Xml) (tag n : String) : Prop := ∃ e, x.FirstChild tag e ∧ e.Says "name" n

/-- The description puts the calibration sensor of joint `jn` on the motor `an`.  In a wrist the sensor of the flex joint is on the left motor, that of the roll joint on the
right motor. -/
def SensorOf : Body F → Xml → String → String → Prop
  | .simple _ => fun x an jn => x.Calls "actuator" an ∧ x.Calls "joint" jn
  | .belt _ => fun x an jn => x.Calls "actuator" an ∧ x.Calls "joint" jn
  | .gripper _ => fun x an jn => x.Calls "actuator" an ∧ x.Calls "gap_joint" jn
  | .wrist _ => fun x an jn => (x.Calls "leftActuator" an ∧ x.Calls "flexJoint" jn) ∨ (x.Calls "rightActuator" an ∧ x.Calls "rollJoint" jn)

/-- A sensor whose reading was `old` and is `new` shows this position of a joint described by `u`: high above the rising edge; without one, below the falling edge; without
edges unchanged.  For continuous joints: high from the rising to the falling edge, a missing one being half a turn away (at an edge itself: not specified). -/
structure Shows (u : UJoint ℝ) (pos : ℝ) (old new : Bool) : Prop where
  rising : u.type ≠ .continuous → ∀ e f, u.calibration = some ⟨some e, f⟩ → (new = true ↔ e < pos)
  falling : u.type ≠ .continuous → ∀ e, u.calibration = some ⟨none, some e⟩ → (new = true ↔ pos < e)
  unmarked : u.type ≠ .continuous → u.calibration = none ∨ u.calibration = some ⟨none, none⟩ → new = old
  continuous : u.type = .continuous → ∀ cal er ef, u.calibration = some cal →
    (cal = ⟨some er, some ef⟩ ∨ (cal = ⟨some er, none⟩ ∧ ef = er + Real.pi) ∨ (cal = ⟨none, some ef⟩ ∧ er = ef + Real.pi)) →
    ¬ SameAngle pos er → ¬ SameAngle pos ef → (new = true ↔ OnArc er ef pos)

/-- The recorded edges. -/
def Actuator.edges (a : Actuator F) : (Bool × F) × (Bool × F) := ((a.risingValid, a.risingEdge), (a.fallingValid, a.fallingEdge))

/-- As `Later`, but nothing is propagated backwards to the motors. -/
inductive Quiet (s0 : RState F) : RState F → Prop
  | start : Quiet s0 s0
  | position {s s' : RState F} : Quiet s0 s → s.propagatePosition = some s' → Quiet s0 s'
  | effort {s s' : RState F} : Quiet s0 s → s.propagateEffort = some s' → Quiet s0 s'
  | effortBackwards {s s' : RState F} : Quiet s0 s → s.propagateEffortBackwards = some s' → Quiet s0 s'
  | touch {s s' : RState F} : Quiet s0 s → s'.conns = s.conns → s'.jmap = s.jmap → List.Forall₂ (fun j j' => j'.joint = j.joint) s.joints s'.joints →
      List.Forall₂ (fun a a' => a'.name = a.name) s.acts s'.acts → Quiet s0 s'

theorem Quiet.later {s0 s s' : RState F} (h : Later s0 s) (q : Quiet s s') : Later s0 s' := by
  induction q with
  | start => exact h
  | position _ hs ih => exact .position ih hs
  | effort _ hs ih => exact .effort ih hs
  | effortBackwards _ hs ih => exact .effortBackwards ih hs
  | touch _ h1 h2 h3 h4 ih => exact .touch ih h1 h2 h3 h4

/-! ## The sensor simulators inside the transmissions -/

/-- The simulator of the sensor on the `m`-th motor for the `i`-th joint. -/
def Body.sensor : Body F → Nat → Nat → Option (CalSim F)
  | .simple t, 0, 0 => some t.cal
  | .wrist t, 1, 0 => some t.cal0
  | .wrist t, 0, 1 => some t.cal1
  | .gripper t, 0, 0 => some t.cal
  | .belt t, 0, 0 => some t.cal
  | _, _, _ => none

theorem position_sensor {b : Body F} {as : List (Actuator F)} {js : List (JState F)} {r} (h : b.propagatePosition as js = some r) (m i : Nat) :
    r.1.sensor m i = b.sensor m i := by
  cases b with
  | simple t => obtain ⟨_, _, rfl⟩ := Option.map_eq_some_iff.1 h; rfl
  | wrist t => obtain ⟨_, _, rfl⟩ := Option.map_eq_some_iff.1 h; rfl
  | gripper t => obtain ⟨_, _, rfl⟩ := Option.map_eq_some_iff.1 h; rfl
  | belt t =>
    obtain ⟨_, hj, rfl⟩ := Option.map_eq_some_iff.1 h
    unfold BeltT.propagatePosition at hj
    split at hj
    · cases hj
      rcases m with _ | m <;> rcases i with _ | i <;> rfl
    · cases hj

theorem effort_sensor {b : Body F} {as : List (Actuator F)} {js : List (JState F)} {r} (h : b.propagateEffort as js = some r) (m i : Nat) :
    r.1.sensor m i = b.sensor m i := by
  cases b with
  | simple t => obtain ⟨_, _, rfl⟩ := Option.map_eq_some_iff.1 h; rfl
  | wrist t => obtain ⟨_, _, rfl⟩ := Option.map_eq_some_iff.1 h; rfl
  | gripper t => obtain ⟨_, _, rfl⟩ := Option.map_eq_some_iff.1 h; rfl
  | belt t =>
    obtain ⟨_, hj, rfl⟩ := Option.map_eq_some_iff.1 h
    unfold BeltT.propagateEffort at hj
    split at hj
    · cases hj
      rcases m with _ | m <;> rcases i with _ | i <;> rfl
    · cases hj

theorem effortBackwards_sensor {b : Body F} {as : List (Actuator F)} {js : List (JState F)} {r} (h : b.propagateEffortBackwards as js = some r) (m i : Nat) :
    r.1.sensor m i = b.sensor m i := by
  cases b with
  | simple t => obtain ⟨_, _, rfl⟩ := Option.map_eq_some_iff.1 h; rfl
  | wrist t => obtain ⟨_, _, rfl⟩ := Option.map_eq_some_iff.1 h; rfl
  | gripper t => obtain ⟨_, _, rfl⟩ := Option.map_eq_some_iff.1 h; rfl
  | belt t =>
    obtain ⟨_, hj, rfl⟩ := Option.map_eq_some_iff.1 h
    unfold BeltT.propagateEffortBackwards at hj
    split at hj
    · cases hj
      rcases m with _ | m <;> rcases i with _ | i <;> rfl
    · cases hj

/-- Propagating positions backwards calls each simulator once, with its joint and its motor; before the call the motor's sensor data are what they were. -/
theorem positionBackwards_sensor {e : SimEnv} {b : Body F} {as : List (Actuator F)} {js : List (JState F)} {r} (h : b.propagatePositionBackwards e as js = some r) {m i : Nat}
    {c : CalSim F} (hc : b.sensor m i = some c) :
    ∃ a j a1, as[m]? = some a ∧ js[i]? = some j ∧ a1.calReading = a.calReading ∧ a1.edges = a.edges ∧ r.1.sensor m i = some (c.simulate j a1).1 ∧
      r.2.1[m]? = some (c.simulate j a1).2 := by
  cases b with
  | simple t =>
    obtain ⟨_, hj, rfl⟩ := Option.map_eq_some_iff.1 h
    rcases m with _ | m <;> rcases i with _ | i <;> try (cases hc; done)
    cases hc
    unfold SimpleT.propagatePositionBackwards at hj
    split at hj
    · cases hj; refine ⟨_, _, _, rfl, rfl, ?_, ?_, ?_, rfl⟩ <;> rfl
    · cases hj; refine ⟨_, _, _, rfl, rfl, ?_, ?_, ?_, rfl⟩ <;> rfl
    · cases hj
  | wrist t =>
    obtain ⟨_, hj, rfl⟩ := Option.map_eq_some_iff.1 h
    unfold WristT.propagatePositionBackwards at hj
    split at hj
    · rcases m with _ | _ | m <;> rcases i with _ | _ | i <;> try (cases hc; done)
      · cases hc; cases hj; refine ⟨_, _, _, rfl, rfl, ?_, ?_, ?_, rfl⟩ <;> rfl
      · cases hc; cases hj; refine ⟨_, _, _, rfl, rfl, ?_, ?_, ?_, rfl⟩ <;> rfl
    · cases hj
  | gripper t =>
    obtain ⟨_, hj, rfl⟩ := Option.map_eq_some_iff.1 h
    rcases m with _ | m <;> rcases i with _ | i <;> try (cases hc; done)
    cases hc
    unfold GripperT.propagatePositionBackwards at hj
    split at hj
    · rename_i a j rest
      by_cases hl : rest.length = (if t.hasPassive then t.passive.length + 2 else 0)
      · rw [if_pos hl] at hj; cases hj; refine ⟨_, _, _, rfl, rfl, ?_, ?_, ?_, rfl⟩ <;> rfl
      · rw [if_neg hl] at hj; cases hj
    · cases hj
  | belt t =>
    obtain ⟨_, hj, rfl⟩ := Option.map_eq_some_iff.1 h
    rcases m with _ | m <;> rcases i with _ | i <;> try (cases hc; done)
    cases hc
    unfold BeltT.propagatePositionBackwards at hj
    split at hj
    · cases hj; refine ⟨_, _, _, rfl, rfl, ?_, ?_, ?_, rfl⟩ <;> rfl
    · cases hj

/-- In `s` the `k`-th transmission has this simulator. -/
def RState.Has (s : RState F) (k m i : Nat) (ins outs : List Nat) (cal : CalSim F) : Prop :=
  ∃ c, s.conns[k]? = some c ∧ c.ins = ins ∧ c.outs = outs ∧ c.trans.body.sensor m i = some cal

theorem Has.of_bodies {s s' : RState F} {k m i : Nat} {ins outs : List Nat} {cal : CalSim F} {f : Prop' F}
    (hf : ∀ b as js r, f b as js = some r → r.1.sensor m i = b.sensor m i) (hs : s.sweep f = some s') (h : s.Has k m i ins outs cal) : s'.Has k m i ins outs cal := by
  unfold RState.sweep at hs
  rcases hsw : Pr2.sweep f s.conns s.acts s.joints with _ | ⟨cs, as, js⟩
  · rw [hsw] at hs; cases hs
  rw [hsw] at hs; cases hs
  obtain ⟨c, hc, h1, h2, h3⟩ := h
  obtain ⟨hl, hg⟩ := List.forall₂_iff_get.1 (sweep_bodies f _ _ _ hsw)
  obtain ⟨hk, rfl⟩ := List.getElem?_eq_some_iff.1 hc
  obtain ⟨_, _, r, hr, he⟩ := hg k hk (by rw [← hl]; exact hk)
  simp only [List.get_eq_getElem] at he hr
  refine ⟨_, List.getElem?_eq_getElem (by rw [← hl]; exact hk), ?_, ?_, ?_⟩
  · rw [he]; exact h1
  · rw [he]; exact h2
  · rw [he]; dsimp only; rw [hf _ _ _ _ hr]; exact h3

theorem Has.quiet {s s' : RState F} {k m i : Nat} {ins outs : List Nat} {cal : CalSim F} (q : Quiet s s') (h : s.Has k m i ins outs cal) : s'.Has k m i ins outs cal := by
  induction q with
  | start => exact h
  | @position s s' _ hs ih =>
    unfold RState.propagatePosition at hs
    rcases hsw : s.sweep Body.propagatePosition with _ | s1
    · rw [hsw] at hs; cases hs
    rw [hsw] at hs; cases hs
    exact Has.of_bodies (s' := s1) (fun _ _ _ _ h => position_sensor h m i) hsw ih
  | effort _ hs ih => exact Has.of_bodies (fun _ _ _ _ h => effort_sensor h m i) hs ih
  | effortBackwards _ hs ih => exact Has.of_bodies (fun _ _ _ _ h => effortBackwards_sensor h m i) hs ih
  | touch _ hc _ _ _ ih =>
    obtain ⟨c, h1, h2⟩ := ih
    exact ⟨c, by rw [hc]; exact h1, h2⟩

/-- Propagating positions backwards, seen from one transmission. -/
theorem positionBackwards_local {s s' : RState F} {e : SimEnv} (hr : s.Ready) (hu : Unshared s.conns) (hs : s.propagatePositionBackwards e = some s') {k : Nat} {c : Conn F}
    (hc : s.conns[k]? = some c) :
    s'.joints = s.joints ∧ ∃ r, c.trans.body.propagatePositionBackwards e (gather s.acts c.ins) (gather s.joints c.outs) = some r ∧
      gather s'.acts c.ins = r.2.1 ∧ s'.conns[k]? = some { c with trans := { c.trans with body := r.1 } } := by
  unfold RState.propagatePositionBackwards RState.sweep at hs
  rcases hsw : Pr2.sweep (Body.propagatePositionBackwards e) s.conns s.acts s.joints with _ | ⟨cs, as, js⟩
  · rw [hsw] at hs; cases hs
  rw [hsw] at hs; cases hs
  refine ⟨sweep_joints _ (fun b as js r hr => (positionBackwards_frame hr).1) s.conns s.acts s.joints hr.wired.outs hsw, ?_⟩
  obtain ⟨_, _, _, _, h5⟩ := sweep_local (Body.propagatePositionBackwards e)
    (fun b as js r hr => ⟨(List.Forall₂.length_eq (positionBackwards_frame hr).2.1).symm, by rw [(positionBackwards_frame hr).1]⟩)
    s.conns s.acts s.joints hr.wired (Or.inr hu) hsw
  obtain ⟨hl, hg⟩ := List.forall₂_iff_get.1 h5
  obtain ⟨hk, rfl⟩ := List.getElem?_eq_some_iff.1 hc
  obtain ⟨r, h1, h2, h3, _⟩ := hg k hk (by rw [← hl]; exact hk)
  simp only [List.get_eq_getElem] at h1 h2 h3
  exact ⟨r, h1, h3, by rw [List.getElem?_eq_getElem (by rw [← hl]; exact hk), h2]⟩

omit [FCmp F] [Zero F] [Add F] [Sub F] [Mul F] iDiv [Neg F] [FLit F] iTrig in
theorem gather_getElem? {α : Type} (l : List α) (is : List Nat) (hi : ∀ i ∈ is, i < l.length) (m : Nat) : (gather l is)[m]? = (is[m]?).bind (l[·]?) := by
  induction is generalizing m with
  | nil => rfl
  | cons i is ih =>
    rw [gather_cons l i is (hi i (by simp))]
    cases m with
    | zero => simp [hi i (by simp)]
    | succ m => rw [List.getElem?_cons_succ, List.getElem?_cons_succ]; exact ih (fun i h => hi i (by simp [h])) m

/-- One backward sweep, seen from one sensor. -/
theorem Has.back {s s' : RState F} {e : SimEnv} (hr : s.Ready) (hu : Unshared s.conns) (hs : s.propagatePositionBackwards e = some s') {k m i : Nat} {ins outs : List Nat}
    {cal : CalSim F} (h : s.Has k m i ins outs cal) :
    ∃ p q a j a1, ins[m]? = some p ∧ outs[i]? = some q ∧ s.acts[p]? = some a ∧ s.joints[q]? = some j ∧ a1.calReading = a.calReading ∧ a1.edges = a.edges ∧
      s'.Has k m i ins outs (cal.simulate j a1).1 ∧ s'.acts[p]? = some (cal.simulate j a1).2 := by
  obtain ⟨c, hc, rfl, rfl, h3⟩ := h
  obtain ⟨_, r, h1, h2, h4⟩ := positionBackwards_local hr hu hs hc
  obtain ⟨a, j, a1, ha, hj, e1, e2, e3, e4⟩ := positionBackwards_sensor h1 h3
  have hcm := List.mem_of_getElem? hc
  rw [gather_getElem? _ _ (hr.wired.ins c hcm)] at ha
  rw [gather_getElem? _ _ (hr.wired.outs c hcm)] at hj
  obtain ⟨p, hp, ha⟩ := Option.bind_eq_some_iff.1 ha
  obtain ⟨q, hq, hj⟩ := Option.bind_eq_some_iff.1 hj
  refine ⟨p, q, a, j, a1, hp, hq, ha, hj, e1, e2, ⟨_, h4, rfl, rfl, e3⟩, ?_⟩
  rw [← h2, gather_getElem? _ _ ?_, hp] at e4
  · exact e4
  · intro x hx
    have sr := SameRobot.of_sweep hr (Body.propagatePositionBackwards e) (fun b as js r hr => (positionBackwards_frame hr).2.2)
      (fun b as js r hr => (positionBackwards_frame hr).2.1.imp (fun _ _ h => h.1))
      (fun b as js r hr => by rw [(positionBackwards_frame hr).1]; exact List.forall₂_same.2 (fun _ _ => rfl)) hs
    rw [← List.Forall₂.length_eq sr.acts]
    exact hr.wired.ins c hcm x hx

end

section
variable [Parse ℝ] {l : TransLoader ℝ} {urdf : Xml → Option (String → Option (UJoint ℝ))} {root : Xml} {joint : String → Option (UJoint ℝ)} {acts : List (Actuator ℝ)}
  {ts : List (Trans ℝ)} {s0 : RState ℝ} {t : Trans ℝ} {x : Xml} {b : Body ℝ} {an jn : String}

/-- The sensor simulators of this object are as their constructor leaves them. -/
def Body.NewSensors (b : Body ℝ) : Prop := ∀ m i c, b.sensor m i = some c → ∃ r f p q o n, c = CalSim.fresh r f p q o n

theorem described_sensors (hd : Described b x joint acts t) (m i : Nat) : t.body.sensor m i = b.sensor m i := by
  cases b with
  | simple t0 =>
    obtain ⟨jel, jn, ael, an, mel, red, uses, s, _, _, _, _, _, _, _, _, _, _, _, _, hb, _, _, _, _, hc⟩ := hd
    rw [hb]
    rcases m with _ | m <;> rcases i with _ | i <;> first | rfl | (simp only [Body.sensor, hc])
  | wrist t0 =>
    obtain ⟨rn, ln, fn, on, w, _, _, _, _, _, _, _, hb, _, hc0, hc1⟩ := hd
    rw [hb]
    rcases m with _ | _ | m <;> rcases i with _ | _ | i <;> first | rfl | (simp only [Body.sensor, hc0, hc1])
  | gripper t0 =>
    obtain ⟨ael, an, gaps, ps, screws, g, _, _, _, _, _, _, _, _, _, _, hb, _, _, _, _, _, hc⟩ := hd
    rw [hb]
    rcases m with _ | m <;> rcases i with _ | i <;> first | rfl | (simp only [Body.sensor, hc])
  | belt t0 =>
    obtain ⟨jel, jn, ael, an, mel, red, c, k, mass, kd, lm, lj, lc, q, h⟩ := hd
    obtain ⟨_, _, _, _, _, _, _, _, _, _, _, _, _, _, _, _, _, _, hb, h⟩ := h
    obtain ⟨_, _, _, _, _, _, _, _, _, _, _, hc⟩ := h
    rw [hb]
    rcases m with _ | m <;> rcases i with _ | i <;> first | rfl | (simp only [Body.sensor, hc])

/-- The description's sensor is one the transmission simulates. -/
theorem described_pair (hd : Described b x joint acts t) (hs : SensorOf b x an jn) :
    ∃ m i c, t.body.sensor m i = some c ∧ t.actNames[m]? = some an ∧ t.jointNames[i]? = some jn := by
  cases b with
  | simple t0 =>
    obtain ⟨⟨ael, h1, h2⟩, jel, h3, h4⟩ := hs
    obtain ⟨jel', jn', ael', an', mel, red, uses, s, d1, d2, _, d3, d4, _, _, _, _, _, e1, e2, hb, _⟩ := hd
    cases FirstChild.unique h1 d3
    cases Says.unique h2 d4
    cases FirstChild.unique h3 d1
    cases Says.unique h4 d2
    exact ⟨0, 0, s.cal, by rw [hb]; rfl, by rw [e1]; rfl, by rw [e2]; rfl⟩
  | wrist t0 =>
    obtain ⟨rn, ln, fn, on, w, ⟨re, _, r1, r2, _⟩, ⟨le, _, l1, l2, _⟩, ⟨fe, _, f1, f2, _⟩, ⟨oe, _, o1, o2, _⟩, _, e1, e2, hb, _⟩ := hd
    rcases hs with ⟨⟨ael, h1, h2⟩, jel, h3, h4⟩ | ⟨⟨ael, h1, h2⟩, jel, h3, h4⟩
    · cases FirstChild.unique h1 l1
      cases Says.unique h2 l2
      cases FirstChild.unique h3 f1
      cases Says.unique h4 f2
      exact ⟨1, 0, w.cal0, by rw [hb]; rfl, by rw [e1]; rfl, by rw [e2]; rfl⟩
    · cases FirstChild.unique h1 r1
      cases Says.unique h2 r2
      cases FirstChild.unique h3 o1
      cases Says.unique h4 o2
      exact ⟨0, 1, w.cal1, by rw [hb]; rfl, by rw [e1]; rfl, by rw [e2]; rfl⟩
  | gripper t0 =>
    obtain ⟨⟨ael, h1, h2⟩, jel, h3, h4⟩ := hs
    obtain ⟨ael', an', gaps, ps, screws, g, d1, d2, _, d3, _, _, _, e1, e2, _, hb, _⟩ := hd
    cases FirstChild.unique h1 d1
    cases Says.unique h2 d2
    refine ⟨0, 0, g.cal, by rw [hb]; rfl, by rw [e1]; rfl, ?_⟩
    rw [← first_some] at h3
    have hh : (x.childrenTagged "gap_joint").head? = some jel := by
      rw [← all_eq]
      unfold Xml.all
      unfold Xml.first at h3
      rw [List.head?_filter]
      exact h3
    generalize x.childrenTagged "gap_joint" = gs at d3 hh
    cases d3 with
    | nil => cases hh
    | cons he _ =>
      cases hh
      cases Says.unique h4 he.name
      rw [e2]; rfl
  | belt t0 =>
    obtain ⟨⟨ael, h1, h2⟩, jel, h3, h4⟩ := hs
    obtain ⟨jel', jn', ael', an', mel, red, c, k, mass, kd, lm, lj, lc, q, h⟩ := hd
    obtain ⟨d1, d2, _, d3, d4, _, _, _, _, _, _, _, _, _, _, _, e1, e2, hb, h⟩ := h
    cases FirstChild.unique h1 d3
    cases Says.unique h2 d4
    cases FirstChild.unique h3 d1
    cases Says.unique h4 d2
    exact ⟨0, 0, q.cal, by rw [hb]; rfl, by rw [e1]; rfl, by rw [e2]; rfl⟩

/-- A sensor of a loaded robot through its whole life. -/
theorem Loaded.track (h : Loaded l urdf root joint acts ts s0) (hn : ∀ k ty b, l.create k ty = some b → b.NewSensors) (ht : t ∈ ts)
    (hd : Described b x joint acts t) (hs : SensorOf b x an jn) :
    ∃ k m i p q ins outs cal u, s0.Has k m i ins outs cal ∧ (∃ r f p q o n, cal = CalSim.fresh r f p q o n) ∧ ins[m]? = some p ∧ outs[i]? = some q ∧ joint jn = some u ∧
      ∀ s, Later s0 s → s.Ready ∧ s.acts.findIdx? (fun a => a.name == an) = some p ∧ s.getJointState jn = some q ∧ ∀ j, s.joints[q]? = some j → j.joint = u := by
  obtain ⟨m, i, c, hc, ha, hj⟩ := described_pair hd hs
  have hfresh : ∃ r f p q o n, c = CalSim.fresh r f p q o n := by
    obtain ⟨⟨hw, acts', old, hload, hmk⟩, hu, _, _⟩ := h
    obtain ⟨joint', hu', results, hlen, rfl, hres⟩ := C94_robot l urdf root acts hw ts (by rw [hload])
    rw [hu] at hu'; cases hu'
    obtain ⟨o, ho, e⟩ := List.mem_filterMap.1 ht
    obtain ⟨k, hk⟩ := List.mem_iff_getElem?.1 ho
    have hkl : k < (root.childrenTagged "transmission").length := by
      rw [← hlen]; by_contra hh; rw [List.getElem?_eq_none (by omega)] at hk; cases hk
    obtain ⟨ty, cls, b', _, _, _, hb', hd'⟩ := (hres k _ (List.getElem?_eq_getElem hkl) t).1 (by rw [hk]; exact congrArg some e)
    exact hn k cls b' hb' m i c (by rw [← described_sensors hd']; exact hc)
  obtain ⟨k, hk⟩ := List.mem_iff_getElem?.1 ht
  have h0 : s0.Has k m i ((s0.conns[k]?.map (·.ins)).getD []) ((s0.conns[k]?.map (·.outs)).getD []) c := by
    obtain ⟨⟨hw, acts', old, hload, hmk⟩, _, _, _⟩ := h
    obtain ⟨c0, hc0, hct, _⟩ := C50_wiring hmk k t hk
    refine ⟨c0, hc0, by rw [hc0]; rfl, by rw [hc0]; rfl, by rw [hct]; exact hc⟩
  have key : ∀ s, Later s0 s → s.Ready ∧ ∃ p q u, ((s0.conns[k]?.map (·.ins)).getD [])[m]? = some p ∧ ((s0.conns[k]?.map (·.outs)).getD [])[i]? = some q ∧ joint jn = some u ∧
      s.acts.findIdx? (fun a => a.name == an) = some p ∧ s.getJointState jn = some q ∧ ∀ j, s.joints[q]? = some j → j.joint = u := by
    intro s hl
    obtain ⟨hr, c1, hc1, _, f1, f2, f3⟩ := h.connAt hl hk
    refine ⟨hr, ?_⟩
    obtain ⟨hr0, c0, hc0, _, _⟩ := h.connAt (Later.start (s0 := s0)) hk
    have hsame := (hl.same hr0).1.conns
    obtain ⟨hlen, hget⟩ := List.forall₂_iff_get.1 hsame
    obtain ⟨hk0, e0⟩ := List.getElem?_eq_some_iff.1 hc0
    obtain ⟨hk1, e1⟩ := List.getElem?_eq_some_iff.1 hc1
    obtain ⟨b', hb', _⟩ := hget k hk0 hk1
    simp only [List.get_eq_getElem, e0, e1] at hb'
    rw [hc0]
    obtain ⟨hma, rfl⟩ := List.getElem?_eq_some_iff.1 ha
    obtain ⟨hij, rfl⟩ := List.getElem?_eq_some_iff.1 hj
    obtain ⟨g1, g1'⟩ := List.forall₂_iff_get.1 f1
    obtain ⟨g2, g2'⟩ := List.forall₂_iff_get.1 f2
    have i1 := g1' m hma (by rw [← g1]; exact hma)
    have i2 := g2' i hij (by rw [← g2]; exact hij)
    simp only [List.get_eq_getElem] at i1 i2
    have hin : c0.ins = c1.ins := by rw [hb']
    have hout : c0.outs = c1.outs := by rw [hb']
    have hu : ∃ u, joint t.jointNames[i] = some u := by
      have hql := hr.wired.outs c1 (List.mem_of_getElem? hc1) c1.outs[i] (List.getElem_mem _)
      exact ⟨_, f3 _ (List.getElem_mem _) _ ⟨_, i2, List.getElem?_eq_getElem hql⟩⟩
    obtain ⟨u, hu⟩ := hu
    refine ⟨_, _, u, ?_, ?_, hu, i1, i2, ?_⟩
    · change c0.ins[m]? = _
      rw [hin, List.getElem?_eq_getElem]
    · change c0.outs[i]? = _
      rw [hout, List.getElem?_eq_getElem]
    · intro j hj
      have := f3 _ (List.getElem_mem _) j ⟨_, i2, hj⟩
      rw [hu] at this
      exact (Option.some.inj this).symm
  obtain ⟨_, p, q, u, k1, k2, k3, _⟩ := key s0 .start
  refine ⟨k, m, i, p, q, _, _, c, u, h0, hfresh, k1, k2, k3, ?_⟩
  intro s hl
  obtain ⟨hr, p', q', u', k1', k2', k3', r1, r2, r3⟩ := key s hl
  rw [k1] at k1'; cases k1'
  rw [k2] at k2'; cases k2'
  rw [k3] at k3'; cases k3'
  exact ⟨hr, r1, r2, r3⟩

theorem Has.later (h : Loaded l urdf root joint acts ts s0) (hm : (ts.flatMap (·.actNames)).Nodup) {k m i q : Nat} {ins outs : List Nat} {cal : CalSim ℝ} {u : UJoint ℝ}
    (h0 : s0.Has k m i ins outs cal) (hc : CalOf u cal) (hq : outs[i]? = some q) (hu : ∀ s, Later s0 s → ∀ j, s.joints[q]? = some j → j.joint = u)
    (hready : ∀ s, Later s0 s → s.Ready) {s : RState ℝ} (hl : Later s0 s) : ∃ cal', s.Has k m i ins outs cal' ∧ CalOf u cal' := by
  induction hl with
  | start => exact ⟨_, h0, hc⟩
  | position hl hs ih => exact ih.imp (fun _ h => ⟨Has.quiet (.position .start hs) h.1, h.2⟩)
  | effort hl hs ih => exact ih.imp (fun _ h => ⟨Has.quiet (.effort .start hs) h.1, h.2⟩)
  | effortBackwards hl hs ih => exact ih.imp (fun _ h => ⟨Has.quiet (.effortBackwards .start hs) h.1, h.2⟩)
  | touch hl h1 h2 h3 h4 ih => exact ih.imp (fun _ h => ⟨Has.quiet (.touch .start h1 h2 h3 h4) h.1, h.2⟩)
  | positionBackwards e hl hs ih =>
    obtain ⟨cal', h1, h2⟩ := ih
    obtain ⟨p, q', a, j, a1, _, hq', _, hj, _, _, h3, _⟩ := Has.back (hready _ hl) (h.unshared hm hl) hs h1
    rw [hq] at hq'; cases hq'
    exact ⟨_, h3, .call _ _ _ h2 (hu _ hl j hj)⟩

/-- The joint of a name is unique. -/
theorem Joint.unique {s : RState ℝ} {n : String} {j j' : JState ℝ} (h : s.Joint n j) (h' : s.Joint n j') : j = j' := by
  obtain ⟨i, h1, h2⟩ := h
  obtain ⟨i', h1', h2'⟩ := h'
  rw [h1] at h1'; cases h1'
  rw [h2] at h2'; exact Option.some.inj h2'

theorem shows_of_calOf {u : UJoint ℝ} {c : CalSim ℝ} (h : CalOf u c) {j : JState ℝ} (hj : j.joint = u) (a : Actuator ℝ) :
    Shows u (j.position - j.reference) a.calReading (c.simulate j a).2.calReading where
  rising := fun ht e f hc => C53_limited_rising h j hj a ht e f hc
  falling := fun ht => (C53_limited_falling h j hj a ht).1
  unmarked := fun ht => (C53_limited_falling h j hj a ht).2
  continuous := fun ht cal er ef hc he => C53_continuous h j hj a ht cal hc er ef he

/-- **C96.**  In every state a simulated robot can get into: when the simulator propagates the joints' positions to the motors, the sensor on the motor the description puts
it on shows the position of its joint. -/
theorem C96_sensor (h : Loaded l urdf root joint acts ts s0) (hn : ∀ k ty b, l.create k ty = some b → b.NewSensors) (hm : (ts.flatMap (·.actNames)).Nodup) (ht : t ∈ ts)
    (hd : Described b x joint acts t) (hs : SensorOf b x an jn) {s s' : RState ℝ} (hl : Later s0 s) {e : SimEnv} (hb : s.propagatePositionBackwards e = some s') :
    ∃ a a' j, s.Motor an a ∧ s'.Motor an a' ∧ s.Joint jn j ∧ joint jn = some j.joint ∧ Shows j.joint (j.position - j.reference) a.calReading a'.calReading := by
  obtain ⟨k, m, i, p, q, ins, outs, cal, u, h0, ⟨r, f, p', q', o, n', hf⟩, hp, hq, hu, hall⟩ := h.track hn ht hd hs
  obtain ⟨cal', h1, h2⟩ := Has.later h hm h0 (by rw [hf]; exact .new ..) hq (fun s hl => (hall s hl).2.2.2) (fun s hl => (hall s hl).1) hl
  obtain ⟨hr, r1, r2, r3⟩ := hall s hl
  obtain ⟨hr', r1', _, _⟩ := hall s' (.positionBackwards e hl hb)
  obtain ⟨p2, q2, a, j, a1, e1, e2, ha, hj, e3, e4, h3, h4⟩ := Has.back hr (h.unshared hm hl) hb h1
  rw [hp] at e1; cases e1
  rw [hq] at e2; cases e2
  refine ⟨a, _, j, motor_of_findIdx r1 ha, motor_of_findIdx r1' h4, ⟨q, r2, hj⟩, by rw [r3 j hj]; exact hu, ?_⟩
  rw [r3 j hj, ← e3]
  exact shows_of_calOf h2 (r3 j hj) a1

/-- `calStep_spec` for a single call. -/
theorem simulate_spec (c : CalSim ℝ) (j : JState ℝ) (a : Actuator ℝ) :
    (c.simulate j a).1.initialized = true ∧ (c.simulate j a).1.oldReading = (c.simulate j a).2.calReading ∧ (c.simulate j a).1.oldPos = j.position - j.reference ∧
    (c.simulate j a).1.oldAsPos = a.position ∧ (c.initialized = false → (c.simulate j a).2.edges = a.edges) ∧
    (c.initialized = true →
      (c.simulate j a).2.risingValid = (a.risingValid || RisingTrip ⟨c.oldPos, c.oldAsPos, c.oldReading⟩ ⟨j.position - j.reference, a.position, (c.simulate j a).2.calReading⟩) ∧
      (c.simulate j a).2.risingEdge = (if RisingTrip ⟨c.oldPos, c.oldAsPos, c.oldReading⟩ ⟨j.position - j.reference, a.position, (c.simulate j a).2.calReading⟩ then c.oldAsPos
        else a.risingEdge) ∧
      (c.simulate j a).2.fallingValid = (a.fallingValid || FallingTrip ⟨c.oldPos, c.oldAsPos, c.oldReading⟩ ⟨j.position - j.reference, a.position, (c.simulate j a).2.calReading⟩) ∧
      (c.simulate j a).2.fallingEdge = (if FallingTrip ⟨c.oldPos, c.oldAsPos, c.oldReading⟩ ⟨j.position - j.reference, a.position, (c.simulate j a).2.calReading⟩ then c.oldAsPos
        else a.fallingEdge)) := by
  obtain ⟨h1, h2, h3, h4, h5, h6⟩ := calStep_spec (c, a) ⟨j, a.position⟩
  refine ⟨h1, h2, h3, h4, fun h => ?_, h6⟩
  obtain ⟨k1, k2, k3, k4⟩ := h5 h
  unfold Actuator.edges
  exact Prod.ext (Prod.ext k1 k2) (Prod.ext k3 k4)

/-- **C96.**  The first time positions are propagated to the motors no edge is recorded. -/
theorem C96_first (h : Loaded l urdf root joint acts ts s0) (hn : ∀ k ty b, l.create k ty = some b → b.NewSensors) (hm : (ts.flatMap (·.actNames)).Nodup) (ht : t ∈ ts)
    (hd : Described b x joint acts t) (hs : SensorOf b x an jn) {s s' : RState ℝ} (hl : Quiet s0 s) {e : SimEnv} (hb : s.propagatePositionBackwards e = some s') :
    ∃ a a', s.Motor an a ∧ s'.Motor an a' ∧ a'.edges = a.edges := by
  obtain ⟨k, m, i, p, q, ins, outs, cal, u, h0, ⟨r, f, p', q', o, n', hf⟩, hp, hq, hu, hall⟩ := h.track hn ht hd hs
  have hl' := hl.later .start
  have h1 := Has.quiet hl h0
  obtain ⟨hr, r1, r2, r3⟩ := hall s hl'
  obtain ⟨hr', r1', _, _⟩ := hall s' (.positionBackwards e hl' hb)
  obtain ⟨p2, q2, a, j, a1, e1, e2, ha, hj, e3, e4, h3, h4⟩ := Has.back hr (h.unshared hm hl') hb h1
  rw [hp] at e1; cases e1
  refine ⟨a, _, motor_of_findIdx r1 ha, motor_of_findIdx r1' h4, ?_⟩
  rw [← e4]
  exact (simulate_spec cal j a1).2.2.2.2.1 (by rw [hf]; rfl)

/-- **C96.**  Between two propagations of positions to the motors, with anything but a further one in between (`s1` to `s2`, then `s3` to `s4`): an edge is recorded in the
second exactly if the sensor's reading has changed; it is a rising edge if the sensor is high on the side of larger joint positions, and the position recorded is where the
motor was after the first. -/
theorem C96_edges (h : Loaded l urdf root joint acts ts s0) (hn : ∀ k ty b, l.create k ty = some b → b.NewSensors) (hm : (ts.flatMap (·.actNames)).Nodup) (ht : t ∈ ts)
    (hd : Described b x joint acts t) (hs : SensorOf b x an jn) {s1 s2 s3 s4 : RState ℝ} (hl : Later s0 s1) {e e' : SimEnv} (h12 : s1.propagatePositionBackwards e = some s2)
    (h23 : Quiet s2 s3) (h34 : s3.propagatePositionBackwards e' = some s4) :
    ∃ a2 a3 a4 j1 j3, s2.Motor an a2 ∧ s3.Motor an a3 ∧ s4.Motor an a4 ∧ s1.Joint jn j1 ∧ s3.Joint jn j3 ∧
      let rises := j1.position - j1.reference < j3.position - j3.reference
      (a4.calReading = a2.calReading → a4.edges = a3.edges) ∧
      (a4.calReading ≠ a2.calReading → (a4.calReading = true ↔ rises) → a4.edges = ((true, a2.position), (a3.fallingValid, a3.fallingEdge))) ∧
      (a4.calReading ≠ a2.calReading → ¬ (a4.calReading = true ↔ rises) → a4.edges = ((a3.risingValid, a3.risingEdge), (true, a2.position))) := by
  obtain ⟨k, m, i, p, q, ins, outs, cal, u, h0, ⟨r, f, p', q', o, n', hf⟩, hp, hq, hu, hall⟩ := h.track hn ht hd hs
  obtain ⟨c1, H1, hc1⟩ := Has.later h hm h0 (by rw [hf]; exact .new ..) hq (fun s hl => (hall s hl).2.2.2) (fun s hl => (hall s hl).1) hl
  have hl2 := Later.positionBackwards e hl h12
  have hl3 := h23.later hl2
  have hl4 := Later.positionBackwards e' hl3 h34
  obtain ⟨hr1, m1, n1, u1⟩ := hall s1 hl
  obtain ⟨hr2, m2, n2, u2⟩ := hall s2 hl2
  obtain ⟨hr3, m3, n3, u3⟩ := hall s3 hl3
  obtain ⟨hr4, m4, n4, u4⟩ := hall s4 hl4
  obtain ⟨pa, qa, a1, j1, b1, ea, ea', ha1, hj1, _, _, H2, hA2⟩ := Has.back hr1 (h.unshared hm hl) h12 H1
  rw [hp] at ea; cases ea
  rw [hq] at ea'; cases ea'
  obtain ⟨pb, qb, a3, j3, b3, eb, eb', ha3, hj3, e1, e2, _, hA4⟩ := Has.back hr3 (h.unshared hm hl3) h34 (Has.quiet h23 H2)
  rw [hp] at eb; cases eb
  rw [hq] at eb'; cases eb'
  refine ⟨_, a3, _, j1, j3, motor_of_findIdx m2 hA2, motor_of_findIdx m3 ha3, motor_of_findIdx m4 hA4, ⟨q, n1, hj1⟩, ⟨q, n3, hj3⟩, ?_⟩
  have S1 := simulate_spec c1 j1 b1
  have S2 := simulate_spec (c1.simulate j1 b1).1 j3 b3
  have hpos : (c1.simulate j1 b1).2.position = b1.position := by
    obtain ⟨_, _, _, _, _, hh⟩ := C54_only_calibration c1 j1 b1
    rw [hh]
  obtain ⟨i1, i2, i3, i4, _⟩ := S1
  have S := S2.2.2.2.2.2 i1
  rw [i2, i3, i4] at S
  obtain ⟨t1, t2, t3, t4⟩ := S
  unfold Actuator.edges at e2 ⊢
  simp only [Prod.mk.injEq] at e2
  obtain ⟨⟨x1, x2⟩, x3, x4⟩ := e2
  dsimp only
  rw [t1, t2, t3, t4, x1, x2, x3, x4, hpos]
  generalize (CalSim.simulate (c1.simulate j1 b1).1 j3 b3).2.calReading = y
  generalize (c1.simulate j1 b1).2.calReading = z
  unfold RisingTrip FallingTrip
  dsimp only
  have hlt : FCmp.lt (j1.position - j1.reference) (j3.position - j3.reference) = decide (j1.position - j1.reference < j3.position - j3.reference) := rfl
  rw [hlt]
  by_cases hx : j1.position - j1.reference < j3.position - j3.reference <;> cases y <;> cases z <;> simp [hx]

end

/-! ## Simulated motors in described units -/

section
variable {F : Type} [FCmp F] [Zero F] [Add F] [Sub F] [Mul F] [iDiv : Div F] [Neg F] [FLit F] [iTrig : FTrig F] [Parse F]
variable {l : TransLoader F} {urdf : Xml → Option (String → Option (UJoint F))} {root : Xml} {joint : String → Option (UJoint F)} {acts : List (Actuator F)}
  {ts : List (Trans F)} {s0 s s' : RState F} {t : Trans F} {x : Xml}

/-- Any transmission of a loaded robot, when positions are propagated backwards. -/
theorem Loaded.simulated (h : Loaded l urdf root joint acts ts s0) (hm : (ts.flatMap (·.actNames)).Nodup) (hl : Later s0 s) {e : SimEnv}
    (hs : s.propagatePositionBackwards e = some s') (ht : t ∈ ts) :
    ∃ b as js r, t.body.SameConst b ∧ List.Forall₂ s.Motor t.actNames as ∧ List.Forall₂ s.Joint t.jointNames js ∧
      b.propagatePositionBackwards e as js = some r ∧ List.Forall₂ s'.Motor t.actNames r.2.1 := by
  obtain ⟨hr, k, c, hc, hb, hin, hout, hj⟩ := h.conn hl ht
  obtain ⟨_, r, h1, h2, _⟩ := positionBackwards_local hr (h.unshared hm hl) hs hc
  have hcm := List.mem_of_getElem? hc
  have sr := SameRobot.of_sweep hr (Body.propagatePositionBackwards e) (fun b as js r hr => (positionBackwards_frame hr).2.2)
    (fun b as js r hr => (positionBackwards_frame hr).2.1.imp (fun _ _ h => h.1))
    (fun b as js r hr => by rw [(positionBackwards_frame hr).1]; exact List.forall₂_same.2 (fun _ _ => rfl)) hs
  have g1 := gather_rel s.acts _ _ _ hin (hr.wired.ins c hcm)
  have g2 := gather_rel s.joints _ _ _ hout (hr.wired.outs c hcm)
  have hin' : List.Forall₂ (fun n i => s'.acts.findIdx? (fun a => a.name == n) = some i) t.actNames c.ins := by
    refine hin.imp (fun n i hi => ?_)
    rw [← hi]
    exact findIdx_names _ _ _ (map_name sr.acts)
  have g3 := gather_rel s'.acts _ _ _ hin' (by rw [← List.Forall₂.length_eq sr.acts]; exact hr.wired.ins c hcm)
  refine ⟨c.trans.body, _, _, r, hb, g1.imp ?_, g2.imp ?_, h1, ?_⟩
  · rintro n a ⟨i, hi, ha⟩
    exact motor_of_findIdx hi ha
  · rintro n j ⟨i, hi, hij⟩
    exact ⟨i, hi, hij⟩
  · rw [h2] at g3
    refine g3.imp ?_
    rintro n a ⟨i, hi, ha⟩
    exact motor_of_findIdx hi ha

/-- **C96.**  If every gripper has a simulated passive joint with a positive reduction, positions can be propagated to the motors in every state. -/
theorem C96_succeeds (h : Loaded l urdf root joint acts ts s0) (hm : (ts.flatMap (·.actNames)).Nodup) (hsim : ∀ t ∈ ts, t.body.SimReady) (hl : Later s0 s) (e : SimEnv) :
    ∃ s', s.propagatePositionBackwards e = some s' := by
  have hsm : s.Simulable := by
    have hu := h.unshared hm hl
    obtain ⟨⟨hw, acts', old, hload, hmk⟩, hu', hwell, hnd⟩ := h
    have hr0 : s0.Ready := C67_ready l urdf root acts acts' hw ts hload old (by rw [all_eq]; exact hwell) joint s0 hu' hmk
    have hs := hl.same hr0
    refine ⟨hs.1.ready hr0, hu, fun c hc => ?_⟩
    obtain ⟨js, hwire, _⟩ := mk'_inv hmk
    obtain ⟨w1, _, _, _⟩ := wire_spec hwire
    obtain ⟨k, hk⟩ := List.mem_iff_getElem?.1 hc
    obtain ⟨hl', hget⟩ := List.forall₂_iff_get.1 hs.2
    obtain ⟨hk1, rfl⟩ := List.getElem?_eq_some_iff.1 hk
    have hk0 : k < s0.conns.length := by rw [hl']; exact hk1
    have f := hget k hk0 hk1
    simp only [List.get_eq_getElem] at f
    have ht : s0.conns[k].trans ∈ ts := by rw [← w1]; exact List.mem_map_of_mem (List.getElem_mem hk0)
    have hsr := hsim _ ht
    revert f hsr
    generalize s0.conns[k].trans.body = b0
    generalize s.conns[k].trans.body = b1
    intro f hsr
    cases b0 <;> cases b1 <;> try (first | exact f.elim | trivial)
    obtain ⟨_, _, rfl⟩ := f
    exact hsr
  obtain ⟨f1, _, h1, _⟩ := C91_never_aborts s hsm s.joints rfl e
  exact ⟨f1, h1⟩

omit [FCmp F] [Zero F] [Add F] [Sub F] [Mul F] iDiv [Neg F] [FLit F] iTrig [Parse F] in
/-- The calibration simulator leaves the motion alone. -/
theorem simulate_keeps [FCmp F] [Add F] [Sub F] [FTrig F] (c : CalSim F) (j : JState F) (a : Actuator F) :
    (c.simulate j a).2.position = a.position ∧ (c.simulate j a).2.velocity = a.velocity ∧ (c.simulate j a).2.measured = a.measured := by
  obtain ⟨_, _, _, _, _, hh⟩ := C54_only_calibration c j a
  rw [hh]; exact ⟨rfl, rfl, rfl⟩

/-- **C96.**  The simulated motor of a simple transmission is where the simulated joint is relative to its reference position, times the described reduction. -/
theorem C96_simple_motor (h : Loaded l urdf root joint acts ts s0) (hm : (ts.flatMap (·.actNames)).Nodup) (hl : Later s0 s) {e : SimEnv}
    (hs : s.propagatePositionBackwards e = some s') (ht : t ∈ ts) {t0 : SimpleT F} (hd : Described (.simple t0) x joint acts t) {jel ael mel : Xml} {jn an red : String}
    (h1 : x.FirstChild "joint" jel) (h2 : jel.Says "name" jn) (h3 : x.FirstChild "actuator" ael) (h4 : ael.Says "name" an) (h5 : ReductionElement x ael mel) (h6 : mel.text = some red) :
    ∃ a' j, s.Joint jn j ∧ s'.Motor an a' ∧ a'.position = (j.position - j.reference) * Parse.atof red ∧ a'.velocity = j.velocity * Parse.atof red ∧
      a'.measured = j.measured / Parse.atof red := by
  obtain ⟨jel', jn', ael', an', mel', red', uses, q, d1, d2, _, d3, d4, _, d5, d6, _, _, d7, d8, d9, d10, _⟩ := hd
  cases FirstChild.unique h1 d1
  cases Says.unique h2 d2
  cases FirstChild.unique h3 d3
  cases Says.unique h4 d4
  cases ReductionElement.unique h5 d5
  rw [h6] at d6; cases d6
  obtain ⟨b, as, js, r, hb, ha, hj, hp, hr⟩ := h.simulated hm hl hs ht
  rw [d7] at ha hr
  rw [d8] at hj
  rw [d9] at hb
  cases b with
  | simple q' =>
    obtain ⟨e1, _, _⟩ := hb
    cases ha with
    | cons ha ha' =>
    cases ha'
    cases hj with
    | cons hj hj' =>
    obtain ⟨⟨q2, as'⟩, hq, rfl⟩ := Option.map_eq_some_iff.1 hp
    cases hr with
    | cons hr hr' =>
    unfold SimpleT.propagatePositionBackwards at hq
    split at hq
    · rename_i e e' _
      cases hq; cases e; cases e'
      refine ⟨_, _, hj, hr, ?_, ?_, ?_⟩
      · unfold SimpleT.backward; dsimp only; rw [(simulate_keeps _ _ _).1]; simp [Actuator.stamped, e1, d10]
      · unfold SimpleT.backward; dsimp only; rw [(simulate_keeps _ _ _).2.1]; simp [Actuator.stamped, e1, d10]
      · unfold SimpleT.backward; dsimp only; rw [(simulate_keeps _ _ _).2.2]; simp [Actuator.stamped, e1, d10]
    · rename_i e e' _
      cases hq; cases e; cases e'
      refine ⟨_, _, hj, hr, ?_, ?_, ?_⟩
      · unfold SimpleT.backward; dsimp only; rw [(simulate_keeps _ _ _).1]; simp [Actuator.stamped, e1, d10]
      · unfold SimpleT.backward; dsimp only; rw [(simulate_keeps _ _ _).2.1]; simp [Actuator.stamped, e1, d10]
      · unfold SimpleT.backward; dsimp only; rw [(simulate_keeps _ _ _).2.2]; simp [Actuator.stamped, e1, d10]
    · cases hq
  | wrist _ => exact hb.elim
  | gripper _ => exact hb.elim
  | belt _ => exact hb.elim

/-- **C96.**  The simulated motors of a wrist turn by the difference and by minus the sum of what the simulated joints do, in the described reductions and offsets. -/
theorem C96_wrist_motor (h : Loaded l urdf root joint acts ts s0) (hm : (ts.flatMap (·.actNames)).Nodup) (hl : Later s0 s) {e : SimEnv}
    (hs : s.propagatePositionBackwards e = some s') (ht : t ∈ ts) {t0 : WristT F} (hd : Described (.wrist t0) x joint acts t) {rn ln fn on : String} {kr kl kf ko of oo : F}
    (h1 : WristMotor x "rightActuator" acts rn kr) (h2 : WristMotor x "leftActuator" acts ln kl) (h3 : WristAxis x "flexJoint" joint fn kf of)
    (h4 : WristAxis x "rollJoint" joint on ko oo) :
    ∃ ar al jf jo, s.Joint fn jf ∧ s.Joint on jo ∧ s'.Motor rn ar ∧ s'.Motor ln al ∧
      ar.position = ((jf.position - jf.reference - of) * kf - (jo.position - jo.reference - oo) * ko) * kr ∧
      al.position = (-(jf.position - jf.reference - of) * kf - (jo.position - jo.reference - oo) * ko) * kl ∧
      ar.velocity = (jf.velocity * kf - jo.velocity * ko) * kr ∧ al.velocity = (-jf.velocity * kf - jo.velocity * ko) * kl := by
  obtain ⟨rn', ln', fn', on', w, d1, d2, d3, d4, _, d5, d6, d7, _⟩ := hd
  obtain ⟨rfl, rfl⟩ := C95_wrist_reading.WristMotor_unique h1 d1
  obtain ⟨rfl, rfl⟩ := C95_wrist_reading.WristMotor_unique h2 d2
  obtain ⟨rfl, rfl, rfl⟩ := C95_wrist_reading.WristAxis_unique h3 d3
  obtain ⟨rfl, rfl, rfl⟩ := C95_wrist_reading.WristAxis_unique h4 d4
  obtain ⟨b, as, js, r, hb, ha, hj, hp, hr⟩ := h.simulated hm hl hs ht
  rw [d5] at ha hr
  rw [d6] at hj
  rw [d7] at hb
  cases b with
  | simple _ => exact hb.elim
  | wrist q' =>
    obtain ⟨e1, e2, e3, e4, e5, e6⟩ := hb
    cases ha with
    | cons ha1 ha =>
    cases ha with
    | cons ha2 ha =>
    cases ha
    cases hj with
    | cons hj1 hj =>
    cases hj with
    | cons hj2 hj =>
    cases hj
    cases hp
    cases hr with
    | cons hr1 hr =>
    cases hr with
    | cons hr2 hr =>
    refine ⟨_, _, _, _, hj1, hj2, hr1, hr2, ?_, ?_, ?_, ?_⟩
    · rw [(simulate_keeps _ _ _).1]; simp [Actuator.stamped, e1, e2, e3, e4, e5, e6]
    · rw [(simulate_keeps _ _ _).1]; simp [Actuator.stamped, e1, e2, e3, e4, e5, e6]
    · rw [(simulate_keeps _ _ _).2.1]; simp [Actuator.stamped, e1, e2, e3, e4, e5, e6]
    · rw [(simulate_keeps _ _ _).2.1]; simp [Actuator.stamped, e1, e2, e3, e4, e5, e6]
  | gripper _ => exact hb.elim
  | belt _ => exact hb.elim

end

/-! ## A concrete robot -/

/-- C96: the arm of C95, newly made, with flex and roll joints whose flags rise at 1: whatever has happened before, when the simulator propagates positions the flag of the
*left* motor shows the flex joint. -/
example [Parse ℝ] (c : CalSim ℝ) (hc : c = CalSim.fresh 0 0 0 0 false false) (n : String) (m r l : Actuator ℝ) (hm : m.name = "m") (hr : r.name = "r") (hl : l.name = "l") :
    ∃ s0 : RState ℝ, ∀ s : RState ℝ, Later s0 s → ∀ e, ∃ s', s.propagatePositionBackwards e = some s' ∧
      ∃ a' j, s'.Motor "l" a' ∧ s.Joint "flex" j ∧ (a'.calReading = true ↔ 1 < j.position - j.reference) := by
  let t : SimpleT ℝ := ⟨0, 0, false, ⟨false, 0⟩, c⟩
  let w : WristT ℝ := ⟨0, 0, 0, 0, lit 0, lit 0, ⟨false, 0⟩, c, c⟩
  let u : UJoint ℝ := ⟨n, .revolute, none, none, some ⟨some 1, none⟩⟩
  obtain ⟨s0, h0⟩ := arm_loaded t w u m r l hm hr hl rfl ⟨rfl, rfl⟩
  refine ⟨s0, fun s hs e => ?_⟩
  have hnd : ["m", "r", "l"].Nodup := by decide
  obtain ⟨s', hp⟩ := C96_succeeds h0 hnd (by simp [Body.SimReady]) hs e
  refine ⟨s', hp, ?_⟩
  obtain ⟨w1, w2, w3, w4, hd⟩ := arm_wrist_described w u m r l hr hl
  obtain ⟨le, _, l1, l2, _⟩ := w2
  obtain ⟨fe, _, f1, f2, _⟩ := w3
  have hnew : ∀ k ty b, (armLoader t w).create k ty = some b → b.NewSensors := by
    intro k ty b hb
    have hb : (if ty = "pr2_simple" then some (Body.simple t) else if ty = "pr2_wrist" then some (.wrist w) else none) = some b := hb
    have hsens : ∀ (b : Body ℝ), (b = .simple t ∨ b = .wrist w) → b.NewSensors := by
      rintro b (rfl | rfl) m i c' hc'
      · rcases m with _ | m <;> rcases i with _ | i <;> try (cases hc'; done)
        cases hc'; exact ⟨_, _, _, _, _, _, hc⟩
      · rcases m with _ | _ | m <;> rcases i with _ | _ | i <;> try (cases hc'; done)
        · cases hc'; exact ⟨_, _, _, _, _, _, hc⟩
        · cases hc'; exact ⟨_, _, _, _, _, _, hc⟩
    split at hb
    · cases hb; exact hsens _ (Or.inl rfl)
    · split at hb
      · cases hb; exact hsens _ (Or.inr rfl)
      · cases hb
  obtain ⟨a, a', j, _, h2, h3, h4, h5⟩ := C96_sensor h0 (an := "l") (jn := "flex") hnew hnd (by simp) hd
    (Or.inl ⟨⟨le, l1, l2⟩, fe, f1, f2⟩) hs hp
  refine ⟨a', j, h2, h3, ?_⟩
  have e : j.joint = u := (Option.some.inj h4).symm
  rw [e] at h5
  exact h5.rising (by intro h; cases h) 1 none rfl

end Pr2
