import Verif.Props.Describes
import Verif.Props.SimRobot
import Verif.Props.Cycle

/-!
# C95: from the description to the joints and motors

The robot's loader, the construction of its state, the sweeps over the transmissions and the formulas of the transmissions together: what a joint reads and what a motor is
sent, in terms of the names and numbers in the robot description.
-/

namespace Pr2
open Init FLit FTrig
set_option linter.unusedSectionVars false

section
variable {F : Type} [FCmp F] [Zero F] [Add F] [Sub F] [Mul F] [iDiv : Div F] [Neg F] [FLit F] [iTrig : FTrig F] [Parse F]

/-! ## Specification -/

/-- The joint state that `getJointState(n)` returns has these values. -/
def RState.Joint (s : RState F) (n : String) (j : JState F) : Prop := ∃ i, s.getJointState n = some i ∧ s.joints[i]? = some j
/-- The first motor of this name has these values. -/
def RState.Motor (s : RState F) (n : String) (a : Actuator F) : Prop := ∃ pre post, s.acts = pre ++ a :: post ∧ a.name = n ∧ ∀ b ∈ pre, b.name ≠ n

/-- States the robot can get into from `s0`: after any sweeps, forwards or backwards, and any changes of values by hardware, controllers and the manager - but not of
the names of motors, the joints' descriptions and the wiring. -/
inductive Later (s0 : RState F) : RState F → Prop
  | start : Later s0 s0
  | position {s s' : RState F} : Later s0 s → s.propagatePosition = some s' → Later s0 s'
  | effort {s s' : RState F} : Later s0 s → s.propagateEffort = some s' → Later s0 s'
  | positionBackwards {s s' : RState F} (e : SimEnv) : Later s0 s → s.propagatePositionBackwards e = some s' → Later s0 s'
  | effortBackwards {s s' : RState F} : Later s0 s → s.propagateEffortBackwards = some s' → Later s0 s'
  | touch {s s' : RState F} : Later s0 s → s'.conns = s.conns → s'.jmap = s.jmap → List.Forall₂ (fun j j' => j'.joint = j.joint) s.joints s'.joints →
      List.Forall₂ (fun a a' => a'.name = a.name) s.acts s'.acts → Later s0 s'

/-- A robot loaded from a description: `ts` are its transmissions, `s0` its first state.  No joint belongs to two transmissions. -/
structure Loaded (l : TransLoader F) (urdf : Xml → Option (String → Option (UJoint F))) (root : Xml) (joint : String → Option (UJoint F)) (acts : List (Actuator F))
    (ts : List (Trans F)) (s0 : RState F) : Prop where
  load : ∃ hw acts' old, Robot.initXml hw urdf l root acts = (acts', .ok ts) ∧ RState.mk' ts joint acts' old = some s0
  urdf : urdf root = some joint
  well : l.WellDescribed (root.childrenTagged "transmission")
  joints : (ts.flatMap (·.jointNames)).Nodup

/-! ## Constants -/

/-- The constants of a transmission, which no sweep changes. -/
def Body.SameConst : Body F → Body F → Prop
  | .simple t, .simple t' => t'.reduction = t.reduction ∧ t'.simReduction = t.simReduction ∧ t'.useSim = t.useSim
  | .wrist t, .wrist t' => t'.ar0 = t.ar0 ∧ t'.ar1 = t.ar1 ∧ t'.jr0 = t.jr0 ∧ t'.jr1 = t.jr1 ∧ t'.off0 = t.off0 ∧ t'.off1 = t.off1
  | .gripper t, .gripper t' => ∃ c k, t' = { t with clock := c, cal := k }
  | .belt t, .belt t' => t'.p = t.p
  | _, _ => False

theorem SameConst.refl (b : Body F) : b.SameConst b := by
  cases b with
  | simple t => exact ⟨rfl, rfl, rfl⟩
  | wrist t => exact ⟨rfl, rfl, rfl, rfl, rfl, rfl⟩
  | gripper t => exact ⟨t.clock, t.cal, rfl⟩
  | belt t => exact rfl

theorem SameConst.trans {a b c : Body F} (h : a.SameConst b) (k : b.SameConst c) : a.SameConst c := by
  cases a <;> cases b <;> cases c <;> try (first | exact h.elim | exact k.elim)
  · exact ⟨k.1.trans h.1, k.2.1.trans h.2.1, k.2.2.trans h.2.2⟩
  · obtain ⟨h1, h2, h3, h4, h5, h6⟩ := h
    obtain ⟨k1, k2, k3, k4, k5, k6⟩ := k
    exact ⟨k1.trans h1, k2.trans h2, k3.trans h3, k4.trans h4, k5.trans h5, k6.trans h6⟩
  · obtain ⟨_, _, rfl⟩ := h
    obtain ⟨c, k, rfl⟩ := k
    exact ⟨c, k, rfl⟩
  · exact Eq.trans k h

theorem position_const {b : Body F} {as : List (Actuator F)} {js : List (JState F)} {r} (h : b.propagatePosition as js = some r) : b.SameConst r.1 := by
  cases b with
  | simple t => obtain ⟨_, _, rfl⟩ := Option.map_eq_some_iff.1 h; exact SameConst.refl _
  | wrist t => obtain ⟨_, _, rfl⟩ := Option.map_eq_some_iff.1 h; exact SameConst.refl _
  | gripper t => obtain ⟨_, _, rfl⟩ := Option.map_eq_some_iff.1 h; exact SameConst.refl _
  | belt t =>
    obtain ⟨_, hj, rfl⟩ := Option.map_eq_some_iff.1 h
    unfold BeltT.propagatePosition at hj
    split at hj
    · cases hj; exact rfl
    · cases hj

theorem effort_const {b : Body F} {as : List (Actuator F)} {js : List (JState F)} {r} (h : b.propagateEffort as js = some r) : b.SameConst r.1 := by
  cases b with
  | simple t => obtain ⟨_, _, rfl⟩ := Option.map_eq_some_iff.1 h; exact SameConst.refl _
  | wrist t => obtain ⟨_, _, rfl⟩ := Option.map_eq_some_iff.1 h; exact SameConst.refl _
  | gripper t => obtain ⟨_, _, rfl⟩ := Option.map_eq_some_iff.1 h; exact SameConst.refl _
  | belt t =>
    obtain ⟨_, hj, rfl⟩ := Option.map_eq_some_iff.1 h
    unfold BeltT.propagateEffort at hj
    split at hj
    · cases hj; exact rfl
    · cases hj

theorem positionBackwards_const {e : SimEnv} {b : Body F} {as : List (Actuator F)} {js : List (JState F)} {r} (h : b.propagatePositionBackwards e as js = some r) :
    b.SameConst r.1 := by
  cases b with
  | simple t =>
    obtain ⟨_, hj, rfl⟩ := Option.map_eq_some_iff.1 h
    unfold SimpleT.propagatePositionBackwards at hj
    split at hj
    · cases hj; exact ⟨rfl, rfl, rfl⟩
    · cases hj; exact ⟨rfl, rfl, rfl⟩
    · cases hj
  | wrist t =>
    obtain ⟨_, hj, rfl⟩ := Option.map_eq_some_iff.1 h
    unfold WristT.propagatePositionBackwards at hj
    split at hj
    · cases hj; exact ⟨rfl, rfl, rfl, rfl, rfl, rfl⟩
    · cases hj
  | gripper t =>
    obtain ⟨_, hj, rfl⟩ := Option.map_eq_some_iff.1 h
    unfold GripperT.propagatePositionBackwards at hj
    split at hj
    · rename_i a j rest
      by_cases hl : rest.length = (if t.hasPassive then t.passive.length + 2 else 0)
      · rw [if_pos hl] at hj; cases hj; exact ⟨_, _, rfl⟩
      · rw [if_neg hl] at hj; cases hj
    · cases hj
  | belt t =>
    obtain ⟨_, hj, rfl⟩ := Option.map_eq_some_iff.1 h
    unfold BeltT.propagatePositionBackwards at hj
    split at hj
    · cases hj; exact rfl
    · cases hj

theorem effortBackwards_const {b : Body F} {as : List (Actuator F)} {js : List (JState F)} {r} (h : b.propagateEffortBackwards as js = some r) : b.SameConst r.1 := by
  cases b with
  | simple t => obtain ⟨_, _, rfl⟩ := Option.map_eq_some_iff.1 h; exact SameConst.refl _
  | wrist t => obtain ⟨_, _, rfl⟩ := Option.map_eq_some_iff.1 h; exact SameConst.refl _
  | gripper t => obtain ⟨_, _, rfl⟩ := Option.map_eq_some_iff.1 h; exact SameConst.refl _
  | belt t =>
    obtain ⟨_, hj, rfl⟩ := Option.map_eq_some_iff.1 h
    unfold BeltT.propagateEffortBackwards at hj
    split at hj
    · cases hj; exact rfl
    · cases hj

/-- The same robot, with the same constants. -/
def SameRobotC (s s' : RState F) : Prop := SameRobot s s' ∧ List.Forall₂ (fun c c' => c.trans.body.SameConst c'.trans.body) s.conns s'.conns

theorem sweep_const {s s' : RState F} {f : Prop' F} (hf : ∀ b as js r, f b as js = some r → b.SameConst r.1) (h : s.sweep f = some s') :
    List.Forall₂ (fun c c' => c.trans.body.SameConst c'.trans.body) s.conns s'.conns := by
  unfold RState.sweep at h
  rcases hsw : Pr2.sweep f s.conns s.acts s.joints with _ | ⟨cs, as, js⟩
  · rw [hsw] at h; cases h
  rw [hsw] at h; cases h
  refine (sweep_bodies f _ _ _ hsw).imp ?_
  rintro c c' ⟨as, js, r, h1, rfl⟩
  exact hf _ _ _ _ h1

theorem Later.same {s0 s : RState F} (hr : s0.Ready) (h : Later s0 s) : SameRobotC s0 s := by
  have tr : ∀ {s s' : RState F}, SameRobotC s0 s → SameRobot s s' → List.Forall₂ (fun c c' => c.trans.body.SameConst c'.trans.body) s.conns s'.conns → SameRobotC s0 s' :=
    fun h1 h2 h3 => ⟨h1.1.trans h2, forall2_trans' (R := fun c c' : Conn F => c.trans.body.SameConst c'.trans.body) (fun _ _ _ a b => SameConst.trans a b) h1.2 h3⟩
  induction h with
  | start => exact ⟨SameRobot.refl _, List.forall₂_same.2 (fun c _ => SameConst.refl _)⟩
  | @position s s' _ hs ih =>
    refine tr ih (SameRobot.position (ih.1.ready hr) hs) ?_
    unfold RState.propagatePosition at hs
    rcases hsw : s.sweep Body.propagatePosition with _ | s1
    · rw [hsw] at hs; cases hs
    rw [hsw] at hs; cases hs
    exact sweep_const (s' := s1) (fun _ _ _ _ h => position_const h) hsw
  | @effort s s' _ hs ih => exact tr ih (SameRobot.effort (ih.1.ready hr) hs) (sweep_const (fun _ _ _ _ h => effort_const h) hs)
  | @positionBackwards s s' e _ hs ih =>
    refine tr ih (SameRobot.of_sweep (ih.1.ready hr) (Body.propagatePositionBackwards e) (fun b as js r hr => (positionBackwards_frame hr).2.2)
      (fun b as js r hr => (positionBackwards_frame hr).2.1.imp (fun _ _ h => h.1))
      (fun b as js r hr => by rw [(positionBackwards_frame hr).1]; exact List.forall₂_same.2 (fun _ _ => rfl)) hs) (sweep_const (fun _ _ _ _ h => positionBackwards_const h) hs)
  | @effortBackwards s s' _ hs ih =>
    refine tr ih (SameRobot.of_sweep (ih.1.ready hr) Body.propagateEffortBackwards (fun b as js r hr => (effortBackwards_frame hr).2.2)
      (fun b as js r hr => by rw [(effortBackwards_frame hr).1]; exact List.forall₂_same.2 (fun _ _ => rfl))
      (fun b as js r hr => (effortBackwards_frame hr).2.1.imp (fun _ _ ⟨c, h⟩ => by rw [h])) hs) (sweep_const (fun _ _ _ _ h => effortBackwards_const h) hs)
  | @touch s s' _ hc hm hj ha ih =>
    refine tr ih ⟨?_, hm, hj, ha⟩ ?_
    · rw [hc]; exact List.forall₂_same.2 (fun c _ => ⟨c.trans.body, rfl, fun _ _ => Iff.rfl⟩)
    · rw [hc]; exact List.forall₂_same.2 (fun c _ => SameConst.refl _)

/-! ## Names -/

omit [FCmp F] [Zero F] [Add F] [Sub F] [Mul F] iDiv [Neg F] [FLit F] iTrig [Parse F] in
theorem motor_of_findIdx {s : RState F} {n : String} {i : Nat} {a : Actuator F} (h : s.acts.findIdx? (fun a => a.name == n) = some i) (ha : s.acts[i]? = some a) : s.Motor n a := by
  obtain ⟨hi, h1, h2⟩ := List.findIdx?_eq_some_iff_getElem.1 h
  rw [List.getElem?_eq_getElem hi] at ha
  cases ha
  refine ⟨s.acts.take i, s.acts.drop (i + 1), ?_, by simpa using h1, ?_⟩
  · rw [List.getElem_cons_drop, List.take_append_drop]
  · intro b hb
    obtain ⟨k, hk, rfl⟩ := List.getElem_of_mem hb
    rw [List.length_take] at hk
    have := h2 k (by omega)
    simpa using this

omit [FCmp F] [Zero F] [Add F] [Sub F] [Mul F] iDiv [Neg F] [FLit F] iTrig [Parse F] in
theorem gather_rel {α γ : Type} (l : List α) (R : γ → Nat → Prop) (ns : List γ) (is : List Nat) (h : List.Forall₂ R ns is) (hi : ∀ i ∈ is, i < l.length) :
    List.Forall₂ (fun n a => ∃ i, R n i ∧ l[i]? = some a) ns (gather l is) := by
  induction h with
  | nil => exact .nil
  | @cons n i ns is hn _ ih =>
    have := hi i (by simp)
    rw [gather_cons l i is this]
    exact .cons ⟨i, hn, List.getElem?_eq_getElem this⟩ (ih (fun i h => hi i (by simp [h])))

/-- The wiring of a loaded robot in any later state: the k-th transmission's motors and joints by name. -/
theorem Loaded.connAt {l : TransLoader F} {urdf : Xml → Option (String → Option (UJoint F))} {root : Xml} {joint : String → Option (UJoint F)} {acts : List (Actuator F)}
    {ts : List (Trans F)} {s0 s : RState F} (h : Loaded l urdf root joint acts ts s0) (hl : Later s0 s) {t : Trans F} {k : Nat} (hk : ts[k]? = some t) :
    s.Ready ∧ ∃ c : Conn F, s.conns[k]? = some c ∧ t.body.SameConst c.trans.body ∧
      List.Forall₂ (fun n i => s.acts.findIdx? (fun a => a.name == n) = some i) t.actNames c.ins ∧
      List.Forall₂ (fun n i => s.getJointState n = some i) t.jointNames c.outs ∧
      ∀ n ∈ t.jointNames, ∀ j, s.Joint n j → joint n = some j.joint := by
  obtain ⟨⟨hw, acts', old, hload, hmk⟩, hu, hwell, hnd⟩ := h
  have hr0 : s0.Ready := C67_ready l urdf root acts acts' hw ts hload old (by rw [all_eq]; exact hwell) joint s0 hu hmk
  have hs := hl.same hr0
  have hr := hs.1.ready hr0
  refine ⟨hr, ?_⟩
  obtain ⟨c0, hc0, hct, _, hout, _⟩ := C50_wiring hmk k t hk
  have hlen : s0.conns.length = s.conns.length := List.Forall₂.length_eq hs.1.conns
  have hk0 : k < s0.conns.length := by by_contra hh; rw [List.getElem?_eq_none (by omega)] at hc0; cases hc0
  have hc : s.conns[k]? = some s.conns[k] := List.getElem?_eq_getElem (by omega)
  have e0 : s0.conns[k] = c0 := by rw [List.getElem?_eq_getElem hk0] at hc0; exact Option.some.inj hc0
  have f1 := (List.forall₂_iff_get.1 hs.1.conns).2 k hk0 (by omega)
  have f2 := (List.forall₂_iff_get.1 hs.2).2 k hk0 (by omega)
  simp only [List.get_eq_getElem] at f1 f2
  rw [e0] at f1 f2
  obtain ⟨b, hb, _⟩ := f1
  refine ⟨s.conns[k], hc, by rw [← hct]; exact f2, ?_, ?_, ?_⟩
  · have := hr.named s.conns[k] (List.getElem_mem _)
    rw [hb] at this ⊢
    rw [← hct]
    exact this
  · rw [hb]
    dsimp only
    rw [hout, List.forall₂_iff_get]
    refine ⟨by simp, fun p h1 h2 => ?_⟩
    have hget : s.getJointState (t.jointNames.get ⟨p, h1⟩) = s0.getJointState (t.jointNames.get ⟨p, h1⟩) := by unfold RState.getJointState; rw [hs.1.jmap]
    rw [hget]
    simp only [List.get_eq_getElem, List.getElem_range', Nat.one_mul]
    rw [C50_lookup hmk]
    have hpos : (ts.flatMap (·.jointNames))[((ts.take k).flatMap (·.jointNames)).length + p]? = some t.jointNames[p] := by
      have hts : ts = ts.take k ++ t :: ts.drop (k + 1) := by
        obtain ⟨hkl, rfl⟩ := List.getElem?_eq_some_iff.1 hk
        rw [List.getElem_cons_drop, List.take_append_drop]
      have e : ts.flatMap (·.jointNames) = (ts.take k).flatMap (·.jointNames) ++ (t.jointNames ++ (ts.drop (k + 1)).flatMap (·.jointNames)) := by
        conv_lhs => rw [hts]
        rw [List.flatMap_append, List.flatMap_cons]
      rw [e, List.getElem?_append_right (by omega), Nat.add_sub_cancel_left, List.getElem?_append_left h1, List.getElem?_eq_getElem h1]
    refine ⟨hpos, fun q hq hq' => ?_⟩
    have := List.nodup_iff_getElem?_ne_getElem?.1 hnd _ q hq (by by_contra hh; rw [List.getElem?_eq_none (by omega)] at hq'; cases hq')
    rw [hpos, hq'] at this
    exact this rfl
  · rintro n hn j ⟨i, hi, hj⟩
    have hi0 : s0.getJointState n = some i := by unfold RState.getJointState at hi ⊢; rw [← hs.1.jmap]; exact hi
    have hi0 := ((C50_lookup hmk n i).1 hi0).1
    have hjs := List.forall₂_iff_get.1 (C50_joint_states hmk)
    obtain ⟨hil, hin⟩ := List.getElem?_eq_some_iff.1 hi0
    have hjl : i < s0.joints.length := by rw [← hjs.1]; exact hil
    have := (hjs.2 i hil hjl).1
    simp only [List.get_eq_getElem] at this
    rw [hin] at this
    have hjl' : i < s.joints.length := by rw [← List.Forall₂.length_eq hs.1.joints]; exact hjl
    have e := (List.forall₂_iff_get.1 hs.1.joints).2 i hjl hjl'
    simp only [List.get_eq_getElem] at e
    rw [List.getElem?_eq_getElem hjl'] at hj
    cases hj
    rw [e]; exact this

/-- The same for any transmission. -/
theorem Loaded.conn {l : TransLoader F} {urdf : Xml → Option (String → Option (UJoint F))} {root : Xml} {joint : String → Option (UJoint F)} {acts : List (Actuator F)}
    {ts : List (Trans F)} {s0 s : RState F} (h : Loaded l urdf root joint acts ts s0) (hl : Later s0 s) {t : Trans F} (ht : t ∈ ts) :
    s.Ready ∧ ∃ (k : Nat) (c : Conn F), s.conns[k]? = some c ∧ t.body.SameConst c.trans.body ∧
      List.Forall₂ (fun n i => s.acts.findIdx? (fun a => a.name == n) = some i) t.actNames c.ins ∧
      List.Forall₂ (fun n i => s.getJointState n = some i) t.jointNames c.outs ∧
      ∀ n ∈ t.jointNames, ∀ j, s.Joint n j → joint n = some j.joint := by
  obtain ⟨k, hk⟩ := List.mem_iff_getElem?.1 ht
  obtain ⟨h1, c, h2⟩ := h.connAt hl hk
  exact ⟨h1, k, c, h2⟩

/-- Any transmission of a loaded robot, when positions are propagated: it computes its joints, by name, from its motors, by name. -/
theorem Loaded.reading {l : TransLoader F} {urdf : Xml → Option (String → Option (UJoint F))} {root : Xml} {joint : String → Option (UJoint F)} {acts : List (Actuator F)}
    {ts : List (Trans F)} {s0 s s' : RState F} (h : Loaded l urdf root joint acts ts s0) (hl : Later s0 s) (hs : s.propagatePosition = some s') {t : Trans F} (ht : t ∈ ts) :
    ∃ b as js r, t.body.SameConst b ∧ List.Forall₂ s.Motor t.actNames as ∧ List.Forall₂ (fun n j => joint n = some j.joint ∧ s.Joint n j) t.jointNames js ∧
      b.propagatePosition as js = some r ∧ List.Forall₂ (fun n j => ∃ st, s'.Joint n { j with stats := st }) t.jointNames r.2.2 := by
  obtain ⟨hr, k, c, hc, hb, hin, hout, hj⟩ := h.conn hl ht
  obtain ⟨_, r, h1, h2⟩ := C66_position_local s s' hr hs k c hc
  have hcm := List.mem_of_getElem? hc
  have hmem := fun i hi => hr.wired.outs c hcm i hi
  have g1 := gather_rel s.acts _ _ _ hin (hr.wired.ins c hcm)
  have g2 := gather_rel s.joints _ _ _ hout hmem
  have sr := SameRobot.position hr hs
  have g3 := gather_rel s'.joints _ _ _ hout (by rw [← List.Forall₂.length_eq sr.joints]; exact hmem)
  refine ⟨c.trans.body, _, _, r, hb, g1.imp ?_, ?_, h1, ?_⟩
  · rintro n a ⟨i, hi, ha⟩
    exact motor_of_findIdx hi ha
  · have := (List.forall₂_and_left (p := fun n => n ∈ t.jointNames) _ _).2 ⟨fun n hn => hn, g2⟩
    refine this.imp ?_
    rintro n j ⟨hn, i, hi, hij⟩
    exact ⟨hj n hn j ⟨i, hi, hij⟩, i, hi, hij⟩
  · rw [h2, List.forall₂_map_right_iff] at g3
    refine g3.imp ?_
    rintro n j ⟨i, hi, hij⟩
    refine ⟨_, i, ?_, hij⟩
    unfold RState.getJointState at hi ⊢
    rw [sr.jmap]; exact hi

/-- If no motor belongs to two transmissions, no motor is wired to two. -/
theorem Loaded.unshared {l : TransLoader F} {urdf : Xml → Option (String → Option (UJoint F))} {root : Xml} {joint : String → Option (UJoint F)} {acts : List (Actuator F)}
    {ts : List (Trans F)} {s0 s : RState F} (h : Loaded l urdf root joint acts ts s0) (hm : (ts.flatMap (·.actNames)).Nodup) (hl : Later s0 s) : Unshared s.conns := by
  obtain ⟨⟨hw, acts', old, hload, hmk⟩, hu, hwell, hnd⟩ := h
  have hr0 : s0.Ready := C67_ready l urdf root acts acts' hw ts hload old (by rw [all_eq]; exact hwell) joint s0 hu hmk
  refine (hl.same hr0).1.unshared ?_
  obtain ⟨js, hwire, _⟩ := mk'_inv hmk
  obtain ⟨w1, _, _, _⟩ := wire_spec hwire
  have : List.Forall₂ (fun n i => s0.acts.findIdx? (fun a => a.name == n) = some i) (ts.flatMap (·.actNames)) (s0.conns.flatMap (·.ins)) := by
    rw [← w1, List.flatMap_map]
    have hn := hr0.named
    generalize s0.conns = cs at hn
    induction cs with
    | nil => exact .nil
    | cons c cs ih =>
      rw [List.flatMap_cons, List.flatMap_cons]
      exact List.rel_append (hn c (by simp)) (ih (fun c hc => hn c (by simp [hc])))
  unfold Unshared
  have hmap : (s0.conns.flatMap (·.ins)).map (fun i => (s0.acts[i]?).map (·.name)) = (ts.flatMap (·.actNames)).map some := by
    generalize ts.flatMap (·.actNames) = ns at this
    generalize s0.conns.flatMap (·.ins) = is at this
    induction this with
    | nil => rfl
    | @cons n i ns is hi _ ih =>
      rw [List.map_cons, List.map_cons, ih]
      obtain ⟨h1, h2, _⟩ := List.findIdx?_eq_some_iff_getElem.1 hi
      rw [List.getElem?_eq_getElem h1]
      simp at h2
      simp [h2]
  refine List.Nodup.of_map (fun i => (s0.acts[i]?).map (·.name)) ?_
  rw [hmap]
  exact hm.map (Option.some_injective _)

/-- Any transmission of a loaded robot, when efforts are propagated, if no motor belongs to two transmissions. -/
theorem Loaded.command {l : TransLoader F} {urdf : Xml → Option (String → Option (UJoint F))} {root : Xml} {joint : String → Option (UJoint F)} {acts : List (Actuator F)}
    {ts : List (Trans F)} {s0 s s' : RState F} (h : Loaded l urdf root joint acts ts s0) (hm : (ts.flatMap (·.actNames)).Nodup) (hl : Later s0 s)
    (hs : s.propagateEffort = some s') {t : Trans F} (ht : t ∈ ts) :
    ∃ b as js r, t.body.SameConst b ∧ List.Forall₂ s.Motor t.actNames as ∧ List.Forall₂ s.Joint t.jointNames js ∧
      b.propagateEffort as js = some r ∧ List.Forall₂ s'.Motor t.actNames r.2.1 := by
  obtain ⟨hr, k, c, hc, hb, hin, hout, hj⟩ := h.conn hl ht
  have hu : Unshared s.conns := h.unshared hm hl
  obtain ⟨_, r, h1, h2⟩ := C66_effort_local s s' hr hu hs k c hc
  have hcm := List.mem_of_getElem? hc
  have sr := SameRobot.effort hr hs
  have g1 := gather_rel s.acts _ _ _ hin (hr.wired.ins c hcm)
  have g2 := gather_rel s.joints _ _ _ hout (hr.wired.outs c hcm)
  have hin' : List.Forall₂ (fun n i => s'.acts.findIdx? (fun a => a.name == n) = some i) t.actNames c.ins := by
    refine hin.imp (fun n i hi => ?_)
    rw [← hi]
    exact findIdx_names _ _ _ (map_name sr.acts)
  have g3 := gather_rel s'.acts _ _ _ hin' (by rw [← List.Forall₂.length_eq sr.acts]; exact hr.wired.ins c hcm)
  refine ⟨c.trans.body, _, _, r, hb, g1.imp ?_, g2.imp ?_, h1, ?_⟩
  · rintro n a ⟨i, hi, ha⟩
    exact motor_of_findIdx hi ha
  · rintro n j ⟨i, hi, hij⟩
    exact ⟨i, hi, hij⟩
  · rw [h2] at g3
    refine g3.imp ?_
    rintro n a ⟨i, hi, ha⟩
    exact motor_of_findIdx hi ha

/-- **C95.**  Every transmission of a loaded robot is described by one of its elements, so that the theorems below apply; and in every later state both sweeps succeed. -/
theorem C95_described {l : TransLoader F} {urdf : Xml → Option (String → Option (UJoint F))} {root : Xml} {joint : String → Option (UJoint F)} {acts : List (Actuator F)}
    {ts : List (Trans F)} {s0 s : RState F} (h : Loaded l urdf root joint acts ts s0) (hl : Later s0 s) :
    (∀ t ∈ ts, ∃ x ∈ root.childrenTagged "transmission", ∃ b, Described b x joint acts t) ∧ (∃ s', s.propagatePosition = some s') ∧ ∃ s', s.propagateEffort = some s' := by
  obtain ⟨⟨hw, acts', old, hload, hmk⟩, hu, hwell, hnd⟩ := h
  have hr0 : s0.Ready := C67_ready l urdf root acts acts' hw ts hload old (by rw [all_eq]; exact hwell) joint s0 hu hmk
  have hr := (hl.same hr0).1.ready hr0
  refine ⟨?_, (C67_position_never_aborts s hr).imp (fun _ h => h.1), (C67_effort_never_aborts s hr).imp (fun _ h => h.1)⟩
  intro t ht
  obtain ⟨joint', hu', results, hlen, rfl, hres⟩ := C94_robot l urdf root acts hw ts (by rw [hload])
  rw [hu] at hu'; cases hu'
  obtain ⟨o, ho, e⟩ := List.mem_filterMap.1 ht
  obtain ⟨k, hk⟩ := List.mem_iff_getElem?.1 ho
  have hkl : k < (root.childrenTagged "transmission").length := by
    rw [← hlen]; by_contra hh; rw [List.getElem?_eq_none (by omega)] at hk; cases hk
  obtain ⟨ty, cls, b, _, _, _, _, hd⟩ := (hres k _ (List.getElem?_eq_getElem hkl) t).1 (by rw [hk]; exact congrArg some e)
  exact ⟨_, List.getElem_mem hkl, b, hd⟩

/-! ## Uniqueness -/

omit [FCmp F] [Zero F] [Add F] [Sub F] [Mul F] iDiv [Neg F] [FLit F] iTrig [Parse F] in
theorem Says.unique {e : Xml} {n v w : String} (h : e.Says n v) (k : e.Says n w) : v = w := by
  rw [← attr_some] at h k
  rw [h] at k; exact Option.some.inj k
theorem FirstChild.unique {e : Xml} {n : String} {x y : Xml} (h : e.FirstChild n x) (k : e.FirstChild n y) : x = y := by
  rw [← first_some] at h k
  rw [h] at k; exact Option.some.inj k

/-- The element that gives a simple transmission's reduction: in the motor's element, else in the transmission's. -/
def ReductionElement (x ael mel : Xml) : Prop :=
  ael.FirstChild "mechanicalReduction" mel ∨ (ael.NoChild "mechanicalReduction" ∧ x.FirstChild "mechanicalReduction" mel)

theorem ReductionElement.unique {x ael m m' : Xml} (h : ReductionElement x ael m) (k : ReductionElement x ael m') : m = m' := by
  unfold ReductionElement at h k
  simp only [← first_some, ← first_none] at h k
  rcases h with h | ⟨h, h'⟩ <;> rcases k with k | ⟨k, k'⟩
  · rw [h] at k; exact Option.some.inj k
  · rw [h] at k; cases k
  · rw [h] at k; cases k
  · rw [h'] at k'; exact Option.some.inj k'

/-! ## C95: simple transmissions -/

section
variable {l : TransLoader F} {urdf : Xml → Option (String → Option (UJoint F))} {root : Xml} {joint : String → Option (UJoint F)} {acts : List (Actuator F)}
  {ts : List (Trans F)} {s0 s s' : RState F} {t : Trans F} {x : Xml}

/-- **C95.**  A joint moved by a simple transmission reads the position of its motor divided by the described reduction, plus the joint's reference position; velocity and
measured effort accordingly. -/
theorem C95_simple_reading (h : Loaded l urdf root joint acts ts s0) (hl : Later s0 s) (hs : s.propagatePosition = some s') (ht : t ∈ ts) {t0 : SimpleT F}
    (hd : Described (.simple t0) x joint acts t) {jel ael mel : Xml} {jn an red : String} (h1 : x.FirstChild "joint" jel) (h2 : jel.Says "name" jn)
    (h3 : x.FirstChild "actuator" ael) (h4 : ael.Says "name" an) (h5 : ReductionElement x ael mel) (h6 : mel.text = some red) :
    ∃ a j j', s.Motor an a ∧ s.Joint jn j ∧ s'.Joint jn j' ∧ joint jn = some j'.joint ∧ j'.position = a.position / Parse.atof red + j.reference ∧
      j'.velocity = a.velocity / Parse.atof red ∧ j'.measured = a.measured * Parse.atof red := by
  obtain ⟨jel', jn', ael', an', mel', red', uses, q, d1, d2, _, d3, d4, _, d5, d6, _, _, d7, d8, d9, d10, _⟩ := hd
  cases FirstChild.unique h1 d1
  cases Says.unique h2 d2
  cases FirstChild.unique h3 d3
  cases Says.unique h4 d4
  cases ReductionElement.unique h5 d5
  rw [h6] at d6; cases d6
  obtain ⟨b, as, js, r, hb, ha, hj, hp, hr⟩ := h.reading hl hs ht
  rw [d7] at ha
  rw [d8] at hj hr
  rw [d9] at hb
  cases b with
  | simple q' =>
    obtain ⟨e1, _, _⟩ := hb
    cases ha with
    | cons ha ha' =>
    cases ha'
    cases hj with
    | cons hj hj' =>
    obtain ⟨js', hq, rfl⟩ := Option.map_eq_some_iff.1 hp
    unfold SimpleT.propagatePosition at hq
    split at hq
    · rename_i e e' _
      cases hq; cases e; cases e'
      cases hr with
      | cons hr _ =>
      obtain ⟨st, hr⟩ := hr
      refine ⟨_, _, _, ha, hj.2, hr, hj.1, ?_, ?_, ?_⟩ <;> simp [SimpleT.forward, e1, d10]
    · rename_i e e' _
      cases hq; cases e; cases e'
      cases hr with
      | cons hr _ =>
      obtain ⟨st, hr⟩ := hr
      refine ⟨_, _, _, ha, hj.2, hr, hj.1, ?_, ?_, ?_⟩ <;> simp [SimpleT.forward, e1, d10]
    · cases hq
  | wrist _ => exact hb.elim
  | gripper _ => exact hb.elim
  | belt _ => exact hb.elim

/-- **C95.**  The motor of a simple transmission is enabled and sent the joint's commanded effort divided by the described reduction. -/
theorem C95_simple_command (h : Loaded l urdf root joint acts ts s0) (hm : (ts.flatMap (·.actNames)).Nodup) (hl : Later s0 s) (hs : s.propagateEffort = some s') (ht : t ∈ ts)
    {t0 : SimpleT F} (hd : Described (.simple t0) x joint acts t) {jel ael mel : Xml} {jn an red : String} (h1 : x.FirstChild "joint" jel) (h2 : jel.Says "name" jn)
    (h3 : x.FirstChild "actuator" ael) (h4 : ael.Says "name" an) (h5 : ReductionElement x ael mel) (h6 : mel.text = some red) :
    ∃ a' j, s.Joint jn j ∧ s'.Motor an a' ∧ a'.enable = true ∧ a'.effort = j.commanded / Parse.atof red := by
  obtain ⟨jel', jn', ael', an', mel', red', uses, q, d1, d2, _, d3, d4, _, d5, d6, _, _, d7, d8, d9, d10, _⟩ := hd
  cases FirstChild.unique h1 d1
  cases Says.unique h2 d2
  cases FirstChild.unique h3 d3
  cases Says.unique h4 d4
  cases ReductionElement.unique h5 d5
  rw [h6] at d6; cases d6
  obtain ⟨b, as, js, r, hb, ha, hj, hp, hr⟩ := h.command hm hl hs ht
  rw [d7] at ha hr
  rw [d8] at hj
  rw [d9] at hb
  cases b with
  | simple q' =>
    obtain ⟨e1, _, _⟩ := hb
    cases hj with
    | cons hj hj' =>
    obtain ⟨as', hq, rfl⟩ := Option.map_eq_some_iff.1 hp
    unfold SimpleT.propagateEffort at hq
    split at hq
    · rename_i e _
      cases hq; cases e
      cases hr with
      | cons hr _ => exact ⟨_, _, hj, hr, rfl, by rw [← d10, ← e1]⟩
    · rename_i e _
      cases hq; cases e
      cases hr with
      | cons hr _ => exact ⟨_, _, hj, hr, rfl, by rw [← d10, ← e1]⟩
    · cases hq
  | wrist _ => exact hb.elim
  | gripper _ => exact hb.elim
  | belt _ => exact hb.elim

/-! ## C95: wrists -/

/-- **C95.**  The flex joint of a wrist reads half the difference, the roll joint minus half the sum, of the motors' positions, each divided by its described reduction,
then divided by the joint's described reduction, plus its reference position, plus its described offset. -/
theorem C95_wrist_reading (h : Loaded l urdf root joint acts ts s0) (hl : Later s0 s) (hs : s.propagatePosition = some s') (ht : t ∈ ts) {t0 : WristT F}
    (hd : Described (.wrist t0) x joint acts t) {rn ln fn on : String} {kr kl kf ko of oo : F} (h1 : WristMotor x "rightActuator" acts rn kr)
    (h2 : WristMotor x "leftActuator" acts ln kl) (h3 : WristAxis x "flexJoint" joint fn kf of) (h4 : WristAxis x "rollJoint" joint on ko oo) :
    ∃ ar al jf jo jf' jo', s.Motor rn ar ∧ s.Motor ln al ∧ s.Joint fn jf ∧ s.Joint on jo ∧ s'.Joint fn jf' ∧ s'.Joint on jo' ∧
      joint fn = some jf'.joint ∧ joint on = some jo'.joint ∧
      jf'.position = (ar.position / kr - al.position / kl) / (lit 2 * kf) + jf.reference + of ∧
      jo'.position = (-ar.position / kr - al.position / kl) / (lit 2 * ko) + jo.reference + oo ∧
      jf'.velocity = (ar.velocity / kr - al.velocity / kl) / (lit 2 * kf) ∧ jo'.velocity = (-ar.velocity / kr - al.velocity / kl) / (lit 2 * ko) ∧
      jf'.measured = kf * (ar.measured * kr - al.measured * kl) ∧ jo'.measured = ko * (-ar.measured * kr - al.measured * kl) := by
  obtain ⟨rn', ln', fn', on', w, d1, d2, d3, d4, _, d5, d6, d7, _⟩ := hd
  obtain ⟨rfl, rfl⟩ := WristMotor_unique h1 d1
  obtain ⟨rfl, rfl⟩ := WristMotor_unique h2 d2
  obtain ⟨rfl, rfl, rfl⟩ := WristAxis_unique h3 d3
  obtain ⟨rfl, rfl, rfl⟩ := WristAxis_unique h4 d4
  obtain ⟨b, as, js, r, hb, ha, hj, hp, hr⟩ := h.reading hl hs ht
  rw [d5] at ha
  rw [d6] at hj hr
  rw [d7] at hb
  cases b with
  | simple _ => exact hb.elim
  | wrist q' =>
    obtain ⟨e1, e2, e3, e4, e5, e6⟩ := hb
    cases ha with
    | cons ha1 ha =>
    cases ha with
    | cons ha2 ha =>
    cases ha
    cases hj with
    | cons hj1 hj =>
    cases hj with
    | cons hj2 hj =>
    cases hj
    cases hp
    cases hr with
    | cons hr1 hr =>
    cases hr with
    | cons hr2 hr =>
    obtain ⟨st1, hr1⟩ := hr1
    obtain ⟨st2, hr2⟩ := hr2
    refine ⟨_, _, _, _, _, _, ha1, ha2, hj1.2, hj2.2, hr1, hr2, hj1.1, hj2.1, ?_, ?_, ?_, ?_, ?_, ?_⟩ <;> simp [e1, e2, e3, e4, e5, e6]
  | gripper _ => exact hb.elim
  | belt _ => exact hb.elim
where
  WristMotor_unique {x : Xml} {tag : String} {acts : List (Actuator F)} {n n' : String} {v v' : F} (h : WristMotor x tag acts n v) (k : WristMotor x tag acts n' v') :
      n = n' ∧ v = v' := by
    obtain ⟨e, r, h1, h2, _, h3, rfl⟩ := h
    obtain ⟨e', r', k1, k2, _, k3, rfl⟩ := k
    cases FirstChild.unique h1 k1
    cases Says.unique h2 k2
    cases Says.unique h3 k3
    exact ⟨rfl, rfl⟩
  WristAxis_unique {x : Xml} {tag : String} {joint : String → Option (UJoint F)} {n n' : String} {v v' o o' : F} (h : WristAxis x tag joint n v o) (k : WristAxis x tag joint n' v' o') :
      n = n' ∧ v = v' ∧ o = o' := by
    obtain ⟨e, r, h1, h2, _, h3, rfl, h4⟩ := h
    obtain ⟨e', r', k1, k2, _, k3, rfl, k4⟩ := k
    cases FirstChild.unique h1 k1
    cases Says.unique h2 k2
    cases Says.unique h3 k3
    refine ⟨rfl, rfl, ?_⟩
    simp only [← attr_some, ← attr_none] at h4 k4
    rcases h4 with ⟨h, rfl⟩ | ⟨p, h, h'⟩ <;> rcases k4 with ⟨k, rfl⟩ | ⟨q, k, k'⟩
    · rfl
    · rw [h] at k; cases k
    · rw [h] at k; cases k
    · rw [h] at k; cases k
      rw [h'] at k'; exact Option.some.inj k'

/-- **C95.**  The motors of a wrist are enabled and sent the difference and minus the sum of the joints' commanded efforts, divided by the described reductions. -/
theorem C95_wrist_command (h : Loaded l urdf root joint acts ts s0) (hm : (ts.flatMap (·.actNames)).Nodup) (hl : Later s0 s) (hs : s.propagateEffort = some s') (ht : t ∈ ts)
    {t0 : WristT F} (hd : Described (.wrist t0) x joint acts t) {rn ln fn on : String} {kr kl kf ko of oo : F} (h1 : WristMotor x "rightActuator" acts rn kr)
    (h2 : WristMotor x "leftActuator" acts ln kl) (h3 : WristAxis x "flexJoint" joint fn kf of) (h4 : WristAxis x "rollJoint" joint on ko oo) :
    ∃ ar al jf jo, s.Joint fn jf ∧ s.Joint on jo ∧ s'.Motor rn ar ∧ s'.Motor ln al ∧ ar.enable = true ∧ al.enable = true ∧
      ar.effort = (jf.commanded / kf - jo.commanded / ko) / (lit 2 * kr) ∧ al.effort = (-jf.commanded / kf - jo.commanded / ko) / (lit 2 * kl) := by
  obtain ⟨rn', ln', fn', on', w, d1, d2, d3, d4, _, d5, d6, d7, _⟩ := hd
  obtain ⟨rfl, rfl⟩ := C95_wrist_reading.WristMotor_unique h1 d1
  obtain ⟨rfl, rfl⟩ := C95_wrist_reading.WristMotor_unique h2 d2
  obtain ⟨rfl, rfl, rfl⟩ := C95_wrist_reading.WristAxis_unique h3 d3
  obtain ⟨rfl, rfl, rfl⟩ := C95_wrist_reading.WristAxis_unique h4 d4
  obtain ⟨b, as, js, r, hb, ha, hj, hp, hr⟩ := h.command hm hl hs ht
  rw [d5] at ha hr
  rw [d6] at hj
  rw [d7] at hb
  cases b with
  | simple _ => exact hb.elim
  | wrist q' =>
    obtain ⟨e1, e2, e3, e4, e5, e6⟩ := hb
    cases ha with
    | cons ha1 ha =>
    cases ha with
    | cons ha2 ha =>
    cases ha
    cases hj with
    | cons hj1 hj =>
    cases hj with
    | cons hj2 hj =>
    cases hj
    cases hp
    cases hr with
    | cons hr1 hr =>
    cases hr with
    | cons hr2 hr =>
    refine ⟨_, _, _, _, hj1, hj2, hr1, hr2, rfl, rfl, ?_, ?_⟩ <;> simp [e1, e2, e3, e4]
  | gripper _ => exact hb.elim
  | belt _ => exact hb.elim

end

end

/-! ## C95: grippers (over the reals) -/

/-- **C95.**  The gap joint of a gripper reads twice the gap at the finger angle which the described linkage has at the motor's number of revolutions. -/
theorem C95_gripper_reading [Parse ℝ] {l : TransLoader ℝ} {urdf : Xml → Option (String → Option (UJoint ℝ))} {root : Xml} {joint : String → Option (UJoint ℝ)} {acts : List (Actuator ℝ)}
    {ts : List (Trans ℝ)} {s0 s s' : RState ℝ} {t : Trans ℝ} {x : Xml} (h : Loaded l urdf root joint acts ts s0) (hl : Later s0 s) (hs : s.propagatePosition = some s') (ht : t ∈ ts)
    {t0 : GripperT ℝ} (hd : Described (.gripper t0) x joint acts t) {ael gel : Xml} {an n : String} {g : GripperT ℝ} (h1 : x.FirstChild "actuator" ael) (h2 : ael.Says "name" an)
    (h3 : x.childrenTagged "gap_joint" = [gel]) (h4 : GapEntry gel n g) (hg : g.Sane) :
    ∃ a j', s.Motor an a ∧ s'.Joint n j' ∧ joint n = some j'.joint ∧
      ∀ θ, g.Linkage (a.position / g.reduction / (2 * Real.pi)) θ → j'.position = 2 * (g.t0 + g.r * (Real.sin θ - Real.sin g.theta0)) := by
  obtain ⟨ael', an', gaps, ps, screws, q, d1, d2, _, d3, _, _, _, d4, d5, _, d6, d7, d8, d9, d10, d11, d12⟩ := hd
  cases FirstChild.unique h1 d1
  cases Says.unique h2 d2
  rw [h3] at d3
  cases d3 with
  | @cons _ p _ _ d3 d3' =>
  cases d3'
  obtain ⟨n', g'⟩ := p
  cases Says.unique h4.name d3.name
  have hgg : SameGap g' g := by
    have co : ∀ {e : Xml} {name : String} {d v w : ℝ}, Coeff e name d v → Coeff e name d w → v = w := by
      intro e name d v w a b
      unfold Coeff at a b
      simp only [← attr_some, ← attr_none] at a b
      rcases a with ⟨h, rfl⟩ | ⟨p, h, h'⟩ <;> rcases b with ⟨k, rfl⟩ | ⟨q, k, k'⟩
      · rfl
      · rw [h] at k; cases k
      · rw [h] at k; cases k
      · rw [h] at k; cases k
        rw [h'] at k'; exact Option.some.inj k'
    refine ⟨?_, co d3.screw h4.screw, co d3.gear h4.gear, co d3.theta0 h4.theta0, co d3.phi0 h4.phi0, co d3.t0 h4.t0, co d3.L0 h4.L0, co d3.h h4.h, co d3.a h4.a, co d3.b h4.b,
      co d3.r h4.r⟩
    obtain ⟨r1, a1, a2⟩ := d3.reduction
    obtain ⟨r2, b1, b2⟩ := h4.reduction
    cases Says.unique a1 b1
    rw [a2] at b2; exact Option.some.inj b2
  have hq : SameGap q g := by
    obtain ⟨a1, a2, a3, a4, a5, a6, a7, a8, a9, a10, a11⟩ := d7
    obtain ⟨b1, b2, b3, b4, b5, b6, b7, b8, b9, b10, b11⟩ := hgg
    exact ⟨a1.trans b1, a2.trans b2, a3.trans b3, a4.trans b4, a5.trans b5, a6.trans b6, a7.trans b7, a8.trans b8, a9.trans b9, a10.trans b10, a11.trans b11⟩
  obtain ⟨b, as, js, r, hb, ha, hj, hp, hr⟩ := h.reading hl hs ht
  rw [d4] at ha
  rw [d5] at hj hr
  rw [d6] at hb
  cases b with
  | simple _ => exact hb.elim
  | wrist _ => exact hb.elim
  | belt _ => exact hb.elim
  | gripper q' =>
    obtain ⟨c, k, rfl⟩ := hb
    obtain ⟨e1, e2, e3, e4, e5, e6, e7, e8, e9, e10, e11⟩ := hq
    cases ha with
    | cons ha ha' =>
    cases ha'
    obtain ⟨js', hq, rfl⟩ := Option.map_eq_some_iff.1 hp
    obtain ⟨j, rest, rest', rfl, _, _, rfl⟩ := gripper_forward hq
    cases hj with
    | cons hj hj' =>
    cases hr with
    | cons hr hr' =>
    obtain ⟨st, hr⟩ := hr
    refine ⟨_, _, ha, hr, hj.1, ?_⟩
    intro θ hθ
    dsimp only
    have hsane : GripperT.Sane { q with clock := c, cal := k } := ⟨by change q.a ≠ 0; rw [e9]; exact hg.a, by change q.b ≠ 0; rw [e10]; exact hg.b, by change q.r ≠ 0; rw [e11]; exact hg.r,
      by change q.screw ≠ 0; rw [e2]; exact hg.screw, by change q.gear ≠ 0; rw [e3]; exact hg.gear, by change q.reduction ≠ 0; rw [e1]; exact hg.reduction⟩
    have hlink : ∀ mr, g.Linkage mr θ → GripperT.Linkage { q with clock := c, cal := k } mr θ := by
      intro mr hm
      have es : GripperT.side { q with clock := c, cal := k } mr = g.side mr := by unfold GripperT.side; rw [e7, e2, e3]
      refine ⟨?_, ?_, hm.forwards, ?_⟩
      · rw [es]; dsimp only; rw [e8, e9, e10, e4, e5]; exact hm.triangle
      · dsimp only; rw [e4, e5]; exact hm.angle
      · rw [es]; exact hm.side
    rw [C40_forward hsane (hlink _ (by unfold GripperT.revs; dsimp only; rw [e1]; exact hθ))]
    unfold GripperT.gapAt
    dsimp only
    rw [e6, e11, e4]
    ring

/-! ## A concrete robot -/

section
variable {F : Type} [FCmp F] [Zero F] [Add F] [Sub F] [Mul F] [iDiv : Div F] [Neg F] [FLit F] [iTrig : FTrig F] [Parse F]

/-- An elbow and a wrist. -/
def armRoot : Xml := .node "robot" [] none
  [.node "transmission" [("type", "pr2_simple"), ("name", "e")] none
    [.node "joint" [("name", "elbow")] none [], .node "actuator" [("name", "m")] none [.node "mechanicalReduction" [] (some "-36") []]],
   .node "transmission" [("type", "pr2_wrist"), ("name", "w")] none
    [.node "rightActuator" [("name", "r"), ("mechanicalReduction", "60")] none [],
     .node "leftActuator" [("name", "l"), ("mechanicalReduction", "61")] none [],
     .node "flexJoint" [("name", "flex"), ("mechanicalReduction", "1")] none [],
     .node "rollJoint" [("name", "roll"), ("mechanicalReduction", "2")] none []]]

/-- A loader for these two kinds. -/
def armLoader (t : SimpleT F) (w : WristT F) : TransLoader F where
  available _ := true
  classes := []
  getName c := c
  create _ ty := if ty = "pr2_simple" then some (.simple t) else if ty = "pr2_wrist" then some (.wrist w) else none

/-- C95: the arm is loaded with its two transmissions. -/
theorem arm_loaded (t : SimpleT F) (w : WristT F) (u : UJoint F) (m r l : Actuator F) (hm : m.name = "m") (hr : r.name = "r") (hl : l.name = "l") (ht : t.useSim = false)
    (hw : w.off0 = lit 0 ∧ w.off1 = lit 0) :
    ∃ s0, Loaded (armLoader t w) (fun _ => some (fun _ => some u)) armRoot (fun _ => some u) [r, m, l]
      [⟨"e", ["m"], ["elbow"], .simple { t with reduction := Parse.atof "-36" }⟩,
       ⟨"w", ["r", "l"], ["flex", "roll"], .wrist { w with ar0 := Parse.atof "60", ar1 := Parse.atof "61", jr0 := Parse.atof "1", jr1 := Parse.atof "2", off0 := lit 0, off1 := lit 0 }⟩] s0 := by
  cases m; cases r; cases l
  subst hm hr hl
  refine ⟨_, ⟨true, _, fun _ => 0, rfl, rfl⟩, rfl, ?_, by change ["elbow", "flex", "roll"].Nodup; decide⟩
  intro k x _ ty b hx _ _ _ hb
  have hb : (if ty = "pr2_simple" then some (Body.simple t) else if ty = "pr2_wrist" then some (.wrist w) else none) = some b := hb
  split at hb
  · cases hb
    refine ⟨ht, ?_⟩
    have hx : x ∈ armRoot.childrenTagged "transmission" := List.mem_of_getElem? hx
    change x ∈ [_, _] at hx
    simp only [List.mem_cons, List.not_mem_nil, or_false] at hx
    rcases hx with rfl | rfl <;> exact Nat.zero_le _
  · split at hb
    · cases hb; exact ⟨hw, trivial⟩
    · cases hb

/-- The wrist of the arm is described. -/
theorem arm_wrist_described (w : WristT F) (u : UJoint F) (m r l : Actuator F) (hr : r.name = "r") (hl : l.name = "l") :
    WristMotor (armRoot.kids[1]) "rightActuator" [r, m, l] "r" (Parse.atof "60" : F) ∧ WristMotor (armRoot.kids[1]) "leftActuator" [r, m, l] "l" (Parse.atof "61" : F) ∧
    WristAxis (armRoot.kids[1]) "flexJoint" (fun _ => some u) "flex" (Parse.atof "1") (lit 0) ∧
    WristAxis (armRoot.kids[1]) "rollJoint" (fun _ => some u) "roll" (Parse.atof "2") (lit 0) ∧
    Described (.wrist w) (armRoot.kids[1]) (fun _ => some u) [r, m, l]
      ⟨"w", ["r", "l"], ["flex", "roll"], .wrist { w with ar0 := Parse.atof "60", ar1 := Parse.atof "61", jr0 := Parse.atof "1", jr1 := Parse.atof "2", off0 := lit 0, off1 := lit 0 }⟩ := by
  have w1 : WristMotor (armRoot.kids[1]) "rightActuator" [r, m, l] "r" (Parse.atof "60") :=
    ⟨_, "60", ⟨[], _, rfl, rfl, by simp⟩, ⟨[], _, rfl, by simp⟩, ⟨r, by simp, hr⟩, ⟨[("name", "r")], _, rfl, by simp⟩, rfl⟩
  have w2 : WristMotor (armRoot.kids[1]) "leftActuator" [r, m, l] "l" (Parse.atof "61") :=
    ⟨_, "61", ⟨[_], _, rfl, rfl, by intro z hz; simp at hz; subst hz; decide⟩, ⟨[], _, rfl, by simp⟩, ⟨l, by simp, hl⟩, ⟨[("name", "l")], _, rfl, by simp⟩, rfl⟩
  have w3 : WristAxis (armRoot.kids[1]) "flexJoint" (fun _ => some u) "flex" (Parse.atof "1") (lit 0) :=
    ⟨_, "1", ⟨[_, _], _, rfl, rfl, by intro z hz; simp at hz; rcases hz with rfl | rfl <;> decide⟩, ⟨[], _, rfl, by simp⟩, ⟨u, rfl⟩, ⟨[("name", "flex")], _, rfl, by simp⟩, rfl,
      Or.inl ⟨by intro p hp; simp [Xml.attrs] at hp; rcases hp with rfl | rfl <;> decide, rfl⟩⟩
  have w4 : WristAxis (armRoot.kids[1]) "rollJoint" (fun _ => some u) "roll" (Parse.atof "2") (lit 0) :=
    ⟨_, "2", ⟨[_, _, _], _, rfl, rfl, by intro z hz; simp at hz; rcases hz with rfl | rfl | rfl <;> decide⟩, ⟨[], _, rfl, by simp⟩, ⟨u, rfl⟩, ⟨[("name", "roll")], _, rfl, by simp⟩,
      rfl, Or.inl ⟨by intro p hp; simp [Xml.attrs] at hp; rcases hp with rfl | rfl <;> decide, rfl⟩⟩
  exact ⟨w1, w2, w3, w4,
    "r", "l", "flex", "roll", { w with ar0 := Parse.atof "60", ar1 := Parse.atof "61", jr0 := Parse.atof "1", jr1 := Parse.atof "2", off0 := lit 0, off1 := lit 0 },
      w1, w2, w3, w4, Or.inl ⟨[("type", "pr2_wrist")], _, rfl, by simp⟩, rfl, rfl, rfl, rfl, rfl, rfl⟩

/-- C95: whatever has happened to the arm, its flex joint next reads what its two motors say, in the described reductions; and the roll motors get the described efforts. -/
example (t : SimpleT F) (w : WristT F) (u : UJoint F) (m r l : Actuator F) (hm : m.name = "m") (hr : r.name = "r") (hl : l.name = "l") (ht : t.useSim = false)
    (hw : w.off0 = lit 0 ∧ w.off1 = lit 0) :
    ∃ s0 : RState F, ∀ s s' : RState F, Later s0 s → s.propagatePosition = some s' → ∃ ar al j j', s.Motor "r" ar ∧ s.Motor "l" al ∧ s.Joint "flex" j ∧ s'.Joint "flex" j' ∧
      j'.position = (ar.position / Parse.atof "60" - al.position / Parse.atof "61") / (lit 2 * Parse.atof "1") + j.reference + lit 0 := by
  obtain ⟨s0, h0⟩ := arm_loaded t w u m r l hm hr hl ht hw
  refine ⟨s0, fun s s' hs hp => ?_⟩
  obtain ⟨w1, w2, w3, w4, hd⟩ := arm_wrist_described w u m r l hr hl
  obtain ⟨ar, al, jf, jo, jf', jo', a1, a2, a3, _, a4, _, _, _, a5, _⟩ := C95_wrist_reading h0 hs hp (by simp) hd w1 w2 w3 w4
  exact ⟨ar, al, jf, jf', a1, a2, a3, a4, a5⟩

end

end Pr2
