import Verif.Model.Cycle
import Verif.Props.Publish
import Verif.Props.RobotState
import Verif.Props.Joint
import Verif.Spec.Real

/-! # C26, C27, C28, C68, C69: the control cycle -/

namespace Pr2

/-! ## C26: overruns -/

/-- One update of a controller in the history: whose, when it started, when it ended. -/
structure UpdateRec where
  id : Nat
  start : Int
  fin : Int

/-- The update took more than one millisecond. -/
def UpdateRec.overran (u : UpdateRec) (id : Nat) : Bool := u.id == id && decide (u.fin - u.start > 1000000)

def CUpdate.rec' {F : Type} (c : CUpdate F) : UpdateRec := ⟨c.id, c.start, c.fin⟩

/-- Statistics that reflect a history of updates of controller `id`. -/
structure StatOf (id : Nat) (h : List UpdateRec) (st : CStat) : Prop where
  /-- number of overruns (a 32 bit counter) -/
  overruns : st.overruns = UInt32.ofNat (h.countP (·.overran id))
  /-- end of the latest overrun, if any -/
  last : st.lastOverrun = match (h.filter (·.overran id)).getLast? with | some u => u.fin | none => 0
  /-- durations of all updates -/
  samples : st.samples = (h.filter (fun u => u.id == id)).map (fun u => u.fin - u.start)

theorem StatOf.record {id : Nat} {h : List UpdateRec} {st : CStat} (hs : StatOf id h st) (u : UpdateRec) :
    StatOf id (h ++ [u]) (if id = u.id then st.record u.start u.fin else st) := by
  obtain ⟨h1, h2, h3⟩ := hs
  by_cases hid : id = u.id
  · rw [if_pos hid]
    by_cases ho : u.fin - u.start > 1000000
    · have hov : u.overran id = true := by simp [UpdateRec.overran, hid, ho]
      unfold CStat.record
      rw [if_pos ho]
      refine ⟨?_, ?_, ?_⟩
      · rw [List.countP_append]; simp [hov, h1, UInt32.ofNat_add]
      · rw [List.filter_append]; simp [hov]
      · rw [List.filter_append]; simp [hid, h3]
    · have hov : u.overran id = false := by
        simp only [UpdateRec.overran, Bool.and_eq_false_iff, decide_eq_false_iff_not]; exact Or.inr ho
      unfold CStat.record
      rw [if_neg ho]
      refine ⟨?_, ?_, ?_⟩
      · rw [List.countP_append]; simp [hov, h1]
      · rw [List.filter_append]; simp only [List.filter_cons, hov, Bool.false_eq_true, if_false, List.filter_nil, List.append_nil]; exact h2
      · rw [List.filter_append]; simp [hid, h3]
  · rw [if_neg hid]
    have hne : (u.id == id) = false := by simpa using Ne.symm hid
    have hov : u.overran id = false := by simp [UpdateRec.overran, hne]
    refine ⟨?_, ?_, ?_⟩
    · rw [List.countP_append]; simp [hov, h1]
    · rw [List.filter_append]; simp only [List.filter_cons, hov, Bool.false_eq_true, if_false, List.filter_nil, List.append_nil]; exact h2
    · rw [List.filter_append]; simp [hne, h3]

section
variable {F : Type}

/-- The update loop adds its updates to the history. -/
theorem updateLoop_stats (cs : List (CUpdate F)) (s : RState F) (st : Nat → CStat) (id : Nat) (h : List UpdateRec) (hs : StatOf id h (st id)) :
    StatOf id (h ++ cs.map (·.rec')) ((updateLoop cs (s, st)).2 id) := by
  induction cs generalizing s st h with
  | nil => simpa [updateLoop] using hs
  | cons c cs ih =>
    rw [updateLoop, List.map_cons, ← List.singleton_append, ← List.append_assoc]
    apply ih
    exact hs.record c.rec'

end

section
variable {F : Type} [FCmp F] [Zero F] [Add F] [Sub F] [Mul F] [iDiv : Div F] [Neg F] [FLit F] [iTrig : FTrig F]

/-- **C26.**  Over any number of cycles, a controller's statistics give the number of its updates that took more than 1 ms, the end of the latest of
them and the durations of all. -/
theorem C26_overruns (big : F) (d : RtData F) (is : List (CycleIn F)) (sent : List (RState F)) (d' : RtData F)
    (hr : d.run big is = some (sent, d')) (id : Nat) (h : List UpdateRec) (hs : StatOf id h (d.stats id)) :
    StatOf id (h ++ is.flatMap (fun i => i.controllers.map (·.rec'))) (d'.stats id) := by
  induction is generalizing d h sent with
  | nil => cases hr; simpa using hs
  | cons i is ih =>
    unfold RtData.run at hr
    rcases hu : d.update big i with _ | r
    · rw [hu] at hr; cases hr
    rw [hu] at hr
    rcases hrs : r.2.run big is with _ | rs
    · simp only [hrs, Option.bind_eq_bind, Option.bind_some, Option.bind_none] at hr; cases hr
    simp only [hrs, Option.bind_eq_bind, Option.bind_some, Option.some.injEq, Prod.mk.injEq] at hr
    obtain ⟨rfl, rfl⟩ := hr
    rw [List.flatMap_cons, ← List.append_assoc]
    refine ih r.2 rs.1 hrs _ ?_
    unfold RtData.update at hu
    rcases hc : d.robot.cycle big i.restart i.controllers d.stats with _ | c
    · rw [hc] at hu; cases hu
    rw [hc] at hu
    have hstats : r.2.stats = c.2 := by
      simp only [Option.bind_eq_bind, Option.bind_some] at hu
      rcases hp : publishStats i.statNow i.statFree d.statPub c.1 with _ | p
      · rw [hp] at hu; cases hu
      rw [hp] at hu
      simp only [Option.bind_some] at hu
      rcases hq : publishJoints i.jointNow i.jointFree d.jointPub p.2.1 with _ | q
      · rw [hq] at hu; cases hu
      rw [hq] at hu; cases hu; rfl
    rw [hstats]
    unfold RState.cycle at hc
    rcases hp : d.robot.propagatePosition with _ | s1
    · rw [hp] at hc; cases hc
    rw [hp] at hc
    simp only [Option.bind_eq_bind, Option.bind_some] at hc
    rcases he : ((updateLoop i.controllers (i.restart s1.zeroCommands, d.stats)).1.enforceSafety big).propagateEffort with _ | s2
    · rw [he] at hc; cases hc
    rw [he] at hc; cases hc
    exact updateLoop_stats _ _ _ _ _ hs

/-- New statistics reflect the empty history. -/
theorem C26_fresh (id : Nat) : StatOf id [] CStat.fresh := ⟨rfl, rfl, rfl⟩

/-- Two controllers; the first overran once, by a nanosecond. -/
example : ((CStat.fresh.record 0 1000000).record 5000000 6000001).overruns = 1 ∧ ((CStat.fresh.record 0 1000000).record 5000000 6000001).lastOverrun = 6000001 := ⟨rfl, rfl⟩

/-! ## Controllers keep the structure of the robot -/

/-- What may differ between two robot states that describe the same robot: the values, not the wiring, the joints or the actuators' names. -/
structure SameRobot (s s' : RState F) : Prop where
  conns : List.Forall₂ (fun c c' => ∃ b, c' = { c with trans := { c.trans with body := b } } ∧ ∀ na nj, b.Wants na nj ↔ c.trans.body.Wants na nj) s.conns s'.conns
  jmap : s'.jmap = s.jmap
  joints : List.Forall₂ (fun j j' => j'.joint = j.joint) s.joints s'.joints
  acts : List.Forall₂ (fun a a' => a'.name = a.name) s.acts s'.acts

end

section
variable {F : Type}

theorem forall2_trans' {α : Type} {R : α → α → Prop} (ht : ∀ a b c, R a b → R b c → R a c) {l l' l'' : List α} (h : List.Forall₂ R l l')
    (k : List.Forall₂ R l' l'') : List.Forall₂ R l l'' := by
  induction h generalizing l'' with
  | nil => cases k; exact .nil
  | cons h _ ih => cases k with
    | cons k ks => exact .cons (ht _ _ _ h k) (ih ks)

theorem SameRobot.refl (s : RState F) : SameRobot s s :=
  ⟨List.forall₂_same.2 (fun c _ => ⟨c.trans.body, rfl, fun _ _ => Iff.rfl⟩), rfl, List.forall₂_same.2 (fun _ _ => rfl), List.forall₂_same.2 (fun _ _ => rfl)⟩

theorem SameRobot.trans {s s' s'' : RState F} (h : SameRobot s s') (k : SameRobot s' s'') : SameRobot s s'' := by
  refine ⟨forall2_trans' ?_ h.conns k.conns, k.jmap.trans h.jmap, forall2_trans' (fun _ _ _ a b => b.trans a) h.joints k.joints,
    forall2_trans' (fun _ _ _ a b => b.trans a) h.acts k.acts⟩
  rintro a b c ⟨x, rfl, hx⟩ ⟨y, rfl, hy⟩
  exact ⟨y, rfl, fun na nj => (hy na nj).trans (hx na nj)⟩

theorem map_name {l l' : List (Actuator F)} (h : List.Forall₂ (fun a a' => a'.name = a.name) l l') : l'.map (·.name) = l.map (·.name) := by
  induction h with
  | nil => rfl
  | cons e _ ih => simp [e, ih]

theorem SameRobot.ready {s s' : RState F} (h : SameRobot s s') (hr : s.Ready) : s'.Ready := by
  have hc : List.Forall₂ (fun c c' => ∃ b, c' = { c with trans := { c.trans with body := b } }) s.conns s'.conns :=
    h.conns.imp (fun _ _ ⟨b, e, _⟩ => ⟨b, e⟩)
  refine ⟨?_, ?_, ?_⟩
  · have := hr.wired.of_conns hc
    rw [List.Forall₂.length_eq h.acts, List.Forall₂.length_eq h.joints] at this
    exact this
  · intro c' hc'
    obtain ⟨c, hcm, b, rfl⟩ := Ready.sweep.forall2_right hc hc'
    refine (hr.named c hcm).imp (fun n i hi => ?_)
    rw [← hi]
    exact findIdx_names _ _ _ (map_name h.acts)
  · intro c' hc'
    obtain ⟨c, hcm, b, rfl, hb⟩ := Ready.sweep.forall2_right h.conns hc'
    exact (hb _ _).2 (hr.wants c hcm)

theorem SameRobot.unshared {s s' : RState F} (h : SameRobot s s') (hu : Unshared s.conns) : Unshared s'.conns := by
  have : s'.conns.map (·.ins) = s.conns.map (·.ins) := by
    have := h.conns
    generalize s.conns = l at this
    generalize s'.conns = l' at this
    induction this with
    | nil => rfl
    | cons e _ ih => obtain ⟨b, rfl, _⟩ := e; simp [ih]
  unfold Unshared at hu ⊢
  rw [List.flatMap_def] at hu ⊢
  rw [this]; exact hu

theorem SameRobot.of_joints (s : RState F) (g : JState F → JState F) (hg : ∀ j, (g j).joint = j.joint) :
    SameRobot s { s with joints := s.joints.map g } := by
  refine ⟨List.forall₂_same.2 (fun c _ => ⟨c.trans.body, rfl, fun _ _ => Iff.rfl⟩), rfl, ?_, List.forall₂_same.2 (fun _ _ => rfl)⟩
  rw [List.forall₂_map_right_iff]
  exact List.forall₂_same.2 (fun j _ => hg j)

end

section
variable {F : Type} [FCmp F] [Zero F] [Add F] [Sub F] [Mul F] [iDiv : Div F] [Neg F] [FLit F] [iTrig : FTrig F]

theorem SameRobot.of_sweep {s s' : RState F} (hr : s.Ready) (f : Prop' F)
    (hw : ∀ b as js r, f b as js = some r → ∀ na nj, r.1.Wants na nj ↔ b.Wants na nj)
    (hn : ∀ b as js r, f b as js = some r → List.Forall₂ (fun a a' => a'.name = a.name) as r.2.1)
    (hj : ∀ b as js r, f b as js = some r → List.Forall₂ (fun j j' => j'.joint = j.joint) js r.2.2)
    (hs : s.sweep f = some s') : SameRobot s s' := by
  unfold RState.sweep at hs
  rcases hsw : Pr2.sweep f s.conns s.acts s.joints with _ | ⟨cs, as, js⟩
  · rw [hsw] at hs; cases hs
  rw [hsw] at hs; cases hs
  refine ⟨?_, rfl, ?_, sweep_rel_acts f (fun a a' => a'.name = a.name) (fun _ => rfl) (fun _ _ _ h k => k.trans h) hn _ _ _ hr.wired.ins hsw⟩
  · refine (sweep_bodies f _ _ _ hsw).imp ?_
    rintro c c' ⟨as, js, r, h1, rfl⟩
    exact ⟨r.1, rfl, hw _ _ _ _ h1⟩
  · -- joints: pointwise
    have gen : ∀ (conns : List (Conn F)) (as : List (Actuator F)) (js : List (JState F)) (conns' : List (Conn F)) (as' : List (Actuator F))
        (js' : List (JState F)), Wired conns as.length js.length → sweep f conns as js = some (conns', as', js') →
        List.Forall₂ (fun j j' => j'.joint = j.joint) js js' := by
      intro conns
      induction conns with
      | nil => intro as js _ _ _ _ h; cases h; exact List.forall₂_same.2 (fun _ _ => rfl)
      | cons c cs ih =>
        intro as js conns' as' js' hw h
        unfold sweep at h
        rcases hr : f c.trans.body (gather as c.ins) (gather js c.outs) with _ | r
        · rw [hr] at h; cases h
        rw [hr] at h
        rcases hs : sweep f cs (scatter c.ins r.2.1 as) (scatter c.outs r.2.2 js) with _ | ⟨cs', as2, js2⟩
        · simp only [hs, Option.bind_eq_bind, Option.bind_some, Option.bind_none] at h; cases h
        simp only [hs, Option.bind_eq_bind, Option.bind_some, Option.some.injEq, Prod.mk.injEq] at h
        obtain ⟨rfl, rfl, rfl⟩ := h
        have hno : c.outs.Nodup := by
          have := hw.nodup; rw [List.flatMap_cons, List.nodup_append] at this; exact this.1
        have h1 := scatter_rel (fun j j' : JState F => j'.joint = j.joint) (fun _ => rfl) (fun _ _ _ h k => k.trans h) c.outs r.2.2 js hno
          (hj _ _ _ _ hr) (hw.outs c (by simp))
        have h2 := ih _ _ _ _ _ (by rw [scatter_length, scatter_length]; exact hw.tail) hs
        exact forall2_trans' (fun _ _ _ a b => b.trans a) h1 h2
    exact gen _ _ _ _ _ _ hr.wired hsw

theorem SameRobot.position {s s' : RState F} (hr : s.Ready) (hs : s.propagatePosition = some s') : SameRobot s s' := by
  unfold RState.propagatePosition at hs
  rcases hsw : s.sweep Body.propagatePosition with _ | s1
  · rw [hsw] at hs; cases hs
  rw [hsw] at hs; cases hs
  refine SameRobot.trans (SameRobot.of_sweep hr Body.propagatePosition (fun b as js r hr => (position_frame hr).2.2.2)
    (fun b as js r hr => by rw [(position_frame hr).1]; exact List.forall₂_same.2 (fun _ _ => rfl))
    (fun b as js r hr => (position_frame hr).2.1.imp (fun _ _ h => h.1)) hsw) (SameRobot.of_joints _ _ (fun _ => rfl))

theorem SameRobot.effort {s s' : RState F} (hr : s.Ready) (hs : s.propagateEffort = some s') : SameRobot s s' :=
  SameRobot.of_sweep hr Body.propagateEffort (fun b as js r hr => (effort_frame hr).2.2.2.1)
    (fun b as js r hr => same_names_of_frame (fun a a' h => by obtain ⟨e, b, rfl, _⟩ := h; rfl) (effort_frame hr).2.1)
    (fun b as js r hr => by rw [(effort_frame hr).1]; exact List.forall₂_same.2 (fun _ _ => rfl)) hs

theorem SameRobot.zero (s : RState F) : SameRobot s s.zeroCommands := SameRobot.of_joints _ _ (fun _ => rfl)
theorem SameRobot.safety (big : F) (s : RState F) : SameRobot s (s.enforceSafety big) := SameRobot.of_joints _ _ (fun _ => rfl)
theorem SameRobot.reset (s : RState F) : SameRobot s s.resetStats := SameRobot.of_joints _ _ (fun j => by split <;> rfl)

theorem SameRobot.updates (cs : List (CUpdate F)) (s : RState F) (st : Nat → CStat) (h : ∀ c ∈ cs, ∀ s, SameRobot s (c.act s)) :
    SameRobot s (updateLoop cs (s, st)).1 := by
  induction cs generalizing s st with
  | nil => exact SameRobot.refl s
  | cons c cs ih => exact (h c (by simp) s).trans (ih _ _ (fun c hc => h c (by simp [hc])))

/-- **C69.**  A cycle of a ready robot state with controllers that only change values never fails an assertion, and leaves the same robot. -/
theorem cycle_runs (big : F) (restart : RState F → RState F) (cs : List (CUpdate F)) (s : RState F) (st : Nat → CStat) (hr : s.Ready)
    (h1 : ∀ s, SameRobot s (restart s)) (h2 : ∀ c ∈ cs, ∀ s, SameRobot s (c.act s)) :
    ∃ r s3, s.cycle big restart cs st = some r ∧ SameRobot s r.1 ∧ s3.Ready ∧ SameRobot s s3 ∧
      s3.propagateEffort = some r.1 ∧ ∃ s1, s.propagatePosition = some s1 ∧ s3 = (updateLoop cs (restart s1.zeroCommands, st)).1.enforceSafety big := by
  obtain ⟨s1, hp, hr1⟩ := C67_position_never_aborts s hr
  have k1 := SameRobot.position hr hp
  have k2 := k1.trans (SameRobot.zero s1)
  have k3 := k2.trans (h1 _)
  have k4 := k3.trans (SameRobot.updates cs (restart s1.zeroCommands) st h2)
  have k5 := k4.trans (SameRobot.safety big _)
  have hr5 := k5.ready hr
  obtain ⟨s6, he, _⟩ := C67_effort_never_aborts _ hr5
  refine ⟨(s6, (updateLoop cs (restart s1.zeroCommands, st)).2), _, ?_, k5.trans (SameRobot.effort hr5 he), hr5, k5, he, s1, hp, rfl⟩
  unfold RState.cycle
  rw [hp]
  simp only [Option.bind_eq_bind, Option.bind_some]
  rw [he]; rfl

end

/-! ## C28: limited efforts -/

section
variable {F : Type} [FCmp F] [Zero F] [Add F] [Sub F] [Mul F] [iDiv : Div F] [Neg F] [FLit F] [iTrig : FTrig F] [IeeeLike F]
open IeeeLike

/-- Every joint with limits and a safety description has a command within its effort limit (if that is a number `≥ 0`), or a NaN command. -/
def RState.Limited (s : RState F) : Prop :=
  ∀ j ∈ s.joints, ∀ lim saf e, j.joint.limits = some lim → j.joint.safety = some saf → val lim.effort = some e → 0 ≤ e →
    Within e j.commanded ∨ val j.commanded = none

omit iDiv [FLit F] iTrig in
theorem limited_safety (big : F) (s : RState F) : (s.enforceSafety big).Limited := by
  intro j hj lim saf e hl hs he h0
  obtain ⟨j0, _, rfl⟩ := List.mem_map.1 hj
  rcases hc : val j0.commanded with _ | x
  · exact Or.inr (C29_nan_passes big j0 hc)
  · exact Or.inl (C29_limited_for_any_arithmetic big j0 lim saf hl hs e he h0 (by rw [hc]; simp))

/-- **C28.**  Whatever the controllers command, and whatever the arithmetic yields: at the end of a cycle the commands of all protected joints are
within their effort limits (or NaN), and, if transmissions share no actuators, the commands of a transmission's actuators are what it computes
from those limited joint commands. -/
theorem C28_limited (big : F) (restart : RState F → RState F) (cs : List (CUpdate F)) (s : RState F) (st : Nat → CStat) (hr : s.Ready)
    (h1 : ∀ s, SameRobot s (restart s)) (h2 : ∀ c ∈ cs, ∀ s, SameRobot s (c.act s)) (r : RState F × (Nat → CStat))
    (h : s.cycle big restart cs st = some r) :
    r.1.Limited ∧ (Unshared s.conns → ∀ (k : Nat) (c' : Conn F), r.1.conns[k]? = some c' →
      ∃ (b : Body F) (acts : List (Actuator F)) (out : Body F × List (Actuator F) × List (JState F)),
        b.propagateEffort acts (gather r.1.joints c'.outs) = some out ∧ gather r.1.acts c'.ins = out.2.1 ∧
        acts.map (·.name) = (gather s.acts c'.ins).map (·.name) ∧ c'.trans.body = out.1) := by
  obtain ⟨r', s3, hc, _, hr3, k3, he, s1, hp, e3⟩ := cycle_runs big restart cs s st hr h1 h2
  rw [h] at hc; cases hc
  have hj : r.1.joints = s3.joints := (C48_effort_only_commands s3 r.1 hr3 he).2
  refine ⟨?_, fun hu k c' hc' => ?_⟩
  · intro j hj'
    rw [hj, e3] at hj'
    exact limited_safety big _ j hj'
  · have hu3 := k3.unshared hu
    -- the connection before the effort sweep
    unfold RState.propagateEffort RState.sweep at he
    rcases hsw : Pr2.sweep Body.propagateEffort s3.conns s3.acts s3.joints with _ | ⟨cs', as', js'⟩
    · rw [hsw] at he; cases he
    rw [hsw] at he
    simp only [Option.bind_eq_bind, Option.bind_some, Option.some.injEq] at he
    obtain ⟨_, _, _, _, h5⟩ := sweep_local Body.propagateEffort
      (fun b as js r hr => ⟨(List.Forall₂.length_eq (effort_frame hr).2.1).symm, by rw [(effort_frame hr).1]⟩)
      s3.conns s3.acts s3.joints hr3.wired (Or.inr hu3) hsw
    have hmem : c' ∈ cs' := by
      have := List.mem_of_getElem? hc'
      rw [← he] at this; exact this
    obtain ⟨c, hcm, out, o1, o2, o3, o4⟩ := Ready.sweep.forall2_right h5 hmem
    have ei : c'.ins = c.ins := by rw [o2]
    have eo : c'.outs = c.outs := by rw [o2]
    refine ⟨c.trans.body, gather s3.acts c.ins, out, ?_, ?_, ?_, by rw [o2]⟩
    · rw [hj, eo]; exact o1
    · rw [ei, ← o3, ← he]
    · rw [ei]
      have hn := map_name k3.acts
      have g1 := C66_position_local.gather_map (fun a : Actuator F => a.name) s3.acts c.ins
      have g2 := C66_position_local.gather_map (fun a : Actuator F => a.name) s.acts c.ins
      rw [← g1, ← g2, hn]

end

/-! ## C28 in exact arithmetic: bounds on what the motors get -/

section
variable {F : Type}

/-- A transmission that cannot amplify: bounds for the motors' efforts in terms of the joints' effort limits. -/
theorem C28_simple_motor (t : SimpleT ℝ) (as as' : List (Actuator ℝ)) (js : List (JState ℝ)) (e : ℝ) (h : t.propagateEffort js as = some as')
    (hl : ∀ j ∈ js, |j.commanded| ≤ e) : ∀ a ∈ as', |a.effort| ≤ e / |t.reduction| := by
  unfold SimpleT.propagateEffort at h
  split at h
  · cases h
    intro a ha
    simp only [List.mem_singleton] at ha
    subst ha
    dsimp only
    rw [abs_div]
    exact div_le_div_of_nonneg_right (hl _ (by simp)) (abs_nonneg _)
  · cases h
    intro a ha
    simp only [List.mem_singleton] at ha
    subst ha
    dsimp only
    rw [abs_div]
    exact div_le_div_of_nonneg_right (hl _ (by simp)) (abs_nonneg _)
  · cases h

theorem C28_wrist_motors (t : WristT ℝ) (as as' : List (Actuator ℝ)) (j0 j1 : JState ℝ) (e0 e1 : ℝ) (h : t.propagateEffort [j0, j1] as = some as')
    (h0 : |j0.commanded| ≤ e0) (h1 : |j1.commanded| ≤ e1) :
    ∀ (k : Nat) (a : Actuator ℝ), as'[k]? = some a → |a.effort| ≤ (e0 / |t.jr0| + e1 / |t.jr1|) / (2 * |if k = 0 then t.ar0 else t.ar1|) := by
  unfold WristT.propagateEffort at h
  split at h
  · rename_i a0 a1 k0 k1 hk
    cases hk
    cases h
    have key : ∀ (x y r : ℝ), |x| ≤ e0 / |t.jr0| → |y| ≤ e1 / |t.jr1| → |(x - y) / (2 * r)| ≤ (e0 / |t.jr0| + e1 / |t.jr1|) / (2 * |r|) := by
      intro x y r hx hy
      rw [abs_div, abs_mul, abs_two]
      refine div_le_div_of_nonneg_right ?_ (by positivity)
      calc |x - y| ≤ |x| + |y| := abs_sub x y
        _ ≤ _ := add_le_add hx hy
    have d0 : |j0.commanded / t.jr0| ≤ e0 / |t.jr0| := by rw [abs_div]; exact div_le_div_of_nonneg_right h0 (abs_nonneg _)
    have d0' : |-j0.commanded / t.jr0| ≤ e0 / |t.jr0| := by rw [abs_div, abs_neg]; exact div_le_div_of_nonneg_right h0 (abs_nonneg _)
    have d1 : |j1.commanded / t.jr1| ≤ e1 / |t.jr1| := by rw [abs_div]; exact div_le_div_of_nonneg_right h1 (abs_nonneg _)
    intro k a ha
    match k with
    | 0 =>
      simp at ha; subst ha
      have := key _ _ t.ar0 d0 d1
      simpa [FLit.lit] using this
    | 1 =>
      simp at ha; subst ha
      have := key _ _ t.ar1 d0' d1
      simpa [FLit.lit] using this
    | k + 2 => simp at ha
  · cases h

end

/-! ## C27: commands do not leak from one cycle to the next -/

section
variable {F : Type}

/-- The joint without its command and the flag that the limits were violated. -/
def JState.forgetCmd [Zero F] (j : JState F) : JState F := { j with commanded := 0, stats := { j.stats with violated := false } }
/-- The joint without the flag that the limits were violated. -/
def JState.forgetFlag (j : JState F) : JState F := { j with stats := { j.stats with violated := false } }

def RState.mapJoints (g : JState F → JState F) (s : RState F) : RState F := { s with joints := s.joints.map g }

/-- Two states that differ only in the joints' commands and in their `violated_limits_` flags. -/
def RState.SameButCommands [Zero F] (s s' : RState F) : Prop := s.mapJoints JState.forgetCmd = s'.mapJoints JState.forgetCmd
/-- Two states that differ only in the joints' `violated_limits_` flags (a statistic). -/
def RState.SameButFlags (s s' : RState F) : Prop := s.mapJoints JState.forgetFlag = s'.mapJoints JState.forgetFlag

theorem scatter_map {α β : Type} (g : α → β) (is : List Nat) (as l : List α) : scatter is (as.map g) (l.map g) = (scatter is as l).map g := by
  induction is generalizing as l with
  | nil => rfl
  | cons i is ih =>
    cases as with
    | nil => rfl
    | cons a as => rw [List.map_cons, scatter, scatter, ← List.map_set, ih]

/-- A sweep that does not look at what `g` removes. -/
theorem sweep_erase (f : Prop' F) (g : JState F → JState F) (hf : ∀ b as js, f b as (js.map g) = (f b as js).map (fun r => (r.1, r.2.1, r.2.2.map g)))
    (conns : List (Conn F)) (as : List (Actuator F)) (js : List (JState F)) :
    sweep f conns as (js.map g) = (sweep f conns as js).map (fun r => (r.1, r.2.1, r.2.2.map g)) := by
  induction conns generalizing as js with
  | nil => rfl
  | cons c cs ih =>
    unfold sweep
    rw [C66_position_local.gather_map, hf]
    rcases f c.trans.body (gather as c.ins) (gather js c.outs) with _ | r
    · rfl
    · simp only [Option.map_some, Option.bind_eq_bind, Option.bind_some]
      rw [scatter_map, ih]
      rcases sweep f cs (scatter c.ins r.2.1 as) (scatter c.outs r.2.2 js) with _ | r2
      · rfl
      · rfl

theorem RState.sweep_erase (f : Prop' F) (g : JState F → JState F)
    (hf : ∀ b as js, f b as (js.map g) = (f b as js).map (fun r => (r.1, r.2.1, r.2.2.map g))) (s : RState F) :
    (s.mapJoints g).sweep f = (s.sweep f).map (RState.mapJoints g) := by
  unfold RState.sweep RState.mapJoints
  dsimp only
  rw [Pr2.sweep_erase f g hf]
  rcases Pr2.sweep f s.conns s.acts s.joints with _ | r <;> rfl

end

section
variable {F : Type} [FCmp F] [Zero F] [Add F] [Sub F] [Mul F] [iDiv : Div F] [Neg F] [FLit F] [iTrig : FTrig F]

theorem position_forget (b : Body F) (as : List (Actuator F)) (js : List (JState F)) :
    b.propagatePosition as (js.map JState.forgetCmd) = (b.propagatePosition as js).map (fun r => (r.1, r.2.1, r.2.2.map JState.forgetCmd)) := by
  cases b with
  | simple t =>
    obtain ⟨r, sr, us, cl, cal⟩ := t
    rcases as with _ | ⟨a, _ | ⟨a', as⟩⟩ <;> rcases js with _ | ⟨j, _ | ⟨k, _ | ⟨l, js⟩⟩⟩ <;> cases us <;> rfl
  | wrist t =>
    unfold Body.propagatePosition WristT.propagatePosition
    rcases as with _ | ⟨a, _ | ⟨a', _ | ⟨a'', as⟩⟩⟩ <;> rcases js with _ | ⟨j, _ | ⟨k, _ | ⟨l, js⟩⟩⟩ <;> rfl
  | gripper t =>
    unfold Body.propagatePosition GripperT.propagatePosition
    rcases as with _ | ⟨a, _ | ⟨a', as⟩⟩ <;> rcases js with _ | ⟨j, js⟩
    · rfl
    · rfl
    · rfl
    · simp only [List.map_cons, List.length_map]
      by_cases hc : js.length = t.passive.length + (if t.hasPassive then 2 else 1)
      · rw [if_pos hc, if_pos hc]
        simp only [Option.map_some, List.map_cons, List.map_append, List.map_map, ← List.map_take, ← List.map_drop, List.cons_append]
        rfl
      · rw [if_neg hc, if_neg hc]; rfl
    · rfl
    · rfl
  | belt t =>
    unfold Body.propagatePosition BeltT.propagatePosition
    rcases as with _ | ⟨a, _ | ⟨a', as⟩⟩ <;> rcases js with _ | ⟨j, _ | ⟨k, js⟩⟩ <;> rfl

theorem effort_forget (b : Body F) (as : List (Actuator F)) (js : List (JState F)) :
    b.propagateEffort as (js.map JState.forgetFlag) = (b.propagateEffort as js).map (fun r => (r.1, r.2.1, r.2.2.map JState.forgetFlag)) := by
  cases b with
  | simple t =>
    obtain ⟨r, sr, us, cl, cal⟩ := t
    rcases as with _ | ⟨a, _ | ⟨a', as⟩⟩ <;> rcases js with _ | ⟨j, _ | ⟨k, _ | ⟨l, js⟩⟩⟩ <;> cases us <;> rfl
  | wrist t =>
    unfold Body.propagateEffort WristT.propagateEffort
    rcases as with _ | ⟨a, _ | ⟨a', _ | ⟨a'', as⟩⟩⟩ <;> rcases js with _ | ⟨j, _ | ⟨k, _ | ⟨l, js⟩⟩⟩ <;> rfl
  | gripper t =>
    unfold Body.propagateEffort GripperT.propagateEffort
    rcases as with _ | ⟨a, _ | ⟨a', as⟩⟩ <;> rcases js with _ | ⟨j, js⟩
    · rfl
    · rfl
    · rfl
    · simp only [List.map_cons, List.length_map]
      by_cases hc : js.length = t.passive.length + (if t.hasPassive then 2 else 1)
      · rw [if_pos hc, if_pos hc]; rfl
      · rw [if_neg hc, if_neg hc]; rfl
    · rfl
    · rfl
  | belt t =>
    unfold Body.propagateEffort BeltT.propagateEffort
    rcases as with _ | ⟨a, _ | ⟨a', as⟩⟩ <;> rcases js with _ | ⟨j, _ | ⟨k, js⟩⟩ <;> rfl

/-- Sweeping and zeroing the commands forgets the commands. -/
theorem sweep_forgets {s s' : RState F} (h : s.SameButCommands s') :
    ∀ t, s.propagatePosition = some t → ∃ t', s'.propagatePosition = some t' ∧ t.zeroCommands.SameButFlags t'.zeroCommands := by
  intro t ht
  unfold RState.propagatePosition at ht
  rcases hs : s.sweep Body.propagatePosition with _ | u
  · rw [hs] at ht; cases ht
  rw [hs] at ht; cases ht
  have e1 := RState.sweep_erase Body.propagatePosition JState.forgetCmd position_forget s
  have e2 := RState.sweep_erase Body.propagatePosition JState.forgetCmd position_forget s'
  unfold RState.SameButCommands at h
  rw [h, e2, hs] at e1
  rcases hs' : s'.sweep Body.propagatePosition with _ | u'
  · rw [hs'] at e1; cases e1
  rw [hs'] at e1
  simp only [Option.map_some, Option.some.injEq] at e1
  refine ⟨{ u' with joints := u'.joints.map (fun j => { j with stats := j.stats.update j.sample }) }, ?_, ?_⟩
  · unfold RState.propagatePosition; rw [hs']; rfl
  · unfold RState.SameButFlags RState.zeroCommands RState.mapJoints
    unfold RState.mapJoints at e1
    simp only [RState.mk.injEq, List.map_map] at e1 ⊢
    obtain ⟨e1, e2, e3, e4⟩ := e1
    refine ⟨e1.symm, ?_, e3.symm, e4.symm⟩
    have key : ∀ j : JState F, (JState.forgetFlag ∘ (fun j => { j with commanded := 0 }) ∘ fun j => { j with stats := j.stats.update j.sample }) j =
        (JState.forgetFlag ∘ (fun j => { j with commanded := 0 }) ∘ fun j => { j with stats := j.stats.update j.sample }) j.forgetCmd := by
      intro j
      obtain ⟨u, p, v, m, ⟨s1, s2, s3, s4, s5, s6, s7, s8⟩, c, k, ref⟩ := j
      cases s7 <;> rfl
    have : ∀ l : List (JState F), l.map (JState.forgetFlag ∘ (fun j => { j with commanded := 0 }) ∘ fun j => { j with stats := j.stats.update j.sample }) =
        (l.map JState.forgetCmd).map (JState.forgetFlag ∘ (fun j => { j with commanded := 0 }) ∘ fun j => { j with stats := j.stats.update j.sample }) := by
      intro l
      rw [List.map_map]
      exact List.map_congr_left (fun j _ => key j)
    rw [this, this u'.joints, e2]

/-- Controllers that do not look at the `violated_limits_` statistic. -/
def Oblivious (f : RState F → RState F) : Prop := ∀ s s', RState.SameButFlags s s' → RState.SameButFlags (f s) (f s')

omit [FCmp F] [Zero F] [Add F] [Sub F] [Mul F] iDiv [Neg F] [FLit F] iTrig in
theorem updateLoop_oblivious (cs : List (CUpdate F)) (h : ∀ c ∈ cs, Oblivious c.act) (s s' : RState F) (st st' : Nat → CStat)
    (hs : s.SameButFlags s') : RState.SameButFlags (updateLoop cs (s, st)).1 (updateLoop cs (s', st')).1 := by
  induction cs generalizing s s' st st' with
  | nil => exact hs
  | cons c cs ih => exact ih (fun c hc => h c (by simp [hc])) _ _ _ _ (h c (by simp) _ _ hs)

/-- **C27.**  What is sent to the hardware in a cycle does not depend on the joint commands left over from before the cycle (by controllers in the
previous cycle, by `starting` or `stopping` during a switch, or by anybody else): the cycle succeeds in the same cases, and the results differ in
nothing but the `violated_limits_` flags. -/
theorem C27_no_leak (big : F) (restart : RState F → RState F) (cs : List (CUpdate F)) (s s' : RState F) (st st' : Nat → CStat)
    (h : s.SameButCommands s') (h1 : Oblivious restart) (h2 : ∀ c ∈ cs, Oblivious c.act) (r : RState F × (Nat → CStat))
    (hr : s.cycle big restart cs st = some r) :
    ∃ r', s'.cycle big restart cs st' = some r' ∧ r.1.SameButFlags r'.1 := by
  unfold RState.cycle at hr
  rcases hp : s.propagatePosition with _ | t
  · rw [hp] at hr; cases hr
  rw [hp] at hr
  simp only [Option.bind_eq_bind, Option.bind_some] at hr
  obtain ⟨t', hp', hf⟩ := sweep_forgets h t hp
  have hu := updateLoop_oblivious cs h2 _ _ st st' (h1 _ _ hf)
  generalize updateLoop cs (restart t.zeroCommands, st) = u at hr hu
  have hsafe : RState.SameButFlags (u.1.enforceSafety big) ((updateLoop cs (restart t'.zeroCommands, st')).1.enforceSafety big) := by
    generalize (updateLoop cs (restart t'.zeroCommands, st')).1 = u' at hu
    unfold RState.SameButFlags RState.mapJoints at hu ⊢
    unfold RState.enforceSafety
    simp only [RState.mk.injEq, List.map_map] at hu ⊢
    obtain ⟨e1, e2, e3, e4⟩ := hu
    refine ⟨e1, ?_, e3, e4⟩
    have key : ∀ l : List (JState F), l.map (JState.forgetFlag ∘ (·.enforceLimits big)) = (l.map JState.forgetFlag).map (·.enforceLimits big) := by
      intro l; rw [List.map_map]; rfl
    rw [key, key, e2]
  rcases he : (u.1.enforceSafety big).propagateEffort with _ | v
  · rw [he] at hr; cases hr
  rw [he] at hr
  have e1 := RState.sweep_erase Body.propagateEffort JState.forgetFlag effort_forget (u.1.enforceSafety big)
  have e2 := RState.sweep_erase Body.propagateEffort JState.forgetFlag effort_forget ((updateLoop cs (restart t'.zeroCommands, st')).1.enforceSafety big)
  unfold RState.SameButFlags at hsafe
  unfold RState.propagateEffort at he
  rw [hsafe, e2, he] at e1
  rcases he' : ((updateLoop cs (restart t'.zeroCommands, st')).1.enforceSafety big).propagateEffort with _ | v'
  · unfold RState.propagateEffort at he'; rw [he'] at e1; cases e1
  refine ⟨(v', (updateLoop cs (restart t'.zeroCommands, st')).2), ?_, ?_⟩
  · unfold RState.cycle
    rw [hp']
    simp only [Option.bind_eq_bind, Option.bind_some]
    rw [he']; rfl
  · cases hr
    unfold RState.propagateEffort at he'
    rw [he'] at e1
    simp only [Option.map_some, Option.some.injEq] at e1
    exact e1.symm

omit [FCmp F] [Zero F] [Add F] [Sub F] [Mul F] iDiv [Neg F] [FLit F] iTrig in
/-- In particular the same commands and actuators. -/
theorem C27_same_commands {s s' : RState F} (h : s.SameButFlags s') : s.acts = s'.acts ∧ s.joints.map (·.commanded) = s'.joints.map (·.commanded) := by
  unfold RState.SameButFlags RState.mapJoints at h
  simp only [RState.mk.injEq] at h
  refine ⟨h.2.2.2, ?_⟩
  have := congrArg (List.map (fun j : JState F => j.commanded)) h.2.1
  rw [List.map_map, List.map_map] at this
  exact this

/-- A controller that does not write the command of joint `k`. -/
def LeavesAlone (k : Nat) (f : RState F → RState F) : Prop := ∀ s, (f s).joints[k]?.map (·.commanded) = s.joints[k]?.map (·.commanded)

/-- **C27.**  If no controller writes the command of joint `k` in a cycle, its command is what the safety limits make of zero. -/
theorem C27_untouched (big : F) (restart : RState F → RState F) (cs : List (CUpdate F)) (s : RState F) (st : Nat → CStat) (hr : s.Ready)
    (h1 : ∀ s, SameRobot s (restart s)) (h2 : ∀ c ∈ cs, ∀ s, SameRobot s (c.act s)) (r : RState F × (Nat → CStat))
    (h : s.cycle big restart cs st = some r) (k : Nat) (l1 : LeavesAlone k restart) (l2 : ∀ c ∈ cs, LeavesAlone k c.act) (j : JState F)
    (hj : r.1.joints[k]? = some j) : ∃ j0 : JState F, j0.commanded = 0 ∧ j = j0.enforceLimits big := by
  obtain ⟨r', s3, hc, _, hr3, k3, he, s1, hp, e3⟩ := cycle_runs big restart cs s st hr h1 h2
  rw [h] at hc; cases hc
  have hjj : r.1.joints = s3.joints := (C48_effort_only_commands s3 r.1 hr3 he).2
  rw [hjj, e3] at hj
  unfold RState.enforceSafety at hj
  simp only [List.getElem?_map, Option.map_eq_some_iff] at hj
  obtain ⟨j0, hj0, rfl⟩ := hj
  refine ⟨j0, ?_, rfl⟩
  have loop : ∀ (cs : List (CUpdate F)) (s : RState F) (st : Nat → CStat), (∀ c ∈ cs, LeavesAlone k c.act) →
      (updateLoop cs (s, st)).1.joints[k]?.map (·.commanded) = s.joints[k]?.map (·.commanded) := by
    intro cs
    induction cs with
    | nil => intro s st _; rfl
    | cons c cs ih => intro s st h; rw [updateLoop, ih _ _ (fun c hc => h c (by simp [hc])), h c (by simp)]
  have := loop cs (restart s1.zeroCommands) st l2
  rw [hj0, l1] at this
  unfold RState.zeroCommands at this
  simp only [List.getElem?_map, Option.map_map, Option.map_some] at this
  rcases hz : s1.joints[k]? with _ | z
  · rw [hz] at this; cases this
  · rw [hz] at this; simpa using this

end

/-! ## C68: messages -/

section
variable {F : Type}

theorem messageSize_spec (js : List (JState F)) (n : Nat) :
    messageSize js = some n ↔ n = js.length ∧ ∀ j ∈ js, j.joint.type = .revolute ∨ j.joint.type = .continuous ∨ j.joint.type = .prismatic := by
  induction js generalizing n with
  | nil => simp [messageSize, eq_comm]
  | cons j js ih =>
    unfold messageSize
    by_cases hp : j.joint.type.published = true
    · have hp' : j.joint.type = .revolute ∨ j.joint.type = .continuous ∨ j.joint.type = .prismatic := by
        simpa [JType.published, or_assoc] using hp
      rw [if_pos hp, Option.map_eq_some_iff]
      constructor
      · rintro ⟨m, hm, rfl⟩
        obtain ⟨rfl, h⟩ := (ih m).1 hm
        exact ⟨rfl, by simpa using ⟨hp', h⟩⟩
      · rintro ⟨rfl, h⟩
        exact ⟨js.length, (ih _).2 ⟨rfl, fun j hj => h j (by simp [hj])⟩, rfl⟩
    · have hp' : ¬ (j.joint.type = .revolute ∨ j.joint.type = .continuous ∨ j.joint.type = .prismatic) := by
        simpa [JType.published, or_assoc] using hp
      rw [if_neg hp]
      constructor
      · intro h; cases h
      · rintro ⟨_, h⟩; exact (hp' (h j (by simp))).elim

/-- **C69.**  The manager refuses a robot exactly if one of its joints is neither revolute, continuous nor prismatic. -/
theorem C69_refuses (js : List (JState F)) :
    messageSize js = none ↔ ∃ j ∈ js, j.joint.type ≠ .revolute ∧ j.joint.type ≠ .continuous ∧ j.joint.type ≠ .prismatic := by
  constructor
  · intro h
    by_contra hc
    push Not at hc
    have : messageSize js = some js.length := (messageSize_spec js _).2 ⟨rfl, fun j hj => by
      by_contra hn
      push Not at hn
      exact hn.2.2 (hc j hj hn.1 hn.2.1)⟩
    rw [h] at this; cases this
  · rintro ⟨j, hj, h1, h2, h3⟩
    rcases hm : messageSize js with _ | n
    · rfl
    · rcases ((messageSize_spec js n).1 hm).2 j hj with h | h | h
      · exact (h1 h).elim
      · exact (h2 h).elim
      · exact (h3 h).elim

theorem fillRows_spec {ρ : Type} (row : JState F → ρ) (js : List (JState F)) (k : Nat) (msg : List ρ)
    (hp : ∀ j ∈ js, j.joint.type.published = true) (hl : msg.length = k + js.length) :
    fillRows row js k msg = some (msg.take k ++ js.map row) := by
  induction js generalizing k msg with
  | nil => simp only [fillRows, List.length_nil, Nat.add_zero] at hl ⊢; simp [← hl]
  | cons j js ih =>
    unfold fillRows
    rw [if_pos (hp j (by simp)), if_pos (by simp at hl; omega), ih (k + 1) _ (fun j hj => hp j (by simp [hj])) (by simp at hl ⊢; omega)]
    congr 1
    have hk : k < msg.length := by simp at hl; omega
    have : (msg.set k (row j)).take (k + 1) = msg.take k ++ [row j] := by
      rw [List.take_set, List.take_succ_eq_append_getElem hk, List.set_append_right _ _ (by simp)]
      simp [Nat.min_eq_left hk.le]
    rw [this]; simp

theorem fillActs_spec (as : List (Actuator F)) (k : Nat) (msg : List (ARow F)) (hl : msg.length = k + as.length) :
    fillActs as k msg = some (msg.take k ++ as.map Actuator.arow) := by
  induction as generalizing k msg with
  | nil => simp only [fillActs, List.length_nil, Nat.add_zero] at hl ⊢; simp [← hl]
  | cons a as ih =>
    unfold fillActs
    rw [if_pos (by simp at hl; omega), ih (k + 1) _ (by simp at hl ⊢; omega)]
    congr 1
    have hk : k < msg.length := by simp at hl; omega
    have : (msg.set k a.arow).take (k + 1) = msg.take k ++ [a.arow] := by
      rw [List.take_set, List.take_succ_eq_append_getElem hk, List.set_append_right _ _ (by simp)]
      simp [Nat.min_eq_left hk.le]
    rw [this]; simp

/-- What `initXml` establishes for the realtime data: a ready robot, joints that can be published, messages of the right size, positive periods. -/
structure RtData.Good (d : RtData F) : Prop where
  ready : d.robot.Ready
  types : ∀ j ∈ d.robot.joints, j.joint.type = .revolute ∨ j.joint.type = .continuous ∨ j.joint.type = .prismatic
  statRows : d.statPub.msg.1.length = d.robot.joints.length
  actRows : d.statPub.msg.2.length = d.robot.acts.length
  jointRows : d.jointPub.msg.length = d.robot.joints.length
  statPeriod : 0 < d.statPub.period
  jointPeriod : 0 < d.jointPub.period

/-- Controllers that change values only. -/
structure CycleIn.Tame (i : CycleIn F) : Prop where
  restart : ∀ s, SameRobot s (i.restart s)
  controllers : ∀ c ∈ i.controllers, ∀ s, SameRobot s (c.act s)
  switched : ∀ s, SameRobot s (i.switched s)

theorem SameRobot.types {s s' : RState F} (h : SameRobot s s')
    (ht : ∀ j ∈ s.joints, j.joint.type = .revolute ∨ j.joint.type = .continuous ∨ j.joint.type = .prismatic) :
    ∀ j ∈ s'.joints, j.joint.type = .revolute ∨ j.joint.type = .continuous ∨ j.joint.type = .prismatic := by
  intro j' hj'
  obtain ⟨j, hj, e⟩ := Ready.sweep.forall2_right h.joints hj'
  rw [e]; exact ht j hj

theorem published_of {t : JType} (h : t = .revolute ∨ t = .continuous ∨ t = .prismatic) : t.published = true := by
  rcases h with rfl | rfl | rfl <;> rfl

end

section
variable {F : Type} [FCmp F] [Zero F] [Add F] [Sub F] [Mul F] [iDiv : Div F] [Neg F] [FLit F] [iTrig : FTrig F]

/-- The clock part never hangs. -/
theorem pubTick_some (period now last : Int) (free : Bool) (hp : 0 < period) : ∃ r, pubTick period now free last = some r := by
  unfold pubTick
  split
  · split
    · obtain ⟨k, h, _⟩ := C25_catch_up period now last hp
      rw [h]; exact ⟨_, rfl⟩
    · exact ⟨_, rfl⟩
  · exact ⟨_, rfl⟩

/-- **C68, C69.**  A cycle of good data with tame controllers never aborts or hangs and leaves good data; if the statistics publisher's clock and
lock allow, the message has one row per joint and actuator, in order, with the values sent to the hardware in this cycle, and the joints' statistics
start afresh; likewise the joint states; otherwise the messages are untouched. -/
theorem update_good (big : F) (d : RtData F) (i : CycleIn F) (hd : d.Good) (hi : i.Tame) :
    ∃ sent d', d.update big i = some (sent, d') ∧ d'.Good ∧ SameRobot d.robot sent ∧ SameRobot d.robot d'.robot ∧
      (∃ t, pubTick d.statPub.period i.statNow i.statFree d.statPub.last = some t ∧ d'.statPub.last = t.1 ∧
        d'.statPub.period = d.statPub.period ∧
        (t.2 = true → d'.statPub.msg = (sent.joints.map (JState.srow i.statNow), sent.acts.map Actuator.arow) ∧
          d'.robot = i.switched { sent with joints := sent.joints.map (fun j => { j with stats := j.stats.reset }) }) ∧
        (t.2 = false → d'.statPub.msg = d.statPub.msg ∧ d'.robot = i.switched sent)) ∧
      (∃ t, pubTick d.jointPub.period i.jointNow i.jointFree d.jointPub.last = some t ∧ d'.jointPub.last = t.1 ∧
        d'.jointPub.period = d.jointPub.period ∧
        (t.2 = true → d'.jointPub.msg = sent.joints.map JState.jrow) ∧ (t.2 = false → d'.jointPub.msg = d.jointPub.msg)) ∧
      ∃ st, d.robot.cycle big i.restart i.controllers d.stats = some (sent, st) := by
  obtain ⟨r, s3, hc, k, _⟩ := cycle_runs big i.restart i.controllers d.robot d.stats hd.ready hi.restart hi.controllers
  have ht := k.types hd.types
  have hpub : ∀ j ∈ r.1.joints, j.joint.type.published = true := fun j hj => published_of (ht j hj)
  have lj : r.1.joints.length = d.robot.joints.length := (List.Forall₂.length_eq k.joints).symm
  have la : r.1.acts.length = d.robot.acts.length := (List.Forall₂.length_eq k.acts).symm
  obtain ⟨t1, h1⟩ := pubTick_some d.statPub.period i.statNow d.statPub.last i.statFree hd.statPeriod
  obtain ⟨t2, h2⟩ := pubTick_some d.jointPub.period i.jointNow d.jointPub.last i.jointFree hd.jointPeriod
  have hreset : r.1.resetStats = { r.1 with joints := r.1.joints.map (fun j => { j with stats := j.stats.reset }) } := by
    unfold RState.resetStats
    congr 1
    exact List.map_congr_left (fun j hj => by rw [if_pos (hpub j hj)])
  have hrows : fillRows (JState.srow i.statNow) r.1.joints 0 d.statPub.msg.1 = some (r.1.joints.map (JState.srow i.statNow)) := by
    rw [fillRows_spec _ _ _ _ hpub (by rw [hd.statRows, lj]; simp)]; simp
  have hacts : fillActs r.1.acts 0 d.statPub.msg.2 = some (r.1.acts.map Actuator.arow) := by
    rw [fillActs_spec _ _ _ (by rw [hd.actRows, la]; simp)]; simp
  have hjrows : ∀ s : RState F, (∀ j ∈ s.joints, j.joint.type.published = true) → s.joints.length = d.robot.joints.length →
      fillRows JState.jrow s.joints 0 d.jointPub.msg = some (s.joints.map JState.jrow) := by
    intro s hs hl
    rw [fillRows_spec _ _ _ _ hs (by rw [hd.jointRows, hl]; simp)]; simp
  have hrj : r.1.resetStats.joints.map JState.jrow = r.1.joints.map JState.jrow := by
    rw [hreset]; dsimp only; rw [List.map_map]; rfl
  have kr := k.trans (SameRobot.reset r.1)
  have hpubr : ∀ j ∈ r.1.resetStats.joints, j.joint.type.published = true := fun j hj => published_of (kr.types hd.types j hj)
  have ljr : r.1.resetStats.joints.length = d.robot.joints.length := (List.Forall₂.length_eq kr.joints).symm
  -- the statistics
  have hps : publishStats i.statNow i.statFree d.statPub r.1 = some (if t1.2 then
      ({ d.statPub with last := t1.1, msg := (r.1.joints.map (JState.srow i.statNow), r.1.acts.map Actuator.arow) }, r.1.resetStats, true)
      else ({ d.statPub with last := t1.1 }, r.1, false)) := by
    unfold publishStats
    rw [h1]
    simp only [Option.bind_eq_bind, Option.bind_some]
    cases t1.2
    · rfl
    · simp only [if_true]; rw [hrows, hacts]; rfl
  have hpj : ∀ s : RState F, (∀ j ∈ s.joints, j.joint.type.published = true) → s.joints.length = d.robot.joints.length →
      publishJoints i.jointNow i.jointFree d.jointPub s = some (if t2.2 then ({ d.jointPub with last := t2.1, msg := s.joints.map JState.jrow }, true)
        else ({ d.jointPub with last := t2.1 }, false)) := by
    intro s hs hl
    unfold publishJoints
    rw [h2]
    simp only [Option.bind_eq_bind, Option.bind_some]
    cases t2.2
    · rfl
    · simp only [if_true]; rw [hjrows s hs hl]; rfl
  have fin : ∀ s : RState F, SameRobot d.robot s → SameRobot d.robot (i.switched s) := fun s hs => hs.trans (hi.switched s)
  have len : ∀ s : RState F, SameRobot d.robot s → s.joints.length = d.robot.joints.length ∧ s.acts.length = d.robot.acts.length :=
    fun s hs => ⟨(List.Forall₂.length_eq hs.joints).symm, (List.Forall₂.length_eq hs.acts).symm⟩
  have hst : ∃ st, d.robot.cycle big i.restart i.controllers d.stats = some (r.1, st) := ⟨r.2, hc⟩
  cases e1 : t1.2
  · -- statistics not published
    rw [e1] at hps
    simp only [Bool.false_eq_true, if_false] at hps
    have hq := hpj r.1 hpub lj
    obtain ⟨l1, l2⟩ := len _ (fin r.1 k)
    cases e2 : t2.2
    · rw [e2] at hq
      simp only [Bool.false_eq_true, if_false] at hq
      have hupd : d.update big i = some (r.1, ⟨i.switched r.1, r.2, { d.statPub with last := t1.1 }, { d.jointPub with last := t2.1 }⟩) := by
        unfold RtData.update; rw [hc]; simp only [Option.bind_eq_bind, Option.bind_some]; rw [hps]; simp only [Option.bind_some]; rw [hq]; rfl
      refine ⟨r.1, _, hupd,
        ⟨(fin _ k).ready hd.ready, (fin _ k).types hd.types, by rw [l1]; exact hd.statRows, by rw [l2]; exact hd.actRows, by rw [l1]; exact hd.jointRows,
          hd.statPeriod, hd.jointPeriod⟩, k, fin _ k, ⟨t1, h1, rfl, rfl, by simp [e1], fun _ => ⟨rfl, rfl⟩⟩,
        ⟨t2, h2, rfl, rfl, by simp [e2], fun _ => rfl⟩, hst⟩
    · rw [e2] at hq
      simp only [if_true] at hq
      have hupd : d.update big i = some (r.1, ⟨i.switched r.1, r.2, { d.statPub with last := t1.1 }, { d.jointPub with last := t2.1, msg := r.1.joints.map JState.jrow }⟩) := by
        unfold RtData.update; rw [hc]; simp only [Option.bind_eq_bind, Option.bind_some]; rw [hps]; simp only [Option.bind_some]; rw [hq]; rfl
      refine ⟨r.1, _, hupd,
        ⟨(fin _ k).ready hd.ready, (fin _ k).types hd.types, by rw [l1]; exact hd.statRows, by rw [l2]; exact hd.actRows, by rw [l1]; simpa using lj,
          hd.statPeriod, hd.jointPeriod⟩, k, fin _ k, ⟨t1, h1, rfl, rfl, by simp [e1], fun _ => ⟨rfl, rfl⟩⟩,
        ⟨t2, h2, rfl, rfl, fun _ => rfl, by simp [e2]⟩, hst⟩
  · rw [e1] at hps
    simp only [if_true] at hps
    have hq := hpj r.1.resetStats hpubr ljr
    rw [hrj] at hq
    obtain ⟨l1, l2⟩ := len _ (fin _ kr)
    cases e2 : t2.2
    · rw [e2] at hq
      simp only [Bool.false_eq_true, if_false] at hq
      have hupd : d.update big i = some (r.1, ⟨i.switched r.1.resetStats, r.2, { d.statPub with last := t1.1, msg := (r.1.joints.map (JState.srow i.statNow), r.1.acts.map Actuator.arow) }, { d.jointPub with last := t2.1 }⟩) := by
        unfold RtData.update; rw [hc]; simp only [Option.bind_eq_bind, Option.bind_some]; rw [hps]; simp only [Option.bind_some]; rw [hq]; rfl
      refine ⟨r.1, _, hupd,
        ⟨(fin _ kr).ready hd.ready, (fin _ kr).types hd.types, by rw [l1]; simpa using lj, by rw [l2]; simpa using la, by rw [l1]; exact hd.jointRows,
          hd.statPeriod, hd.jointPeriod⟩, k, fin _ kr, ⟨t1, h1, rfl, rfl, fun _ => ⟨rfl, by rw [← hreset]⟩, by simp [e1]⟩,
        ⟨t2, h2, rfl, rfl, by simp [e2], fun _ => rfl⟩, hst⟩
    · rw [e2] at hq
      simp only [if_true] at hq
      have hupd : d.update big i = some (r.1, ⟨i.switched r.1.resetStats, r.2, { d.statPub with last := t1.1, msg := (r.1.joints.map (JState.srow i.statNow), r.1.acts.map Actuator.arow) }, { d.jointPub with last := t2.1, msg := r.1.joints.map JState.jrow }⟩) := by
        unfold RtData.update; rw [hc]; simp only [Option.bind_eq_bind, Option.bind_some]; rw [hps]; simp only [Option.bind_some]; rw [hq]; rfl
      refine ⟨r.1, _, hupd,
        ⟨(fin _ kr).ready hd.ready, (fin _ kr).types hd.types, by rw [l1]; simpa using lj, by rw [l2]; simpa using la, by rw [l1]; simpa using lj,
          hd.statPeriod, hd.jointPeriod⟩, k, fin _ kr, ⟨t1, h1, rfl, rfl, fun _ => ⟨rfl, by rw [← hreset]⟩, by simp [e1]⟩,
        ⟨t2, h2, rfl, rfl, fun _ => rfl, by simp [e2]⟩, hst⟩

/-! ### What the messages must say -/

/-- A row of `joint_statistics` that describes joint `j` at time `now`. -/
structure SRow.Shows (r : SRow F) (now : Int) (j : JState F) : Prop where
  timestamp : r.timestamp = now
  name : r.name = j.joint.name
  position : r.position = j.position
  velocity : r.velocity = j.velocity
  measured : r.measured = j.measured
  commanded : r.commanded = j.commanded
  calibrated : r.calibrated = j.calibrated
  violated : r.violated = j.stats.violated
  odometer : r.odometer = j.stats.odometer
  minPos : r.minPos = j.stats.minPos
  maxPos : r.maxPos = j.stats.maxPos
  maxVel : r.maxVel = j.stats.maxVel
  maxEff : r.maxEff = j.stats.maxEff

/-- A row of `actuator_statistics` that describes actuator `a`. -/
structure ARow.Shows (r : ARow F) (a : Actuator F) : Prop where
  timestamp : r.timestamp = a.ts
  name : r.name = a.name
  position : r.position = a.position
  velocity : r.velocity = a.velocity
  calReading : r.calReading = a.calReading
  risingValid : r.risingValid = a.risingValid
  fallingValid : r.fallingValid = a.fallingValid
  risingEdge : r.risingEdge = a.risingEdge
  fallingEdge : r.fallingEdge = a.fallingEdge
  halted : r.halted = a.halted
  measured : r.measured = a.measured
  deviceId : r.deviceId = a.info.deviceId
  encoderCount : r.encoderCount = a.info.encoderCount
  encoderOffset : r.encoderOffset = a.info.zeroOffset
  encoderVelocity : r.encoderVelocity = a.info.encoderVelocity
  isEnabled : r.isEnabled = a.info.isEnabled
  commandedCurrent : r.commandedCurrent = a.info.commandedCurrent
  executedCurrent : r.executedCurrent = a.info.executedCurrent
  measuredCurrent : r.measuredCurrent = a.info.measuredCurrent
  commandedEffort : r.commandedEffort = a.info.commandedEffort
  executedEffort : r.executedEffort = a.info.executedEffort
  motorVoltage : r.motorVoltage = a.info.motorVoltage
  encoderErrors : r.encoderErrors = a.info.encoderErrors

/-- An entry of `joint_states` that describes joint `j`. -/
structure JRow.Shows (r : JRow F) (j : JState F) : Prop where
  name : r.name = j.joint.name
  position : r.position = j.position
  velocity : r.velocity = j.velocity
  effort : r.effort = j.measured

/-- The statistics of a joint restart: the maxima are zero, no limit has been violated, the odometer goes on, and the range is the former one with its ends
exchanged (so that the next update narrows it to the present position, see C35). -/
structure JStats.Restarted (st st' : JStats F) : Prop where
  minPos : st'.minPos = st.maxPos
  maxPos : st'.maxPos = st.minPos
  maxVel : st'.maxVel = 0
  maxEff : st'.maxEff = 0
  violated : st'.violated = false
  odometer : st'.odometer = st.odometer
  oldPos : st'.oldPos = st.oldPos
  initialized : st'.initialized = st.initialized

theorem pubTick_true {period now last : Int} (hp : 0 < period) (h : last + period < now) : ∃ l, pubTick period now true last = some (l, true) := by
  obtain ⟨k, h1, _⟩ := C25_catch_up period now last hp
  unfold pubTick
  rw [if_pos h, if_pos rfl, h1]
  exact ⟨_, rfl⟩

theorem pubTick_false {period now last : Int} {free : Bool} (h : ¬ (last + period < now ∧ free = true)) : pubTick period now free last = some (last, false) := by
  unfold pubTick
  by_cases h1 : now > last + period
  · rw [if_pos h1, if_neg (fun hf => h ⟨h1, hf⟩)]
  · rw [if_neg h1]

theorem rows_of_map {α ρ : Type} {row : α → ρ} {P : ρ → α → Prop} (h : ∀ a, P (row a) a) (l : List α) : List.Forall₂ P (l.map row) l := by
  rw [List.forall₂_map_left_iff]
  exact List.forall₂_same.2 (fun a _ => h a)

/-- **C68.**  When the period is over and the publisher is free, a statistics message is published with one row per joint and per actuator, in order, with the
values sent to the hardware in this cycle, and the joints' statistics restart; nothing else changes before the controllers are switched. -/
theorem C68_statistics (big : F) (d d' : RtData F) (i : CycleIn F) (hd : d.Good) (hi : i.Tame) (sent : RState F) (h : d.update big i = some (sent, d'))
    (hp : d.statPub.last + d.statPub.period < i.statNow) (hf : i.statFree = true) :
    List.Forall₂ (fun r j => r.Shows i.statNow j) d'.statPub.msg.1 sent.joints ∧ List.Forall₂ (fun r a => r.Shows a) d'.statPub.msg.2 sent.acts ∧
    ∃ js, List.Forall₂ (fun j j' => ∃ st, JStats.Restarted j.stats st ∧ j' = { j with stats := st }) sent.joints js ∧
      d'.robot = i.switched { sent with joints := js } := by
  obtain ⟨_, _, h0, _, _, _, ⟨t, h1, _, _, h2, _⟩, _⟩ := update_good big d i hd hi
  rw [h] at h0; cases h0
  obtain ⟨l, hl⟩ := pubTick_true hd.statPeriod hp
  rw [hf, hl] at h1; cases h1
  obtain ⟨e1, e2⟩ := h2 rfl
  refine ⟨?_, ?_, _, ?_, e2⟩
  · rw [e1]; exact rows_of_map (fun j => ⟨rfl, rfl, rfl, rfl, rfl, rfl, rfl, rfl, rfl, rfl, rfl, rfl, rfl⟩) _
  · rw [e1]; exact rows_of_map (fun j => ⟨rfl, rfl, rfl, rfl, rfl, rfl, rfl, rfl, rfl, rfl, rfl, rfl, rfl, rfl, rfl, rfl, rfl, rfl, rfl, rfl, rfl, rfl, rfl⟩) _
  · rw [List.forall₂_map_right_iff]
    exact List.forall₂_same.2 (fun j _ => ⟨j.stats.reset, ⟨rfl, rfl, rfl, rfl, rfl, rfl, rfl, rfl⟩, rfl⟩)

/-- **C68.**  When the period is over and the publisher is free, a joint state message is published with the name, position, velocity and measured effort of every
joint, in order, as of this cycle. -/
theorem C68_joint_states (big : F) (d d' : RtData F) (i : CycleIn F) (hd : d.Good) (hi : i.Tame) (sent : RState F) (h : d.update big i = some (sent, d'))
    (hp : d.jointPub.last + d.jointPub.period < i.jointNow) (hf : i.jointFree = true) :
    List.Forall₂ (fun r j => r.Shows j) d'.jointPub.msg sent.joints := by
  obtain ⟨_, _, h0, _, _, _, _, ⟨t, h1, _, _, h2, _⟩, _⟩ := update_good big d i hd hi
  rw [h] at h0; cases h0
  obtain ⟨l, hl⟩ := pubTick_true hd.jointPeriod hp
  rw [hf, hl] at h1; cases h1
  rw [h2 rfl]
  exact rows_of_map (fun j => ⟨rfl, rfl, rfl, rfl⟩) _

/-- **C68.**  Without publishing, messages and statistics are untouched. -/
theorem C68_quiet (big : F) (d d' : RtData F) (i : CycleIn F) (hd : d.Good) (hi : i.Tame) (sent : RState F) (h : d.update big i = some (sent, d')) :
    (¬ (d.statPub.last + d.statPub.period < i.statNow ∧ i.statFree = true) → d'.statPub = d.statPub ∧ d'.robot = i.switched sent) ∧
    (¬ (d.jointPub.last + d.jointPub.period < i.jointNow ∧ i.jointFree = true) → d'.jointPub = d.jointPub) := by
  obtain ⟨_, _, h0, _, _, _, ⟨t, h1, h1a, h1b, _, h2⟩, ⟨u, k1, k1a, k1b, _, k2⟩, _⟩ := update_good big d i hd hi
  rw [h] at h0; cases h0
  constructor
  · intro hn
    rw [pubTick_false hn] at h1; cases h1
    obtain ⟨e1, e2⟩ := h2 rfl
    refine ⟨?_, e2⟩
    rcases hx : d'.statPub with ⟨a, b, c⟩
    rw [hx] at h1a h1b e1
    dsimp only at h1a h1b e1
    rw [h1a, h1b, e1]
  · intro hn
    rw [pubTick_false hn] at k1; cases k1
    have e1 := k2 rfl
    rcases hx : d'.jointPub with ⟨a, b, c⟩
    rw [hx] at k1a k1b e1
    dsimp only at k1a k1b e1
    rw [k1a, k1b, e1]

/-- **C69.**  After initialisation with positive periods, no sequence of cycles aborts, hangs or accesses a message out of range, whatever the
controllers compute. -/
theorem C69_never_fails (big : F) (d : RtData F) (hd : d.Good) (is : List (CycleIn F)) (hi : ∀ i ∈ is, i.Tame) :
    ∃ sent d', d.run big is = some (sent, d') ∧ d'.Good ∧ sent.length = is.length ∧ (∀ s ∈ sent, SameRobot d.robot s) := by
  induction is generalizing d with
  | nil => exact ⟨[], d, rfl, hd, rfl, by simp⟩
  | cons i is ih =>
    obtain ⟨s1, d1, h1, g1, k1, k2, _⟩ := update_good big d i hd (hi i (by simp))
    obtain ⟨sent, d', h2, g2, hl, hs⟩ := ih d1 g1 (fun i h => hi i (by simp [h]))
    refine ⟨s1 :: sent, d', ?_, g2, by simp [hl], ?_⟩
    · unfold RtData.run; rw [h1]; simp only [Option.bind_eq_bind, Option.bind_some]; rw [h2]; rfl
    · intro s hs'
      rcases List.mem_cons.1 hs' with rfl | hs'
      · exact k1
      · exact k2.trans (hs s hs')

/-- **C28, over time.**  In every cycle of every history the commands sent are limited. -/
theorem C28_always_limited [IeeeLike F] (big : F) (d : RtData F) (hd : d.Good) (is : List (CycleIn F)) (hi : ∀ i ∈ is, i.Tame) (sent : List (RState F))
    (d' : RtData F) (h : d.run big is = some (sent, d')) : ∀ s ∈ sent, s.Limited := by
  induction is generalizing d sent with
  | nil => cases h; simp
  | cons i is ih =>
    obtain ⟨s1, d1, h1, g1, _, _, _, _, st, hc⟩ := update_good big d i hd (hi i (by simp))
    unfold RtData.run at h
    rw [h1] at h
    simp only [Option.bind_eq_bind, Option.bind_some] at h
    rcases h2 : d1.run big is with _ | ⟨ss, d2⟩
    · rw [h2] at h; cases h
    rw [h2] at h; cases h
    have lim := (C28_limited big i.restart i.controllers d.robot d.stats hd.ready (hi i (by simp)).restart (hi i (by simp)).controllers _ hc).1
    intro s hs
    rcases List.mem_cons.1 hs with rfl | hs
    · exact lim
    · exact ih d1 g1 (fun i h => hi i (by simp [h])) ss h2 s hs

/-- `initXml` of a well-described robot with sensible rates establishes good data: robot state, message sizes, periods. -/
theorem C69_init [Parse F] (l : TransLoader F) (urdf : Xml → Option (String → Option (UJoint F))) (root : Xml) (acts acts' : List (Actuator F))
    (ts : List (Trans F)) (h : Robot.initXml true urdf l root acts = (acts', .ok ts)) (old : Nat → F)
    (hl : l.WellDescribed (root.all "transmission")) (joint : String → Option (UJoint F)) (s : RState F) (hu : urdf root = some joint)
    (hs : RState.mk' ts joint acts' old = some s) (n : Nat) (hm : messageSize s.joints = some n)
    (rs rj : ℚ) (hrs : rs ≤ 2000000000) (hrj : rj ≤ 2000000000) (now : Int) (msg : List (SRow F) × List (ARow F)) (jmsg : List (JRow F))
    (h1 : msg.1.length = n) (h2 : msg.2.length = acts'.length) (h3 : jmsg.length = n) :
    RtData.Good ⟨s, fun _ => CStat.fresh, ⟨now, publishPeriod rs, msg⟩, ⟨now, publishPeriod rj, jmsg⟩⟩ := by
  obtain ⟨rfl, ht⟩ := (messageSize_spec _ _).1 hm
  obtain ⟨js, _, _, _, _, ha⟩ := mk'_inv hs
  exact ⟨C67_ready l urdf root acts acts' true ts h old hl joint s hu hs, ht, h1, by rw [ha]; exact h2, h3,
    (C25_period_positive rs).2 hrs, (C25_period_positive rj).2 hrj⟩

/-- A controller that pushes joint 0 towards position 0 only changes values and looks at no flag. -/
def springController (k : F) (s : RState F) : RState F :=
  { s with joints := s.joints.modify 0 (fun j => { j with commanded := -(k * j.position) }) }

omit [FCmp F] [Zero F] [Add F] [Sub F] iDiv [FLit F] iTrig in
theorem springController_tame (k : F) : (∀ s, SameRobot s (springController k s)) ∧ Oblivious (springController k) ∧
    LeavesAlone 1 (springController k) := by
  refine ⟨fun s => ⟨List.forall₂_same.2 (fun c _ => ⟨c.trans.body, rfl, fun _ _ => Iff.rfl⟩), rfl, ?_, List.forall₂_same.2 (fun _ _ => rfl)⟩, ?_, ?_⟩
  · unfold springController
    cases s.joints with
    | nil => exact .nil
    | cons j js => exact .cons rfl (List.forall₂_same.2 (fun _ _ => rfl))
  · intro s s' h
    obtain ⟨c, js, m, a⟩ := s
    obtain ⟨c', js', m', a'⟩ := s'
    unfold RState.SameButFlags RState.mapJoints at h ⊢
    simp only [RState.mk.injEq, springController] at h ⊢
    refine ⟨h.1, ?_, h.2.2⟩
    have h2 := h.2.1
    cases js with
    | nil => cases js' with
      | nil => rfl
      | cons j' js' => simp at h2
    | cons j js => cases js' with
      | nil => simp at h2
      | cons j' js' =>
        simp only [List.map_cons, List.cons.injEq, List.modify_zero_cons] at h2 ⊢
        refine ⟨?_, h2.2⟩
        have e := h2.1
        unfold JState.forgetFlag at e ⊢
        simp only [JState.mk.injEq] at e ⊢
        simp_all
  · intro s
    unfold springController
    simp [List.getElem?_modify]

end

section
variable {F : Type} [FCmp F] [Zero F] [Add F] [Sub F] [Mul F] [iDiv : Div F] [Neg F] [FLit F] [iTrig : FTrig F]

/-- C26-C28, C68, C69: a concrete robot, with a controller, meets the hypotheses. -/
example [Parse F] (t : SimpleT F) (ht : t.useSim = false) (u : UJoint F) (hu : u.type = .revolute) (old : Nat → F) (k : F) :
    ∃ (d : RtData F) (i : CycleIn F), d.Good ∧ i.Tame ∧ d.robot.joints.length = 1 ∧ Unshared d.robot.conns ∧ i.controllers ≠ [] := by
  have hi : Robot.initXml true (demoUrdf u) (demoLoader t) demoRoot [Actuator.fresh "m"] =
      ([{ Actuator.fresh "m" with enable := true }], .ok [⟨"t", ["m"], ["elbow"], .simple { t with reduction := Parse.atof "2" }⟩]) := rfl
  refine ⟨_, ⟨id, [⟨0, springController k, 0, 1⟩], 5, true, 6, true, id⟩,
    C69_init (demoLoader t) (demoUrdf u) demoRoot _ _ _ hi old ?_ _ _ rfl rfl 1 ?_ 1 100 (by norm_num) (by norm_num) 0
      ([(JState.fresh u 0).srow 0], [(Actuator.fresh "m").arow]) [(JState.fresh u 0).jrow] rfl rfl rfl, ?_, rfl, ?_, by simp⟩
  · intro k x _ ty b hk _ _ _ hb
    unfold demoLoader at hb
    dsimp only at hb
    split at hb
    · cases hb
      refine ⟨ht, ?_⟩
      change (x.all "simulated_actuated_joint").length ≤ 1
      have hall : ∀ y ∈ demoRoot.all "transmission", (y.all "simulated_actuated_joint").length ≤ 1 := by decide +kernel
      exact hall x (List.mem_of_getElem? hk)
    · cases hb
  · change messageSize [JState.fresh u (old 0)] = some 1
    simp [messageSize, JState.fresh, JType.published, hu]
  · exact ⟨fun s => SameRobot.refl s, fun c hc s => by simp at hc; subst hc; exact (springController_tame k).1 s, fun s => SameRobot.refl s⟩
  · simp [Unshared, Actuator.fresh]

end

/-! ## A concrete execution meeting the hypotheses

One elbow joint (effort limit 3) behind a motor with reduction 2, a spring controller of stiffness 4, two cycles: the statistics message is published
in the first one and not in the second one. -/

section demo
attribute [local instance] exactCmp
@[reducible] def demoTrig : FTrig ℚ := ⟨3, id, id, id, id, id, id⟩
@[reducible] def demoLit : FLit ℚ := ⟨id, fun n => n⟩
attribute [local instance] demoTrig demoLit

def demoElbow : UJoint ℚ := ⟨"elbow", .revolute, some ⟨-2, 2, 3, 10⟩, some ⟨-2, 2, 100, 100⟩, none⟩
def demoMotor : Actuator ℚ := { Actuator.fresh "m" with position := 3, measured := 5 }
def demoRobotState : RState ℚ :=
  ⟨[⟨⟨"t", ["m"], ["elbow"], .simple ⟨2, 0, false, ⟨false, 0⟩, CalSim.fresh 0 0 0 0 false false⟩⟩, [0], [0]⟩], [JState.fresh demoElbow 0], [("elbow", 0)], [demoMotor]⟩
def demoRt : RtData ℚ :=
  ⟨demoRobotState, fun _ => CStat.fresh, ⟨0, 10, ([(JState.fresh demoElbow 0).srow 0], [demoMotor.arow])⟩, ⟨0, 10, [(JState.fresh demoElbow 0).jrow]⟩⟩
/-- The update of the controller takes 2 ms, an overrun, in this cycle. -/
def demoCycle (now : Int) : CycleIn ℚ := ⟨id, [⟨0, springController 4, now, now + 2000000⟩], now, true, now, true, id⟩

/-- `C68_statistics`, `C68_joint_states` (at time 11), `C68_quiet` (then at time 12). -/
example : pubTick demoRt.statPub.period 11 true demoRt.statPub.last = some (10, true) := by
  simp only [demoRt, pubTick]; rw [if_pos (by decide), if_pos trivial]
  unfold catchUp; rw [if_pos (by decide), if_pos (by decide)]; unfold catchUp; rw [if_neg (by decide)]; rfl
example : pubTick demoRt.statPub.period 12 true 10 = some (10, false) := by simp [demoRt, pubTick]
/-- `C26_overruns` starts from `C26_fresh`; `C27_untouched` and `C27_no_leak` from `springController_tame`. -/
example : StatOf 0 [] (demoRt.stats 0) := C26_fresh 0
/-- `C28_limited`, `C28_always_limited`: the spring asks for -6, the limit makes it -3 and the motor is told -3/2; one overrun is recorded.  The state is
`Ready` and the limits are genuine. -/
example : (match demoRobotState.cycle 1000 id (demoCycle 11).controllers (fun _ => CStat.fresh) with
    | some (s, st) => s.joints.map (fun j => (j.position, j.commanded)) == [(3 / 2, -3)] && s.acts.map (·.effort) == [-3 / 2] && (st 0).overruns == 1
    | none => false) = true := by decide +kernel
example : demoRobotState.Ready := by
  refine ⟨⟨?_, ?_, ?_⟩, ?_, ?_⟩ <;> simp [demoRobotState, demoMotor, Actuator.fresh, Body.Wants]

/-- `C28_simple_motor`, `C28_wrist_motors`. -/
example (a : Actuator ℝ) (j : JState ℝ) (hj : |j.commanded| ≤ 3) (c : CalSim ℝ) : ∃ as', (SimpleT.mk (2 : ℝ) 0 false ⟨false, 0⟩ c).propagateEffort [j] [a] = some as' ∧
    ∀ a ∈ as', |a.effort| ≤ 3 / |(2 : ℝ)| :=
  ⟨_, rfl, C28_simple_motor (SimpleT.mk (2 : ℝ) 0 false ⟨false, 0⟩ c) [a] _ [j] 3 rfl (by simpa using hj)⟩
example (a b : Actuator ℝ) (j k : JState ℝ) (hj : |j.commanded| ≤ 3) (hk : |k.commanded| ≤ 4) (c : CalSim ℝ) :
    ∃ as', (WristT.mk (60 : ℝ) 60 1 (-1) 0 0 ⟨false, 0⟩ c c).propagateEffort [j, k] [a, b] = some as' ∧ as'.length = 2 ∧
      ∀ x ∈ as', |x.effort| ≤ (3 / |(1 : ℝ)| + 4 / |(-1 : ℝ)|) / (2 * |(60 : ℝ)|) := by
  refine ⟨_, rfl, rfl, fun x hx => ?_⟩
  obtain ⟨n, hn⟩ := List.getElem?_of_mem hx
  simpa using C28_wrist_motors (WristT.mk (60 : ℝ) 60 1 (-1) 0 0 ⟨false, 0⟩ c c) [a, b] _ j k 3 4 rfl hj hk n x hn

end demo

end Pr2
