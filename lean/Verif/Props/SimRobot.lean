import Verif.Props.RobotState
import Verif.Props.SimpleWrist
import Verif.Props.Gripper

/-! # C91: a simulator drives the whole robot through the transmissions

A simulator has its own `RobotState` on the same `Robot`: joints of its own, but the same actuators and the same transmission objects.
In each cycle it writes the simulated motion into its joints and propagates it to the actuators; the controllers' `RobotState`
propagates from the actuators to its own joints; after the controllers it propagates the commanded efforts to the actuators; and the
simulator propagates these to its joints. -/

namespace Pr2
set_option linter.unusedVariables false

/-- The `RobotState` with joints `js` of its own, on the actuators and transmissions of `s`. -/
def RState.withJoints {F : Type} (s : RState F) (js : List (JState F)) : RState F := { s with joints := js }

theorem mem_forall2_left {α β : Type} {R : α → β → Prop} {l : List α} {l' : List β} (h : List.Forall₂ R l l') {a : α} (ha : a ∈ l) :
    ∃ b ∈ l', R a b := C51_halted.forall2_left h ha

section
variable {F : Type} [FCmp F] [Zero F] [Add F] [Sub F] [Mul F] [iDiv : Div F] [Neg F] [FLit F] [iTrig : FTrig F]

/-- The two position sweeps, seen from one transmission. -/
theorem sim_positions {s f1 s1 : RState F} {sim : List (JState F)} {e : SimEnv} (hr : s.Ready) (hu : Unshared s.conns)
    (hlen : sim.length = s.joints.length)
    (h1 : (s.withJoints sim).propagatePositionBackwards e = some f1) (h2 : (f1.withJoints s.joints).propagatePosition = some s1)
    {c : Conn F} (hc : c ∈ s.conns) :
    f1.joints = sim ∧ s1.acts = f1.acts ∧ s1.joints.length = s.joints.length ∧
    ∃ b as' r, c.trans.body.propagatePositionBackwards e (gather s.acts c.ins) (gather sim c.outs) = some (b, as', gather sim c.outs) ∧
      gather f1.acts c.ins = as' ∧
      b.propagatePosition as' (gather s.joints c.outs) = some r ∧
      gather s1.joints c.outs = r.2.2.map (fun j => { j with stats := j.stats.update j.sample }) := by
  have hw : Wired s.conns s.acts.length sim.length := by rw [hlen]; exact hr.wired
  unfold RState.propagatePositionBackwards RState.sweep RState.withJoints at h1
  dsimp only at h1
  rcases hs : Pr2.sweep (Body.propagatePositionBackwards e) s.conns s.acts sim with _ | ⟨cs, as, js⟩
  · rw [hs] at h1; cases h1
  rw [hs] at h1; cases h1
  have hj : js = sim := sweep_joints _ (fun b as js r hr => (positionBackwards_frame hr).1) s.conns s.acts sim hw.outs hs
  subst hj
  obtain ⟨la, _, _, _, h5⟩ := sweep_local (Body.propagatePositionBackwards e)
    (fun b as js r hr => ⟨(List.Forall₂.length_eq (positionBackwards_frame hr).2.1).symm, by rw [(positionBackwards_frame hr).1]⟩)
    s.conns s.acts js hw (Or.inr hu) hs
  obtain ⟨c', hc', r, k1, rfl, k3, k4⟩ := mem_forall2_left h5 hc
  have hw' : Wired cs as.length s.joints.length := by
    rw [la]; exact hr.wired.of_conns (sweep_conns _ _ _ _ hs).1
  unfold RState.propagatePosition RState.sweep RState.withJoints at h2
  dsimp only at h2
  rcases ht : Pr2.sweep Body.propagatePosition cs as s.joints with _ | ⟨cs2, as2, js2⟩
  · rw [ht] at h2; cases h2
  rw [ht] at h2; cases h2
  have ha2 : as2 = as := sweep_acts _ (fun b as js r hr => (position_frame hr).1) cs as s.joints hw'.ins ht
  subst ha2
  obtain ⟨_, lj, _, _, l5⟩ := sweep_local Body.propagatePosition
    (fun b as js r hr => ⟨by rw [(position_frame hr).1], (List.Forall₂.length_eq (position_frame hr).2.1).symm⟩)
    cs as2 s.joints hw' (Or.inl (fun b as js r hr => (position_frame hr).1)) ht
  obtain ⟨c2, _, r2, m1, _, _, m4⟩ := mem_forall2_left l5 hc'
  dsimp only at m1 m4
  have e3 := (positionBackwards_frame k1).1
  obtain ⟨b, as', js'⟩ := r
  dsimp only at e3 k3 m1
  subst e3
  refine ⟨rfl, rfl, by rw [← lj]; exact List.length_map .., b, as', r2, k1, k3, ?_, ?_⟩
  · rw [← k3]; exact m1
  · rw [← m4]; exact C66_position_local.gather_map _ _ _

/-- The two effort sweeps, seen from one transmission. -/
theorem sim_efforts {s s1 f1 : RState F} {sim : List (JState F)} (hr : s.Ready) (hu : Unshared s.conns)
    (hlen : sim.length = s.joints.length)
    (h1 : s.propagateEffort = some s1) (h2 : (s1.withJoints sim).propagateEffortBackwards = some f1)
    {c : Conn F} (hc : c ∈ s.conns) :
    s1.joints = s.joints ∧ f1.acts = s1.acts ∧ f1.joints.length = s.joints.length ∧
    ∃ b as' r, c.trans.body.propagateEffort (gather s.acts c.ins) (gather s.joints c.outs) = some (b, as', gather s.joints c.outs) ∧
      gather s1.acts c.ins = as' ∧
      b.propagateEffortBackwards as' (gather sim c.outs) = some r ∧ gather f1.joints c.outs = r.2.2 := by
  unfold RState.propagateEffort RState.sweep at h1
  rcases hs : Pr2.sweep Body.propagateEffort s.conns s.acts s.joints with _ | ⟨cs, as, js⟩
  · rw [hs] at h1; cases h1
  rw [hs] at h1; cases h1
  have hj : js = s.joints := sweep_joints _ (fun b as js r hr => (effort_frame hr).1) s.conns s.acts s.joints hr.wired.outs hs
  subst hj
  obtain ⟨la, _, _, _, h5⟩ := sweep_local Body.propagateEffort
    (fun b as js r hr => ⟨(List.Forall₂.length_eq (effort_frame hr).2.1).symm, by rw [(effort_frame hr).1]⟩)
    s.conns s.acts s.joints hr.wired (Or.inr hu) hs
  obtain ⟨c', hc', r, k1, rfl, k3, k4⟩ := mem_forall2_left h5 hc
  have hw' : Wired cs as.length sim.length := by
    rw [la, hlen]; exact hr.wired.of_conns (sweep_conns _ _ _ _ hs).1
  unfold RState.propagateEffortBackwards RState.sweep RState.withJoints at h2
  dsimp only at h2
  rcases ht : Pr2.sweep Body.propagateEffortBackwards cs as sim with _ | ⟨cs2, as2, js2⟩
  · rw [ht] at h2; cases h2
  rw [ht] at h2; cases h2
  have ha2 : as2 = as := sweep_acts _ (fun b as js r hr => (effortBackwards_frame hr).1) cs as sim hw'.ins ht
  subst ha2
  obtain ⟨_, lj, _, _, l5⟩ := sweep_local Body.propagateEffortBackwards
    (fun b as js r hr => ⟨by rw [(effortBackwards_frame hr).1], (List.Forall₂.length_eq (effortBackwards_frame hr).2.1).symm⟩)
    cs as2 sim hw' (Or.inl (fun b as js r hr => (effortBackwards_frame hr).1)) ht
  obtain ⟨c2, _, r2, m1, _, _, m4⟩ := mem_forall2_left l5 hc'
  dsimp only at m1 m4
  have e3 := (effort_frame k1).1
  obtain ⟨b, as', js'⟩ := r
  dsimp only at e3 k3 m1
  subst e3
  exact ⟨rfl, rfl, by rw [← hlen]; exact lj, b, as', r2, k1, k3, by rw [← k3]; exact m1, m4⟩

end

/-- The controllers' joint `j` moves as the simulated joint `k`: same position relative to the reference position, same velocity, same
measured effort. -/
def SameMotion (j k : JState ℝ) : Prop :=
  j.position - j.reference = k.position - k.reference ∧ j.velocity = k.velocity ∧ j.measured = k.measured

theorem gather_head {α : Type} {l : List α} {is : List Nat} {a : α} (hr : ∀ i ∈ is, i < l.length) (h : (gather l is).head? = some a) :
    ∃ i, is.head? = some i ∧ l[i]? = some a := by
  cases is with
  | nil => cases h
  | cons i is =>
    have hi := hr i (by simp)
    rw [gather_cons l i is hi] at h
    exact ⟨i, rfl, by rw [List.getElem?_eq_getElem hi]; exact h⟩

theorem gather_forall2 {α β : Type} {R : α → β → Prop} {l : List α} {m : List β} {is : List Nat} (hl : ∀ i ∈ is, i < l.length)
    (hm : ∀ i ∈ is, i < m.length) (h : List.Forall₂ R (gather l is) (gather m is)) :
    ∀ i ∈ is, ∃ a b, l[i]? = some a ∧ m[i]? = some b ∧ R a b := by
  induction is with
  | nil => simp
  | cons i is ih =>
    have hi := hl i (by simp)
    have hi' := hm i (by simp)
    rw [gather_cons l i is hi, gather_cons m i is hi'] at h
    cases h with
    | cons h hs =>
      intro n hn
      rcases List.mem_cons.1 hn with rfl | hn
      · exact ⟨_, _, List.getElem?_eq_getElem hi, List.getElem?_eq_getElem hi', h⟩
      · exact ih (fun k hk => hl k (by simp [hk])) (fun k hk => hm k (by simp [hk])) hs n hn

/-! ## One transmission between two sets of joints -/

theorem simple_two_states (t t' : SimpleT ℝ) (h : t.reduction ≠ 0) (e : SimEnv) (as as' : List (Actuator ℝ)) (ks js js' : List (JState ℝ))
    (hb : t.propagatePositionBackwards e ks as = some (t', as')) (hf : t'.propagatePosition as' js = some js') :
    ∃ j k, js'.head? = some j ∧ ks.head? = some k ∧ SameMotion j k := by
  have hm := fun a k => (simulate_motion t.cal k a).1
  simp only [Actuator.motion, Prod.mk.injEq] at hm
  unfold SimpleT.propagatePositionBackwards at hb
  split at hb
  · rename_i a k hu
    cases hb
    unfold SimpleT.propagatePosition SimpleT.backward at hf
    dsimp only at hf
    rw [hu] at hf
    split at hf
    · rename_i a' j ha _
      cases hf
      cases ha
      refine ⟨_, _, rfl, rfl, ?_⟩
      simp only [SameMotion, SimpleT.forward, (hm _ _).1, (hm _ _).2.1, (hm _ _).2.2]
      simp [Actuator.stamped, h]
    · rename_i hx; cases hx
    · cases hf
  · rename_i a k k2 hu
    cases hb
    unfold SimpleT.propagatePosition SimpleT.backward at hf
    dsimp only at hf
    rw [hu] at hf
    split at hf
    · rename_i hx; cases hx
    · rename_i a' j j2 ha _
      cases hf
      cases ha
      refine ⟨_, _, rfl, rfl, ?_⟩
      simp only [SameMotion, SimpleT.forward, (hm _ _).1, (hm _ _).2.1, (hm _ _).2.2]
      simp [Actuator.stamped, h]
    · cases hf
  · cases hb

theorem wrist_two_states (t t' : WristT ℝ) (h : t.Sane) (e : SimEnv) (as as' : List (Actuator ℝ)) (ks js js' : List (JState ℝ))
    (hb : t.propagatePositionBackwards e ks as = some (t', as')) (hf : t'.propagatePosition as' js = some js') :
    List.Forall₂ SameMotion js' ks := by
  obtain ⟨h1, h2, h3, h4⟩ := h
  have hm0 := fun a k => (simulate_motion t.cal0 k a).1
  have hm1 := fun a k => (simulate_motion t.cal1 k a).1
  simp only [Actuator.motion, Prod.mk.injEq] at hm0 hm1
  unfold WristT.propagatePositionBackwards at hb
  split at hb
  · rename_i a0 a1 k0 k1
    cases hb
    unfold WristT.propagatePosition at hf
    dsimp only at hf
    split at hf
    · rename_i x0 x1 j0 j1 ha
      cases hf
      cases ha
      refine .cons ?_ (.cons ?_ .nil)
      · simp only [SameMotion, (hm0 _ _).1, (hm0 _ _).2.1, (hm0 _ _).2.2, (hm1 _ _).1, (hm1 _ _).2.1, (hm1 _ _).2.2, Actuator.stamped, lit_real]
        refine ⟨?_, ?_, ?_⟩ <;> push_cast <;> field_simp <;> ring
      · simp only [SameMotion, (hm0 _ _).1, (hm0 _ _).2.1, (hm0 _ _).2.2, (hm1 _ _).1, (hm1 _ _).2.1, (hm1 _ _).2.2, Actuator.stamped, lit_real]
        refine ⟨?_, ?_, ?_⟩ <;> push_cast <;> field_simp <;> ring
    · cases hf
  · cases hb

theorem gripper_two_states (t t' : GripperT ℝ) (hs : t.Sane) (e : SimEnv) (as as' : List (Actuator ℝ)) (ks js js' : List (JState ℝ))
    {k : JState ℝ} (hk : ks.head? = some k) {mr θ : ℝ} (h : t.Linkage mr θ) (hj : k.position = 2 * t.gapAt θ)
    (hb : t.propagatePositionBackwards e ks as = some (t', as')) (hf : t'.propagatePosition as' js = some js') :
    ∃ a j, as' = [a] ∧ js'.head? = some j ∧ t.revs a = mr ∧ j.position = k.position ∧
      (t.Regular mr θ → 0 < t.gear * t.a * t.b / t.screw → j.velocity = k.velocity ∧ j.measured = k.commanded) := by
  have hred := hs.reduction
  have hpi := Real.pi_pos
  have hm := fun a k => (simulate_motion t.cal k a).1
  simp only [Actuator.motion, Prod.mk.injEq] at hm
  unfold GripperT.propagatePositionBackwards at hb
  split at hb
  · rename_i a k' rest
    cases hk
    by_cases hl : rest.length = (if t.hasPassive then t.passive.length + 2 else 0)
    · rw [if_pos hl] at hb
      cases hb
      unfold GripperT.propagatePosition at hf
      dsimp only at hf
      cases js with
      | nil => cases hf
      | cons j rest' =>
        dsimp only at hf
        by_cases hl' : rest'.length = t.passive.length + (if t.hasPassive then 2 else 1)
        · rw [if_pos hl'] at hf
          cases hf
          generalize hA : (Actuator.stamped (F := ℝ) _ (t.clock.stamp e.now)) = A
          have hA1 : A.position = (t.inverseGapStates (k.position / FLit.lit 2)).mr * t.reduction / rad2mr := by rw [← hA]; rfl
          have hA2 : A.velocity = k.velocity / FLit.lit 2 * (t.inverseGapStates (k.position / FLit.lit 2)).dtheta_dt *
            (t.inverseGapStates (k.position / FLit.lit 2)).dMR_dtheta * t.reduction / rad2mr := by rw [← hA]; rfl
          have hA3 : A.measured = FLit.lit 2 * k.commanded / (t.inverseGapStates (k.position / FLit.lit 2)).dMR_dt * rad2mr * t.reduction := by rw [← hA]; rfl
          generalize hx : (t.cal.simulate k A).2 = x
          have hx1 := (hm A k).1; have hx2 := (hm A k).2.1; have hx3 := (hm A k).2.2
          rw [hx] at hx1 hx2 hx3
          rw [hj] at hA1 hA2 hA3
          simp only [lit_real] at hA1 hA2 hA3
          push_cast at hA1 hA2 hA3
          rw [mul_div_cancel_left₀ _ (two_ne_zero)] at hA1 hA2 hA3
          rw [hA1] at hx1; rw [hA2] at hx2; rw [hA3] at hx3
          have hR := rad2mr_pos
          have hrev : t.revs x = mr := by
            unfold GripperT.revs
            rw [hx1, C40_inverse hs h, rad2mr_real]
            field_simp
          have hcg : ∀ cl ca m v f, GripperT.computeGapStates ({ t with clock := cl, cal := ca } : GripperT ℝ) m v f = t.computeGapStates m v f :=
            fun _ _ _ _ _ => rfl
          have hmr : x.position / t.reduction * rad2mr = mr := by rw [← hrev, ← revs_eq]
          refine ⟨x, _, rfl, rfl, hrev, ?_, ?_⟩
          · dsimp only
            rw [hcg, hmr, C40_forward hs h, hj]
            simp only [lit_real]; push_cast; ring
          · intro hreg hpos
            obtain ⟨hc, hsn⟩ := regular_facts hreg
            have hrec := C41_reciprocal hs hreg hpos (x.velocity / t.reduction * rad2mr) (x.measured / t.reduction)
            obtain ⟨j1, j2⟩ := jac_forward hs hreg (x.velocity / t.reduction * rad2mr) (x.measured / t.reduction)
            obtain ⟨i1, i2, i3⟩ := jac_inverse hs hreg
            rw [C40_forward hs h] at hrec
            have ha := hs.a; have hb := hs.b; have hg := hs.gear; have hsc := hs.screw; have hr := hs.r
            have hsd := hreg.sideR
            constructor
            · dsimp only
              rw [hcg, hmr]
              change (x.velocity / t.reduction * rad2mr * (t.computeGapStates mr (x.velocity / t.reduction * rad2mr) (x.measured / t.reduction)).dt_dMR) * FLit.lit 2 = _
              have e5 : ∀ m x y, (t.computeGapStates m x y).dt_dMR = (t.computeGapStates m x y).dt_dtheta * (t.computeGapStates m x y).dtheta_dMR := fun _ _ _ => rfl
              rw [e5, j1, j2, hx2, i1, i2]
              simp only [lit_real]; push_cast
              field_simp
            · dsimp only
              rw [hcg, hmr]
              change ((x.measured / t.reduction) / (t.computeGapStates mr (x.velocity / t.reduction * rad2mr) (x.measured / t.reduction)).dt_dMR / rad2mr) / FLit.lit 2 = _
              generalize (t.computeGapStates mr _ _).dt_dMR = D at hrec
              rw [hx3]
              generalize (t.inverseGapStates _).dMR_dt = I at hrec
              have hI : I ≠ 0 := by rintro rfl; simp at hrec
              have hD : D ≠ 0 := by rintro rfl; simp at hrec
              simp only [lit_real]; push_cast
              field_simp
              linear_combination (-k.commanded) * hrec
        · rw [if_neg hl'] at hf; cases hf
    · rw [if_neg hl] at hb; cases hb
  · cases hb

/-! ## The robot -/

variable {s f1 s1 : RState ℝ} {sim : List (JState ℝ)} {e : SimEnv} {c : Conn ℝ}

/-- **C91.**  Simple transmission: after the simulator has propagated its joint states to the actuators and the controllers' state has been
propagated from the actuators, the joint moves as the simulated one. -/
theorem C91_simple_motion (hr : s.Ready) (hu : Unshared s.conns) (hlen : sim.length = s.joints.length)
    (h1 : (s.withJoints sim).propagatePositionBackwards e = some f1) (h2 : (f1.withJoints s.joints).propagatePosition = some s1)
    (hc : c ∈ s.conns) {t : SimpleT ℝ} (ht : c.trans.body = .simple t) (hred : t.reduction ≠ 0) :
    ∃ i, c.outs.head? = some i ∧ ∃ j k, s1.joints[i]? = some j ∧ sim[i]? = some k ∧ SameMotion j k := by
  obtain ⟨-, -, hl1, b, as', r, k1, -, k3, k4⟩ := sim_positions hr hu hlen h1 h2 hc
  have hso : ∀ i ∈ c.outs, i < s.joints.length := hr.wired.outs c hc
  have hs1 : ∀ i ∈ c.outs, i < s1.joints.length := by
    rw [hl1]; exact hso
  rw [ht] at k1
  obtain ⟨⟨t', as1⟩, hb, hbe⟩ := Option.map_eq_some_iff.1 k1
  cases hbe
  obtain ⟨js', hf, rfl⟩ := Option.map_eq_some_iff.1 k3
  dsimp only at k4
  obtain ⟨j, k, hj, hk, hm⟩ := simple_two_states t t' hred e _ _ _ _ _ hb hf
  obtain ⟨i, hi, hki⟩ := gather_head (fun i hi => by rw [hlen]; exact hso i hi) hk
  obtain ⟨i', hi', hji⟩ := gather_head (l := s1.joints) (is := c.outs) hs1 (by rw [k4, List.head?_map, hj]; rfl)
  rw [hi] at hi'; cases hi'
  exact ⟨i, hi, _, k, hji, hki, hm⟩

/-- **C91.**  Wrist transmission: both joints move as the simulated ones. -/
theorem C91_wrist_motion (hr : s.Ready) (hu : Unshared s.conns) (hlen : sim.length = s.joints.length)
    (h1 : (s.withJoints sim).propagatePositionBackwards e = some f1) (h2 : (f1.withJoints s.joints).propagatePosition = some s1)
    (hc : c ∈ s.conns) {t : WristT ℝ} (ht : c.trans.body = .wrist t) (hred : t.Sane) :
    c.outs.length = 2 ∧ ∀ i ∈ c.outs, ∃ j k, s1.joints[i]? = some j ∧ sim[i]? = some k ∧ SameMotion j k := by
  obtain ⟨-, -, hl1, b, as', r, k1, -, k3, k4⟩ := sim_positions hr hu hlen h1 h2 hc
  have hso : ∀ i ∈ c.outs, i < s.joints.length := hr.wired.outs c hc
  have hw := hr.wants c hc
  rw [ht] at k1 hw
  obtain ⟨⟨t', as1⟩, hb, hbe⟩ := Option.map_eq_some_iff.1 k1
  cases hbe
  obtain ⟨js', hf, rfl⟩ := Option.map_eq_some_iff.1 k3
  dsimp only at k4
  have hm := wrist_two_states t t' hred e _ _ _ _ _ hb hf
  refine ⟨hw.2, gather_forall2 (by rw [hl1]; exact hso) (by rw [hlen]; exact hso) ?_⟩
  rw [k4, List.forall₂_map_left_iff]
  exact hm

/-- **C91.**  Gripper within its working range: the gap is the simulated one and the motor stands where the linkage says; away from the
singular positions the gap moves with the simulated speed, and the measured effort is the effort last commanded to the simulated gap joint. -/
theorem C91_gripper_motion (hr : s.Ready) (hu : Unshared s.conns) (hlen : sim.length = s.joints.length)
    (h1 : (s.withJoints sim).propagatePositionBackwards e = some f1) (h2 : (f1.withJoints s.joints).propagatePosition = some s1)
    (hc : c ∈ s.conns) {t : GripperT ℝ} (ht : c.trans.body = .gripper t) (hs : t.Sane) {i : Nat} (hi : c.outs.head? = some i)
    {k : JState ℝ} (hk : sim[i]? = some k) {mr θ : ℝ} (h : t.Linkage mr θ) (hgap : k.position = 2 * t.gapAt θ) :
    ∃ m a j, c.ins = [m] ∧ s1.acts[m]? = some a ∧ s1.joints[i]? = some j ∧ t.revs a = mr ∧ j.position = k.position ∧
      (t.Regular mr θ → 0 < t.gear * t.a * t.b / t.screw → j.velocity = k.velocity ∧ j.measured = k.commanded) := by
  obtain ⟨-, hacts, hl1, b, as', r, k1, k2, k3, k4⟩ := sim_positions hr hu hlen h1 h2 hc
  have hso : ∀ i ∈ c.outs, i < s.joints.length := hr.wired.outs c hc
  have hw := hr.wants c hc
  rw [ht] at k1 hw
  obtain ⟨⟨t', as1⟩, hb, hbe⟩ := Option.map_eq_some_iff.1 k1
  cases hbe
  obtain ⟨js', hf, rfl⟩ := Option.map_eq_some_iff.1 k3
  dsimp only at k4
  obtain ⟨is, his⟩ : ∃ is, c.outs = i :: is := by
    cases hco : c.outs with
    | nil => rw [hco] at hi; cases hi
    | cons x is => rw [hco] at hi; cases hi; exact ⟨is, rfl⟩
  have hsi : i < sim.length := by rw [hlen]; exact hso i (by rw [his]; simp)
  have hk' : (gather sim c.outs).head? = some k := by
    rw [his, gather_cons sim i is hsi]
    rw [List.getElem?_eq_getElem hsi] at hk
    exact hk
  obtain ⟨a, j, rfl, hj, hx⟩ := gripper_two_states t t' hs e _ _ _ _ _ hk' h hgap hb hf
  obtain ⟨i', hi', hji⟩ := gather_head (l := s1.joints) (is := c.outs) (by rw [hl1]; exact hso) (a := { j with stats := j.stats.update j.sample })
    (by rw [k4, List.head?_map, hj]; rfl)
  rw [hi] at hi'; cases hi'
  obtain ⟨m, hm⟩ := List.length_eq_one_iff.1 hw.1
  rw [hm] at k2
  have hma : f1.acts[m]? = some a := by
    unfold gather at k2
    rcases hfa : f1.acts[m]? with _ | y
    · simp [hfa] at k2
    · simp [hfa] at k2; rw [k2]
  exact ⟨m, a, _, hm, by rw [hacts]; exact hma, hji, hx⟩

/-! ### Efforts -/

theorem simple_two_efforts (t : SimpleT ℝ) (h : t.reduction ≠ 0) (as as' : List (Actuator ℝ)) (ks js ks' : List (JState ℝ))
    (hf : t.propagateEffort js as = some as') (hb : t.propagateEffortBackwards as' ks = some ks') :
    ∃ j, js.head? = some j ∧ (t.useSim = false → ∃ k, ks = [k] ∧ ks' = [{ k with commanded := j.commanded }]) ∧
      (t.useSim = true → ∃ k l, ks = [k, l] ∧ ks' = [k, { l with commanded := j.commanded / t.simReduction }]) := by
  unfold SimpleT.propagateEffort at hf
  split at hf
  · rename_i a j hu
    cases hf
    unfold SimpleT.propagateEffortBackwards at hb
    rw [hu] at hb
    refine ⟨j, rfl, ?_, ?_⟩
    case refine_2 => intro hx; rw [hu] at hx; cases hx
    intro _
    split at hb
    · rename_i a' k ha _
      cases ha
      cases hb
      refine ⟨k, rfl, ?_⟩
      simp [h]
    · rename_i hx; cases hx
    · cases hb
  · rename_i a j j2 hu
    cases hf
    unfold SimpleT.propagateEffortBackwards at hb
    rw [hu] at hb
    refine ⟨j, rfl, ?_, ?_⟩
    case refine_1 => intro hx; rw [hu] at hx; cases hx
    intro _
    split at hb
    · rename_i hx; cases hx
    · rename_i a' k l ha _
      cases ha
      cases hb
      refine ⟨k, l, rfl, ?_⟩
      simp [h]
    · cases hb
  · cases hf

theorem wrist_two_efforts (t : WristT ℝ) (h : t.Sane) (as as' : List (Actuator ℝ)) (ks js ks' : List (JState ℝ))
    (hf : t.propagateEffort js as = some as') (hb : t.propagateEffortBackwards as' ks = some ks') :
    ks'.map (·.commanded) = js.map (·.commanded) := by
  obtain ⟨h1, h2, h3, h4⟩ := h
  unfold WristT.propagateEffort at hf
  split at hf
  · rename_i a0 a1 j0 j1
    cases hf
    unfold WristT.propagateEffortBackwards at hb
    split at hb
    · rename_i x0 x1 k0 k1 ha
      cases ha
      cases hb
      simp only [List.map_cons, List.map_nil, lit_real, List.cons.injEq, and_true]
      refine ⟨?_, ?_⟩ <;> push_cast <;> field_simp <;> ring
    · cases hb
  · cases hf

/-- **C91.**  Simple transmission: after the commanded efforts have been propagated to the actuators and the simulator has propagated these to
its joints, the simulated joint is commanded the same effort; if the joint is simulated by a screw, the screw is commanded that effort
divided by the screw's reduction, and the joint's command is left alone. -/
theorem C91_simple_effort (hr : s.Ready) (hu : Unshared s.conns) (hlen : sim.length = s.joints.length)
    (h1 : s.propagateEffort = some s1) (h2 : (s1.withJoints sim).propagateEffortBackwards = some f1)
    (hc : c ∈ s.conns) {t : SimpleT ℝ} (ht : c.trans.body = .simple t) (hred : t.reduction ≠ 0) :
    (t.useSim = false ∧ ∃ i, c.outs = [i] ∧ ∃ j k, s.joints[i]? = some j ∧ f1.joints[i]? = some k ∧ k.commanded = j.commanded) ∨
    (t.useSim = true ∧ ∃ i n, c.outs = [i, n] ∧ ∃ j k l, s.joints[i]? = some j ∧ f1.joints[i]? = some k ∧ f1.joints[n]? = some l ∧
      sim[i]? = some k ∧ l.commanded = j.commanded / t.simReduction) := by
  obtain ⟨-, -, hl1, b, as', r, k1, k2, k3, k4⟩ := sim_efforts hr hu hlen h1 h2 hc
  have hso : ∀ i ∈ c.outs, i < s.joints.length := hr.wired.outs c hc
  have hso' : ∀ i ∈ c.outs, i < f1.joints.length := by rw [hl1]; exact hso
  have hso'' : ∀ i ∈ c.outs, i < sim.length := by rw [hlen]; exact hso
  have hw := hr.wants c hc
  rw [ht] at k1 hw
  obtain ⟨as1, hf, hbe⟩ := Option.map_eq_some_iff.1 k1
  cases hbe
  obtain ⟨js', hb, rfl⟩ := Option.map_eq_some_iff.1 k3
  dsimp only at k4
  obtain ⟨j, hj, hA, hB⟩ := simple_two_efforts t hred _ _ _ _ _ hf hb
  obtain ⟨i, hi, hji⟩ := gather_head hso hj
  cases hus : t.useSim with
  | false =>
    left
    have hn := hw.2
    rw [hus] at hn
    obtain ⟨i', hi'⟩ := List.length_eq_one_iff.1 hn
    rw [hi'] at hi; cases hi
    obtain ⟨k, hk, rfl⟩ := hA hus
    obtain ⟨n, hn1, hn2⟩ := gather_head hso' (by rw [k4]; rfl)
    rw [hi'] at hn1; cases hn1
    exact ⟨rfl, i, hi', j, _, hji, hn2, rfl⟩
  | true =>
    right
    have hn := hw.2
    rw [hus] at hn
    obtain ⟨i', n, hi'⟩ := List.length_eq_two.1 hn
    rw [hi'] at hi; cases hi
    obtain ⟨k, l, hk, rfl⟩ := hB hus
    rw [hi'] at k4 hk hso hso' hso''
    have a1 : i < f1.joints.length := hso' i (by simp)
    have a2 : n < f1.joints.length := hso' n (by simp)
    have a3 : i < sim.length := hso'' i (by simp)
    have a4 : n < sim.length := hso'' n (by simp)
    rw [gather_cons _ _ _ a1, gather_cons _ _ _ a2] at k4
    rw [gather_cons _ _ _ a3, gather_cons _ _ _ a4] at hk
    simp only [List.cons.injEq] at k4 hk
    refine ⟨rfl, i, n, hi', j, k, { l with commanded := j.commanded / t.simReduction }, hji, ?_, ?_, ?_, rfl⟩
    · rw [List.getElem?_eq_getElem a1, k4.1]
    · rw [List.getElem?_eq_getElem a2, k4.2.1]
    · rw [List.getElem?_eq_getElem a3, hk.1]

/-- **C91.**  Wrist transmission: both simulated joints are commanded the same efforts. -/
theorem C91_wrist_effort (hr : s.Ready) (hu : Unshared s.conns) (hlen : sim.length = s.joints.length)
    (h1 : s.propagateEffort = some s1) (h2 : (s1.withJoints sim).propagateEffortBackwards = some f1)
    (hc : c ∈ s.conns) {t : WristT ℝ} (ht : c.trans.body = .wrist t) (hred : t.Sane) :
    c.outs.length = 2 ∧ ∀ i ∈ c.outs, ∃ j k, s.joints[i]? = some j ∧ f1.joints[i]? = some k ∧ k.commanded = j.commanded := by
  obtain ⟨-, -, hl1, b, as', r, k1, k2, k3, k4⟩ := sim_efforts hr hu hlen h1 h2 hc
  have hso : ∀ i ∈ c.outs, i < s.joints.length := hr.wired.outs c hc
  have hw := hr.wants c hc
  rw [ht] at k1 hw
  obtain ⟨as1, hf, hbe⟩ := Option.map_eq_some_iff.1 k1
  cases hbe
  obtain ⟨js', hb, rfl⟩ := Option.map_eq_some_iff.1 k3
  dsimp only at k4
  have hm := wrist_two_efforts t hred _ _ _ _ _ hf hb
  refine ⟨hw.2, gather_forall2 (R := fun (j k : JState ℝ) => k.commanded = j.commanded) hso (by rw [hl1]; exact hso) ?_⟩
  rw [k4]
  generalize gather s.joints c.outs = l at hm
  clear hb k4 k3
  induction l generalizing js' with
  | nil => cases js' with
    | nil => exact .nil
    | cons _ _ => cases hm
  | cons x l ih => cases js' with
    | nil => cases hm
    | cons y js' =>
      simp only [List.map_cons, List.cons.injEq] at hm
      exact .cons hm.1 (ih _ hm.2)

theorem gripper_two_efforts (t : GripperT ℝ) (hs : t.Sane) (as as' : List (Actuator ℝ)) (ks js ks' : List (JState ℝ))
    {a : Actuator ℝ} (ha : as = [a]) {j : JState ℝ} (hj : js.head? = some j) {θ : ℝ} (hreg : t.Regular (t.revs a) θ)
    (hpos : 0 < t.gear * t.a * t.b / t.screw) (hgap : j.position = 2 * t.gapAt θ)
    (hf : t.propagateEffort js as = some as') (hb : t.propagateEffortBackwards as' ks = some ks') :
    ks.length = t.passive.length + 3 ∧ 0 < t.simReduction ∧
    ∀ n, ks'[n]? = if n = t.passive.length + 1 then ks[n]?.map (fun k => { k with commanded := 2 * j.commanded / t.simReduction }) else ks[n]? := by
  subst ha
  have hred := hs.reduction
  have hR := rad2mr_pos
  unfold GripperT.propagateEffort at hf
  cases js with
  | nil => cases hj
  | cons j' rest =>
    cases hj
    dsimp only at hf
    by_cases hl : rest.length = t.passive.length + (if t.hasPassive then 2 else 1)
    · rw [if_pos hl] at hf
      cases hf
      unfold GripperT.propagateEffortBackwards at hb
      cases ks with
      | nil => cases hb
      | cons k krest =>
        dsimp only at hb
        by_cases hk : krest.length = t.passive.length + 2 ∧ FCmp.lt 0 t.simReduction = true
        · rw [if_pos hk] at hb
          cases hb
          have hsr : 0 < t.simReduction := by simpa using hk.2
          refine ⟨by rw [List.length_cons, hk.1], hsr, ?_⟩
          have hrec := C41_reciprocal hs hreg hpos (a.velocity / t.reduction * rad2mr)
            (FLit.lit 2 * j.commanded / (t.inverseGapStates (j.position / FLit.lit 2)).dMR_dt * rad2mr * t.reduction / t.reduction)
          rw [C40_forward hs hreg.toLinkage] at hrec
          rw [revs_eq]
          have key : (t.computeGapStates (t.revs a) (a.velocity / t.reduction * rad2mr)
            (FLit.lit 2 * j.commanded / (t.inverseGapStates (j.position / FLit.lit 2)).dMR_dt * rad2mr * t.reduction / t.reduction)).gapEffort =
              2 * j.commanded := by
            change (FLit.lit 2 * j.commanded / (t.inverseGapStates (j.position / FLit.lit 2)).dMR_dt * rad2mr * t.reduction / t.reduction) /
              (t.computeGapStates (t.revs a) (a.velocity / t.reduction * rad2mr)
                (FLit.lit 2 * j.commanded / (t.inverseGapStates (j.position / FLit.lit 2)).dMR_dt * rad2mr * t.reduction / t.reduction)).dt_dMR / rad2mr = _
            generalize (t.computeGapStates _ _ _).dt_dMR = D at hrec
            rw [hgap]
            simp only [lit_real]
            push_cast
            rw [mul_div_cancel_left₀ _ (two_ne_zero)]
            generalize (t.inverseGapStates _).dMR_dt = I at hrec
            have hI : I ≠ 0 := by rintro rfl; simp at hrec
            have hD : D ≠ 0 := by rintro rfl; simp at hrec
            field_simp
            linear_combination (-j.commanded) * hrec
          rw [key]
          intro n
          cases n with
          | zero => rw [if_neg (by omega)]; rfl
          | succ n =>
            rw [List.getElem?_cons_succ, List.getElem?_cons_succ, List.getElem?_modify]
            by_cases hn : n = t.passive.length
            · rw [if_pos (by omega), hn]; simp only [if_pos]; rfl
            · rw [if_neg (by omega)]; simp only [if_neg (Ne.symm hn)]; simp
        · rw [if_neg hk] at hb; cases hb
    · rw [if_neg hl] at hf; cases hf

/-- **C91.**  Gripper in a regular position (the gap joint where the motor's linkage puts it): the simulated screw joint, the one after the gap
joint and the passive joints, is commanded twice the gap effort divided by the screw's reduction; the commands of the gripper's other
simulated joints are left alone. -/
theorem C91_gripper_effort (hr : s.Ready) (hu : Unshared s.conns) (hlen : sim.length = s.joints.length)
    (h1 : s.propagateEffort = some s1) (h2 : (s1.withJoints sim).propagateEffortBackwards = some f1)
    (hc : c ∈ s.conns) {t : GripperT ℝ} (ht : c.trans.body = .gripper t) (hs : t.Sane)
    {m i : Nat} (hm : c.ins = [m]) (hi : c.outs.head? = some i) {a : Actuator ℝ} {j : JState ℝ} (ha : s.acts[m]? = some a) (hj : s.joints[i]? = some j)
    {θ : ℝ} (hreg : t.Regular (t.revs a) θ) (hpos : 0 < t.gear * t.a * t.b / t.screw) (hgap : j.position = 2 * t.gapAt θ) :
    ∃ n, c.outs[t.passive.length + 1]? = some n ∧ (∃ k, f1.joints[n]? = some k ∧ k.commanded = 2 * j.commanded / t.simReduction) ∧
      ∀ p ∈ c.outs, p ≠ n → f1.joints[p]? = sim[p]? := by
  obtain ⟨-, -, hl1, b, as', r, k1, k2, k3, k4⟩ := sim_efforts hr hu hlen h1 h2 hc
  have hso : ∀ i ∈ c.outs, i < s.joints.length := hr.wired.outs c hc
  have hso' : ∀ i ∈ c.outs, i < f1.joints.length := by rw [hl1]; exact hso
  have hso'' : ∀ i ∈ c.outs, i < sim.length := by rw [hlen]; exact hso
  rw [ht] at k1
  obtain ⟨as1, hf, hbe⟩ := Option.map_eq_some_iff.1 k1
  cases hbe
  obtain ⟨js', hb, rfl⟩ := Option.map_eq_some_iff.1 k3
  dsimp only at k4
  have hga : gather s.acts c.ins = [a] := by rw [hm]; unfold gather; simp [ha]
  have hgj : (gather s.joints c.outs).head? = some j := by
    cases hco : c.outs with
    | nil => rw [hco] at hi; cases hi
    | cons x is =>
      rw [hco] at hi; cases hi
      have hx := hso i (by rw [hco]; simp)
      rw [gather_cons _ _ _ hx]
      rw [List.getElem?_eq_getElem hx] at hj
      exact hj
  obtain ⟨g1, g2, g3⟩ := gripper_two_efforts t hs _ _ _ _ _ hga hgj hreg hpos hgap hf hb
  rw [gather_length _ _ hso''] at g1
  have hp : t.passive.length + 1 < c.outs.length := by omega
  refine ⟨c.outs[t.passive.length + 1], List.getElem?_eq_getElem hp, ?_, ?_⟩
  · have := g3 (t.passive.length + 1)
    rw [← k4, gather_get _ _ hso' _ hp, gather_get _ _ hso'' _ hp, if_pos rfl] at this
    simp only [Option.map_some, Option.some.injEq] at this
    exact ⟨_, List.getElem?_eq_getElem (hso' _ (List.getElem_mem hp)), by rw [this]⟩
  · intro p hp1 hp2
    obtain ⟨q, hq, rfl⟩ := List.getElem_of_mem hp1
    have := g3 q
    rw [← k4, gather_get _ _ hso' _ hq, gather_get _ _ hso'' _ hq, if_neg (fun e => hp2 (by subst e; rfl))] at this
    rw [List.getElem?_eq_getElem (hso' _ hp1), List.getElem?_eq_getElem (hso'' _ hp1), this]

/-! ### No call aborts -/

/-- Grippers have a simulated screw with a positive reduction (the assertions of the simulation functions). -/
def Body.SimReady {F : Type} [FCmp F] [Zero F] : Body F → Prop
  | .gripper t => t.hasPassive = true ∧ FCmp.lt 0 t.simReduction = true
  | _ => True

section
variable {F : Type} [FCmp F] [Zero F] [Add F] [Sub F] [Mul F] [iDiv : Div F] [Neg F] [FLit F] [iTrig : FTrig F]

theorem positionBackwards_wants {e : SimEnv} {b : Body F} {as : List (Actuator F)} {js : List (JState F)} (h : b.Wants as.length js.length)
    (hs : b.SimReady) : (b.propagatePositionBackwards e as js).isSome := by
  cases b with
  | simple t =>
    obtain ⟨h1, h2⟩ := h
    obtain ⟨a, rfl⟩ := List.length_eq_one_iff.1 h1
    unfold Body.propagatePositionBackwards
    dsimp only
    unfold SimpleT.propagatePositionBackwards
    cases hu : t.useSim with
    | false => rw [hu] at h2; obtain ⟨j, rfl⟩ := List.length_eq_one_iff.1 h2; rfl
    | true => rw [hu] at h2; obtain ⟨j, k, rfl⟩ := List.length_eq_two.1 h2; rfl
  | wrist t =>
    obtain ⟨h1, h2⟩ := h
    obtain ⟨a, a', rfl⟩ := List.length_eq_two.1 h1
    obtain ⟨j, k, rfl⟩ := List.length_eq_two.1 h2
    rfl
  | gripper t =>
    obtain ⟨h1, h2⟩ := h
    obtain ⟨hp, -⟩ := hs
    obtain ⟨a, rfl⟩ := List.length_eq_one_iff.1 h1
    rw [hp, if_pos rfl] at h2
    cases js with
    | nil => simp at h2
    | cons j rest =>
      simp only [List.length_cons] at h2
      unfold Body.propagatePositionBackwards GripperT.propagatePositionBackwards
      dsimp only
      rw [if_pos (by rw [hp, if_pos rfl]; omega)]; rfl
  | belt t =>
    obtain ⟨h1, h2⟩ := h
    obtain ⟨a, rfl⟩ := List.length_eq_one_iff.1 h1
    obtain ⟨j, rfl⟩ := List.length_eq_one_iff.1 h2
    rfl

theorem effortBackwards_wants {b : Body F} {as : List (Actuator F)} {js : List (JState F)} (h : b.Wants as.length js.length)
    (hs : b.SimReady) : (b.propagateEffortBackwards as js).isSome := by
  cases b with
  | simple t =>
    obtain ⟨h1, h2⟩ := h
    obtain ⟨a, rfl⟩ := List.length_eq_one_iff.1 h1
    unfold Body.propagateEffortBackwards
    dsimp only
    unfold SimpleT.propagateEffortBackwards
    cases hu : t.useSim with
    | false => rw [hu] at h2; obtain ⟨j, rfl⟩ := List.length_eq_one_iff.1 h2; rfl
    | true => rw [hu] at h2; obtain ⟨j, k, rfl⟩ := List.length_eq_two.1 h2; rfl
  | wrist t =>
    obtain ⟨h1, h2⟩ := h
    obtain ⟨a, a', rfl⟩ := List.length_eq_two.1 h1
    obtain ⟨j, k, rfl⟩ := List.length_eq_two.1 h2
    rfl
  | gripper t =>
    obtain ⟨h1, h2⟩ := h
    obtain ⟨hp, hsr⟩ := hs
    obtain ⟨a, rfl⟩ := List.length_eq_one_iff.1 h1
    rw [hp, if_pos rfl] at h2
    cases js with
    | nil => simp at h2
    | cons j rest =>
      simp only [List.length_cons] at h2
      unfold Body.propagateEffortBackwards GripperT.propagateEffortBackwards
      dsimp only
      rw [if_pos ⟨by omega, hsr⟩]; rfl
  | belt t =>
    obtain ⟨h1, h2⟩ := h
    obtain ⟨a, rfl⟩ := List.length_eq_one_iff.1 h1
    obtain ⟨j, rfl⟩ := List.length_eq_one_iff.1 h2
    rfl

omit [FCmp F] [Zero F] [Add F] [Sub F] [Mul F] iDiv [Neg F] [FLit F] iTrig in
theorem sweep_some_of (f : Prop' F) (Q : Body F → Prop) (hw : ∀ b as js, b.Wants as.length js.length → Q b → (f b as js).isSome)
    (conns : List (Conn F)) (as : List (Actuator F)) (js : List (JState F)) (hi : ∀ c ∈ conns, ∀ i ∈ c.ins, i < as.length)
    (ho : ∀ c ∈ conns, ∀ i ∈ c.outs, i < js.length) (hc : ∀ c ∈ conns, c.trans.body.Wants c.ins.length c.outs.length)
    (hq : ∀ c ∈ conns, Q c.trans.body) : (sweep f conns as js).isSome := by
  induction conns generalizing as js with
  | nil => rfl
  | cons c cs ih =>
    unfold sweep
    have h1 := hw c.trans.body (gather as c.ins) (gather js c.outs) (by
      rw [gather_length _ _ (hi c (by simp)), gather_length _ _ (ho c (by simp))]; exact hc c (by simp)) (hq c (by simp))
    obtain ⟨r, hr⟩ := Option.isSome_iff_exists.1 h1
    have h2 := ih (scatter c.ins r.2.1 as) (scatter c.outs r.2.2 js) (fun d hd => by rw [scatter_length]; exact hi d (by simp [hd]))
      (fun d hd => by rw [scatter_length]; exact ho d (by simp [hd])) (fun d hd => hc d (by simp [hd])) (fun d hd => hq d (by simp [hd]))
    obtain ⟨r2, hr2⟩ := Option.isSome_iff_exists.1 h2
    simp only [hr, hr2, Option.bind_eq_bind, Option.bind_some, Option.isSome_some]

/-- A robot that can be simulated: connected, no shared actuators, grippers with simulated screw. -/
structure RState.Simulable (s : RState F) : Prop where
  ready : s.Ready
  unshared : Unshared s.conns
  sim : ∀ c ∈ s.conns, c.trans.body.SimReady

theorem Simulable.sweep {s s' : RState F} (h : s.Simulable) (f : Prop' F) (hw : ∀ b as js r, f b as js = some r → ∀ na nj, r.1.Wants na nj ↔ b.Wants na nj)
    (hn : ∀ b as js r, f b as js = some r → List.Forall₂ (fun a a' => a'.name = a.name) as r.2.1)
    (hq : ∀ b as js r, f b as js = some r → b.SimReady → r.1.SimReady)
    (hs : s.sweep f = some s') : s'.Simulable := by
  refine ⟨Ready.sweep h.ready f hw hn hs, ?_, ?_⟩
  all_goals
    unfold RState.sweep at hs
    rcases hr : Pr2.sweep f s.conns s.acts s.joints with _ | ⟨conns', as', js'⟩
    · rw [hr] at hs; cases hs
    rw [hr] at hs; cases hs
  · have h1 : conns'.map (·.ins) = s.conns.map (·.ins) := by
      have c1 := (sweep_conns f _ _ _ hr).1
      clear hr h
      generalize s.conns = l at c1
      induction c1 with
      | nil => rfl
      | cons e _ ih => obtain ⟨b, rfl⟩ := e; simp [ih]
    have := h.unshared
    unfold Unshared at this ⊢
    rw [List.flatMap_def] at this ⊢
    dsimp only
    rw [h1]; exact this
  · intro c' hc'
    obtain ⟨c, hc, as1, js1, r, hfr, rfl⟩ := Ready.sweep.forall2_right (sweep_bodies f _ _ _ hr) hc'
    exact hq _ _ _ _ hfr (h.sim c hc)

theorem simReady_position {b : Body F} {as : List (Actuator F)} {js : List (JState F)} {r : Body F × List (Actuator F) × List (JState F)}
    (h : b.propagatePosition as js = some r) (hs : b.SimReady) : r.1.SimReady := by
  cases b <;> (obtain ⟨x, hx, rfl⟩ := Option.map_eq_some_iff.1 h; exact hs)

theorem simReady_effort {b : Body F} {as : List (Actuator F)} {js : List (JState F)} {r : Body F × List (Actuator F) × List (JState F)}
    (h : b.propagateEffort as js = some r) (hs : b.SimReady) : r.1.SimReady := by
  cases b <;> (obtain ⟨x, hx, rfl⟩ := Option.map_eq_some_iff.1 h; exact hs)

theorem simReady_effortBackwards {b : Body F} {as : List (Actuator F)} {js : List (JState F)} {r : Body F × List (Actuator F) × List (JState F)}
    (h : b.propagateEffortBackwards as js = some r) (hs : b.SimReady) : r.1.SimReady := by
  cases b <;> (obtain ⟨x, hx, rfl⟩ := Option.map_eq_some_iff.1 h; exact hs)

theorem simReady_positionBackwards {e : SimEnv} {b : Body F} {as : List (Actuator F)} {js : List (JState F)} {r : Body F × List (Actuator F) × List (JState F)}
    (h : b.propagatePositionBackwards e as js = some r) (hs : b.SimReady) : r.1.SimReady := by
  cases b with
  | simple t => obtain ⟨x, hx, rfl⟩ := Option.map_eq_some_iff.1 h; exact hs
  | wrist t => obtain ⟨x, hx, rfl⟩ := Option.map_eq_some_iff.1 h; exact hs
  | belt t => obtain ⟨x, hx, rfl⟩ := Option.map_eq_some_iff.1 h; exact hs
  | gripper t =>
    obtain ⟨x, hx, rfl⟩ := Option.map_eq_some_iff.1 h
    unfold GripperT.propagatePositionBackwards at hx
    split at hx
    · rename_i a j rest
      by_cases hl : rest.length = (if t.hasPassive then t.passive.length + 2 else 0)
      · rw [if_pos hl] at hx; cases hx; exact hs
      · rw [if_neg hl] at hx; cases hx
    · cases hx

theorem RState.Simulable.withJoints {s : RState F} (h : s.Simulable) (js : List (JState F)) (hl : js.length = s.joints.length) :
    (s.withJoints js).Simulable := ⟨h.ready.joints_congr js hl, h.unshared, h.sim⟩

/-- **C91.**  No assertion fails in a cycle of the simulation: simulator to actuators, actuators to the controllers' joints, then, whatever the
controllers have written into their joints, to the actuators and to the simulator's joints; and the robot can be simulated further. -/
theorem C91_never_aborts (s : RState F) (h : s.Simulable) (sim : List (JState F)) (hlen : sim.length = s.joints.length) (e : SimEnv) :
    ∃ f1 s1, (s.withJoints sim).propagatePositionBackwards e = some f1 ∧ (f1.withJoints s.joints).propagatePosition = some s1 ∧
      ∀ js sim', js.length = s1.joints.length → sim'.length = s1.joints.length →
        ∃ s2 f2, (s1.withJoints js).propagateEffort = some s2 ∧ (s2.withJoints sim').propagateEffortBackwards = some f2 ∧
          (f2.withJoints js).Simulable ∧ f2.joints.length = s.joints.length := by
  have lenOf : ∀ (f : Prop' F) (s s' : RState F), s.sweep f = some s' → s'.joints.length = s.joints.length := by
    intro f s s' hs
    unfold RState.sweep at hs
    rcases hr : Pr2.sweep f s.conns s.acts s.joints with _ | ⟨conns', as', js'⟩
    · rw [hr] at hs; cases hs
    rw [hr] at hs; cases hs
    exact (sweep_conns f _ _ _ hr).2.2
  have some_of : ∀ (f : Prop' F) (s : RState F), s.Simulable → (∀ b as js, b.Wants as.length js.length → b.SimReady → (f b as js).isSome) →
      ∃ s', s.sweep f = some s' := by
    intro f s hs hw
    obtain ⟨r, hr⟩ := Option.isSome_iff_exists.1 (sweep_some_of f Body.SimReady hw s.conns s.acts s.joints hs.ready.wired.ins hs.ready.wired.outs
      hs.ready.wants hs.sim)
    exact ⟨_, by unfold RState.sweep; rw [hr]; rfl⟩
  have g0 := h.withJoints sim hlen
  obtain ⟨f1, hf1⟩ := some_of (Body.propagatePositionBackwards e) _ g0 (fun b as js hw hs => positionBackwards_wants hw hs)
  have g1 := Simulable.sweep g0 _ (fun b as js r hr => (positionBackwards_frame hr).2.2)
    (fun b as js r hr => same_names_of_frame (fun a a' h => by obtain ⟨_, h⟩ := h; simp_all) (positionBackwards_frame hr).2.1)
    (fun b as js r hr hs => simReady_positionBackwards hr hs) hf1
  have l1 : f1.joints.length = s.joints.length := (lenOf _ (s.withJoints sim) _ hf1).trans hlen
  have g1' := g1.withJoints s.joints l1.symm
  obtain ⟨s1, hs1⟩ := some_of Body.propagatePosition _ g1' (fun b as js hw hs => position_wants hw)
  have g2 := Simulable.sweep g1' _ (fun b as js r hr => (position_frame hr).2.2.2)
    (fun b as js r hr => by rw [(position_frame hr).1]; exact List.forall₂_same.2 (fun _ _ => rfl))
    (fun b as js r hr hs => simReady_position hr hs) hs1
  have l2 : s1.joints.length = s.joints.length := lenOf _ (f1.withJoints s.joints) _ hs1
  refine ⟨f1, s1.withJoints (s1.joints.map (fun j => { j with stats := j.stats.update j.sample })), hf1, ?_, ?_⟩
  · unfold RState.propagatePosition; rw [hs1]; rfl
  intro js sim' hjs hsim
  have hjs : js.length = s1.joints.length := by rw [hjs]; exact List.length_map ..
  have hsim : sim'.length = s1.joints.length := by rw [hsim]; exact List.length_map ..
  have g3 := g2.withJoints js hjs
  obtain ⟨s2, hs2⟩ := some_of Body.propagateEffort _ g3 (fun b as js hw hs => effort_wants hw)
  have g4 := Simulable.sweep g3 _ (fun b as js r hr => (effort_frame hr).2.2.2.1)
    (fun b as js r hr => same_names_of_frame (fun a a' h => by obtain ⟨e, b, rfl, _⟩ := h; rfl) (effort_frame hr).2.1)
    (fun b as js r hr hs => simReady_effort hr hs) hs2
  have l3 : s2.joints.length = js.length := lenOf _ (s1.withJoints js) _ hs2
  have g4' := g4.withJoints sim' (by rw [l3, hsim, hjs])
  obtain ⟨f2, hf2⟩ := some_of Body.propagateEffortBackwards _ g4' (fun b as js hw hs => effortBackwards_wants hw hs)
  have g5 := Simulable.sweep g4' _ (fun b as js r hr => (effortBackwards_frame hr).2.2)
    (fun b as js r hr => by rw [(effortBackwards_frame hr).1]; exact List.forall₂_same.2 (fun _ _ => rfl))
    (fun b as js r hr hs => simReady_effortBackwards hr hs) hf2
  have l4 : f2.joints.length = sim'.length := lenOf _ (s2.withJoints sim') _ hf2
  exact ⟨s2, f2, hs2, hf2, g5.withJoints js (by rw [l4, hsim, hjs]), by rw [l4, hsim, l2]⟩

end

/-! ## A concrete robot: an elbow with a simple transmission, a wrist and a gripper -/

/-- The elbow's connection. -/
noncomputable def demoConn0 (c : CalSim ℝ) : Conn ℝ := ⟨⟨"elbow_trans", ["elbow_motor"], ["elbow"], .simple ⟨-36.17, 0, false, ⟨false, 0⟩, c⟩⟩, [0], [0]⟩
/-- The wrist's connection. -/
noncomputable def demoConn1 (c : CalSim ℝ) : Conn ℝ :=
  ⟨⟨"wrist_trans", ["r_motor", "l_motor"], ["flex", "roll"], .wrist ⟨60.17, 60.17, 1, -1, 0.1, 0.2, ⟨false, 0⟩, c, c⟩⟩, [1, 2], [1, 2]⟩
/-- The gripper's connection. -/
noncomputable def demoConn2 : Conn ℝ :=
  ⟨⟨"gripper_trans", ["gripper_motor"], ["gap", "l", "r", "screw", "screw2"], .gripper demoGripper⟩, [3], [3, 4, 5, 6, 7]⟩
/-- A screw's connection. -/
noncomputable def demoConn3 (c : CalSim ℝ) : Conn ℝ := ⟨⟨"torso_trans", ["torso_motor"], ["torso", "torso_screw"], .simple ⟨-36.17, 10, true, ⟨false, 0⟩, c⟩⟩, [4], [8, 9]⟩

/-- Five motors, ten joints. -/
noncomputable def simDemo (j : JState ℝ) (c : CalSim ℝ) (a : Actuator ℝ) : RState ℝ :=
  { conns := [demoConn0 c, demoConn1 c, demoConn2, demoConn3 c]
    joints := [j, j, j, j, j, j, j, j, j, j]
    jmap := [("elbow", 0), ("flex", 1), ("roll", 2), ("gap", 3), ("l", 4), ("r", 5), ("screw", 6), ("screw2", 7), ("torso", 8), ("torso_screw", 9)]
    acts := [Actuator.fresh "elbow_motor", Actuator.fresh "r_motor", Actuator.fresh "l_motor", { a with name := "gripper_motor" }, Actuator.fresh "torso_motor"] }

theorem simDemo_simulable (j : JState ℝ) (c : CalSim ℝ) (a : Actuator ℝ) : (simDemo j c a).Simulable := by
  refine ⟨⟨⟨?_, ?_, ?_⟩, ?_, ?_⟩, ?_, ?_⟩
  · simp [simDemo, demoConn0, demoConn1, demoConn2, demoConn3]
  · simp [simDemo, demoConn0, demoConn1, demoConn2, demoConn3]
  · simp [simDemo, demoConn0, demoConn1, demoConn2, demoConn3]
  · simp [simDemo, Actuator.fresh, demoConn0, demoConn1, demoConn2, demoConn3, List.findIdx?_cons]
  · simp [simDemo, Body.Wants, demoGripper, demoConn0, demoConn1, demoConn2, demoConn3]
  · simp [simDemo, Unshared, demoConn0, demoConn1, demoConn2, demoConn3]
  · simp [simDemo, Body.SimReady, demoGripper, demoConn0, demoConn1, demoConn2, demoConn3]

/-- All of C91: whatever the joints of the simulator (the gap within the gripper's working range), a cycle of the simulation runs, and the
elbow, the wrist, the gap and the torso are where the simulator put them. -/
example (j : JState ℝ) (cal : CalSim ℝ) (a : Actuator ℝ) (e : SimEnv) (sim : List (JState ℝ)) (hsim : sim.length = 10) (k3 : JState ℝ) (hk3 : sim[3]? = some k3)
    (hk : k3.position = 2 * demoGripper.gapAt (Real.pi / 3)) :
    ∃ f1 s1, ((simDemo j cal a).withJoints sim).propagatePositionBackwards e = some f1 ∧
      (f1.withJoints (simDemo j cal a).joints).propagatePosition = some s1 ∧
      (∃ x k, s1.joints[0]? = some x ∧ sim[0]? = some k ∧ SameMotion x k) ∧ (∃ x k, s1.joints[1]? = some x ∧ sim[1]? = some k ∧ SameMotion x k) ∧
      (∃ x k, s1.joints[2]? = some x ∧ sim[2]? = some k ∧ SameMotion x k) ∧ (∃ x k, s1.joints[8]? = some x ∧ sim[8]? = some k ∧ SameMotion x k) ∧
      (∃ x, s1.joints[3]? = some x ∧ x.position = k3.position ∧ x.velocity = k3.velocity) := by
  have h := simDemo_simulable j cal a
  have hlen : sim.length = (simDemo j cal a).joints.length := by simp [simDemo, hsim]
  have m0 : demoConn0 cal ∈ (simDemo j cal a).conns := by simp [simDemo]
  have m1 : demoConn1 cal ∈ (simDemo j cal a).conns := by simp [simDemo]
  have m2 : demoConn2 ∈ (simDemo j cal a).conns := by simp [simDemo]
  have m3 : demoConn3 cal ∈ (simDemo j cal a).conns := by simp [simDemo]
  obtain ⟨f1, s1, h1, h2, -⟩ := C91_never_aborts (simDemo j cal a) h sim hlen e
  have hr := h.ready
  have hu := h.unshared
  generalize simDemo j cal a = s at *
  refine ⟨f1, s1, h1, h2, ?_, ?_, ?_, ?_, ?_⟩
  · obtain ⟨i, hi, x, y, hx⟩ := C91_simple_motion hr hu hlen h1 h2 m0 rfl (by norm_num)
    cases hi; exact ⟨x, y, hx⟩
  · obtain ⟨-, hw⟩ := C91_wrist_motion hr hu hlen h1 h2 m1 rfl (by norm_num [WristT.Sane])
    exact hw 1 (by simp [demoConn1])
  · obtain ⟨-, hw⟩ := C91_wrist_motion hr hu hlen h1 h2 m1 rfl (by norm_num [WristT.Sane])
    exact hw 2 (by simp [demoConn1])
  · obtain ⟨i, hi, x, y, hx⟩ := C91_simple_motion hr hu hlen h1 h2 m3 rfl (by norm_num)
    cases hi; exact ⟨x, y, hx⟩
  · obtain ⟨m, a, x, -, -, hx, -, hp, hv⟩ := C91_gripper_motion hr hu hlen h1 h2 m2 rfl demo_sane (i := 3) rfl hk3 demo_regular.toLinkage hk
    exact ⟨x, hx, hp, (hv demo_regular (by simp [demoGripper])).1⟩

/-- The efforts: with the gripper's motor at half a revolution and the gap joint where that puts it. -/
example (j : JState ℝ) (cal : CalSim ℝ) (a : Actuator ℝ) (ha : a.position = Real.pi) (hj : j.position = 2 * demoGripper.gapAt (Real.pi / 3))
    (sim : List (JState ℝ)) (hsim : sim.length = 10) (s1 f1 : RState ℝ) (h1 : (simDemo j cal a).propagateEffort = some s1)
    (h2 : (s1.withJoints sim).propagateEffortBackwards = some f1) :
    (∃ k, f1.joints[0]? = some k ∧ k.commanded = j.commanded) ∧ (∃ k, f1.joints[2]? = some k ∧ k.commanded = j.commanded) ∧
      (∃ k, f1.joints[9]? = some k ∧ k.commanded = j.commanded / 10) ∧
      ∃ k, f1.joints[6]? = some k ∧ k.commanded = 2 * j.commanded / demoGripper.simReduction := by
  have h := simDemo_simulable j cal a
  have hlen : sim.length = (simDemo j cal a).joints.length := by simp [simDemo, hsim]
  have m0 : demoConn0 cal ∈ (simDemo j cal a).conns := by simp [simDemo]
  have m1 : demoConn1 cal ∈ (simDemo j cal a).conns := by simp [simDemo]
  have m2 : demoConn2 ∈ (simDemo j cal a).conns := by simp [simDemo]
  have m3 : demoConn3 cal ∈ (simDemo j cal a).conns := by simp [simDemo]
  have hr := h.ready
  have hu := h.unshared
  have hact : (simDemo j cal a).acts[3]? = some { a with name := "gripper_motor" } := by simp [simDemo]
  have hjs : ∀ i < 10, (simDemo j cal a).joints[i]? = some j := by
    intro i hi
    have : (simDemo j cal a).joints = List.replicate 10 j := rfl
    rw [this, List.getElem?_replicate, if_pos hi]
  generalize simDemo j cal a = s at *
  refine ⟨?_, ?_, ?_, ?_⟩
  · rcases C91_simple_effort hr hu hlen h1 h2 m0 rfl (by norm_num) with ⟨-, i, hi, x, k, hx, hk, hc⟩ | ⟨hx, -⟩
    · cases hi; rw [hjs 0 (by omega)] at hx; cases hx; exact ⟨k, hk, hc⟩
    · cases hx
  · obtain ⟨-, hw⟩ := C91_wrist_effort hr hu hlen h1 h2 m1 rfl (by norm_num [WristT.Sane])
    obtain ⟨x, k, hx, hk, hc⟩ := hw 2 (by simp [demoConn1])
    rw [hjs 2 (by omega)] at hx; cases hx; exact ⟨k, hk, hc⟩
  · rcases C91_simple_effort hr hu hlen h1 h2 m3 rfl (by norm_num) with ⟨hx, -⟩ | ⟨-, i, n, hi, x, k, l, hx, hk, hl, -, hc⟩
    · cases hx
    · cases hi; rw [hjs 8 (by omega)] at hx; cases hx; exact ⟨l, hl, hc⟩
  · obtain ⟨n, hn, ⟨k, hk, hc⟩, -⟩ := C91_gripper_effort hr hu hlen h1 h2 m2 rfl demo_sane (m := 3) rfl (i := 3) rfl hact (hjs 3 (by omega))
      (θ := Real.pi / 3) (by rw [demo_revs { a with name := "gripper_motor" } ha]; exact demo_regular) (by simp [demoGripper]) hj
    have : n = 6 := by
      have hn' : (some 6 : Option Nat) = some n := hn
      exact (Option.some.inj hn').symm
    subst this
    exact ⟨k, hk, hc⟩

end Pr2
