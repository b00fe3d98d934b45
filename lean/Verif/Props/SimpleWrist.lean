import Verif.Spec.Real

/-! # C37–C39: simple and wrist transmissions -/

namespace Pr2
set_option linter.unusedVariables false

theorem simulate_motion {F : Type} [FCmp F] [Add F] [Sub F] [FTrig F] (c : CalSim F) (j : JState F) (a : Actuator F) :
    (c.simulate j a).2.motion = a.motion ∧ (c.simulate j a).2.name = a.name ∧ (c.simulate j a).2.effort = a.effort ∧
    (c.simulate j a).2.enable = a.enable ∧ (c.simulate j a).2.halted = a.halted ∧ (c.simulate j a).2.sampleTs = a.sampleTs ∧
    (c.simulate j a).2.ts = a.ts := by
  unfold CalSim.simulate Actuator.motion
  dsimp only
  generalize (if c.gotInfo = true then c else c.getInfo j.joint) = c'
  split
  · split <;> split <;> exact ⟨rfl, rfl, rfl, rfl, rfl, rfl, rfl⟩
  · exact ⟨rfl, rfl, rfl, rfl, rfl, rfl, rfl⟩

/-- **C37.** Actuators to joints and back: the actuator positions, velocities and efforts are restored. -/
theorem C37_actuator_roundtrip (t : SimpleT ℝ) (h : t.reduction ≠ 0) (e : SimEnv) (as : List (Actuator ℝ)) (js js' : List (JState ℝ))
    (hf : t.propagatePosition as js = some js') :
    ∃ t' as', t.propagatePositionBackwards e js' as = some (t', as') ∧ as'.map Actuator.motion = as.map Actuator.motion := by
  unfold SimpleT.propagatePosition at hf
  split at hf
  · rename_i a j hu
    cases hf
    refine ⟨_, _, by unfold SimpleT.propagatePositionBackwards; rw [hu], ?_⟩
    simp only [SimpleT.backward, List.map_cons, List.map_nil, (simulate_motion _ _ _).1]
    simp [Actuator.motion, Actuator.stamped, SimpleT.forward, h]
  · rename_i a j k hu
    cases hf
    refine ⟨_, _, by unfold SimpleT.propagatePositionBackwards; rw [hu], ?_⟩
    simp only [SimpleT.backward, List.map_cons, List.map_nil, (simulate_motion _ _ _).1]
    simp [Actuator.motion, Actuator.stamped, SimpleT.forward, h]
  · cases hf

/-- **C37.** Joint to actuator and back: the position, velocity and effort of the joint are restored. -/
theorem C37_joint_roundtrip (t t' : SimpleT ℝ) (h : t.reduction ≠ 0) (e : SimEnv) (as as' : List (Actuator ℝ)) (js : List (JState ℝ))
    (hb : t.propagatePositionBackwards e js as = some (t', as')) :
    ∃ js', t'.propagatePosition as' js = some js' ∧ js'.head?.map JState.motion = js.head?.map JState.motion := by
  unfold SimpleT.propagatePositionBackwards at hb
  split at hb
  · rename_i a j hu
    cases hb
    have hm := (simulate_motion t.cal j (Actuator.stamped { a with
      position := (j.position - j.reference) * t.reduction, velocity := j.velocity * t.reduction, measured := j.measured / t.reduction }
      (t.clock.stamp e.now))).1
    refine ⟨_, by unfold SimpleT.propagatePosition SimpleT.backward; dsimp only; rw [hu], ?_⟩
    simp only [Actuator.motion, Actuator.stamped, Prod.mk.injEq] at hm
    simp [SimpleT.forward, JState.motion, Actuator.stamped, hm.1, hm.2.1, hm.2.2, h]
  · rename_i a j k hu
    cases hb
    have hm := (simulate_motion t.cal j (Actuator.stamped { a with
      position := (j.position - j.reference) * t.reduction, velocity := j.velocity * t.reduction, measured := j.measured / t.reduction }
      (t.clock.stamp e.now))).1
    refine ⟨_, by unfold SimpleT.propagatePosition SimpleT.backward; dsimp only; rw [hu], ?_⟩
    simp only [Actuator.motion, Actuator.stamped, Prod.mk.injEq] at hm
    simp [SimpleT.forward, JState.motion, Actuator.stamped, hm.1, hm.2.1, hm.2.2, h]
  · cases hb

/-- **C37.** Effort commands: joint to actuator and back, for a transmission without simulated screw joint. -/
theorem C37_effort_roundtrip (t : SimpleT ℝ) (h : t.reduction ≠ 0) (hu : t.useSim = false) (as as' : List (Actuator ℝ)) (js : List (JState ℝ))
    (hf : t.propagateEffort js as = some as') : t.propagateEffortBackwards as' js = some js := by
  unfold SimpleT.propagateEffort at hf
  split at hf
  · cases hf
    unfold SimpleT.propagateEffortBackwards
    rw [hu]
    simp [h]
  · rename_i h1; rw [hu] at h1; cases h1
  · cases hf

/-- **C37.** And from the actuator to the joint and back. -/
theorem C37_effort_roundtrip' (t : SimpleT ℝ) (h : t.reduction ≠ 0) (hu : t.useSim = false) (as : List (Actuator ℝ)) (js js' : List (JState ℝ))
    (hf : t.propagateEffortBackwards as js = some js') :
    ∃ as', t.propagateEffort js' as = some as' ∧ as'.map (·.effort) = as.map (·.effort) := by
  unfold SimpleT.propagateEffortBackwards at hf
  split at hf
  · cases hf
    exact ⟨_, by unfold SimpleT.propagateEffort; rw [hu], by simp [h]⟩
  · rename_i h1; rw [hu] at h1; cases h1
  · cases hf

/-- **C37.** With a simulated screw joint, the screw gets the effort the joint was commanded, divided by the screw's reduction. -/
theorem C37_screw_effort (t : SimpleT ℝ) (h : t.reduction ≠ 0) (hu : t.useSim = true) (a : Actuator ℝ) (j k : JState ℝ) :
    ∃ as', t.propagateEffort [j, k] [a] = some as' ∧
      t.propagateEffortBackwards as' [j, k] = some [j, { k with commanded := j.commanded / t.simReduction }] := by
  refine ⟨_, by unfold SimpleT.propagateEffort; rw [hu], ?_⟩
  unfold SimpleT.propagateEffortBackwards
  rw [hu]
  simp [h]

/-- All reductions of a wrist transmission are non-zero. -/
def WristT.Sane (t : WristT ℝ) : Prop := t.ar0 ≠ 0 ∧ t.ar1 ≠ 0 ∧ t.jr0 ≠ 0 ∧ t.jr1 ≠ 0

/-- **C38.** Motors to joints and back. -/
theorem C38_actuator_roundtrip (t : WristT ℝ) (h : t.Sane) (e : SimEnv) (as : List (Actuator ℝ)) (js js' : List (JState ℝ))
    (hf : t.propagatePosition as js = some js') :
    ∃ t' as', t.propagatePositionBackwards e js' as = some (t', as') ∧ as'.map Actuator.motion = as.map Actuator.motion := by
  obtain ⟨h1, h2, h3, h4⟩ := h
  unfold WristT.propagatePosition at hf
  split at hf
  · cases hf
    refine ⟨_, _, by unfold WristT.propagatePositionBackwards; rfl, ?_⟩
    simp only [List.map_cons, List.map_nil, (simulate_motion _ _ _).1]
    simp only [Actuator.motion, Actuator.stamped, lit_real, List.cons.injEq, Prod.mk.injEq, and_true]
    refine ⟨⟨?_, ?_, ?_⟩, ?_, ?_, ?_⟩ <;> push_cast <;> field_simp <;> ring
  · cases hf

/-- **C38.** Joints to motors and back. -/
theorem C38_joint_roundtrip (t t' : WristT ℝ) (h : t.Sane) (e : SimEnv) (as as' : List (Actuator ℝ)) (js : List (JState ℝ))
    (hb : t.propagatePositionBackwards e js as = some (t', as')) : t'.propagatePosition as' js = some js := by
  obtain ⟨h1, h2, h3, h4⟩ := h
  unfold WristT.propagatePositionBackwards at hb
  split at hb
  · rename_i a0 a1 j0 j1
    cases hb
    unfold WristT.propagatePosition
    dsimp only
    generalize hA0 : Actuator.stamped (F := ℝ) _ (t.clock.stamp e.now) = A0
    generalize hA1 : Actuator.stamped (F := ℝ) _ (t.clock.stamp e.now') = A1
    have m0 := (simulate_motion t.cal1 j1 A0).1
    have m1 := (simulate_motion t.cal0 j0 A1).1
    simp only [Actuator.motion, Prod.mk.injEq] at m0 m1
    rw [m0.1, m0.2.1, m0.2.2, m1.1, m1.2.1, m1.2.2, ← hA0, ← hA1]
    simp only [Actuator.stamped, lit_real, Option.some.injEq, List.cons.injEq, and_true]
    clear m0 m1 hA0 hA1
    cases j0; cases j1
    simp only [JState.mk.injEq, true_and, and_true]
    refine ⟨⟨?_, ?_, ?_⟩, ?_, ?_, ?_⟩ <;> push_cast <;> field_simp <;> ring
  · cases hb

/-- **C38.** Effort commands: joints to motors and back. -/
theorem C38_effort_roundtrip (t : WristT ℝ) (h : t.Sane) (as as' : List (Actuator ℝ)) (js : List (JState ℝ))
    (hf : t.propagateEffort js as = some as') : t.propagateEffortBackwards as' js = some js := by
  obtain ⟨h1, h2, h3, h4⟩ := h
  unfold WristT.propagateEffort at hf
  split at hf
  · rename_i a0 a1 j0 j1
    cases hf
    unfold WristT.propagateEffortBackwards
    cases j0; cases j1
    simp only [lit_real, Option.some.injEq, List.cons.injEq, JState.mk.injEq, true_and, and_true]
    refine ⟨?_, ?_⟩ <;> push_cast <;> field_simp <;> ring
  · cases hf

/-- **C38.** Effort commands: motors to joints and back. -/
theorem C38_effort_roundtrip' (t : WristT ℝ) (h : t.Sane) (as : List (Actuator ℝ)) (js js' : List (JState ℝ))
    (hf : t.propagateEffortBackwards as js = some js') :
    ∃ as', t.propagateEffort js' as = some as' ∧ as'.map (·.effort) = as.map (·.effort) := by
  obtain ⟨h1, h2, h3, h4⟩ := h
  unfold WristT.propagateEffortBackwards at hf
  split at hf
  · cases hf
    refine ⟨_, by unfold WristT.propagateEffort; rfl, ?_⟩
    simp only [lit_real, List.map_cons, List.map_nil, List.cons.injEq, and_true]
    refine ⟨?_, ?_⟩ <;> push_cast <;> field_simp <;> ring
  · cases hf

/-- **C39.** Simple transmission: power at the joints equals power at the actuator, measured and commanded. -/
theorem C39_simple_power (t : SimpleT ℝ) (h : t.reduction ≠ 0) (a : Actuator ℝ) (j : JState ℝ) (hu : t.useSim = false) :
    ∃ j' a', t.propagatePosition [a] [j] = some [j'] ∧ t.propagateEffort [j'] [a] = some [a'] ∧
      jointPower [j'] = actPower [a] ∧ jointCmdPower [j'] = actCmdPower [a'] := by
  refine ⟨_, _, by unfold SimpleT.propagatePosition; rw [hu], by unfold SimpleT.propagateEffort; rw [hu], ?_, ?_⟩
  · simp only [jointPower, actPower, SimpleT.forward, List.map_cons, List.map_nil, List.sum_cons, List.sum_nil]
    field_simp
  · simp only [jointCmdPower, actCmdPower, SimpleT.forward, List.map_cons, List.map_nil, List.sum_cons, List.sum_nil]
    field_simp

/-- **C39.** Wrist transmission: power at the joints equals power at the actuators, measured and commanded. -/
theorem C39_wrist_power (t : WristT ℝ) (h : t.Sane) (as : List (Actuator ℝ)) (js js' : List (JState ℝ))
    (hf : t.propagatePosition as js = some js') :
    jointPower js' = actPower as ∧ ∃ as', t.propagateEffort js' as = some as' ∧ jointCmdPower js' = actCmdPower as' := by
  obtain ⟨h1, h2, h3, h4⟩ := h
  unfold WristT.propagatePosition at hf
  split at hf
  · cases hf
    refine ⟨?_, _, by unfold WristT.propagateEffort; rfl, ?_⟩
    · simp only [jointPower, actPower, lit_real, List.map_cons, List.map_nil, List.sum_cons, List.sum_nil]
      push_cast; field_simp; ring
    · simp only [jointCmdPower, actCmdPower, lit_real, List.map_cons, List.map_nil, List.sum_cons, List.sum_nil]
      push_cast; field_simp; ring
  · cases hf

/-! Instances that meet the hypotheses: any single actuator and joint; any two of each. -/

example (a : Actuator ℝ) (j : JState ℝ) (c : CalSim ℝ) : ∃ js', (SimpleT.mk (60.17 : ℝ) 0 false ⟨false, 0⟩ c).propagatePosition [a] [j] = some js' :=
  ⟨_, rfl⟩
example (a b : Actuator ℝ) (j k : JState ℝ) (c : CalSim ℝ) :
    ∃ t : WristT ℝ, t.Sane ∧ t.jr0 = 1 ∧ ∃ js', t.propagatePosition [a, b] [j, k] = some js' :=
  ⟨⟨60.17, 60.17, 1, -1, 0.1, 0.2, ⟨false, 0⟩, c, c⟩, by norm_num [WristT.Sane], rfl, _, rfl⟩

/-! ## Concrete cases meeting the remaining hypotheses -/

/-- `C37_joint_roundtrip`, `C37_effort_roundtrip`, `C37_effort_roundtrip'`: one joint, one actuator. -/
example (a : Actuator ℝ) (j : JState ℝ) (c : CalSim ℝ) (e : SimEnv) :
    let t := SimpleT.mk (60.17 : ℝ) 0 false ⟨false, 0⟩ c
    t.reduction ≠ 0 ∧ t.useSim = false ∧ (∃ r, t.propagatePositionBackwards e [j] [a] = some r) ∧ (∃ as', t.propagateEffort [j] [a] = some as') ∧
      ∃ js', t.propagateEffortBackwards [a] [j] = some js' :=
  ⟨by norm_num, rfl, ⟨_, rfl⟩, ⟨_, rfl⟩, ⟨_, rfl⟩⟩
/-- `C37_screw_effort`: a lead screw with a simulated joint. -/
example (c : CalSim ℝ) : (SimpleT.mk (-3141.6 : ℝ) 10 true ⟨false, 0⟩ c).reduction ≠ 0 ∧ (SimpleT.mk (-3141.6 : ℝ) 10 true ⟨false, 0⟩ c).useSim = true :=
  ⟨by norm_num, rfl⟩
/-- `C38_joint_roundtrip`, `C38_effort_roundtrip`, `C38_effort_roundtrip'`: two joints, two actuators. -/
example (a b : Actuator ℝ) (j k : JState ℝ) (c : CalSim ℝ) (e : SimEnv) :
    let t : WristT ℝ := ⟨60.17, 60.17, 1, -1, 0.1, 0.2, ⟨false, 0⟩, c, c⟩
    t.Sane ∧ (∃ r, t.propagatePositionBackwards e [j, k] [a, b] = some r) ∧ (∃ as', t.propagateEffort [j, k] [a, b] = some as') ∧
      ∃ js', t.propagateEffortBackwards [a, b] [j, k] = some js' :=
  ⟨by norm_num [WristT.Sane], ⟨_, rfl⟩, ⟨_, rfl⟩, ⟨_, rfl⟩⟩

end Pr2
