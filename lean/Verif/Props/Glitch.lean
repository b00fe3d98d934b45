import Verif.Props.Stack
import Verif.Spec.Float

/-!
# C109: what one bad reading does

A reading that is infinite or not a number (`¬ Fin`).  Simple, wrist and gripper transmissions compute the joints from the current readings alone, so the next good reading makes
up for it.  A belt transmission keeps the reading in its filters: its joint's state is not a number for ever after, and so is the effort its motor is sent, since the damping is added
after the limits have been enforced.

Numbers: `IeeeArith` (`Verif.Spec.Float`), which says that a result is finite only if the operands are (except for a divisor).
-/

namespace Pr2
open FLit IeeeLike
set_option linter.unusedVariables false
set_option linter.unusedSectionVars false

/-! ## Specification -/

/-- A finite number: neither infinite nor NaN. -/
def Fin' {F : Type} [FCmp F] [Neg F] [IeeeLike F] (a : F) : Prop := ∃ x : ℝ, IsVal a x

/-- Two joint states show the same position, velocity and effort. -/
def JState.Reads {F : Type} (j j' : JState F) : Prop := j'.position = j.position ∧ j'.velocity = j.velocity ∧ j'.measured = j.measured

/-- A reading a belt transmission cannot use: the position is not finite, or the effort is not although it is used (the two estimates are combined). -/
def BadReading {F : Type} [FCmp F] [Zero F] [Neg F] [IeeeLike F] (p : BeltP F) (a : Actuator F) : Prop :=
  ¬ Fin' a.position ∨ (FCmp.eq p.lamCombo 0 = false ∧ ¬ Fin' a.measured)

/-! ## Transmissions without memory -/

section
variable {F : Type} [FCmp F] [Zero F] [Add F] [Sub F] [Mul F] [iDiv : Div F] [Neg F] [FLit F] [iTrig : FTrig F]

/-- Is it a belt transmission? -/
def Body.isBelt : Body F → Bool
  | .belt _ => true
  | _ => false

/-- **C109.**  What a transmission other than a belt makes of the readings does not depend on earlier ones: whatever state the joints were in, and the transmission is
unchanged. -/
theorem C109_memoryless (b : Body F) (hb : b.isBelt = false) (as : List (Actuator F)) (js js' : List (JState F)) (href : List.Forall₂ (fun j j' => j'.reference = j.reference) js js')
    {r r' : Body F × List (Actuator F) × List (JState F)} (h : b.propagatePosition as js = some r) (h' : b.propagatePosition as js' = some r') :
    r.1 = b ∧ List.Forall₂ JState.Reads r.2.2 r'.2.2 := by
  cases b with
  | belt t => cases hb
  | simple t =>
    simp only [Body.propagatePosition, SimpleT.propagatePosition] at h h'
    rcases href with _ | @⟨j, j', l, l', e1, _ | @⟨k, k', l, l', e2, _ | _⟩⟩
    all_goals rcases as with _ | ⟨a, _ | ⟨a', as⟩⟩
    all_goals cases hs : t.useSim
    all_goals simp only [hs, Option.map_some, Option.map_none, reduceCtorEq] at h h'
    all_goals cases h; cases h'
    all_goals refine ⟨rfl, ?_⟩
    · exact .cons ⟨by simp [SimpleT.forward, e1], rfl, rfl⟩ .nil
    · exact .cons ⟨by simp [SimpleT.forward, e1], rfl, rfl⟩ (.cons ⟨rfl, rfl, rfl⟩ .nil)
  | wrist t =>
    simp only [Body.propagatePosition, WristT.propagatePosition] at h h'
    rcases href with _ | @⟨j, j', l, l', e1, _ | @⟨k, k', l, l', e2, _ | _⟩⟩
    all_goals rcases as with _ | ⟨a, _ | ⟨a', _ | ⟨a'', as⟩⟩⟩
    all_goals simp only [Option.map_some, Option.map_none, reduceCtorEq] at h h'
    cases h; cases h'
    exact ⟨rfl, .cons ⟨by simp [e1], rfl, rfl⟩ (.cons ⟨by simp [e2], rfl, rfl⟩ .nil)⟩
  | gripper t =>
    simp only [Body.propagatePosition, GripperT.propagatePosition] at h h'
    rcases href with _ | @⟨j, j', l, l', e1, hl⟩
    all_goals rcases as with _ | ⟨a, _ | ⟨a', as⟩⟩
    all_goals simp only [Option.map_none, reduceCtorEq] at h h'
    by_cases hq : l.length = t.passive.length + (if t.hasPassive then 2 else 1)
    · rw [if_pos hq] at h
      rw [if_pos (by rw [← List.Forall₂.length_eq hl]; exact hq)] at h'
      rw [Option.map_some] at h h'
      cases h; cases h'
      refine ⟨rfl, .cons ⟨rfl, rfl, rfl⟩ (List.rel_append ?_ ?_)⟩
      · rw [List.forall₂_map_left_iff, List.forall₂_map_right_iff]
        exact (List.forall₂_take t.passive.length hl).imp fun _ _ _ => ⟨rfl, rfl, rfl⟩
      · rw [List.forall₂_map_left_iff, List.forall₂_map_right_iff]
        exact (List.forall₂_drop t.passive.length hl).imp fun _ _ _ => ⟨rfl, rfl, rfl⟩
    · rw [if_neg hq] at h
      cases h

/-- **C109.**  Nor does what it makes of the commands. -/
theorem C109_memoryless_effort (b : Body F) (hb : b.isBelt = false) (as as' : List (Actuator F)) (js : List (JState F))
    {r r' : Body F × List (Actuator F) × List (JState F)} (hl : as.length = as'.length) (h : b.propagateEffort as js = some r) (h' : b.propagateEffort as' js = some r') :
    r.1 = b ∧ List.Forall₂ (fun a a' => a'.effort = a.effort ∧ a'.enable = true ∧ a.enable = true) r.2.1 r'.2.1 := by
  cases b with
  | belt t => cases hb
  | simple t =>
    simp only [Body.propagateEffort, SimpleT.propagateEffort] at h h'
    rcases as with _ | ⟨a, _ | ⟨a1, as⟩⟩ <;> rcases as' with _ | ⟨a', _ | ⟨a1', as'⟩⟩ <;> simp at hl <;>
      rcases js with _ | ⟨j, _ | ⟨k, _ | ⟨k', js⟩⟩⟩ <;> cases hs : t.useSim <;>
      simp only [hs, Option.map_some, Option.map_none, reduceCtorEq] at h h' <;>
      (cases h; cases h'; exact ⟨rfl, .cons ⟨rfl, rfl, rfl⟩ .nil⟩)
  | wrist t =>
    simp only [Body.propagateEffort, WristT.propagateEffort] at h h'
    rcases as with _ | ⟨a, _ | ⟨a1, _ | ⟨a2, as⟩⟩⟩ <;> rcases as' with _ | ⟨a', _ | ⟨a1', _ | ⟨a2', as'⟩⟩⟩ <;> simp at hl <;>
      rcases js with _ | ⟨j, _ | ⟨k, _ | ⟨k', js⟩⟩⟩ <;>
      simp only [Option.map_some, Option.map_none, reduceCtorEq] at h h' <;>
      (cases h; cases h'; exact ⟨rfl, .cons ⟨rfl, rfl, rfl⟩ (.cons ⟨rfl, rfl, rfl⟩ .nil)⟩)
  | gripper t =>
    simp only [Body.propagateEffort, GripperT.propagateEffort] at h h'
    rcases as with _ | ⟨a, _ | ⟨a1, as⟩⟩ <;> rcases as' with _ | ⟨a', _ | ⟨a1', as'⟩⟩ <;> simp at hl <;> rcases js with _ | ⟨j, js⟩ <;>
      simp only [Option.map_none, reduceCtorEq] at h h'
    by_cases hq : js.length = t.passive.length + (if t.hasPassive then 2 else 1)
    · rw [if_pos hq, Option.map_some] at h h'
      cases h; cases h'
      exact ⟨rfl, .cons ⟨rfl, rfl, rfl⟩ .nil⟩
    · rw [if_neg hq] at h
      cases h

/-- **C109.**  If a belt's damping is not filtered (`lambda_motor` is zero), its motor's effort depends on the last two readings only. -/
theorem C109_undamped {t t' u u' v v' w w' x x' : BeltT F} (hp : t'.p = t.p) (h0 : FCmp.eq t.p.lamMotor 0 = true) {a1 a2 : Actuator F} {j : JState F}
    {j1 j2 j3 j1' j2' j3' : JState F} {c1 c2 c1' c2' : Actuator F} {l1 l2 l1' l2' : List (JState F)} {m1 m1' : List (Actuator F)} {m2 m2' : Actuator F}
    (e1 : t.propagatePosition [a1] [j1] = some (u, l1)) (e2 : u.propagateEffort [j2] [c1] = some (v, m1)) (e3 : v.propagatePosition [a2] [j3] = some (w, l2))
    (e4 : w.propagateEffort [j] [c2] = some (x, [m2]))
    (e1' : t'.propagatePosition [a1] [j1'] = some (u', l1')) (e2' : u'.propagateEffort [j2'] [c1'] = some (v', m1')) (e3' : v'.propagatePosition [a2] [j3'] = some (w', l2'))
    (e4' : w'.propagateEffort [j] [c2'] = some (x', [m2'])) : m2'.effort = m2.effort := by
  cases e1; cases e2; cases e3; cases e4
  cases e1'; cases e2'; cases e3'; cases e4'
  simp only [BeltS.dampingForce, BeltS.estimate, hp, h0, if_true]
  rfl

end

/-! ## The belt's filters -/

section
variable {F : Type} [FCmp F] [Zero F] [Add F] [Sub F] [Mul F] [iDiv : Div F] [Neg F] [FLit F] [IeeeArith F]

theorem nf_add {a b : F} (h : ¬ Fin' a ∨ ¬ Fin' b) : ¬ Fin' (a + b) := by
  rintro ⟨z, hz⟩
  obtain ⟨x, y, hx, hy, _⟩ := IeeeArith.add a b z hz
  rcases h with h | h
  · exact h ⟨x, hx⟩
  · exact h ⟨y, hy⟩
theorem nf_sub {a b : F} (h : ¬ Fin' a ∨ ¬ Fin' b) : ¬ Fin' (a - b) := by
  rintro ⟨z, hz⟩
  obtain ⟨x, y, hx, hy, _⟩ := IeeeArith.sub a b z hz
  rcases h with h | h
  · exact h ⟨x, hx⟩
  · exact h ⟨y, hy⟩
theorem nf_mul {a b : F} (h : ¬ Fin' a ∨ ¬ Fin' b) : ¬ Fin' (a * b) := by
  rintro ⟨z, hz⟩
  obtain ⟨x, y, hx, hy, _⟩ := IeeeArith.mul a b z hz
  rcases h with h | h
  · exact h ⟨x, hx⟩
  · exact h ⟨y, hy⟩
theorem nf_div {a b : F} (h : ¬ Fin' a) : ¬ Fin' (a / b) := by
  rintro ⟨z, hz⟩
  obtain ⟨x, hx, _⟩ := IeeeArith.div a b z hz
  exact h ⟨x, hx⟩

theorem nf_step {x h v w : F} (hv : ¬ Fin' v) : ¬ Fin' (x + h * (v + w)) := nf_add (.inr (nf_mul (.inr (nf_add (.inl hv)))))

theorem nf_jnt1 {dt lambda motorPos pos vel acc : F} (h : ¬ Fin' motorPos ∨ ¬ Fin' pos) :
    ¬ Fin' (beltJnt1 dt lambda motorPos pos vel acc).1 ∧ ¬ Fin' (beltJnt1 dt lambda motorPos pos vel acc).2.1 := by
  unfold beltJnt1
  dsimp only
  have h1 : ∀ v : F, ¬ Fin' (motorPos - (pos + lit (1/2) * dt * (v + vel))) := by
    intro v
    rcases h with h | h
    · exact nf_sub (.inl h)
    · exact nf_sub (.inr (nf_add (.inl h)))
  have h2 : ∀ a v w d : F, ¬ Fin' ((a * (motorPos - (pos + lit (1/2) * dt * (v + vel))) - w) / d) := fun a v w d => nf_div (nf_sub (.inl (nf_mul (.inr (h1 v)))))
  exact ⟨nf_step (nf_step (h2 _ _ _ _)), nf_step (h2 _ _ _ _)⟩

theorem nf_defl {dt tau stretch pos vel acc : F} (h : ¬ Fin' stretch) : ¬ Fin' (beltDefl dt tau stretch pos vel acc).1 := by
  unfold beltDefl
  split
  · exact h
  · exact nf_step (nf_step (nf_div (nf_sub (.inl (nf_sub (.inl h))))))

theorem nf_combo {dt lambda p1 v1 p2 pos vel : F}
    (h : (¬ Fin' p1 ∧ ¬ Fin' v1) ∨ (FCmp.eq lambda 0 = false ∧ (¬ Fin' p2 ∨ ¬ Fin' pos))) :
    ¬ Fin' (beltCombo dt lambda p1 v1 p2 pos vel).1 ∧ ¬ Fin' (beltCombo dt lambda p1 v1 p2 pos vel).2 := by
  unfold beltCombo
  split
  · rename_i h0
    rcases h with h | ⟨h, _⟩
    · exact h
    · rw [h] at h0; cases h0
  · dsimp only
    have h1 : ¬ Fin' ((v1 + limLam dt lambda * (p2 - (pos + lit (1/2) * dt * vel))) / (lit 1 + lit (1/2) * dt * limLam dt lambda)) := by
      rcases h with ⟨_, h⟩ | ⟨_, h | h⟩
      · exact nf_div (nf_add (.inl h))
      · exact nf_div (nf_add (.inr (nf_mul (.inr (nf_sub (.inl h))))))
      · exact nf_div (nf_add (.inr (nf_mul (.inr (nf_sub (.inr (nf_add (.inl h))))))))
    exact ⟨nf_add (.inr (nf_mul (.inr (nf_add (.inl h1))))), h1⟩

/-- The belt's position filters have met a bad reading. -/
def BeltS.Poisoned (p : BeltP F) (s : BeltS F) : Prop := ¬ Fin' s.jnt1Pos ∨ (FCmp.eq p.lamCombo 0 = false ∧ ¬ Fin' s.jointPos)

theorem estimate_poisoned (p : BeltP F) (s : BeltS F) (ts : Int) (pos meas : F)
    (h : s.Poisoned p ∨ ¬ Fin' pos ∨ (FCmp.eq p.lamCombo 0 = false ∧ ¬ Fin' meas)) :
    (s.estimate p ts pos meas).Poisoned p ∧ ¬ Fin' (s.estimate p ts pos meas).jointPos ∧ ¬ Fin' (s.estimate p ts pos meas).jointVel := by
  unfold BeltS.estimate BeltS.Poisoned
  dsimp only
  have h1 : (¬ Fin' (pos / p.reduction) ∨ ¬ Fin' s.jnt1Pos) ∨ (FCmp.eq p.lamCombo 0 = false ∧ (¬ Fin' meas ∨ ¬ Fin' s.jointPos)) := by
    rcases h with (h | ⟨h, k⟩) | h | ⟨h, k⟩
    · exact .inl (.inr h)
    · exact .inr ⟨h, .inr k⟩
    · exact .inl (.inl (nf_div h))
    · exact .inr ⟨h, .inl k⟩
  rcases h1 with h1 | ⟨h1, h2⟩
  · have h3 := nf_jnt1 (dt := sec (ts - s.lastTs)) (lambda := p.lamJoint) (vel := s.jnt1Vel) (acc := s.jnt1Acc) h1
    have h4 := fun p2 => nf_combo (dt := sec (ts - s.lastTs)) (lambda := p.lamCombo) (p2 := p2) (pos := s.jointPos) (vel := s.jointVel) (.inl h3)
    exact ⟨.inl h3.1, (h4 _).1, (h4 _).2⟩
  · have h3 := nf_combo (dt := sec (ts - s.lastTs)) (lambda := p.lamCombo) (p1 := (beltJnt1 (sec (ts - s.lastTs)) p.lamJoint (pos / p.reduction) s.jnt1Pos s.jnt1Vel s.jnt1Acc).1)
      (v1 := (beltJnt1 (sec (ts - s.lastTs)) p.lamJoint (pos / p.reduction) s.jnt1Pos s.jnt1Vel s.jnt1Acc).2.1)
      (p2 := pos / p.reduction - (beltDefl (sec (ts - s.lastTs)) p.tau (p.compl * (meas * p.reduction)) s.deflPos s.deflVel s.deflAcc).1) (pos := s.jointPos) (vel := s.jointVel)
      (.inr ⟨h1, h2.imp (fun h => nf_sub (.inr (nf_defl (nf_mul (.inr (nf_mul (.inl h))))))) id⟩)
    exact ⟨.inr ⟨h1, h3.1⟩, h3.1, h3.2⟩

/-- The belt's damping filter has met a bad reading, or does so when the efforts are propagated next. -/
def BeltS.Shaken (s : BeltS F) : Prop := ¬ Fin' s.damping ∨ ¬ Fin' s.deltaMotorVel

theorem damping_shaken (p : BeltP F) (h0 : FCmp.eq p.lamMotor 0 = false) (s : BeltS F) (h : s.Shaken) : ¬ Fin' (s.dampingForce p) := by
  unfold BeltS.dampingForce
  rw [h0]
  simp only [Bool.false_eq_true, if_false]
  rcases h with h | h
  · exact nf_div (nf_sub (.inl (nf_mul (.inr h))))
  · exact nf_div (nf_sub (.inr (nf_mul (.inr h))))

theorem estimate_delta (p : BeltP F) (s : BeltS F) (ts : Int) (pos meas : F) (hdt : FCmp.lt 0 (sec (ts - s.lastTs) : F) = true) (h : ¬ Fin' pos) :
    ¬ Fin' (s.estimate p ts pos meas).deltaMotorVel := by
  unfold BeltS.estimate
  dsimp only
  rw [hdt]
  simp only [if_true]
  exact nf_sub (.inl (nf_div (nf_sub (.inl (nf_div h)))))

end

/-! ## Sweeps and one transmission -/

section
variable {F : Type} [FCmp F] [Zero F] [Add F] [Sub F] [Mul F] [iDiv : Div F] [Neg F] [FLit F] [iTrig : FTrig F]

/-- The k-th transmission is the belt `t`. -/
def RState.BeltAt (s : RState F) (k : Nat) (t : BeltT F) : Prop := ∃ c, s.conns[k]? = some c ∧ c.trans.body = .belt t

theorem RState.BeltAt.congr {s s' : RState F} {k : Nat} {t : BeltT F} (h : s.BeltAt k t) (hc : s'.conns = s.conns) : s'.BeltAt k t := by
  obtain ⟨c, h1, h2⟩ := h
  exact ⟨c, by rw [hc]; exact h1, h2⟩

theorem RState.BeltAt.unique {s : RState F} {k : Nat} {t t' : BeltT F} (h : s.BeltAt k t) (h' : s.BeltAt k t') : t = t' := by
  obtain ⟨c, h1, h2⟩ := h
  obtain ⟨c', h1', h2'⟩ := h'
  rw [h1] at h1'; cases h1'
  rw [h2] at h2'; exact Body.belt.inj h2'

theorem position_conns {s s' : RState F} (hr : s.Ready) (hs : s.propagatePosition = some s') :
    List.Forall₂ (fun c c' => ∃ r, c.trans.body.propagatePosition (gather s.acts c.ins) (gather s.joints c.outs) = some r ∧
      c' = { c with trans := { c.trans with body := r.1 } } ∧ gather s'.joints c.outs = r.2.2.map (fun j => { j with stats := j.stats.update j.sample })) s.conns s'.conns := by
  unfold RState.propagatePosition RState.sweep at hs
  rcases h : Pr2.sweep Body.propagatePosition s.conns s.acts s.joints with _ | ⟨cs, as, js⟩
  · rw [h] at hs; cases hs
  rw [h] at hs; cases hs
  obtain ⟨_, _, _, _, h5⟩ := sweep_local Body.propagatePosition
    (fun b as js r hr => ⟨by rw [(position_frame hr).1], (List.Forall₂.length_eq (position_frame hr).2.1).symm⟩)
    s.conns s.acts s.joints hr.wired (Or.inl (fun b as js r hr => (position_frame hr).1)) h
  refine h5.imp ?_
  rintro c c' ⟨r, h1, h2, _, h4⟩
  refine ⟨r, h1, h2, ?_⟩
  rw [← h4]
  exact C66_position_local.gather_map _ _ _

theorem effort_conns {s s' : RState F} (hr : s.Ready) (hu : Unshared s.conns) (hs : s.propagateEffort = some s') :
    List.Forall₂ (fun c c' => ∃ r, c.trans.body.propagateEffort (gather s.acts c.ins) (gather s.joints c.outs) = some r ∧
      c' = { c with trans := { c.trans with body := r.1 } } ∧ gather s'.acts c.ins = r.2.1) s.conns s'.conns := by
  unfold RState.propagateEffort RState.sweep at hs
  rcases h : Pr2.sweep Body.propagateEffort s.conns s.acts s.joints with _ | ⟨cs, as, js⟩
  · rw [h] at hs; cases hs
  rw [h] at hs; cases hs
  obtain ⟨_, _, _, _, h5⟩ := sweep_local Body.propagateEffort
    (fun b as js r hr => ⟨(List.Forall₂.length_eq (effort_frame hr).2.1).symm, by rw [(effort_frame hr).1]⟩)
    s.conns s.acts s.joints hr.wired (Or.inr hu) h
  refine h5.imp ?_
  rintro c c' ⟨r, h1, h2, h3, _⟩
  exact ⟨r, h1, h2, h3⟩

theorem effort_bodies {s s' : RState F} (hs : s.propagateEffort = some s') {k : Nat} {t : BeltT F} (h : s.BeltAt k t) :
    ∃ t', s'.BeltAt k t' ∧ t'.p = t.p ∧ t'.s = { t.s with damping := t.s.dampingForce t.p } := by
  unfold RState.propagateEffort RState.sweep at hs
  rcases h : Pr2.sweep Body.propagateEffort s.conns s.acts s.joints with _ | ⟨cs, as, js⟩
  · rw [h] at hs; cases hs
  rw [h] at hs; cases hs
  obtain ⟨c, h1, h2⟩ := ‹s.BeltAt k t›
  obtain ⟨c', h3, as, js, r, h4, rfl⟩ := forall2_get (sweep_bodies _ _ _ _ h) h1
  rw [h2] at h4
  simp only [Body.propagateEffort, BeltT.propagateEffort] at h4
  rcases as with _ | ⟨a, _ | ⟨a', as⟩⟩ <;> rcases js with _ | ⟨j, _ | ⟨j', js⟩⟩ <;> simp only [Option.map_none, reduceCtorEq] at h4
  cases h4
  exact ⟨_, ⟨_, h3, rfl⟩, rfl, rfl⟩

end

section
variable {F : Type} [FCmp F] [Zero F] [Add F] [Sub F] [Mul F] [iDiv : Div F] [Neg F] [FLit F] [iTrig : FTrig F] [Parse F]
variable {l : TransLoader F} {urdf : Xml → Option (String → Option (UJoint F))} {root : Xml} {joint : String → Option (UJoint F)} {acts : List (Actuator F)}
  {ts : List (Trans F)} {s0 s s' : RState F} {t : Trans F}

/-- Positions through a belt: the motor's reading goes into the filters, and the joint shows them. -/
theorem belt_position (h : Loaded l urdf root joint acts ts s0) (hl : Later s0 s) (hs : s.propagatePosition = some s') {k : Nat} (hk : ts[k]? = some t) {b0 : BeltT F}
    (hb : t.body = .belt b0) {an jn : String} (ha : t.actNames = [an]) (hj : t.jointNames = [jn]) :
    ∃ b b' a j, s.BeltAt k b ∧ s.Motor an a ∧ s'.BeltAt k b' ∧ s'.Joint jn j ∧ b.p = b0.p ∧ b'.p = b0.p ∧ b'.s = b.s.estimate b0.p a.sampleTs a.position a.measured ∧
      j.velocity = b'.s.jointVel ∧ ∃ ref, j.position = b'.s.jointPos + ref := by
  obtain ⟨hr, c, hc, hbc, hin, hout, _⟩ := h.connAt hl hk
  obtain ⟨c', hc', r, h1, rfl, h3⟩ := forall2_get (position_conns hr hs) hc
  have hcm := List.mem_of_getElem? hc
  have g1 := gather_rel s.acts _ _ _ hin (hr.wired.ins c hcm)
  have g2 := gather_rel s.joints _ _ _ hout (hr.wired.outs c hcm)
  have sr := SameRobot.position hr hs
  have g3 := gather_rel s'.joints _ _ _ hout (by rw [← List.Forall₂.length_eq sr.joints]; exact hr.wired.outs c hcm)
  rw [hb] at hbc
  rcases hcb : c.trans.body with b | b | b | b <;> rw [hcb] at hbc <;> try exact hbc.elim
  have hp : b.p = b0.p := hbc
  rw [ha] at g1
  rw [hj] at g2 g3
  rw [hcb] at h1
  rw [h3] at g3
  generalize gather s.acts c.ins = as at g1 h1
  generalize gather s.joints c.outs = js at g2 h1
  cases g1 with
  | @cons _ a _ as g1 n1 =>
  cases n1
  cases g2 with
  | @cons _ j _ js g2 n2 =>
  cases n2
  cases h1
  obtain ⟨i, hi, hia⟩ := g1
  cases g3 with
  | @cons _ j' _ _ g3 _ =>
  obtain ⟨i', hi', hij⟩ := g3
  refine ⟨b, _, a, _, ⟨c, hc, hcb⟩, motor_of_findIdx hi hia, ⟨_, hc', rfl⟩, ⟨i', ?_, hij⟩, hp, hp, ?_, rfl, j.reference, rfl⟩
  · unfold RState.getJointState at hi' ⊢
    rw [sr.jmap]; exact hi'
  · dsimp only
    rw [hp]

/-- Efforts through a belt: the motor gets the command and the damping force. -/
theorem belt_effort (h : Loaded l urdf root joint acts ts s0) (hm : (ts.flatMap (·.actNames)).Nodup) (hl : Later s0 s) (hs : s.propagateEffort = some s') {k : Nat}
    (hk : ts[k]? = some t) {b0 : BeltT F} (hb : t.body = .belt b0) {an jn : String} (ha : t.actNames = [an]) (hj : t.jointNames = [jn]) :
    ∃ b a j, s.BeltAt k b ∧ b.p = b0.p ∧ s'.Motor an a ∧ s.Joint jn j ∧ a.effort = (j.commanded + b.s.dampingForce b0.p) / b0.p.reduction := by
  obtain ⟨hr, c, hc, hbc, hin, hout, _⟩ := h.connAt hl hk
  have hu : Unshared s.conns := h.unshared hm hl
  obtain ⟨c', hc', r, h1, rfl, h3⟩ := forall2_get (effort_conns hr hu hs) hc
  have hcm := List.mem_of_getElem? hc
  have sr := SameRobot.effort hr hs
  have g1 := gather_rel s.acts _ _ _ hin (hr.wired.ins c hcm)
  have g2 := gather_rel s.joints _ _ _ hout (hr.wired.outs c hcm)
  have hin' : List.Forall₂ (fun n i => s'.acts.findIdx? (fun a => a.name == n) = some i) t.actNames c.ins := by
    refine hin.imp (fun n i hi => ?_)
    rw [← hi]
    exact findIdx_names _ _ _ (map_name sr.acts)
  have g3 := gather_rel s'.acts _ _ _ hin' (by rw [← List.Forall₂.length_eq sr.acts]; exact hr.wired.ins c hcm)
  rw [hb] at hbc
  rcases hcb : c.trans.body with b | b | b | b <;> rw [hcb] at hbc <;> try exact hbc.elim
  have hp : b.p = b0.p := hbc
  rw [ha] at g1 g3
  rw [hj] at g2
  rw [hcb] at h1
  rw [h3] at g3
  generalize gather s.acts c.ins = as at g1 h1
  generalize gather s.joints c.outs = js at g2 h1
  cases g1 with
  | @cons _ a _ as g1 n1 =>
  cases n1
  cases g2 with
  | @cons _ j _ js g2 n2 =>
  cases n2
  cases h1
  cases g3 with
  | @cons _ j' _ _ g3 _ =>
  obtain ⟨i', hi', hij⟩ := g3
  refine ⟨b, _, j, ⟨c, hc, hcb⟩, hp, motor_of_findIdx hi' hij, g2, ?_⟩
  dsimp only
  rw [hp]

end

/-! ## From one cycle to the next -/

section
variable {F : Type} [FCmp F] [Zero F] [Add F] [Sub F] [Mul F] [iDiv : Div F] [Neg F] [FLit F] [iTrig : FTrig F]

/-- The transmissions as the last of these cycles left them; `c0` if there is none. -/
def lastConns (c0 : List (Conn F)) (l : List (CycleRec F)) : List (Conn F) := ((l.getLast?).map (·.sent.conns)).getD c0

omit [FCmp F] [Zero F] [Add F] [Sub F] [Mul F] iDiv [Neg F] [FLit F] iTrig in
theorem lastConns_snoc (c0 : List (Conn F)) (l : List (CycleRec F)) (r : CycleRec F) : lastConns c0 (l ++ [r]) = r.sent.conns := by
  simp [lastConns]

/-- The transmissions begin a cycle as the one before left them. -/
structure Plant.Chained (c0 : List (Conn F)) (p : Plant F) : Prop where
  outside : p.mgr.rt.inCycle = false → p.data.robot.conns = lastConns c0 p.cycles
  inside : p.mgr.rt.inCycle = true → p.entry.conns = lastConns c0 p.cycles
  recs : ∀ pre r post, p.cycles = pre ++ r :: post → r.entry.conns = lastConns c0 pre

omit [FCmp F] [Zero F] [Add F] [Sub F] [Mul F] iDiv [Neg F] [FLit F] iTrig in
theorem advance_conns (p : Plant F) (m : State) {plug : RState F → RState F} (hp : Mannered plug) : (p.advance m plug).data.robot.conns = p.data.robot.conns := by
  have hc : ∀ c ∈ ((m.log.drop p.mgr.log.length).filter Ev.isCall).map (fun e => PlugCall.mk e plug), Mannered c.eff := by
    intro c hc
    obtain ⟨e, _, rfl⟩ := List.mem_map.1 hc
    exact hp
  exact (applyCalls_mannered _ hc).conns _

theorem inCycle_restart {s : State} {k : Nat} (i : RtIn) (h : s.rt = .restart k) : (s.step (.rt i)).rt.inCycle = true := by
  unfold State.step
  split
  · rw [h]; rfl
  · simp only [State.rtStep, h, State.fail, State.setCtrl]
    repeat' split
    all_goals first | rfl | (dsimp only; rw [h]; rfl)

theorem inCycle_restartMid {s : State} {k id : Nat} (i : RtIn) (h : s.rt = .restartMid k id) : (s.step (.rt i)).rt.inCycle = true := by
  unfold State.step
  split
  · rw [h]; rfl
  · simp only [State.rtStep, h, State.fail, State.setCtrl]
    repeat' split
    all_goals first | rfl | (dsimp only; rw [h]; rfl)

theorem inCycle_sweep {s : State} {k : Nat} (i : RtIn) (h : s.rt = .sweep k) : (s.step (.rt i)).rt = .publish ∨ (s.step (.rt i)).rt.inCycle = true := by
  unfold State.step
  split
  · right; rw [h]; rfl
  · simp only [State.rtStep, h, State.fail, State.setCtrl]
    repeat' split
    all_goals first | exact Or.inl rfl | exact Or.inr rfl | (right; dsimp only; rw [h]; rfl)

theorem Plant.Chained.rtStep {big : F} {m : Bool} {p : Plant F} {c0 : List (Conn F)} (hm : MgrOk m p.mgr) (h : p.Chained c0) {i : PlantIn F} (hi : i.Mannered) : (p.rtStep big i).Chained c0 := by
  unfold Plant.rtStep
  cases hrt : p.mgr.rt with
  | pre =>
    dsimp only
    have hout := h.outside (by rw [hrt]; rfl)
    split
    · exact ⟨h.outside, h.inside, h.recs⟩
    · rename_i moved hmv
      have hR : Reachable m p.mgr := hm.reach' (by rw [hrt]; simp) (by rw [hrt]; simp)
      obtain ⟨u, hu, he⟩ := rtStep_pre hR.inv.1 ⟨moved.zeroCommands.isHalted, false, false⟩ hrt
      refine ⟨?_, fun _ => hout, h.recs⟩
      intro hc
      dsimp only at hc
      rw [plantStep_rt hR.inv.1, he] at hc
      dsimp only at hc
      split at hc <;> cases hc
  | sweep k =>
    dsimp only
    have hin := h.inside (by rw [hrt]; rfl)
    split
    · split
      · exact ⟨h.outside, h.inside, h.recs⟩
      · rename_i hpub _ sent hs
        refine ⟨?_, ?_, ?_⟩
        · intro _
          exact (lastConns_snoc c0 p.cycles ⟨p.begun, p.entry, p.calls, p.timed, sent⟩).symm
        · intro hc
          dsimp only at hc
          rw [hpub] at hc
          cases hc
        · intro pre r post he
          dsimp only at he
          rcases List.eq_nil_or_concat post with rfl | ⟨post, x, rfl⟩
          · obtain ⟨e1, e2⟩ := List.append_inj' he rfl
            cases e2
            rw [← e1]; exact hin
          · have e : p.cycles ++ [⟨p.begun, p.entry, p.calls, p.timed, sent⟩] = (pre ++ r :: post) ++ [x] := by rw [he]; simp
            obtain ⟨e1, _⟩ := List.append_inj' e rfl
            exact h.recs pre r post e1
    · rename_i hnp
      have hc := (inCycle_sweep ⟨false, false, false⟩ hrt).resolve_left hnp
      split
      · exact ⟨fun hc' => absurd (hc'.symm.trans hc) Bool.false_ne_true, fun _ => hin, h.recs⟩
      · exact ⟨fun hc' => absurd (hc'.symm.trans hc) Bool.false_ne_true, fun _ => hin, h.recs⟩
  | publish =>
    dsimp only
    have hout := h.outside (by rw [hrt]; rfl)
    split
    · exact ⟨h.outside, h.inside, h.recs⟩
    · rename_i sp robot _ hps
      split
      · exact ⟨h.outside, h.inside, h.recs⟩
      · have hc := (outside_step hm ⟨false, decide (i.statNow > p.data.statPub.last + p.data.statPub.period), i.turn⟩ (by rw [hrt]; simp) (by rw [hrt]; rfl)).1
        refine ⟨fun _ => ?_, fun hc' => absurd (hc.symm.trans hc') Bool.false_ne_true, h.recs⟩
        rw [← hout]
        change robot.conns = _
        rcases publishStats_robot hps with e | e <;> (dsimp only at e; rw [e])
        rfl
  | restart k =>
    have hc := inCycle_restart ⟨false, false, false⟩ hrt
    exact ⟨fun hc' => absurd (hc'.symm.trans hc) Bool.false_ne_true, fun _ => h.inside (by rw [hrt]; rfl), h.recs⟩
  | restartMid k id =>
    have hc := inCycle_restartMid ⟨false, false, false⟩ hrt
    exact ⟨fun hc' => absurd (hc'.symm.trans hc) Bool.false_ne_true, fun _ => h.inside (by rw [hrt]; rfl), h.recs⟩
  | _ =>
    have hc := (outside_step hm ⟨false, false, false⟩ (by rw [hrt]; simp) (by rw [hrt]; rfl)).1
    refine ⟨fun _ => ?_, fun hc' => absurd (hc.symm.trans hc') Bool.false_ne_true, h.recs⟩
    rw [advance_conns _ _ hi.plug]
    exact h.outside (by rw [hrt]; rfl)

theorem Plant.Reach.chained {big : F} {m : Bool} {d : RtData F} {p : Plant F} (h : Plant.Reach big m d PlantIn.Mannered p) : p.Chained d.robot.conns := by
  induction h with
  | init => exact ⟨fun _ => rfl, fun _ => rfl, by simp [Plant.init]⟩
  | rt h i hi ih =>
    unfold Plant.step
    split
    · exact ih
    · exact ih.rtStep h.pinv.mgr hi
  | @nrt p h hu ih =>
    unfold Plant.step
    split
    · exact ih
    · have hR := h.pinv.mgr.reach hu
      have : (p.mgr.step .nrt).rt = p.mgr.rt := by
        unfold State.step
        rw [if_neg (by rw [hR.inv.1.notbad]; simp)]
        exact (nrtKeeps hR.inv.1).rt
      exact ⟨fun hc => ih.outside (by rw [← this]; exact hc), fun hc => ih.inside (by rw [← this]; exact hc), ih.recs⟩
  | @call p h hu op ih =>
    unfold Plant.step
    split
    · exact ih
    · have hR := h.pinv.mgr.reach hu
      have : (p.mgr.step (.call op)).rt = p.mgr.rt := by
        unfold State.step
        rw [if_neg (by rw [hR.inv.1.notbad]; simp)]
        exact (callKeeps _ _).rt
      exact ⟨fun hc => ih.outside (by rw [← this]; exact hc), fun hc => ih.inside (by rw [← this]; exact hc), ih.recs⟩

end

/-! ## The running system -/

section
variable {F : Type} [FCmp F] [Zero F] [Add F] [Sub F] [Mul F] [iDiv : Div F] [Neg F] [FLit F] [iTrig : FTrig F] [Parse F]
variable {l : TransLoader F} {urdf : Xml → Option (String → Option (UJoint F))} {root : Xml} {joint : String → Option (UJoint F)} {acts : List (Actuator F)}
  {ts : List (Trans F)} {s0 : RState F} {t : Trans F}

/-- One cycle of a belt. -/
theorem belt_cycle (h : Loaded l urdf root joint acts ts s0) {big : F} {sim : Bool} {d : RtData F} (hs : Later s0 d.robot) {p : Plant F}
    (hp : Plant.Reach big sim d PlantIn.Mannered p) {r : CycleRec F} (hr : r ∈ p.cycles) {k : Nat} (hk : ts[k]? = some t) {b0 : BeltT F}
    (hb : t.body = .belt b0) {an jn : String} (ha : t.actNames = [an]) (hj : t.jointNames = [jn]) :
    ∃ b b' a j e, r.entry.BeltAt k b ∧ b.p = b0.p ∧ r.entry.Motor an a ∧ e = b.s.estimate b0.p a.sampleTs a.position a.measured ∧
      r.sent.BeltAt k b' ∧ b'.p = b0.p ∧ b'.s = { e with damping := e.dampingForce b0.p } ∧
      r.sent.Joint jn j ∧ j.velocity = e.jointVel ∧ (∃ ref, j.position = e.jointPos + ref) ∧ joint jn = some j.joint ∧
      ((ts.flatMap (·.actNames)).Nodup → ∃ a', r.sent.Motor an a' ∧ a'.effort = (j.commanded + e.dampingForce b0.p) / b0.p.reduction) := by
  obtain ⟨h1, h2⟩ := (hp.stack hs).recs r hr
  obtain ⟨order, moved, _, h3, _, _, h4⟩ := C84_faithful hp r hr
  have hm := (zero_mannered.comp (applyCalls_mannered r.calls h2)).comp (safety_mannered big)
  have hmv := Later.position h1 h3
  have hx := hmv.mannered hm
  obtain ⟨b, b', a, j, q1, q2, q3, q4, q5, q6, q7, q8, ref, q9⟩ := belt_position h h1 h3 hk hb ha hj
  have q3' := q3.congr (hm.conns moved)
  obtain ⟨j', w1, w2⟩ := RState.Joint.move (hm.jmap moved) (hm.joints moved) q4
  obtain ⟨b'', v1, v2, v3⟩ := effort_bodies h4 q3'
  obtain ⟨hrx, _, _, _, _, _, hjx⟩ := h.connAt hx hk
  have hje := (C48_effort_only_commands _ _ hrx h4).2
  have hjm := (SameRobot.effort hrx h4).jmap
  refine ⟨b, b'', a, j', b'.s, q1, q5, q2, q7, v1, v2.trans q6, ?_, ?_, ?_, ⟨ref, ?_⟩, hjx jn (by rw [hj]; simp) j' w1, ?_⟩
  · rw [v3, q6]
  · obtain ⟨i, w5, w6⟩ := w1
    refine ⟨i, ?_, by rw [hje]; exact w6⟩
    unfold RState.getJointState at w5 ⊢
    rw [hjm]; exact w5
  · rw [w2.velocity, q8]
  · rw [w2.position, q9]
  · intro hn
    obtain ⟨bb, aa, jj, u1, u2, u3, u4, u5⟩ := belt_effort h hn hx h4 hk hb ha hj
    obtain rfl := u1.unique q3'
    obtain rfl := u4.unique w1
    exact ⟨aa, u3, u5⟩

end

section
variable {F : Type} [FCmp F] [Zero F] [Add F] [Sub F] [Mul F] [iDiv : Div F] [Neg F] [FLit F] [iTrig : FTrig F] [Parse F] [IeeeArith F]
variable {l : TransLoader F} {urdf : Xml → Option (String → Option (UJoint F))} {root : Xml} {joint : String → Option (UJoint F)} {acts : List (Actuator F)}
  {ts : List (Trans F)} {s0 : RState F} {t : Trans F}

/-- **C109.**  A belt's joint never recovers from a bad reading of its motor: from that cycle on, whatever the hardware reports and the controllers do, its position and its velocity
are infinite or not a number. -/
theorem C109_belt_never_recovers (h : Loaded l urdf root joint acts ts s0) {big : F} {sim : Bool} {d : RtData F} (hs : Later s0 d.robot) {p : Plant F}
    (hp : Plant.Reach big sim d PlantIn.Mannered p) {k : Nat} (hk : ts[k]? = some t) {b0 : BeltT F} (hb : t.body = .belt b0) {an jn : String}
    (han : t.actNames = [an]) (hjn : t.jointNames = [jn]) {pre post : List (CycleRec F)} {r : CycleRec F} (hc : p.cycles = pre ++ r :: post) {a : Actuator F}
    (ha : r.entry.Motor an a) (hbad : BadReading b0.p a) :
    ∀ r' ∈ r :: post, ∃ j, r'.sent.Joint jn j ∧ ¬ Fin' j.position ∧ ¬ Fin' j.velocity := by
  have one : ∀ r' ∈ p.cycles, (∀ b a, r'.entry.BeltAt k b → b.p = b0.p → r'.entry.Motor an a → b.s.Poisoned b0.p ∨ BadReading b0.p a) →
      (∃ b, r'.sent.BeltAt k b ∧ b.s.Poisoned b0.p) ∧ ∃ j, r'.sent.Joint jn j ∧ ¬ Fin' j.position ∧ ¬ Fin' j.velocity := by
    intro r' hr' hq
    obtain ⟨b, b', a, j, e, q1, q2, q3, q4, q5, q6, q7, q8, q9, ⟨ref, q10⟩, _, _⟩ := belt_cycle h hs hp hr' hk hb han hjn
    obtain ⟨e1, e2, e3⟩ := estimate_poisoned b0.p b.s a.sampleTs a.position a.measured (hq b a q1 q2 q3)
    rw [← q4] at e1 e2 e3
    refine ⟨⟨b', q5, ?_⟩, j, q8, ?_, ?_⟩
    · rw [q7]; exact e1
    · rw [q10]; exact nf_add (.inl e2)
    · rw [q9]; exact e3
  have ch : ∀ pre r r' post, p.cycles = pre ++ r :: r' :: post → r'.entry.conns = r.sent.conns := fun pre r r' post e => by
    rw [hp.chained.recs (pre ++ [r]) r' post (by rw [e]; simp), lastConns_snoc]
  have first := one r (by rw [hc]; simp) fun b a' _ _ ha' => .inr (by rw [ha'.unique ha]; exact hbad)
  clear ha hbad
  induction post generalizing pre r with
  | nil => intro r' hr'; simp only [List.mem_singleton] at hr'; subst hr'; exact first.2
  | cons r1 post ih =>
    intro r' hr'
    rcases List.mem_cons.1 hr' with rfl | hr'
    · exact first.2
    · obtain ⟨⟨b, hb1, hb2⟩, _⟩ := first
      refine ih (pre := pre ++ [r]) (r := r1) (by rw [hc]; simp) ?_ r' hr'
      refine one r1 (by rw [hc]; simp) fun b' _ h1 _ _ => .inl ?_
      rw [h1.unique (hb1.congr (ch pre r r1 post hc))]
      exact hb2

/-- **C109.**  Nor does its motor, if its damping is filtered (`lambda_motor` is not zero) and the bad position comes with a later time stamp than the reading before: the effort sent
to it is infinite or not a number in this and every later cycle, although the joint's effort limit has been enforced. -/
theorem C109_belt_motor (h : Loaded l urdf root joint acts ts s0) (hn : (ts.flatMap (·.actNames)).Nodup) {big : F} {sim : Bool} {d : RtData F} (hs : Later s0 d.robot) {p : Plant F}
    (hp : Plant.Reach big sim d PlantIn.Mannered p) {k : Nat} (hk : ts[k]? = some t) {b0 : BeltT F} (hb : t.body = .belt b0) {an jn : String}
    (han : t.actNames = [an]) (hjn : t.jointNames = [jn]) (hlam : FCmp.eq b0.p.lamMotor 0 = false)
    {pre post : List (CycleRec F)} {r0 r : CycleRec F} (hc : p.cycles = pre ++ r0 :: r :: post) {a0 a : Actuator F}
    (ha0 : r0.entry.Motor an a0) (ha : r.entry.Motor an a) (hbad : ¬ Fin' a.position) (hts : FCmp.lt 0 (sec (a.sampleTs - a0.sampleTs) : F) = true) :
    ∀ r' ∈ r :: post, ∃ a', r'.sent.Motor an a' ∧ ¬ Fin' a'.effort := by
  have one : ∀ r' ∈ p.cycles, (∀ b a, r'.entry.BeltAt k b → r'.entry.Motor an a → (b.s.estimate b0.p a.sampleTs a.position a.measured).Shaken) →
      (∃ b, r'.sent.BeltAt k b ∧ ¬ Fin' b.s.damping) ∧ ∃ a', r'.sent.Motor an a' ∧ ¬ Fin' a'.effort := by
    intro r' hr' hq
    obtain ⟨b, b', a, j, e, q1, q2, q3, q4, q5, q6, q7, q8, q9, _, _, q10⟩ := belt_cycle h hs hp hr' hk hb han hjn
    obtain ⟨a', q11, q12⟩ := q10 hn
    have e1 := damping_shaken b0.p hlam _ (hq b a q1 q3)
    rw [← q4] at e1
    refine ⟨⟨b', q5, ?_⟩, a', q11, ?_⟩
    · rw [q7]; exact e1
    · rw [q12]; exact nf_div (nf_add (.inr e1))
  have ch : ∀ pre r r' post, p.cycles = pre ++ r :: r' :: post → r'.entry.conns = r.sent.conns := fun pre r r' post e => by
    rw [hp.chained.recs (pre ++ [r]) r' post (by rw [e]; simp), lastConns_snoc]
  have first := one r (by rw [hc]; simp) (by
    intro b a' hb1 ha'
    obtain rfl := ha'.unique ha
    obtain ⟨c, c', aa, j, e, q1, q2, q3, q4, q5, q6, q7, _⟩ := belt_cycle h hs hp (r := r0) (by rw [hc]; simp) hk hb han hjn
    obtain rfl := q3.unique ha0
    have hb2 := hb1.unique (q5.congr (ch pre r0 r post hc))
    refine .inr (estimate_delta b0.p b.s a'.sampleTs a'.position a'.measured ?_ hbad)
    have : b.s.lastTs = aa.sampleTs := by rw [hb2, q7, q4]; rfl
    rw [this]
    exact hts)
  clear ha ha0 hbad hts
  have hc' : p.cycles = (pre ++ [r0]) ++ r :: post := by rw [hc]; simp
  clear hc
  generalize pre ++ [r0] = pre at hc'
  induction post generalizing pre r with
  | nil => intro r' hr'; simp only [List.mem_singleton] at hr'; subst hr'; exact first.2
  | cons r1 post ih =>
    intro r' hr'
    rcases List.mem_cons.1 hr' with rfl | hr'
    · exact first.2
    · obtain ⟨⟨b, hb1, hb2⟩, _⟩ := first
      refine ih (pre := pre ++ [r]) (r := r1) ?_ (by rw [hc']; simp) r' hr'
      refine one r1 (by rw [hc']; simp) fun b' _ h1 _ => .inl ?_
      rw [h1.unique (hb1.congr (ch pre r r1 post hc'))]
      exact hb2

end

/-! ## A concrete run -/

section examples

/-- Rational numbers and NaN, a number system of this kind that can be evaluated. -/
structure NRat where
  v : Option ℚ
deriving DecidableEq

namespace NRat
def lift (f : ℚ → ℚ → Option ℚ) (a b : NRat) : NRat := ⟨a.v.bind fun x => b.v.bind fun y => f x y⟩
instance : Zero NRat := ⟨⟨some 0⟩⟩
instance : Add NRat := ⟨lift fun x y => some (x + y)⟩
instance : Sub NRat := ⟨lift fun x y => some (x - y)⟩
instance : Mul NRat := ⟨lift fun x y => some (x * y)⟩
instance : Div NRat := ⟨lift fun x y => if y = 0 then none else some (x / y)⟩
instance : Neg NRat := ⟨fun a => ⟨a.v.map fun x => -x⟩⟩
instance : FLit NRat := ⟨fun q => ⟨some q⟩, fun n => ⟨some (n / 1000000000)⟩⟩
instance : FTrig NRat := ⟨⟨some 3⟩, id, id, id, id, id, id⟩
instance : FCmp NRat where
  lt a b := match a.v, b.v with
    | some x, some y => decide (x < y)
    | _, _ => false
  eq a b := match a.v, b.v with
    | some x, some y => decide (x = y)
    | _, _ => false

noncomputable instance : IeeeLike NRat where
  val a := a.v.map fun x => ((x : ℝ) : EReal)
  lt_iff a b := by
    rcases a with ⟨_ | x⟩ <;> rcases b with ⟨_ | y⟩ <;> simp [FCmp.lt]
  eq_iff a b := by
    rcases a with ⟨_ | x⟩ <;> rcases b with ⟨_ | y⟩ <;> simp [FCmp.eq]
    exact eq_comm
  neg a := by
    rcases a with ⟨_ | x⟩
    · rfl
    · change some (((-x : ℚ) : ℝ) : EReal) = some (-((x : ℝ) : EReal))
      push_cast
      rfl

theorem isVal_iff (a : NRat) (x : ℝ) : IsVal a x ↔ ∃ q : ℚ, a.v = some q ∧ x = q := by
  unfold IsVal
  rcases a with ⟨_ | y⟩ <;> simp [val]
  exact eq_comm

theorem lift_val {f : ℚ → ℚ → Option ℚ} {a b : NRat} {z : ℝ} (h : IsVal (lift f a b) z) : ∃ x y w : ℚ, a.v = some x ∧ b.v = some y ∧ f x y = some w ∧ z = w := by
  obtain ⟨q, h1, rfl⟩ := (isVal_iff _ _).1 h
  rcases a with ⟨_ | x⟩ <;> rcases b with ⟨_ | y⟩ <;> simp [lift] at h1
  exact ⟨x, y, q, rfl, rfl, h1, rfl⟩

noncomputable instance : IeeeArith NRat where
  u := 0
  η := 0
  u_nonneg := le_refl _
  η_nonneg := le_refl _
  add a b z h := by
    obtain ⟨x, y, w, hx, hy, hw, rfl⟩ := lift_val h
    cases hw
    exact ⟨x, y, (isVal_iff _ _).2 ⟨x, hx, rfl⟩, (isVal_iff _ _).2 ⟨y, hy, rfl⟩, by push_cast; simp⟩
  sub a b z h := by
    obtain ⟨x, y, w, hx, hy, hw, rfl⟩ := lift_val h
    cases hw
    exact ⟨x, y, (isVal_iff _ _).2 ⟨x, hx, rfl⟩, (isVal_iff _ _).2 ⟨y, hy, rfl⟩, by push_cast; simp⟩
  mul a b z h := by
    obtain ⟨x, y, w, hx, hy, hw, rfl⟩ := lift_val h
    cases hw
    exact ⟨x, y, (isVal_iff _ _).2 ⟨x, hx, rfl⟩, (isVal_iff _ _).2 ⟨y, hy, rfl⟩, by push_cast; simp⟩
  div a b z h := by
    obtain ⟨x, y, w, hx, hy, hw, rfl⟩ := lift_val h
    refine ⟨x, (isVal_iff _ _).2 ⟨x, hx, rfl⟩, fun y' hy' => ?_⟩
    obtain ⟨q, h1, rfl⟩ := (isVal_iff _ _).1 hy'
    rw [hy] at h1
    cases h1
    split at hw
    · cases hw
    · cases hw
      exact ⟨by exact_mod_cast ‹_›, by push_cast; simp⟩
  twice a z h := by
    obtain ⟨x, y, w, hx, hy, hw, rfl⟩ := lift_val h
    cases hw; cases hx
    exact ⟨y, (isVal_iff _ _).2 ⟨y, hy, rfl⟩, by push_cast; ring⟩

theorem not_fin {a : NRat} (h : a.v = none) : ¬ Fin' a := by
  rintro ⟨x, hx⟩
  obtain ⟨q, h1, _⟩ := (isVal_iff _ _).1 hx
  rw [h] at h1; cases h1
end NRat

/-- The numbers that occur in the description. -/
def glitchNumber (s : String) : NRat :=
  ⟨some (if s = "1" then 1 else if s = "2" then 2 else if s = "5" then 5 else if s = "60" then 60 else if s = "70" then 70 else if s = "80" then 80 else if s = "100" then 100 else 0)⟩
@[reducible] def glitchParse : Parse NRat := ⟨glitchNumber, fun s => some (glitchNumber s), fun s => some (glitchNumber s)⟩
attribute [local instance] glitchParse

def glitchRoot : Xml := .node "robot" [] none [demoBeltXml]
def glitchJoint (n : String) : Option (UJoint NRat) := some ⟨n, .revolute, some ⟨⟨some (-2)⟩, ⟨some 2⟩, ⟨some 30⟩, ⟨some 3⟩⟩, some ⟨⟨some (-2)⟩, ⟨some 2⟩, ⟨some 20⟩, ⟨some 4⟩⟩, none⟩
def glitchBelt : BeltT NRat := ⟨⟨0, 0, 0, 0, 0, 0, 0⟩, BeltS.init 0, BeltB.init, ⟨false, 0⟩, CalSim.fresh 0 0 0 0 false false⟩
def glitchLoader : TransLoader NRat := ⟨fun _ => true, [], id, fun _ ty => if ty = "pr2_belt" then some (.belt glitchBelt) else none⟩
/-- The constants, as they are computed from the description. -/
def glitchCompl : NRat := if FCmp.lt 0 (glitchNumber "100") then lit 1 / glitchNumber "100" else lit 0
def glitchP : BeltP NRat := ⟨glitchNumber "2", glitchCompl, FTrig.sqrt (glitchNumber "1" * glitchCompl), glitchNumber "5", glitchNumber "60", glitchNumber "70", glitchNumber "80"⟩
def glitchTrans : List (Trans NRat) :=
  [⟨"t", ["m"], ["elbow"], .belt { glitchBelt with p := glitchP }⟩]
def glitchState0 : RState NRat := (RState.mk' glitchTrans glitchJoint [{ Actuator.fresh "m" with enable := true }] (fun _ => 0)).getD ⟨[], [], [], []⟩

theorem glitch_loaded : Loaded glitchLoader (fun _ => some glitchJoint) glitchRoot glitchJoint [.fresh "m"] glitchTrans glitchState0 := by
  refine ⟨⟨true, _, fun _ => 0, by rfl, rfl⟩, rfl, ?_, by decide⟩
  intro k x _ ty b hx _ _ _ hb
  have hb : (if ty = "pr2_belt" then some (Body.belt glitchBelt) else none) = some b := hb
  split at hb
  · cases hb; exact ⟨trivial, trivial⟩
  · cases hb

/-- The encoder reports 1/2 every millisecond, except that it once reports NaN. -/
def glitchIn (bad : Bool) : PlantIn NRat :=
  ⟨fun as => as.map fun a => { a with position := ⟨if bad then none else some (1/2)⟩, sampleTs := a.sampleTs + 1000000 }, id, 0, 2000000, 0, false, 0, false⟩
def glitchRt : RtData NRat :=
  ⟨glitchState0, fun _ => CStat.fresh, ⟨0, 10, (glitchState0.joints.map (·.srow 0), glitchState0.acts.map (·.arow))⟩, ⟨0, 10, glitchState0.joints.map (·.jrow)⟩⟩

theorem glitchIn_mannered (b : Bool) : (glitchIn b).Mannered := by
  refine ⟨?_, Mannered.id⟩
  intro as
  change List.Forall₂ _ as (as.map _)
  rw [List.forall₂_map_right_iff]
  exact List.forall₂_same.2 fun _ _ => rfl

def glitchRuns (p : Plant NRat) (l : List Bool) : Plant NRat := l.foldl (fun p b => p.step ⟨some 1000⟩ (.rt (glitchIn b))) p
def glitchSteps : List Bool := List.replicate 12 false ++ List.replicate 6 true ++ List.replicate 28 false
def glitchRun : Plant NRat := glitchRuns (Plant.init false glitchRt) glitchSteps
theorem glitchReach : Plant.Reach ⟨some 1000⟩ false glitchRt PlantIn.Mannered glitchRun := by
  have : ∀ l p, Plant.Reach ⟨some 1000⟩ false glitchRt PlantIn.Mannered p → Plant.Reach ⟨some 1000⟩ false glitchRt PlantIn.Mannered (glitchRuns p l) := by
    intro l
    induction l with
    | nil => intro p h; exact h
    | cons b l ih => intro p h; exact ih _ (h.rt _ (glitchIn_mannered b))
  exact this _ _ .init

/-- What the hardware reported. -/
theorem glitch_readings : glitchRun.cycles.map (fun r => r.entry.acts.map fun a => (a.name, a.position.v, a.sampleTs)) =
    [[("m", some (1/2), 1000000)], [("m", some (1/2), 2000000)], [("m", none, 3000000)], [("m", some (1/2), 4000000)], [("m", some (1/2), 5000000)], [("m", some (1/2), 6000000)],
     [("m", some (1/2), 7000000)]] := by decide +kernel

theorem glitch_motor {r : CycleRec NRat} {x : Option ℚ} {n : Int} (h : (r.entry.acts.map fun a => (a.name, a.position.v, a.sampleTs)) = [("m", x, n)]) :
    ∃ a, r.entry.Motor "m" a ∧ a.position.v = x ∧ a.sampleTs = n := by
  rcases he : r.entry.acts with _ | ⟨a, _ | ⟨b, l⟩⟩
  · rw [he] at h; simp at h
  · rw [he] at h
    simp only [List.map_cons, List.map_nil, List.cons.injEq, Prod.mk.injEq, and_true] at h
    exact ⟨a, ⟨[], [], by rw [he]; rfl, h.1, by simp⟩, h.2.1, h.2.2⟩
  · rw [he] at h; simp at h

/-- Seven cycles, the third one with the bad reading. -/
theorem glitch_cycles : ∃ q r0 r post a0 a, glitchRun.cycles = [q] ++ r0 :: r :: post ∧ post.length = 4 ∧ r0.entry.Motor "m" a0 ∧ r.entry.Motor "m" a ∧ a.position.v = none ∧
    a0.sampleTs = 2000000 ∧ a.sampleTs = 3000000 := by
  have h := glitch_readings
  rcases he : glitchRun.cycles with _ | ⟨q, _ | ⟨r0, _ | ⟨r, post⟩⟩⟩
  · rw [he] at h; simp at h
  · rw [he] at h; simp at h
  · rw [he] at h; simp at h
  · rw [he] at h
    simp only [List.map_cons, List.cons.injEq] at h
    obtain ⟨_, h1, h2, h3⟩ := h
    obtain ⟨a0, m1, _, m3⟩ := glitch_motor h1
    obtain ⟨a, n1, n2, n3⟩ := glitch_motor h2
    have := congrArg List.length h3
    rw [List.length_map] at this
    exact ⟨q, r0, r, post, a0, a, rfl, this, m1, n1, n2, m3, n3⟩

/-- C109: the hypotheses are met, and joint and motor are lost in the cycle with the bad reading and the four cycles after it, in which the readings are good again. -/
example : ∃ q r0 r post, glitchRun.cycles = [q] ++ r0 :: r :: post ∧ post.length = 4 ∧ ∀ r' ∈ r :: post,
    (∃ j, r'.sent.Joint "elbow" j ∧ ¬ Fin' j.position ∧ ¬ Fin' j.velocity) ∧ ∃ a, r'.sent.Motor "m" a ∧ ¬ Fin' a.effort := by
  obtain ⟨q, r0, r, post, a0, a, h1, h2, h3, h4, h5, h6, h7⟩ := glitch_cycles
  have hb := NRat.not_fin h5
  refine ⟨q, r0, r, post, h1, h2, fun r' hr' => ⟨?_, ?_⟩⟩
  · exact C109_belt_never_recovers glitch_loaded Later.start glitchReach (k := 0) rfl rfl rfl rfl (pre := [q] ++ [r0]) (by rw [h1]; simp) h4 (.inl hb) r' hr'
  · exact C109_belt_motor glitch_loaded (by decide) Later.start glitchReach (k := 0) rfl rfl rfl rfl (by decide +kernel) h1 h3 h4 hb (by rw [h6, h7]; decide +kernel) r' hr'

/-- C109: in the cycle before the bad reading all was well (the position is 0.029, the effort 20.3). -/
example : (glitchRun.cycles[1]?).map (fun r => (r.sent.joints.map (·.position.v), r.sent.acts.map (·.effort.v))) = some ([some (176416567 / 5995946268)], [some (215865 / 10609)]) := by
  decide +kernel

/-- C109: a simple transmission's joint is back at the next good reading, whatever it showed before. -/
example (j : JState NRat) (hj : j.reference = 0) (t : SimpleT NRat) (ht : t.reduction = ⟨some 2⟩) (hs : t.useSim = false) :
    ∃ r, (Body.simple t).propagatePosition [{ Actuator.fresh "m" with position := ⟨some (1/2)⟩ }] [{ j with position := ⟨none⟩ }] = some r ∧
      r.2.2.map (·.position.v) = [some (1/4)] := by
  obtain ⟨r, hr⟩ : ∃ r, (Body.simple t).propagatePosition [{ Actuator.fresh "m" with position := ⟨some (1/2)⟩ }] [{ j with position := ⟨none⟩ }] = some r :=
    ⟨_, by simp only [Body.propagatePosition, SimpleT.propagatePosition, hs]; rfl⟩
  obtain ⟨r', hr'⟩ : ∃ r, (Body.simple t).propagatePosition [{ Actuator.fresh "m" with position := ⟨some (1/2)⟩ }] [{ j with position := 0 }] = some r :=
    ⟨_, by simp only [Body.propagatePosition, SimpleT.propagatePosition, hs]; rfl⟩
  obtain ⟨_, h⟩ := C109_memoryless (.simple t) rfl _ [{ j with position := 0 }] [{ j with position := ⟨none⟩ }] (.cons rfl .nil) hr' hr
  refine ⟨r, hr, ?_⟩
  simp only [Body.propagatePosition, SimpleT.propagatePosition, hs, Option.map_some] at hr'
  cases hr'
  generalize r.2.2 = l at h
  cases h with
  | cons h1 h2 =>
    cases h2
    have e : ((⟨some (1/2)⟩ : NRat) / t.reduction + j.reference).v = some (1/4) := by rw [ht, hj]; decide +kernel
    rw [List.map_cons, List.map_nil, h1.1]
    exact congrArg (fun x => [x]) e

/-- C109: an undamped belt's motor after two good readings, in two belts of which one has met a bad reading before. -/
example : ((BeltT.propagatePosition { glitchBelt with p := { glitchP with lamMotor := 0 }, s := { glitchBelt.s with motorPos := ⟨none⟩, motorVel := ⟨none⟩, damping := ⟨none⟩ } }
      [{ Actuator.fresh "m" with position := ⟨some 1⟩, sampleTs := 1000000 }] [JState.fresh ⟨"elbow", .revolute, none, none, none⟩ 0]).bind fun x =>
    (x.1.propagateEffort [JState.fresh ⟨"elbow", .revolute, none, none, none⟩ 0] [Actuator.fresh "m"]).bind fun x =>
    (x.1.propagatePosition [{ Actuator.fresh "m" with position := ⟨some 2⟩, sampleTs := 2000000 }] [JState.fresh ⟨"elbow", .revolute, none, none, none⟩ 0]).bind fun x =>
    (x.1.propagateEffort [JState.fresh ⟨"elbow", .revolute, none, none, none⟩ 0] [Actuator.fresh "m"]).map fun x => x.2.map (·.effort.v)) = some [some (-1250)] := by
  decide +kernel

end examples

end Pr2
