import Verif.Props.PlantPublish
import Mathlib.Tactic.Linarith
import Mathlib.Tactic.Ring
import Mathlib.Tactic.FieldSimp

/-!
# C93: the safety limits hold the joint back

`enforceLimits` bounds efforts.  What a user relies on is that a joint therefore stays inside its soft limits and below its speed limit, whatever the controllers
command.  That is a property of the closed loop: the limiter and the mechanics.  Here the mechanics is an ideal inertia, which the commanded effort accelerates for the
length of a cycle; inertia and length may differ from cycle to cycle.
-/

namespace Pr2
set_option linter.unusedVariables false

section exact
variable {F : Type} [Field F] [LinearOrder F] [IsStrictOrderedRing F]
attribute [local instance] exactCmp

/-! ## Specification -/

/-- The mechanics: an inertia `m` moves for a time `τ` under a constant effort `f`, from position `x` and velocity `v`. -/
def posAfter (m τ f x v : F) : F := x + v * τ + f / m * τ ^ 2 / 2
/-- Velocity after that time. -/
def velAfter (m τ f v : F) : F := v + f / m * τ

/-- The joint found in `s'` has been moved for a time `τ` by the effort commanded in `s`. -/
structure Driven (m τ : F) (s s' : JState F) : Prop where
  joint : s'.joint = s.joint
  calibrated : s'.calibrated = s.calibrated
  position : s'.position = posAfter m τ s.commanded s.position s.velocity
  velocity : s'.velocity = velAfter m τ s.commanded s.velocity

/-- The description suits the mechanics: the velocity gain is large compared with the position gain times the inertia, small compared with the inertia per cycle, and
the effort limit suffices to brake from the speed limit. -/
structure Suits (lim : JLimits F) (saf : JSafety F) (m dt : F) : Prop where
  mass : 0 < m
  time : 0 ≤ dt
  damped : 4 * m * saf.kPosition ≤ saf.kVelocity
  slow : saf.kVelocity * dt ≤ m
  strong : saf.kVelocity * lim.velocity ≤ lim.effort

/-- Inside the soft limits, and not moving towards one of them faster than twice what the position gain and the speed limit allow. -/
structure Safe (lim : JLimits F) (saf : JSafety F) (x v : F) : Prop where
  lower : saf.softLower ≤ x
  upper : x ≤ saf.softUpper
  up : v ≤ 2 * (saf.kPosition * (saf.softUpper - x))
  down : -v ≤ 2 * (saf.kPosition * (x - saf.softLower))
  fast : |v| ≤ 2 * lim.velocity

/-! ## One cycle -/

/-- The upper side, as inequalities. -/
theorem closed_upper {kp kv vmax E m dt τ su x v f : F} (hkp : 0 ≤ kp) (hkv : 0 ≤ kv) (hvm : 0 ≤ vmax) (hm : 0 < m) (h0 : 0 ≤ τ) (hτ : τ ≤ dt)
    (hd : 4 * m * kp ≤ kv) (hs : kv * dt ≤ m) (hE : kv * vmax ≤ E) (hx : x ≤ su) (hv : v ≤ 2 * (kp * (su - x))) (hv' : v ≤ 2 * vmax)
    (hf : f ≤ clamp E (-kv * (v - clamp vmax (-kp * (x - su))))) :
    posAfter m τ f x v ≤ su ∧ velAfter m τ f v ≤ 2 * (kp * (su - posAfter m τ f x v)) ∧ velAfter m τ f v ≤ 2 * vmax := by
  have hE0 : 0 ≤ E := (mul_nonneg hkv hvm).trans hE
  obtain ⟨W, hW⟩ : ∃ W, W = clamp vmax (-kp * (x - su)) := ⟨_, rfl⟩
  have hy : 0 ≤ su - x := by linarith
  have hkx : 0 ≤ kp * (su - x) := mul_nonneg hkp hy
  have e1 : -kp * (x - su) = kp * (su - x) := by ring
  rw [← hW] at hf
  have hW' : W = min vmax (kp * (su - x)) := by
    rw [hW, e1]; unfold clamp
    exact max_eq_right (le_min (by linarith) (by linarith))
  have W0 : 0 ≤ W := by rw [hW']; exact le_min hvm hkx
  have W1 : W ≤ vmax := by rw [hW']; exact min_le_left _ _
  have W2 : W ≤ kp * (su - x) := by rw [hW']; exact min_le_right _ _
  have hvW : v ≤ 2 * W := by
    rw [hW']
    rcases le_total vmax (kp * (su - x)) with h | h
    · rw [min_eq_left h]; exact hv'
    · rw [min_eq_right h]; exact hv
  have hfW : f ≤ kv * (W - v) := by
    have e2 : -kv * (v - W) = kv * (W - v) := by ring
    rw [e2] at hf
    refine hf.trans ?_
    have : -E ≤ kv * (W - v) := by
      have h1 : kv * (v - W) ≤ kv * vmax := mul_le_mul_of_nonneg_left (by linarith) hkv
      have h2 : kv * (W - v) = - (kv * (v - W)) := by ring
      rw [h2]; linarith
    exact max_le this (min_le_right _ _)
  -- in terms of the two numbers a = kv τ / m and d = kp τ
  obtain ⟨a, ha⟩ : ∃ a, a = kv * τ / m := ⟨_, rfl⟩
  obtain ⟨d, hdd⟩ : ∃ d, d = kp * τ := ⟨_, rfl⟩
  have a0 : 0 ≤ a := by rw [ha]; exact div_nonneg (mul_nonneg hkv h0) hm.le
  have a1 : a ≤ 1 := by
    rw [ha, div_le_one hm]
    exact (mul_le_mul_of_nonneg_left hτ hkv).trans hs
  have d0 : 0 ≤ d := by rw [hdd]; exact mul_nonneg hkp h0
  have da : 4 * d ≤ a := by
    rw [ha, le_div_iff₀ hm, hdd]
    have := mul_le_mul_of_nonneg_right hd h0
    linarith
  obtain ⟨u, hu⟩ : ∃ u, u = velAfter m τ f v := ⟨_, rfl⟩
  have hu1 : u ≤ (2 - a) * W := by
    have h1 : f / m * τ ≤ a * (W - v) := by
      have : f * τ ≤ kv * (W - v) * τ := mul_le_mul_of_nonneg_right hfW h0
      rw [ha, div_mul_eq_mul_div, div_mul_eq_mul_div]
      exact (div_le_div_iff_of_pos_right hm).2 (by linarith)
    have h2 : (1 - a) * v ≤ (1 - a) * (2 * W) := mul_le_mul_of_nonneg_left hvW (by linarith)
    rw [hu]; unfold velAfter
    have h4 : a * (W - v) + (1 - a) * (2 * W) = (2 - a) * W - a * v := by ring
    have h5 : (1 - a) * v = v - a * v := by ring
    linarith
  have hpos : posAfter m τ f x v = x + (v + u) / 2 * τ := by rw [hu]; unfold posAfter velAfter; ring
  have hmean : (v + u) / 2 ≤ (2 - a / 2) * W := by linarith
  have hstep : posAfter m τ f x v ≤ x + (2 - a / 2) * W * τ := by
    rw [hpos]; linarith [mul_le_mul_of_nonneg_right hmean h0]
  have aW : 0 ≤ a * W := mul_nonneg a0 W0
  have dW : 0 ≤ d * W := mul_nonneg d0 W0
  have daW : 0 ≤ d * a * W := mul_nonneg (mul_nonneg d0 a0) W0
  -- what is left of the way to the limit
  have hleft : (1 - d * (2 - a / 2)) * (su - x) ≤ su - posAfter m τ f x v := by
    have h1 : (2 - a / 2) * W * τ ≤ (2 - a / 2) * (kp * (su - x)) * τ :=
      mul_le_mul_of_nonneg_right (mul_le_mul_of_nonneg_left W2 (by linarith)) h0
    have h2 : (2 - a / 2) * (kp * (su - x)) * τ = d * (2 - a / 2) * (su - x) := by rw [hdd]; ring
    linarith
  have hc : 0 ≤ 1 - d * (2 - a / 2) := by
    have h1 : 0 ≤ d * a := mul_nonneg d0 a0
    have h2 : d * (2 - a / 2) = 2 * d - d * a / 2 := by ring
    linarith
  refine ⟨by linarith [mul_nonneg hc hy], ?_, ?_⟩
  · rw [← hu]
    have h1 : kp * (su - x) - kp * ((2 - a / 2) * W * τ) ≤ kp * (su - posAfter m τ f x v) := by
      rw [← mul_sub]; exact mul_le_mul_of_nonneg_left (by linarith) hkp
    have h2 : kp * ((2 - a / 2) * W * τ) = 2 * (d * W) - d * a * W / 2 := by rw [hdd]; ring
    have h3 : 4 * d * W ≤ a * W := mul_le_mul_of_nonneg_right da W0
    have h4 : (2 - a) * W = 2 * W - a * W := by ring
    have h5 : 4 * d * W = 4 * (d * W) := by ring
    linarith
  · rw [← hu]
    have h4 : (2 - a) * W = 2 * W - a * W := by ring
    linarith

/-- Any guarded joint: the speed limit, upper side. -/
theorem closed_speed {kv vmax E m dt τ v b f : F} (hkv : 0 ≤ kv) (hE : 0 ≤ E) (hm : 0 < m) (h0 : 0 ≤ τ) (hτ : τ ≤ dt) (hs : kv * dt ≤ m) (hv : v ≤ vmax) (hb : b ≤ vmax)
    (hf : f ≤ clamp E (-kv * (v - b))) : velAfter m τ f v ≤ vmax := by
  have hf' : f ≤ kv * (vmax - v) := by
    refine hf.trans (max_le ?_ ((min_le_right _ _).trans ?_))
    · linarith [mul_nonneg hkv (sub_nonneg.2 hv)]
    · have := mul_le_mul_of_nonneg_left (show b - v ≤ vmax - v by linarith) hkv
      have e : -kv * (v - b) = kv * (b - v) := by ring
      rw [e]; exact this
  have h1 : f / m * τ ≤ vmax - v := by
    rw [div_mul_eq_mul_div, div_le_iff₀ hm]
    have h2 : f * τ ≤ kv * (vmax - v) * τ := mul_le_mul_of_nonneg_right hf' h0
    have h3 : kv * τ ≤ m := (mul_le_mul_of_nonneg_left hτ hkv).trans hs
    have h4 := mul_le_mul_of_nonneg_left h3 (sub_nonneg.2 hv)
    linarith
  unfold velAfter
  linarith

theorem clamp_neg (a x : F) (ha : 0 ≤ a) : clamp a (-x) = - clamp a x := by
  rw [← clamp_alt ha (-x)]
  unfold clamp
  rw [← min_neg_neg, ← max_neg_neg, neg_neg]

theorem posAfter_neg (m τ f x v : F) : posAfter m τ (-f) (-x) (-v) = - posAfter m τ f x v := by unfold posAfter; ring
theorem velAfter_neg (m τ f v : F) : velAfter m τ (-f) (-v) = - velAfter m τ f v := by unfold velAfter; ring

/-- The commanded effort is one the limiter leaves alone. -/
def JState.InBounds (big : F) (s : JState F) : Prop := (s.getLimits big).1 ≤ s.commanded ∧ s.commanded ≤ (s.getLimits big).2

theorem closed_step {big : F} {s : JState F} {lim : JLimits F} {saf : JSafety F} {m dt τ : F} (g : Guarded s.joint lim saf) (hp : s.posLimited) (hs : Suits lim saf m dt)
    (hb : s.InBounds big) (h : Safe lim saf s.position s.velocity) (h0 : 0 ≤ τ) (hτ : τ ≤ dt) :
    Safe lim saf (posAfter m τ s.commanded s.position s.velocity) (velAfter m τ s.commanded s.velocity) := by
  obtain ⟨b1, b2⟩ := hb
  rw [getLimits_eq g, (velBounds_eq g).1 hp] at b1 b2
  dsimp only at b1 b2
  obtain ⟨f1, f2⟩ := abs_le.1 h.fast
  obtain ⟨u1, u2, u3⟩ := closed_upper g.kp g.kv g.velocity hs.mass h0 hτ hs.damped hs.slow hs.strong h.upper h.up f2 b2
  have b1' : -s.commanded ≤ clamp lim.effort (-saf.kVelocity * (-s.velocity - clamp lim.velocity (-saf.kPosition * (-s.position - -saf.softLower)))) := by
    have e : -saf.kVelocity * (-s.velocity - clamp lim.velocity (-saf.kPosition * (-s.position - -saf.softLower))) =
        -(-saf.kVelocity * (s.velocity - clamp lim.velocity (-saf.kPosition * (s.position - saf.softLower)))) := by
      rw [show -saf.kPosition * (-s.position - -saf.softLower) = -(-saf.kPosition * (s.position - saf.softLower)) by ring, clamp_neg _ _ g.velocity]
      ring
    rw [e, clamp_neg _ _ g.effort]
    linarith
  obtain ⟨l1, l2, l3⟩ := closed_upper (su := -saf.softLower) (x := -s.position) (v := -s.velocity) g.kp g.kv g.velocity hs.mass h0 hτ hs.damped hs.slow hs.strong
    (by linarith [h.lower]) (by rw [show -saf.softLower - -s.position = s.position - saf.softLower by ring]; exact h.down) (by linarith) b1'
  rw [posAfter_neg] at l1 l2
  rw [velAfter_neg] at l2 l3
  rw [show ∀ a b : F, -a - -b = b - a from fun a b => by ring] at l2
  exact ⟨by linarith, u1, u2, l2, abs_le.2 ⟨by linarith, u3⟩⟩

theorem closed_speed_step {big : F} {s : JState F} {lim : JLimits F} {saf : JSafety F} {m dt τ : F} (g : Guarded s.joint lim saf) (hm : 0 < m) (hs : saf.kVelocity * dt ≤ m)
    (hb : s.InBounds big) (h : |s.velocity| ≤ lim.velocity) (h0 : 0 ≤ τ) (hτ : τ ≤ dt) : |velAfter m τ s.commanded s.velocity| ≤ lim.velocity := by
  obtain ⟨b1, b2⟩ := hb
  rw [getLimits_eq g] at b1 b2
  dsimp only at b1 b2
  obtain ⟨f1, f2⟩ := abs_le.1 h
  obtain ⟨v1, v3⟩ := velBounds_range g
  have b1' : -s.commanded ≤ clamp lim.effort (-saf.kVelocity * (-s.velocity - -(s.velBounds lim saf).1)) := by
    rw [show -saf.kVelocity * (-s.velocity - -(s.velBounds lim saf).1) = -(-saf.kVelocity * (s.velocity - (s.velBounds lim saf).1)) by ring, clamp_neg _ _ g.effort]
    linarith
  have h1 := closed_speed g.kv g.effort hm h0 hτ hs f2 v3 b2
  have h2 := closed_speed g.kv g.effort hm h0 hτ hs (show -s.velocity ≤ lim.velocity by linarith) (show -(s.velBounds lim saf).1 ≤ lim.velocity by linarith) b1'
  rw [velAfter_neg] at h2
  exact abs_le.2 ⟨by linarith, h1⟩

theorem enforced_inBounds (big : F) {s : JState F} {lim : JLimits F} {saf : JSafety F} (g : Guarded s.joint lim saf) : (s.enforceLimits big).InBounds big :=
  C30_limited_in_bounds g big

/-! ## All cycles -/

/-- **C93, position.**  A calibrated revolute or prismatic joint with limits and safety parameters that suit its mechanics.  In every cycle the controllers command any
effort `c n` whatever, the limiter makes it the effort that drives the joint until the next cycle.  If the joint is safe at the beginning it is safe in all cycles
and at every moment between them; in particular it never leaves its soft limits. -/
theorem C93_stays_inside (big : F) {lim : JLimits F} {saf : JSafety F} (σ : Nat → JState F) (c m dt : Nat → F) (g : Guarded (σ 0).joint lim saf) (hp : (σ 0).posLimited)
    (hs : ∀ n, Suits lim saf (m n) (dt n))
    (hm : ∀ n, Driven (m n) (dt n) (JState.enforceLimits big { σ n with commanded := c n }) (σ (n + 1)))
    (h0 : Safe lim saf (σ 0).position (σ 0).velocity) (n : Nat) (τ : F) (hτ0 : 0 ≤ τ) (hτ : τ ≤ dt n) :
    let f := (JState.enforceLimits big { σ n with commanded := c n }).commanded
    Safe lim saf (posAfter (m n) τ f (σ n).position (σ n).velocity) (velAfter (m n) τ f (σ n).velocity) := by
  have key : ∀ n, (σ n).joint = (σ 0).joint ∧ (σ n).calibrated = (σ 0).calibrated ∧ Safe lim saf (σ n).position (σ n).velocity := by
    intro n
    induction n with
    | zero => exact ⟨rfl, rfl, h0⟩
    | succ n ih =>
      obtain ⟨i1, i2, i3⟩ := ih
      have d := hm n
      refine ⟨d.joint.trans i1, d.calibrated.trans i2, ?_⟩
      rw [d.position, d.velocity]
      have g' : Guarded ({ σ n with commanded := c n } : JState F).joint lim saf := by rw [← i1] at g; exact g
      exact closed_step (big := big) (s := JState.enforceLimits big { σ n with commanded := c n }) g' (by
        obtain ⟨q1, q2⟩ := hp
        exact ⟨i2.trans q1, by change (σ n).joint.type = _ ∨ (σ n).joint.type = _; rw [i1]; exact q2⟩) (hs n) (enforced_inBounds big g') i3 (hs n).time (le_refl _)
  obtain ⟨i1, i2, i3⟩ := key n
  have g' : Guarded ({ σ n with commanded := c n } : JState F).joint lim saf := by rw [← i1] at g; exact g
  exact closed_step (big := big) (s := JState.enforceLimits big { σ n with commanded := c n }) g' (by
    obtain ⟨q1, q2⟩ := hp
    exact ⟨i2.trans q1, by change (σ n).joint.type = _ ∨ (σ n).joint.type = _; rw [i1]; exact q2⟩) (hs n) (enforced_inBounds big g') i3 hτ0 hτ

/-- **C93, speed.**  Any joint with limits and safety parameters, calibrated or not: if it begins below its speed limit it stays below it. -/
theorem C93_speed (big : F) {lim : JLimits F} {saf : JSafety F} (σ : Nat → JState F) (c m dt : Nat → F) (g : Guarded (σ 0).joint lim saf)
    (hs : ∀ n, 0 < m n ∧ 0 ≤ dt n ∧ saf.kVelocity * dt n ≤ m n)
    (hm : ∀ n, Driven (m n) (dt n) (JState.enforceLimits big { σ n with commanded := c n }) (σ (n + 1)))
    (h0 : |(σ 0).velocity| ≤ lim.velocity) (n : Nat) (τ : F) (hτ0 : 0 ≤ τ) (hτ : τ ≤ dt n) :
    |velAfter (m n) τ (JState.enforceLimits big { σ n with commanded := c n }).commanded (σ n).velocity| ≤ lim.velocity := by
  have key : ∀ n, (σ n).joint = (σ 0).joint ∧ |(σ n).velocity| ≤ lim.velocity := by
    intro n
    induction n with
    | zero => exact ⟨rfl, h0⟩
    | succ n ih =>
      obtain ⟨i1, i3⟩ := ih
      have d := hm n
      refine ⟨d.joint.trans i1, ?_⟩
      rw [d.velocity]
      have g' : Guarded ({ σ n with commanded := c n } : JState F).joint lim saf := by rw [← i1] at g; exact g
      exact closed_speed_step (big := big) (s := JState.enforceLimits big { σ n with commanded := c n }) g' (hs n).1 (hs n).2.2 (enforced_inBounds big g') i3 (hs n).2.1 (le_refl _)
  obtain ⟨i1, i3⟩ := key n
  have g' : Guarded ({ σ n with commanded := c n } : JState F).joint lim saf := by rw [← i1] at g; exact g
  exact closed_speed_step (big := big) (s := JState.enforceLimits big { σ n with commanded := c n }) g' (hs n).1 (hs n).2.2 (enforced_inBounds big g') i3 hτ0 hτ

/-! ## The whole robot, under any load, unload and switch calls -/

variable [FLit F] [iTrig : FTrig F]

/-- In every cycle, the effort the hardware is sent for a guarded joint is one the limiter leaves alone, given the position and velocity measured in that cycle. -/
theorem sent_inBounds {big : F} {m : Bool} {d : RtData F} (hd : d.Good) {p : Plant F} (h : Plant.Reach big m d PlantIn.Tame p) {r : CycleRec F} (hr : r ∈ p.cycles)
    {k : Nat} {j0 j : JState F} (hj0 : d.robot.joints[k]? = some j0) (hj : r.sent.joints[k]? = some j) :
    j.joint = j0.joint ∧ ∀ lim saf, Guarded j.joint lim saf → j.InBounds big := by
  have gi := h.ginv hd
  refine ⟨?_, ?_⟩
  · have : ∀ (l l' : List (JState F)) (n : Nat), List.Forall₂ (fun j j' => j'.joint = j.joint) l l' → l[n]? = some j0 → l'[n]? = some j → j.joint = j0.joint := by
      intro l l' n hh
      induction hh generalizing n with
      | nil => intro e; simp at e
      | cons h1 _ ih =>
        intro e e'
        cases n with
        | zero => simp at e e'; subst e e'; exact h1
        | succ n => exact ih n (by simpa using e) (by simpa using e')
    exact this _ _ k (gi.sent r hr).joints hj0 hj
  intro lim saf g
  obtain ⟨x, hx, hxe⟩ := gi.ready r hr
  rw [(C48_effort_only_commands _ _ hx hxe).2] at hj
  have hj : (x.joints.map (·.enforceLimits big))[k]? = some j := hj
  rw [List.getElem?_map] at hj
  cases hxk : x.joints[k]? with
  | none => rw [hxk] at hj; cases hj
  | some y =>
    rw [hxk] at hj
    cases hj
    exact enforced_inBounds big g

/-- **C93, the whole robot.**  Whatever is loaded, unloaded and switched, whatever the controllers command: joint `k` of the robot has a description that suits its
mechanics; between two cycles it moves under the effort the hardware has been sent; it is calibrated.  If it is safe in the first cycle, it is safe in all cycles
and at every moment between them. -/
theorem C93_robot {big : F} {m : Bool} {d : RtData F} (hd : d.Good) {p : Plant F} (h : Plant.Reach big m d PlantIn.Tame p) {k : Nat} {j0 : JState F}
    (hj0 : d.robot.joints[k]? = some j0) {lim : JLimits F} {saf : JSafety F} (g : Guarded j0.joint lim saf) (mass dt : Nat → F) (hs : ∀ n, Suits lim saf (mass n) (dt n))
    (j : Nat → JState F) (hj : ∀ n r, p.cycles[n]? = some r → r.sent.joints[k]? = some (j n) ∧ (j n).posLimited)
    (hm : ∀ n, n + 1 < p.cycles.length → Driven (mass n) (dt n) (j n) (j (n + 1)))
    (h0 : Safe lim saf (j 0).position (j 0).velocity) (n : Nat) (hn : n < p.cycles.length) (τ : F) (hτ0 : 0 ≤ τ) (hτ : τ ≤ dt n) :
    Safe lim saf (posAfter (mass n) τ (j n).commanded (j n).position (j n).velocity) (velAfter (mass n) τ (j n).commanded (j n).velocity) := by
  have at_ : ∀ n, n < p.cycles.length → Guarded (j n).joint lim saf ∧ (j n).InBounds big ∧ (j n).posLimited := by
    intro n hn
    obtain ⟨a, b⟩ := hj n _ (List.getElem?_eq_getElem hn)
    obtain ⟨e, i⟩ := sent_inBounds hd h (List.getElem_mem hn) hj0 a
    have g' : Guarded (j n).joint lim saf := by rw [e]; exact g
    exact ⟨g', i lim saf g', b⟩
  have key : ∀ n, n < p.cycles.length → Safe lim saf (j n).position (j n).velocity := by
    intro n
    induction n with
    | zero => exact fun _ => h0
    | succ n ih =>
      intro hn
      obtain ⟨g', i, q⟩ := at_ n (by omega)
      have dr := hm n hn
      rw [dr.position, dr.velocity]
      exact closed_step g' q (hs n) i (ih (by omega)) (hs n).time (le_refl _)
  obtain ⟨g', i, q⟩ := at_ n hn
  exact closed_step g' q (hs n) i (key n hn) hτ0 hτ

end exact

/-! ## The conditions are needed; concrete cases -/

section examples
attribute [local instance] exactCmp demoTrig demoLit

/-- The joint some cycles later, if the controllers always command `c`. -/
def pushed (m dt c : ℚ) (s : JState ℚ) : Nat → JState ℚ
  | 0 => s
  | n + 1 =>
    let t := JState.enforceLimits 1000 { pushed m dt c s n with commanded := c }
    { t with position := posAfter m dt t.commanded t.position t.velocity, velocity := velAfter m dt t.commanded t.velocity }

theorem pushed_driven (m dt c : ℚ) (s : JState ℚ) (n : Nat) :
    Driven m dt (JState.enforceLimits 1000 { pushed m dt c s n with commanded := c }) (pushed m dt c s (n + 1)) := ⟨rfl, rfl, rfl, rfl⟩

/-- A joint with soft limits at 1/10 and 19/10. -/
def lightJoint : UJoint ℚ := ⟨"wrist", .revolute, some ⟨0, 2, 30, 3⟩, some ⟨1/10, 19/10, 20, 4⟩, none⟩
def lightState : JState ℚ := ⟨lightJoint, 37/20, 1, 0, .fresh 0, 0, true, 0⟩

theorem light_guarded : Guarded lightState.joint ⟨0, 2, 30, 3⟩ ⟨1/10, 19/10, 20, 4⟩ := by
  refine ⟨rfl, rfl, ?_, ?_, ?_, ?_, ?_⟩ <;> norm_num
theorem light_suits : Suits (F := ℚ) ⟨0, 2, 30, 3⟩ ⟨1/10, 19/10, 20, 4⟩ (1/20) (1/100) := by
  refine ⟨?_, ?_, ?_, ?_, ?_⟩ <;> norm_num
theorem light_safe : Safe (F := ℚ) ⟨0, 2, 30, 3⟩ ⟨1/10, 19/10, 20, 4⟩ lightState.position lightState.velocity := by
  refine ⟨?_, ?_, ?_, ?_, ?_⟩ <;> norm_num [lightState]

/-- C93: a controller pushes with full effort towards the limit, for ever; the joint stays inside. -/
example (n : Nat) : (pushed (1/20) (1/100) 30 lightState n).position ≤ 19/10 := by
  have := C93_stays_inside 1000 (pushed (1/20) (1/100) 30 lightState) (fun _ => 30) (fun _ => 1/20) (fun _ => 1/100) light_guarded ⟨rfl, Or.inl rfl⟩ (fun _ => light_suits)
    (pushed_driven _ _ _ _) light_safe n 0 (le_refl _) (by norm_num)
  have h := this.upper
  unfold posAfter at h
  simpa using h

/-- … and it does come close. -/
example : 189/100 < (pushed (1/20) (1/100) 30 lightState 20).position := by decide +kernel

/-- **Finding (C93).**  The velocity gain must be large enough for the inertia.  Ten kilograms instead of fifty grams: the limiter lets the joint run through its soft limit,
although it has been safe at the beginning and in spite of full compliance of the description with all other conditions. -/
theorem C93_heavy_counterexample : ∃ n, Guarded lightState.joint ⟨0, 2, 30, 3⟩ ⟨1/10, 19/10, 20, 4⟩ ∧ lightState.posLimited ∧
    Safe (F := ℚ) ⟨0, 2, 30, 3⟩ ⟨1/10, 19/10, 20, 4⟩ lightState.position lightState.velocity ∧
    (4 : ℚ) * (1 / 100) ≤ 10 ∧ (4 : ℚ) * 3 ≤ 30 ∧ 2 < (pushed 10 (1/100) 30 lightState n).position :=
  ⟨20, light_guarded, ⟨rfl, Or.inl rfl⟩, light_safe, by norm_num, by norm_num, by decide +kernel⟩

/-- **Finding (C93).**  The cycle must be short enough for the gains: with the same joint and a cycle of 50 ms the limiter itself drives the joint beyond a soft limit. -/
theorem C93_slow_counterexample : ∃ n, Guarded lightState.joint ⟨0, 2, 30, 3⟩ ⟨1/10, 19/10, 20, 4⟩ ∧ lightState.posLimited ∧
    Safe (F := ℚ) ⟨0, 2, 30, 3⟩ ⟨1/10, 19/10, 20, 4⟩ lightState.position lightState.velocity ∧
    (4 : ℚ) * (1/20) * 20 ≤ 4 ∧ (4 : ℚ) * 3 ≤ 30 ∧ 19/10 < (pushed (1/20) (1/20) 30 lightState n).position :=
  ⟨3, light_guarded, ⟨rfl, Or.inl rfl⟩, light_safe, by norm_num, by norm_num, by decide +kernel⟩

/-- The same joint with an effort limit of 1. -/
def weakJoint : UJoint ℚ := ⟨"wrist", .revolute, some ⟨0, 2, 1, 3⟩, some ⟨1/10, 19/10, 20, 4⟩, none⟩
def weakState : JState ℚ := ⟨weakJoint, 17/10, 6, 0, .fresh 0, 0, true, 0⟩

/-- **Finding (C93).**  The effort limit must suffice to brake. -/
theorem C93_weak_counterexample : ∃ n, Guarded weakState.joint ⟨0, 2, 1, 3⟩ ⟨1/10, 19/10, 20, 4⟩ ∧ weakState.posLimited ∧
    Safe (F := ℚ) ⟨0, 2, 1, 3⟩ ⟨1/10, 19/10, 20, 4⟩ weakState.position weakState.velocity ∧
    (4 : ℚ) * (1/20) * 20 ≤ 4 ∧ (4 : ℚ) * (1/100) ≤ 1/20 ∧ 2 < (pushed (1/20) (1/100) 1 weakState n).position := by
  refine ⟨10, ⟨rfl, rfl, ?_, ?_, ?_, ?_, ?_⟩, ⟨rfl, Or.inl rfl⟩, ⟨?_, ?_, ?_, ?_, ?_⟩, by norm_num, by norm_num, by decide +kernel⟩ <;> norm_num [weakState]

/-! ### The whole robot: a motor with the joint's inertia, a controller that pushes -/

/-- The hardware: the motor (inertia 1/80, gear 2, so 1/20 at the joint) has moved for 10 ms under the effort it was sent. -/
def loopHw (as : List (Actuator ℚ)) : List (Actuator ℚ) :=
  as.map fun a => { a with position := posAfter (1/80) (1/100) a.effort a.position a.velocity, velocity := velAfter (1/80) (1/100) a.effort a.velocity }
/-- The controller always commands 30. -/
def loopPlug (s : RState ℚ) : RState ℚ := { s with joints := s.joints.map fun j => { j with commanded := 30 } }
def loopIn : PlantIn ℚ := ⟨loopHw, loopPlug, 0, 2000000, 0, false, 0, false⟩
def loopJoint : JState ℚ := { JState.fresh lightJoint 0 with calibrated := true }
def loopMotor : Actuator ℚ := { Actuator.fresh "m" with position := 3, velocity := 1 }
def loopRobot : RState ℚ :=
  ⟨[⟨⟨"t", ["m"], ["wrist"], .simple ⟨2, 0, false, ⟨false, 0⟩, CalSim.fresh 0 0 0 0 false false⟩⟩, [0], [0]⟩], [loopJoint], [("wrist", 0)], [loopMotor]⟩
def loopRt : RtData ℚ := ⟨loopRobot, fun _ => CStat.fresh, ⟨0, 10, ([loopJoint.srow 0], [loopMotor.arow])⟩, ⟨0, 10, [loopJoint.jrow]⟩⟩
def loopBoth : Nat → List (PAct ℚ)
  | 0 => []
  | n + 1 => .nrt :: .rt loopIn :: loopBoth n
def loopActs : List (PAct ℚ) := .call (.load demoReq) :: loopBoth 20 ++ .call (.switch ["spring"] [] 2) :: loopBoth 60
def loopStart : Plant ℚ := Plant.runs 1000 (Plant.init false loopRt) [.rt loopIn, .rt loopIn]

theorem loopGood : loopRt.Good := by
  refine ⟨⟨⟨?_, ?_, ?_⟩, ?_, ?_⟩, ?_, rfl, rfl, rfl, by decide, by decide⟩ <;> simp [loopRt, loopRobot, loopMotor, loopJoint, Actuator.fresh, Body.Wants, JState.fresh, lightJoint]

/-- The run: load, switch, then ten cycles. -/
def loopRun : Plant ℚ := loopStart.runs 1000 loopActs
/-- The joint in cycle `n`. -/
def loopAt (n : Nat) : JState ℚ := ((loopRun.cycles[n]?).bind (·.sent.joints[0]?)).getD loopJoint

theorem loopIn_tame : loopIn.Tame := by
  constructor
  · intro as
    change List.Forall₂ _ as (as.map _)
    rw [List.forall₂_map_right_iff]
    exact List.forall₂_same.2 fun _ _ => rfl
  · intro s
    refine ⟨List.forall₂_same.2 fun c _ => ⟨c.trans.body, rfl, fun _ _ => Iff.rfl⟩, rfl, ?_, List.forall₂_same.2 fun _ _ => rfl⟩
    change List.Forall₂ _ s.joints (s.joints.map _)
    rw [List.forall₂_map_right_iff]
    exact List.forall₂_same.2 fun _ _ => rfl

theorem loopReach : Plant.Reach 1000 false loopRt PlantIn.Tame loopRun := by
  have h : Plant.Reach 1000 false loopRt PlantIn.Tame loopStart := (Plant.Reach.init.rt loopIn loopIn_tame).rt loopIn loopIn_tame
  have h2 : ∀ pre ∈ loopActs.inits, (Plant.runs 1000 loopStart pre).mgr.used.isSome = true := by decide +kernel
  refine h.runs (h2 [] (by simp)) ?_ (fun pre hpre => h2 pre ((List.mem_inits _ _).2 hpre))
  have : ∀ n i, PAct.rt i ∈ loopBoth n → i = loopIn := by
    intro n i hi
    induction n with
    | zero => cases hi
    | succ n ih =>
      simp only [loopBoth, List.mem_cons, reduceCtorEq, false_or, PAct.rt.injEq] at hi
      exact hi.elim id ih
  intro i hi
  simp only [loopActs, List.cons_append, List.mem_cons, reduceCtorEq, false_or, List.mem_append] at hi
  rcases hi with hi | hi <;> (rw [this _ i hi]; exact loopIn_tame)

theorem loopLength : loopRun.cycles.length = 10 := by decide +kernel
theorem loopJoints : ∀ n < 10, ((loopRun.cycles[n]?).bind (·.sent.joints[0]?)).isSome = true ∧ (loopAt n).calibrated = true := by decide +kernel
theorem loopMoves : ∀ n < 9, (loopAt (n + 1)).position = posAfter (1/20) (1/100) (loopAt n).commanded (loopAt n).position (loopAt n).velocity ∧
    (loopAt (n + 1)).velocity = velAfter (1/20) (1/100) (loopAt n).commanded (loopAt n).velocity := by decide +kernel

theorem loopAt_spec (n : Nat) (r : CycleRec ℚ) (h : loopRun.cycles[n]? = some r) : r.sent.joints[0]? = some (loopAt n) ∧ (loopAt n).posLimited ∧ (loopAt n).joint = lightJoint := by
  have hn : n < 10 := by
    rw [← loopLength]
    exact (List.getElem?_eq_some_iff.1 h).1
  obtain ⟨h1, h2⟩ := loopJoints n hn
  have e : r.sent.joints[0]? = some (loopAt n) := by
    rw [h] at h1
    obtain ⟨j, hj⟩ := Option.isSome_iff_exists.1 h1
    have hj : r.sent.joints[0]? = some j := hj
    have : loopAt n = j := by unfold loopAt; rw [h]; change (r.sent.joints[0]?).getD _ = j; rw [hj]; rfl
    rw [this, hj]
  have hjj := (sent_inBounds loopGood loopReach (List.mem_of_getElem? h) (j0 := loopJoint) rfl e).1
  exact ⟨e, ⟨h2, by rw [hjj]; exact Or.inl rfl⟩, hjj⟩

/-- C93: the hypotheses of `C93_robot` are met by a run with a load and a switch call, in which a controller pushes with all it has. -/
example (n : Nat) (hn : n < 10) (τ : ℚ) (h0 : 0 ≤ τ) (h1 : τ ≤ 1/100) :
    posAfter (1/20) τ (loopAt n).commanded (loopAt n).position (loopAt n).velocity ≤ 19/10 := by
  refine (C93_robot loopGood loopReach (k := 0) (j0 := loopJoint) rfl light_guarded (fun _ => 1/20) (fun _ => 1/100) (fun _ => light_suits) loopAt
    (fun n r h => ⟨(loopAt_spec n r h).1, (loopAt_spec n r h).2.1⟩) ?_ ?_ n (by rw [loopLength]; exact hn) τ h0 h1).upper
  · intro n hn
    rw [loopLength] at hn
    obtain ⟨a, b⟩ := loopMoves n (by omega)
    have e1 := loopAt_spec n _ (List.getElem?_eq_getElem (by rw [loopLength]; omega))
    have e2 := loopAt_spec (n + 1) _ (List.getElem?_eq_getElem (by rw [loopLength]; omega))
    exact ⟨e2.2.2.trans e1.2.2.symm, e2.2.1.1.trans e1.2.1.1.symm, a, b⟩
  · have e : (loopAt 0).position = 301/200 ∧ (loopAt 0).velocity = 1/2 := by decide +kernel
    rw [e.1, e.2]
    refine ⟨?_, ?_, ?_, ?_, ?_⟩ <;> norm_num
example : 16/10 < (loopAt 9).position ∧ (loopAt 4).commanded = 10 := by decide +kernel

end examples
end Pr2
