import Verif.Model.Joint
import Verif.Spec.Num
import Mathlib.Tactic.Linarith
import Mathlib.Algebra.Order.Field.Basic
import Mathlib.Algebra.BigOperators.Group.List.Basic
import Mathlib.Data.Rat.Defs
import Mathlib.Data.List.Induction
import Mathlib.Algebra.Order.Ring.Rat

/-! # C29–C36: joint limits and joint statistics -/

namespace Pr2
set_option linter.unusedVariables false
set_option linter.unusedSectionVars false

/-! ## Any floating point arithmetic -/

section ieee
variable {F : Type} [FCmp F] [Neg F] [IeeeLike F]
open IeeeLike

/-- `a` is a number (not NaN) with value in `[-e, e]`. -/
def Within (e : EReal) (a : F) : Prop := ∃ x, val a = some x ∧ -e ≤ x ∧ x ≤ e

theorem within_cmax {e : EReal} {a : F} (ha : Within e a) (b : F) (hb : ∀ y, val b = some y → y ≤ e) : Within e (cmax a b) := by
  obtain ⟨x, hx, h1, h2⟩ := ha
  unfold cmax
  split
  · rename_i h
    obtain ⟨x', y, hx', hy, hlt⟩ := (lt_iff a b).1 h
    rw [hx, Option.some.injEq] at hx'; subst hx'
    exact ⟨y, hy, h1.trans hlt.le, hb y hy⟩
  · exact ⟨x, hx, h1, h2⟩

theorem within_cmin {e : EReal} {a : F} (ha : Within e a) (b : F) (hb : ∀ y, val b = some y → -e ≤ y) : Within e (cmin a b) := by
  obtain ⟨x, hx, h1, h2⟩ := ha
  unfold cmin
  split
  · rename_i h
    obtain ⟨y, x', hy, hx', hlt⟩ := (lt_iff b a).1 h
    rw [hx, Option.some.injEq] at hx'; subst hx'
    exact ⟨y, hy, hb y hy, hlt.le.trans h2⟩
  · exact ⟨x, hx, h1, h2⟩

theorem cmin_le {e : EReal} {a : F} (ha : val a = some e) (b : F) : ∀ y, val (cmin a b) = some y → y ≤ e := by
  intro y
  unfold cmin
  split
  · rename_i h
    obtain ⟨z, x', hz, hx', hlt⟩ := (lt_iff b a).1 h
    rw [ha, Option.some.injEq] at hx'; subst hx'
    intro hy; rw [hz, Option.some.injEq] at hy; subst hy; exact hlt.le
  · intro hy; rw [ha, Option.some.injEq] at hy; exact hy.symm.le

theorem le_cmax {e : EReal} {a : F} (ha : val a = some e) (b : F) : ∀ y, val (cmax a b) = some y → e ≤ y := by
  intro y
  unfold cmax
  split
  · rename_i h
    obtain ⟨x', z, hx', hz, hlt⟩ := (lt_iff a b).1 h
    rw [ha, Option.some.injEq] at hx'; subst hx'
    intro hy; rw [hz, Option.some.injEq] at hy; subst hy; exact hlt.le
  · intro hy; rw [ha, Option.some.injEq] at hy; exact hy.le

variable [Sub F] [Mul F]

/-- **C29.** For a joint with limits and safety description whose effort limit is the number `e ≥ 0`: whatever the position,
velocity, gains, soft limits and velocity limit are (NaN and infinities included), whatever the multiplications and
subtractions yield, a commanded effort that is not NaN is within `[-e, e]` after `enforceLimits`. -/
theorem C29_limited_for_any_arithmetic (big : F) (s : JState F) (lim : JLimits F) (saf : JSafety F)
    (hl : s.joint.limits = some lim) (hs : s.joint.safety = some saf) (e : EReal) (he : val lim.effort = some e) (h0 : 0 ≤ e)
    (hc : val s.commanded ≠ none) : Within e (s.enforceLimits big).commanded := by
  obtain ⟨c, hc⟩ := Option.ne_none_iff_exists'.1 hc
  have hne : val (-lim.effort) = some (-e) := by rw [neg, he]; rfl
  have hle : -e ≤ e := (EReal.neg_le_neg_iff.2 h0).trans (by simpa using h0)
  have wE : Within e lim.effort := ⟨e, he, hle, le_refl _⟩
  have wN : Within e (-lim.effort) := ⟨-e, hne, le_refl _, hle⟩
  unfold JState.enforceLimits JState.getLimits
  rw [hs, hl]
  simp only
  generalize -saf.kVelocity * (s.velocity - (s.velBounds lim saf).1) = p
  generalize -saf.kVelocity * (s.velocity - (s.velBounds lim saf).2) = q
  have hlow : Within e (cmin lim.effort (cmax (-lim.effort) p)) := within_cmin wE _ (le_cmax hne p)
  have hhigh : Within e (cmax (-lim.effort) (cmin lim.effort q)) := within_cmax wN _ (cmin_le he q)
  generalize cmin lim.effort (cmax (-lim.effort) p) = low at hlow
  generalize cmax (-lim.effort) (cmin lim.effort q) = high at hhigh
  obtain ⟨l, hlv, hl1, hl2⟩ := hlow
  obtain ⟨h, hhv, hh1, hh2⟩ := hhigh
  -- max(command, low)
  have hm : ∃ m, val (cmax s.commanded low) = some m ∧ l ≤ m := by
    unfold cmax
    split
    · exact ⟨l, hlv, le_refl _⟩
    · rename_i hlt
      refine ⟨c, hc, ?_⟩
      by_contra hcon
      exact hlt ((lt_iff _ _).2 ⟨c, l, hc, hlv, not_le.1 hcon⟩)
  obtain ⟨m, hmv, hlm⟩ := hm
  generalize cmax s.commanded low = mm at hmv
  unfold cmin
  split
  · exact ⟨h, hhv, hh1, hh2⟩
  · rename_i hlt
    refine ⟨m, hmv, hl1.trans hlm, ?_⟩
    have : m ≤ h := by
      by_contra hcon
      exact hlt ((lt_iff _ _).2 ⟨h, m, hhv, hmv, not_le.1 hcon⟩)
    exact this.trans hh2

/-- **Finding (C29).** The proviso is needed: a NaN command passes the limits unchanged. -/
theorem C29_nan_passes (big : F) (s : JState F) (hc : val s.commanded = none) : val (s.enforceLimits big).commanded = none := by
  unfold JState.enforceLimits
  simp only
  generalize (s.getLimits big).1 = low
  generalize (s.getLimits big).2 = high
  have h1 : cmax s.commanded low = s.commanded := by
    unfold cmax; rw [if_neg]
    intro h
    obtain ⟨x, y, hx, _⟩ := (lt_iff _ _).1 h
    rw [hc] at hx; simp at hx
  have h2 : cmin s.commanded high = s.commanded := by
    unfold cmin; rw [if_neg]
    intro h
    obtain ⟨x, y, hx, hy, _⟩ := (lt_iff _ _).1 h
    rw [hc] at hy; simp at hy
  rw [h1, h2, hc]

end ieee

/-- The hypotheses of C29 are met with all arithmetic results NaN: a command of 5 with limit 2. -/
example : letI : Sub Weird := ⟨fun _ _ => none⟩; letI : Mul Weird := ⟨fun _ _ => none⟩
    ∀ st : JStats Weird, Within (F := Weird) 2 (JState.enforceLimits (F := Weird) none
      ⟨⟨"j", .revolute, some ⟨none, none, some 2, some 1⟩, some ⟨none, some 0, none, some 7⟩, none⟩, none, some 3, none, st, some 5, true, none⟩).commanded := by
  intro st
  letI : Sub Weird := ⟨fun _ _ => none⟩; letI : Mul Weird := ⟨fun _ _ => none⟩
  exact C29_limited_for_any_arithmetic (F := Weird) none _ ⟨none, none, some 2, some 1⟩ ⟨none, some 0, none, some 7⟩ rfl rfl 2 rfl (by norm_num) (by simp [IeeeLike.val])

/-! ## Exact arithmetic -/

section exact
variable {F : Type} [Field F] [LinearOrder F] [IsStrictOrderedRing F]
attribute [local instance] exactCmp

/-- Limit `x` to `[-a, a]`, where `0 ≤ a`. -/
def clamp (a x : F) : F := max (-a) (min a x)

theorem clamp_alt {a : F} (ha : 0 ≤ a) (x : F) : min a (max (-a) x) = clamp a x := by
  unfold clamp
  rcases le_total x (-a) with h | h
  · rw [max_eq_left h, min_eq_right (by linarith : -a ≤ a), min_eq_right (by linarith : x ≤ a), max_eq_left h]
  · rw [max_eq_right h]
    rcases le_total a x with h' | h'
    · rw [min_eq_left h', max_eq_right (by linarith)]
    · rw [min_eq_right h', max_eq_right h]

theorem clamp_mono (a : F) {x y : F} (h : x ≤ y) : clamp a x ≤ clamp a y := max_le_max_left _ (min_le_min_left _ h)
theorem clamp_le {a : F} (ha : 0 ≤ a) (x : F) : clamp a x ≤ a := max_le (by linarith) (min_le_left _ _)
theorem le_clamp (a x : F) : -a ≤ clamp a x := le_max_left _ _
theorem clamp_nonpos {a x : F} (ha : 0 ≤ a) (hx : x ≤ 0) : clamp a x ≤ 0 := max_le (by linarith) ((min_le_right _ _).trans hx)
theorem clamp_nonneg {a x : F} (ha : 0 ≤ a) (hx : 0 ≤ x) : 0 ≤ clamp a x := le_max_of_le_right (le_min ha hx)

/-- A joint with limits and safety whose description is sane: non-negative limits and gains, soft limits in order. -/
structure Guarded (j : UJoint F) (lim : JLimits F) (saf : JSafety F) : Prop where
  hlim : j.limits = some lim
  hsaf : j.safety = some saf
  effort : 0 ≤ lim.effort
  velocity : 0 ≤ lim.velocity
  kp : 0 ≤ saf.kPosition
  kv : 0 ≤ saf.kVelocity
  soft : saf.softLower ≤ saf.softUpper

/-- Is the position of the joint limited? -/
def JState.posLimited (s : JState F) : Prop := s.calibrated = true ∧ (s.joint.type = .revolute ∨ s.joint.type = .prismatic)

theorem velBounds_eq {s : JState F} {lim : JLimits F} {saf : JSafety F} (g : Guarded s.joint lim saf) :
    (s.posLimited → s.velBounds lim saf = (clamp lim.velocity (-saf.kPosition * (s.position - saf.softLower)),
        clamp lim.velocity (-saf.kPosition * (s.position - saf.softUpper)))) ∧
    (¬ s.posLimited → s.velBounds lim saf = (-lim.velocity, lim.velocity)) := by
  constructor
  · rintro ⟨hc, ht⟩
    unfold JState.velBounds
    rw [if_pos (by rcases ht with ht | ht <;> simp [hc, ht])]
    rw [cmin_exact, cmax_exact, cmax_exact, cmin_exact, clamp_alt g.velocity]; rfl
  · intro h
    unfold JState.velBounds
    rw [if_neg]
    intro hx
    apply h
    simp only [Bool.and_eq_true, Bool.or_eq_true, beq_iff_eq] at hx
    exact hx

theorem getLimits_eq {s : JState F} {lim : JLimits F} {saf : JSafety F} (g : Guarded s.joint lim saf) (big : F) :
    s.getLimits big = (clamp lim.effort (-saf.kVelocity * (s.velocity - (s.velBounds lim saf).1)),
      clamp lim.effort (-saf.kVelocity * (s.velocity - (s.velBounds lim saf).2))) := by
  unfold JState.getLimits
  rw [g.hsaf, g.hlim]
  simp only
  rw [cmin_exact, cmax_exact, cmax_exact, cmin_exact, clamp_alt g.effort]; rfl

theorem velBounds_ordered {s : JState F} {lim : JLimits F} {saf : JSafety F} (g : Guarded s.joint lim saf) :
    (s.velBounds lim saf).1 ≤ (s.velBounds lim saf).2 := by
  by_cases h : s.posLimited
  · rw [(velBounds_eq g).1 h]
    apply clamp_mono
    have := mul_le_mul_of_nonneg_left (show s.position - saf.softUpper ≤ s.position - saf.softLower by linarith [g.soft]) g.kp
    linarith
  · rw [(velBounds_eq g).2 h]
    linarith [g.velocity]

theorem enforce_eq (s : JState F) (big : F) :
    (s.enforceLimits big).commanded = min (max s.commanded (s.getLimits big).1) (s.getLimits big).2 := by
  unfold JState.enforceLimits; dsimp only; rw [cmin_exact, cmax_exact]

/-- **C30.** The effort bounds are ordered and within the effort limit. -/
theorem C30_bounds_ordered {s : JState F} {lim : JLimits F} {saf : JSafety F} (g : Guarded s.joint lim saf) (big : F) :
    -lim.effort ≤ (s.getLimits big).1 ∧ (s.getLimits big).1 ≤ (s.getLimits big).2 ∧ (s.getLimits big).2 ≤ lim.effort := by
  rw [getLimits_eq g]
  refine ⟨le_clamp _ _, ?_, clamp_le g.effort _⟩
  apply clamp_mono
  have := mul_le_mul_of_nonneg_left (show s.velocity - (s.velBounds lim saf).2 ≤ s.velocity - (s.velBounds lim saf).1 by
    linarith [velBounds_ordered g]) g.kv
  linarith

/-- **C30.** The limited effort is within both bounds. -/
theorem C30_limited_in_bounds {s : JState F} {lim : JLimits F} {saf : JSafety F} (g : Guarded s.joint lim saf) (big : F) :
    (s.getLimits big).1 ≤ (s.enforceLimits big).commanded ∧ (s.enforceLimits big).commanded ≤ (s.getLimits big).2 := by
  obtain ⟨_, h, _⟩ := C30_bounds_ordered g big
  rw [enforce_eq]
  exact ⟨le_min (le_max_right _ _) h, min_le_right _ _⟩

/-- **C31.** At or beyond the upper soft limit and not moving inwards: no positive effort. -/
theorem C31_soft_upper {s : JState F} {lim : JLimits F} {saf : JSafety F} (g : Guarded s.joint lim saf) (big : F)
    (hp : s.posLimited) (hx : saf.softUpper ≤ s.position) (hv : 0 ≤ s.velocity) : (s.enforceLimits big).commanded ≤ 0 := by
  refine (C30_limited_in_bounds g big).2.trans ?_
  rw [getLimits_eq g, (velBounds_eq g).1 hp]
  apply clamp_nonpos g.effort
  have h1 : clamp lim.velocity (-saf.kPosition * (s.position - saf.softUpper)) ≤ 0 := by
    apply clamp_nonpos g.velocity
    have := mul_nonneg g.kp (sub_nonneg.2 hx)
    linarith
  have := mul_nonneg g.kv (show 0 ≤ s.velocity - clamp lim.velocity (-saf.kPosition * (s.position - saf.softUpper)) by linarith)
  dsimp only; linarith

/-- **C31.** At or beyond the lower soft limit and not moving inwards: no negative effort. -/
theorem C31_soft_lower {s : JState F} {lim : JLimits F} {saf : JSafety F} (g : Guarded s.joint lim saf) (big : F)
    (hp : s.posLimited) (hx : s.position ≤ saf.softLower) (hv : s.velocity ≤ 0) : 0 ≤ (s.enforceLimits big).commanded := by
  refine le_trans ?_ (C30_limited_in_bounds g big).1
  rw [getLimits_eq g, (velBounds_eq g).1 hp]
  apply clamp_nonneg g.effort
  have h1 : 0 ≤ clamp lim.velocity (-saf.kPosition * (s.position - saf.softLower)) := by
    apply clamp_nonneg g.velocity
    have := mul_nonneg g.kp (sub_nonneg.2 hx)
    linarith
  have := mul_nonneg g.kv (show 0 ≤ clamp lim.velocity (-saf.kPosition * (s.position - saf.softLower)) - s.velocity by linarith)
  dsimp only; linarith

theorem velBounds_range {s : JState F} {lim : JLimits F} {saf : JSafety F} (g : Guarded s.joint lim saf) :
    -lim.velocity ≤ (s.velBounds lim saf).1 ∧ (s.velBounds lim saf).2 ≤ lim.velocity := by
  by_cases h : s.posLimited
  · rw [(velBounds_eq g).1 h]; exact ⟨le_clamp _ _, clamp_le g.velocity _⟩
  · rw [(velBounds_eq g).2 h]; exact ⟨le_refl _, le_refl _⟩

/-- **C31.** Moving at or above the velocity limit in either direction: no effort that accelerates further. -/
theorem C31_velocity {s : JState F} {lim : JLimits F} {saf : JSafety F} (g : Guarded s.joint lim saf) (big : F) :
    (lim.velocity ≤ s.velocity → (s.enforceLimits big).commanded ≤ 0) ∧
    (s.velocity ≤ -lim.velocity → 0 ≤ (s.enforceLimits big).commanded) := by
  obtain ⟨h1, h2⟩ := velBounds_range g
  constructor
  · intro hv
    refine (C30_limited_in_bounds g big).2.trans ?_
    rw [getLimits_eq g]
    apply clamp_nonpos g.effort
    have := mul_nonneg g.kv (show 0 ≤ s.velocity - (s.velBounds lim saf).2 by linarith)
    linarith
  · intro hv
    refine le_trans ?_ (C30_limited_in_bounds g big).1
    rw [getLimits_eq g]
    apply clamp_nonneg g.effort
    have := mul_nonneg g.kv (show 0 ≤ (s.velBounds lim saf).1 - s.velocity by linarith)
    linarith

/-- **C31, how hard.** Beyond the soft limit far or fast enough, the full effort limit is applied against the motion. -/
theorem C31_full_braking {s : JState F} {lim : JLimits F} {saf : JSafety F} (g : Guarded s.joint lim saf) (big : F) (hp : s.posLimited)
    (hx : lim.effort ≤ saf.kVelocity * (s.velocity + saf.kPosition * (s.position - saf.softUpper)))
    (hr : saf.kPosition * (s.position - saf.softUpper) ≤ lim.velocity) (hr' : -lim.velocity ≤ saf.kPosition * (s.position - saf.softUpper)) :
    (s.enforceLimits big).commanded = -lim.effort := by
  obtain ⟨h1, h2, h3⟩ := C30_bounds_ordered g big
  obtain ⟨h4, h5⟩ := C30_limited_in_bounds g big
  have hv : (s.velBounds lim saf).2 = -saf.kPosition * (s.position - saf.softUpper) := by
    rw [(velBounds_eq g).1 hp]
    dsimp only
    unfold clamp
    rw [min_eq_right (by linarith), max_eq_right (by linarith)]
  have : (s.getLimits big).2 = -lim.effort := by
    rw [getLimits_eq g, hv]
    dsimp only
    unfold clamp
    rw [max_eq_left]
    refine (min_le_right _ _).trans ?_
    have : -saf.kVelocity * (s.velocity - -saf.kPosition * (s.position - saf.softUpper)) =
      -(saf.kVelocity * (s.velocity + saf.kPosition * (s.position - saf.softUpper))) := by ring
    rw [this]; linarith
  linarith

/-- **C32.** A command within the bounds is unchanged. -/
theorem C32_transparent (s : JState F) (big : F) (h1 : (s.getLimits big).1 ≤ s.commanded) (h2 : s.commanded ≤ (s.getLimits big).2) :
    s.enforceLimits big = s := by
  have : (s.enforceLimits big).commanded = s.commanded := by rw [enforce_eq, max_eq_left h1, min_eq_left h2]
  unfold JState.enforceLimits at this ⊢
  cases s; simp_all

theorem getLimits_cmd (s : JState F) (big c : F) : JState.getLimits big { s with commanded := c } = s.getLimits big := rfl

/-- **C32.** Only the commanded effort is changed, and the bounds do not depend on it. -/
theorem C32_only_command (s : JState F) (big : F) : ∃ c, s.enforceLimits big = { s with commanded := c } ∧
    (s.enforceLimits big).getLimits big = s.getLimits big := ⟨_, rfl, rfl⟩

/-- **C32.** Limiting twice is limiting once (any joint whose bounds are ordered, see C30; in particular unprotected ones). -/
theorem C32_idempotent (s : JState F) (big : F) (hb : (s.getLimits big).1 ≤ (s.getLimits big).2) :
    (s.enforceLimits big).enforceLimits big = s.enforceLimits big := by
  apply C32_transparent
  · show (s.getLimits big).1 ≤ _
    rw [enforce_eq]; exact le_min (le_max_right _ _) hb
  · show _ ≤ (s.getLimits big).2
    rw [enforce_eq]; exact min_le_right _ _

/-- **C32.** A larger command never yields a smaller limited effort. -/
theorem C32_monotone (s : JState F) (big c c' : F) (h : c ≤ c') :
    (JState.enforceLimits big { s with commanded := c }).commanded ≤ (JState.enforceLimits big { s with commanded := c' }).commanded := by
  rw [enforce_eq, enforce_eq]
  exact min_le_min_right _ (max_le_max_right _ h)

/-- **C33.** The effort bounds of an uncalibrated joint, or one that is neither revolute nor prismatic, do not depend on the position. -/
theorem C33_not_position_limited (s : JState F) (big p : F) (h : s.calibrated = false ∨ (s.joint.type ≠ .revolute ∧ s.joint.type ≠ .prismatic)) :
    JState.getLimits big { s with position := p } = s.getLimits big := by
  unfold JState.getLimits JState.velBounds
  have : (s.calibrated && (s.joint.type == .revolute || s.joint.type == .prismatic)) = false := by
    rcases h with h | ⟨h1, h2⟩
    · simp [h]
    · simp [h1, h2]
  simp only [this, Bool.false_eq_true, if_false]

/-- **C33.** A joint without limits or without safety description is not limited, as long as commands are representable. -/
theorem C33_unprotected (s : JState F) (big : F) (h : s.joint.limits = none ∨ s.joint.safety = none)
    (hc : |s.commanded| ≤ big) : s.enforceLimits big = s := by
  have hl : s.getLimits big = (-big, big) := by
    unfold JState.getLimits
    rcases h with h | h
    · rw [h]; cases s.joint.safety <;> rfl
    · rw [h]
  have := abs_le.1 hc
  apply C32_transparent <;> rw [hl]
  · exact this.1
  · exact this.2

/-! ## Statistics -/

/-- What happens to the statistics of one joint: a control cycle samples it, or a report is published and the statistics reset. -/
inductive StatEv (F : Type) where
  | sample (x : JSample F)
  | reset

/-- Statistics after a history. -/
def JStats.after (st : JStats F) (h : List (StatEv F)) : JStats F :=
  h.foldl (fun st e => match e with | .sample x => st.update x | .reset => st.reset) st

/-- The positions sampled in a history. -/
def sampled (h : List (StatEv F)) : List F := h.filterMap (fun e => match e with | .sample x => some x.position | .reset => none)

/-- Total distance between consecutive positions. -/
def travelled : List F → F
  | a :: b :: l => |a - b| + travelled (b :: l)
  | _ => 0

theorem travelled_snoc (l : List F) (a b : F) : travelled (l ++ [a, b]) = travelled (l ++ [a]) + |a - b| := by
  induction l with
  | nil => simp [travelled]
  | cons x l ih =>
    cases l with
    | nil => simp only [List.cons_append, List.nil_append, travelled]; ring
    | cons y l =>
      simp only [List.cons_append, travelled] at ih ⊢
      rw [ih]; ring

theorem update_exact (st : JStats F) (x : JSample F) : st.update x =
    if st.initialized then
      { st with
        odometer := st.odometer + |st.oldPos - x.position|
        violated := st.violated || (x.guarded && decide (|x.measured| < |x.commanded|))
        minPos := min x.position st.minPos
        maxPos := max x.position st.maxPos
        maxVel := max |x.velocity| st.maxVel
        maxEff := max |x.measured| st.maxEff
        oldPos := x.position }
    else { st with minPos := x.position, maxPos := x.position, initialized := true, oldPos := x.position } := by
  unfold JStats.update
  rw [fmin_exact, fmax_exact, fmax_exact, fmax_exact]
  simp only [fabs_exact, FCmp.lt]

theorem after_snoc (st : JStats F) (h : List (StatEv F)) (e : StatEv F) :
    st.after (h ++ [e]) = match e with | .sample x => (st.after h).update x | .reset => (st.after h).reset := by
  simp [JStats.after]

theorem after_append (st : JStats F) (h h' : List (StatEv F)) : st.after (h ++ h') = (st.after h).after h' := by
  simp [JStats.after]

theorem sampled_append (h h' : List (StatEv F)) : sampled (h ++ h') = sampled h ++ sampled h' := by simp [sampled]

theorem after_base (old : F) (h : List (StatEv F)) :
    ((JStats.fresh old).after h).odometer = travelled (sampled h) ∧
    (((JStats.fresh old).after h).initialized = true ↔ sampled h ≠ []) ∧
    (∀ l a, sampled h = l ++ [a] → ((JStats.fresh old).after h).oldPos = a) := by
  induction h using List.reverseRecOn with
  | nil => exact ⟨rfl, by simp [JStats.after, JStats.fresh, sampled], by simp [sampled]⟩
  | append_singleton h e ih =>
    obtain ⟨h1, h2, h3⟩ := ih
    rw [after_snoc, sampled_append]
    cases e with
    | reset =>
      have : sampled ([.reset] : List (StatEv F)) = [] := rfl
      rw [this, List.append_nil]
      exact ⟨h1, h2, h3⟩
    | sample x =>
      have hs : sampled ([.sample x] : List (StatEv F)) = [x.position] := rfl
      rw [hs]
      simp only [update_exact]
      rcases List.eq_nil_or_concat (sampled h) with he | ⟨l, a, he⟩
      · have hi : ((JStats.fresh old).after h).initialized = false := by
          by_contra hx
          exact (h2.1 (by simpa using hx)) he
        simp only [hi, Bool.false_eq_true, if_false]
        rw [h1, he]
        refine ⟨rfl, by simp, ?_⟩
        intro l a hla
        have := List.append_inj' hla rfl
        simpa using this.2
      · rw [List.concat_eq_append] at he
        have hi : ((JStats.fresh old).after h).initialized = true := h2.2 (by rw [he]; simp)
        simp only [hi, if_true]
        rw [h1, h3 l a he, he]
        refine ⟨?_, by simp, ?_⟩
        · rw [List.append_assoc, List.singleton_append, travelled_snoc]
        · intro l' a' hla
          have := List.append_inj' hla rfl
          simpa using this.2

/-- **C34.** The odometer is the total distance between consecutive sampled positions, across any number of reports. -/
theorem C34_odometer (old : F) (h : List (StatEv F)) : ((JStats.fresh old).after h).odometer = travelled (sampled h) :=
  (after_base old h).1

/-- **C34.** It never decreases, and is never less than the distance between any two positions the joint had. -/
theorem C34_odometer_monotone (old : F) (h h' : List (StatEv F)) :
    ((JStats.fresh old).after h).odometer ≤ ((JStats.fresh old).after (h ++ h')).odometer := by
  induction h' using List.reverseRecOn with
  | nil => simp
  | append_singleton h' e ih =>
    refine ih.trans ?_
    rw [← List.append_assoc, after_snoc (h := h ++ h')]
    cases e with
    | reset => exact le_refl _
    | sample x =>
      simp only [update_exact]
      split
      · dsimp only; linarith [abs_nonneg (((JStats.fresh old).after (h ++ h')).oldPos - x.position)]
      · exact le_refl _

/-- Samples only: no report. -/
def samples (xs : List (JSample F)) : List (StatEv F) := xs.map .sample

theorem after_samples (st : JStats F) (hi : st.initialized = true) (xs : List (JSample F)) :
    st.after (samples xs) = { st with
      odometer := (st.after (samples xs)).odometer
      oldPos := (st.after (samples xs)).oldPos
      violated := st.violated || xs.any (fun x => x.guarded && decide (|x.measured| < |x.commanded|))
      minPos := (xs.map (·.position)).foldl min st.minPos
      maxPos := (xs.map (·.position)).foldl max st.maxPos
      maxVel := (xs.map (fun x => |x.velocity|)).foldl max st.maxVel
      maxEff := (xs.map (fun x => |x.measured|)).foldl max st.maxEff } := by
  induction xs using List.reverseRecOn with
  | nil => cases st; simp [samples, JStats.after]
  | append_singleton xs x ih =>
    have : samples (xs ++ [x]) = samples xs ++ [.sample x] := by simp [samples]
    rw [this, after_snoc]
    simp only [update_exact]
    have hi' : (st.after (samples xs)).initialized = true := by rw [ih]; exact hi
    rw [if_pos hi']
    rw [ih]
    simp [List.foldl_append, Bool.or_assoc, min_comm, max_comm]

theorem foldl_min_le (a : F) (l : List F) : l.foldl min a ≤ a ∧ (∀ x ∈ l, l.foldl min a ≤ x) ∧ (l.foldl min a = a ∨ l.foldl min a ∈ l) := by
  induction l generalizing a with
  | nil => simp
  | cons b l ih =>
    obtain ⟨h1, h2, h3⟩ := ih (min a b)
    rw [List.foldl_cons]
    refine ⟨h1.trans (min_le_left _ _), ?_, ?_⟩
    · intro x hx
      rw [List.mem_cons] at hx
      rcases hx with rfl | hx
      · exact h1.trans (min_le_right _ _)
      · exact h2 x hx
    · rcases h3 with h3 | h3
      · rcases min_choice a b with h | h
        · left; rw [h3, h]
        · right; rw [h3, h]; simp
      · right; simp [h3]

theorem le_foldl_max (a : F) (l : List F) : a ≤ l.foldl max a ∧ (∀ x ∈ l, x ≤ l.foldl max a) ∧ (l.foldl max a = a ∨ l.foldl max a ∈ l) := by
  induction l generalizing a with
  | nil => simp
  | cons b l ih =>
    obtain ⟨h1, h2, h3⟩ := ih (max a b)
    rw [List.foldl_cons]
    refine ⟨(le_max_left _ _).trans h1, ?_, ?_⟩
    · intro x hx
      rw [List.mem_cons] at hx
      rcases hx with rfl | hx
      · exact (le_max_right _ _).trans h1
      · exact h2 x hx
    · rcases h3 with h3 | h3
      · rcases max_choice a b with h | h
        · left; rw [h3, h]
        · right; rw [h3, h]; simp
      · right; simp [h3]

/-- `m` is the largest element of `l`, and 0 if there is none (for lists of non-negative numbers). -/
def IsMaxOf (m : F) (l : List F) : Prop := (l = [] ∧ m = 0) ∨ (m ∈ l ∧ ∀ x ∈ l, x ≤ m)

theorem isMaxOf_foldl (l : List F) (hl : ∀ x ∈ l, 0 ≤ x) : IsMaxOf (l.foldl max 0) l := by
  obtain ⟨h1, h2, h3⟩ := le_foldl_max 0 l
  rcases l with _ | ⟨b, l⟩
  · exact Or.inl ⟨rfl, rfl⟩
  · right
    rcases h3 with h3 | h3
    · have : b = 0 := le_antisymm ((h2 b (by simp)).trans h3.le) (hl b (by simp))
      exact ⟨by rw [h3]; simp [this], h2⟩
    · exact ⟨h3, h2⟩

/-- **C35, C36.** A report sent after at least one earlier cycle and an earlier report, with `xs` the samples since that earlier report:
velocity and effort maxima are exactly those of `xs`, the violation flag is exactly whether some sample of a guarded joint had a command
larger than the measured effort, and the reported range contains all positions in `xs`, and consists of those and at most the ends
of the range reported before. -/
theorem C35_report (old : F) (h : List (StatEv F)) (xs : List (JSample F)) (hh : sampled h ≠ []) :
    let prev := (JStats.fresh old).after h
    let st := (JStats.fresh old).after (h ++ [.reset] ++ samples xs)
    IsMaxOf st.maxVel (xs.map (fun x => |x.velocity|)) ∧ IsMaxOf st.maxEff (xs.map (fun x => |x.measured|)) ∧
    (st.violated = true ↔ ∃ x ∈ xs, x.guarded = true ∧ |x.measured| < |x.commanded|) ∧
    (∀ x ∈ xs, st.minPos ≤ x.position ∧ x.position ≤ st.maxPos) ∧
    (st.minPos = prev.maxPos ∨ st.minPos ∈ xs.map (·.position)) ∧ (st.maxPos = prev.minPos ∨ st.maxPos ∈ xs.map (·.position)) ∧
    st.minPos ≤ prev.maxPos ∧ prev.minPos ≤ st.maxPos := by
  intro prev st
  have hi : prev.initialized = true := (after_base old h).2.1.2 hh
  have hst : st = prev.reset.after (samples xs) := by
    show (JStats.fresh old).after (h ++ [.reset] ++ samples xs) = _
    rw [after_append, after_snoc]
  have hir : prev.reset.initialized = true := hi
  have hs := after_samples prev.reset hir xs
  rw [← hst] at hs
  have hv : st.violated = (xs.any (fun x => x.guarded && decide (|x.measured| < |x.commanded|))) := by rw [hs]; simp [JStats.reset]
  have hmv : st.maxVel = (xs.map (fun x => |x.velocity|)).foldl max 0 := by rw [hs]; rfl
  have hme : st.maxEff = (xs.map (fun x => |x.measured|)).foldl max 0 := by rw [hs]; rfl
  have hmin : st.minPos = (xs.map (·.position)).foldl min prev.maxPos := by rw [hs]; rfl
  have hmax : st.maxPos = (xs.map (·.position)).foldl max prev.minPos := by rw [hs]; rfl
  obtain ⟨a1, a2, a3⟩ := foldl_min_le prev.maxPos (xs.map (·.position))
  obtain ⟨b1, b2, b3⟩ := le_foldl_max prev.minPos (xs.map (·.position))
  refine ⟨?_, ?_, ?_, ?_, ?_, ?_, ?_, ?_⟩
  · rw [hmv]; apply isMaxOf_foldl; simp
  · rw [hme]; apply isMaxOf_foldl; simp
  · rw [hv, List.any_eq_true]; simp
  · intro x hx
    rw [hmin, hmax]
    exact ⟨a2 _ (List.mem_map.2 ⟨x, hx, rfl⟩), b2 _ (List.mem_map.2 ⟨x, hx, rfl⟩)⟩
  · rw [hmin]; exact a3
  · rw [hmax]; exact b3
  · rw [hmin]; exact a1
  · rw [hmax]; exact b1

/-- **C35, C36, first report.** Before the first report, with `x0` the very first sample and `xs` the later ones: the reported range is
exactly that of all positions; maxima and violations are those of the samples after the first. -/
theorem C35_first_report (old : F) (x0 : JSample F) (xs : List (JSample F)) :
    let st := (JStats.fresh old).after (samples (x0 :: xs))
    IsMaxOf st.maxVel (xs.map (fun x => |x.velocity|)) ∧ IsMaxOf st.maxEff (xs.map (fun x => |x.measured|)) ∧
    (st.violated = true ↔ ∃ x ∈ xs, x.guarded = true ∧ |x.measured| < |x.commanded|) ∧
    (∀ x ∈ x0 :: xs, st.minPos ≤ x.position ∧ x.position ≤ st.maxPos) ∧
    st.minPos ∈ (x0 :: xs).map (·.position) ∧ st.maxPos ∈ (x0 :: xs).map (·.position) := by
  intro st
  have h1 : st = ((JStats.fresh old).update x0).after (samples xs) := rfl
  have hu : (JStats.fresh old).update x0 = { JStats.fresh old with minPos := x0.position, maxPos := x0.position, initialized := true, oldPos := x0.position } := by
    rw [update_exact]; simp [JStats.fresh]
  have hs := after_samples ((JStats.fresh old).update x0) (by rw [hu]) xs
  rw [← h1] at hs
  have hv : st.violated = (xs.any (fun x => x.guarded && decide (|x.measured| < |x.commanded|))) := by rw [hs, hu]; simp [JStats.fresh]
  have hmv : st.maxVel = (xs.map (fun x => |x.velocity|)).foldl max 0 := by rw [hs, hu]; rfl
  have hme : st.maxEff = (xs.map (fun x => |x.measured|)).foldl max 0 := by rw [hs, hu]; rfl
  have hmin : st.minPos = (xs.map (·.position)).foldl min x0.position := by rw [hs, hu]
  have hmax : st.maxPos = (xs.map (·.position)).foldl max x0.position := by rw [hs, hu]
  obtain ⟨a1, a2, a3⟩ := foldl_min_le x0.position (xs.map (·.position))
  obtain ⟨b1, b2, b3⟩ := le_foldl_max x0.position (xs.map (·.position))
  refine ⟨?_, ?_, ?_, ?_, ?_, ?_⟩
  · rw [hmv]; apply isMaxOf_foldl; simp
  · rw [hme]; apply isMaxOf_foldl; simp
  · rw [hv, List.any_eq_true]; simp
  · intro x hx
    rw [hmin, hmax]
    rw [List.mem_cons] at hx
    rcases hx with rfl | hx
    · exact ⟨a1, b1⟩
    · exact ⟨a2 _ (List.mem_map.2 ⟨x, hx, rfl⟩), b2 _ (List.mem_map.2 ⟨x, hx, rfl⟩)⟩
  · rw [hmin, List.map_cons, List.mem_cons]; exact a3
  · rw [hmax, List.map_cons, List.mem_cons]; exact b3

/-- **C36.** The violation flag in a report, for any history. -/
theorem C36_violation (old : F) (h : List (StatEv F)) (xs : List (JSample F)) (hh : sampled h ≠ []) :
    ((JStats.fresh old).after (h ++ [.reset] ++ samples xs)).violated = true ↔ ∃ x ∈ xs, x.guarded = true ∧ |x.measured| < |x.commanded| :=
  (C35_report old h xs hh).2.2.1

end exact

attribute [local instance] exactCmp in
/-- **Finding (C35).** The reported range is not the range of the positions since the last report: the joint moves from 0 to 1, a report is
sent, it then stays at 5; the next report says its position ranged from 1 to 5. -/
theorem C35_range_counterexample :
    let x (p : ℚ) : StatEv ℚ := .sample ⟨false, p, 0, 0, 0⟩
    let st := (JStats.fresh 0).after [x 0, x 1, .reset, x 5, x 5]
    st.minPos = 1 ∧ st.maxPos = 5 := by
  decide +kernel

attribute [local instance] exactCmp in
/-- **Finding (C35).** Two reports without a cycle between them: the second says minimum 1, maximum 0. -/
theorem C35_inverted_counterexample :
    let x (p : ℚ) : StatEv ℚ := .sample ⟨false, p, 0, 0, 0⟩
    let st := (JStats.fresh 0).after [x 0, x 1, .reset]
    st.minPos = 1 ∧ st.maxPos = 0 := by
  decide +kernel

/-! A joint beyond its upper soft limit, meeting the hypotheses of C30–C32. -/

def exampleJoint : UJoint ℚ := ⟨"elbow", .revolute, some ⟨0, 2, 30, 3⟩, some ⟨1/10, 19/10, 20, 4⟩, none⟩
example : Guarded exampleJoint ⟨0, 2, 30, 3⟩ ⟨1/10, 19/10, 20, 4⟩ := by
  refine ⟨rfl, rfl, ?_, ?_, ?_, ?_, ?_⟩ <;> norm_num
def exampleState : JState ℚ := ⟨exampleJoint, 39/20, 1/2, 3, .fresh 0, 25, true, 0⟩
example : exampleState.posLimited := ⟨rfl, Or.inl rfl⟩
attribute [local instance] exactCmp in
example : (exampleState.enforceLimits (10^300)).commanded = -6 ∧ (exampleState.getLimits (10^300)).1 < 25 := by decide +kernel

/-! ## Concrete cases meeting the hypotheses of the theorems above (the elbow joint of `exampleJoint`) -/

section witnesses
attribute [local instance] exactCmp

theorem exampleJoint_guarded : Guarded exampleJoint ⟨0, 2, 30, 3⟩ ⟨1/10, 19/10, 20, 4⟩ := by
  refine ⟨rfl, rfl, ?_, ?_, ?_, ?_, ?_⟩ <;> norm_num

/-- `C30_bounds_ordered`, `C30_limited_in_bounds`: at 39/20 rad and 1/2 rad/s the window is [-14, -6]; the command 25 becomes -6. -/
example : exampleState.getLimits (10^300) = (-14, -6) := by decide +kernel
example := C30_bounds_ordered (s := exampleState) exampleJoint_guarded (10^300)
example := C30_limited_in_bounds (s := exampleState) exampleJoint_guarded (10^300)
/-- `C31_soft_upper`: above the upper soft limit and moving up. -/
example : (exampleState.enforceLimits (10^300)).commanded ≤ 0 :=
  C31_soft_upper (s := exampleState) exampleJoint_guarded _ ⟨rfl, .inl rfl⟩ (by norm_num [exampleState]) (by norm_num [exampleState])
/-- `C31_soft_lower`: below the lower soft limit and moving down, commanded down. -/
example : 0 ≤ (JState.enforceLimits (10^300) { exampleState with position := 1/20, velocity := -1/2, commanded := -25 }).commanded :=
  C31_soft_lower (s := { exampleState with position := 1/20, velocity := -1/2, commanded := -25 }) exampleJoint_guarded _ ⟨rfl, .inl rfl⟩ (by norm_num) (by norm_num)
/-- `C31_velocity`: faster than the velocity limit in either direction. -/
example : (JState.enforceLimits (10^300) { exampleState with position := 1, velocity := 4 }).commanded ≤ 0 :=
  (C31_velocity (s := { exampleState with position := 1, velocity := 4 }) exampleJoint_guarded _).1 (by norm_num)
example : 0 ≤ (JState.enforceLimits (10^300) { exampleState with position := 1, velocity := -4, commanded := -25 }).commanded :=
  (C31_velocity (s := { exampleState with position := 1, velocity := -4, commanded := -25 }) exampleJoint_guarded _).2 (by norm_num)
/-- `C31_full_braking`: 0.05 rad beyond the soft limit at 7 rad/s, commanded +25: the command becomes -30. -/
example : (JState.enforceLimits (10^300) { exampleState with velocity := 7 }).commanded = -30 :=
  C31_full_braking (s := { exampleState with velocity := 7 }) exampleJoint_guarded _ ⟨rfl, .inl rfl⟩ (by norm_num [exampleState]) (by norm_num [exampleState])
    (by norm_num [exampleState])
/-- `C32_transparent`: -10 lies in the window [-14, -6]. -/
example : JState.enforceLimits (10^300) { exampleState with commanded := -10 } = { exampleState with commanded := -10 } :=
  C32_transparent _ _ (by decide +kernel) (by decide +kernel)
/-- `C32_idempotent`, `C32_monotone`. -/
example := C32_idempotent exampleState (10^300) (by decide +kernel)
example := C32_monotone exampleState (10^300) (-20) 25 (by norm_num)
/-- `C33_not_position_limited`: an uncalibrated joint far outside its soft limits, and a continuous joint. -/
example : JState.getLimits (10^300) { exampleState with calibrated := false, position := 100 } = JState.getLimits (10^300) { exampleState with calibrated := false } :=
  C33_not_position_limited { exampleState with calibrated := false } _ 100 (.inl rfl)
example : JState.getLimits (10^300) { exampleState with joint := { exampleJoint with type := .continuous }, position := 100 } =
    JState.getLimits (10^300) { exampleState with joint := { exampleJoint with type := .continuous } } :=
  C33_not_position_limited { exampleState with joint := { exampleJoint with type := .continuous } } _ 100 (.inr ⟨by decide, by decide⟩)
/-- `C33_unprotected`: a joint without a safety element. -/
example : JState.enforceLimits (10^300) { exampleState with joint := { exampleJoint with safety := none } } = { exampleState with joint := { exampleJoint with safety := none } } :=
  C33_unprotected { exampleState with joint := { exampleJoint with safety := none } } _ (.inr rfl) (by simp only [exampleState]; decide +kernel)
/-- `C34_odometer`: 0 → 2 → 1, a report, → 5: seven radians. -/
example : ((JStats.fresh (99 : ℚ)).after [.sample ⟨false, 0, 0, 0, 0⟩, .sample ⟨false, 2, 0, 0, 0⟩, .sample ⟨false, 1, 0, 0, 0⟩, .reset, .sample ⟨false, 5, 0, 0, 0⟩]).odometer = 7 := by
  decide +kernel
/-- `C35_report`, `C36_violation`: a history before the report, and after it a sample that violates the limits. -/
example : ((JStats.fresh (99 : ℚ)).after ([.sample ⟨true, 0, 0, 0, 0⟩] ++ [.reset] ++ samples [⟨true, 1, -3, 2, 1⟩, ⟨true, 2, 1, 2, -5⟩])).violated = true :=
  (C36_violation 99 _ _ (by simp [sampled])).2 ⟨⟨true, 2, 1, 2, -5⟩, by simp, rfl, by norm_num⟩
example : ((JStats.fresh (99 : ℚ)).after ([.sample ⟨true, 0, 0, 0, 0⟩] ++ [.reset] ++ samples [⟨true, 1, -3, 2, 1⟩, ⟨true, 2, 1, 2, -5⟩])).maxVel = 3 := by
  decide +kernel

end witnesses

end Pr2
