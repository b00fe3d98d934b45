import Verif.Spec.Round
import Verif.Props.Plant

/-!
# C103: soft limits in floating point arithmetic

C30 and C31 are about exact arithmetic, C29 about any arithmetic (but only about the effort limit).  Here: correctly rounded arithmetic with overflow, infinities and NaN.
-/

namespace Pr2
open IeeeLike
set_option linter.unusedSectionVars false

section
variable {F : Type} [FCmp F] [Zero F] [Add F] [Sub F] [Mul F] [iDiv : Div F] [Neg F] [FLit F] [iTrig : FTrig F] [IeeeRound F]

/-! ## Specification -/

/-- A joint with limits and safety description, whose parameters are finite numbers: effort and velocity limit, gains, soft limits. -/
structure GuardedF (j : UJoint F) (e v kp kv lo hi : ℝ) : Prop where
  ex : ∃ lim saf, j.limits = some lim ∧ j.safety = some saf ∧ IsVal lim.effort e ∧ IsVal lim.velocity v ∧ IsVal saf.kPosition kp ∧ IsVal saf.kVelocity kv ∧
    IsVal saf.softLower lo ∧ IsVal saf.softUpper hi
  effort : 0 ≤ e
  velocity : 0 ≤ v
  kp : 0 ≤ kp
  kv : 0 ≤ kv
  soft : lo ≤ hi

/-! ## Lemmas -/

/-- `std::max(-l, std::min(l, x))` in values. -/
noncomputable def hiClamp (l : ℝ) : Option EReal → EReal
  | none => l
  | some x => max (-l) (min l x)

/-- `std::min(l, std::max(-l, x))` in values. -/
noncomputable def loClamp (l : ℝ) : Option EReal → EReal
  | none => -l
  | some x => min l (max (-l) x)

theorem cmax_val {a b : F} {x : EReal} (ha : val a = some x) : val (cmax a b) = some (match val b with | none => x | some y => max x y) := by
  unfold cmax
  rcases hb : val b with _ | y
  · rw [if_neg (by rw [lt_iff]; rintro ⟨_, _, _, h, _⟩; rw [hb] at h; cases h)]; exact ha
  · by_cases h : x < y
    · rw [if_pos ((lt_iff a b).2 ⟨x, y, ha, hb, h⟩), hb]; simp [h.le]
    · rw [if_neg (by
        rw [lt_iff]; rintro ⟨x', y', h1, h2, h3⟩
        rw [ha] at h1; rw [hb] at h2; cases h1; cases h2; exact h h3), ha]
      simp [not_lt.1 h]

theorem cmin_val {a b : F} {x : EReal} (ha : val a = some x) : val (cmin a b) = some (match val b with | none => x | some y => min x y) := by
  unfold cmin
  rcases hb : val b with _ | y
  · rw [if_neg (by rw [lt_iff]; rintro ⟨_, _, h, _, _⟩; rw [hb] at h; cases h)]; exact ha
  · by_cases h : y < x
    · rw [if_pos ((lt_iff b a).2 ⟨y, x, hb, ha, h⟩), hb]; simp [h.le]
    · rw [if_neg (by
        rw [lt_iff]; rintro ⟨x', y', h1, h2, h3⟩
        rw [ha] at h2; rw [hb] at h1; cases h1; cases h2; exact h h3), ha]
      simp [not_lt.1 h]

theorem neg_isVal {a : F} {x : ℝ} (h : IsVal a x) : IsVal (-a) (-x) := by
  unfold IsVal at h ⊢
  rw [neg, h]; rfl

theorem hiClamp_val {a b : F} {l : ℝ} (ha : IsVal a l) (h0 : 0 ≤ l) : val (cmax (-a) (cmin a b)) = some (hiClamp l (val b)) := by
  have h1 := cmin_val (b := b) (show val a = some (l : EReal) from ha)
  have h2 := cmax_val (b := cmin a b) (show val (-a) = some ((-l : ℝ) : EReal) from neg_isVal ha)
  rw [h2, h1]
  unfold hiClamp
  cases val b with
  | none =>
    simp only [Option.some.injEq]
    rw [max_eq_right (by exact_mod_cast (by linarith : -l ≤ l))]
  | some y => simp

theorem loClamp_val {a b : F} {l : ℝ} (ha : IsVal a l) (h0 : 0 ≤ l) : val (cmin a (cmax (-a) b)) = some (loClamp l (val b)) := by
  have h1 := cmax_val (b := b) (show val (-a) = some ((-l : ℝ) : EReal) from neg_isVal ha)
  have h2 := cmin_val (b := cmax (-a) b) (show val a = some (l : EReal) from ha)
  rw [h2, h1]
  unfold loClamp
  cases val b with
  | none =>
    simp only [Option.some.injEq]
    rw [min_eq_right (by exact_mod_cast (by linarith : -l ≤ l))]
    simp
  | some y => simp

theorem clamp_bounds {l : ℝ} (h0 : 0 ≤ l) (o : Option EReal) : (-l : EReal) ≤ loClamp l o ∧ loClamp l o ≤ l ∧ (-l : EReal) ≤ hiClamp l o ∧ hiClamp l o ≤ l := by
  have h : (-l : EReal) ≤ l := by exact_mod_cast (by linarith : -l ≤ l)
  cases o with
  | none => exact ⟨le_refl _, h, h, le_refl _⟩
  | some x => exact ⟨le_min h (le_max_left _ _), min_le_left _ _, le_max_left _ _, max_le h (min_le_left _ _)⟩

theorem real_between {l : ℝ} {x : EReal} (h1 : (-l : EReal) ≤ x) (h2 : x ≤ l) : ∃ r : ℝ, x = r ∧ -l ≤ r ∧ r ≤ l := by
  induction x with
  | bot => exact absurd h1 (by simp [← EReal.coe_neg])
  | top => exact absurd h2 (by simp)
  | coe r => exact ⟨r, rfl, by exact_mod_cast h1, by exact_mod_cast h2⟩

/-- Larger inputs do not make the lower bound exceed the upper one. -/
theorem clamp_ordered {l : ℝ} (h0 : 0 ≤ l) (o o' : Option EReal) (h : ∀ x y, o = some x → o' = some y → x ≤ y) : loClamp l o ≤ hiClamp l o' := by
  have hl : (-l : EReal) ≤ l := by exact_mod_cast (by linarith : -l ≤ l)
  rcases o with _ | x
  · exact (clamp_bounds h0 o').2.2.1
  · rcases o' with _ | y
    · exact (clamp_bounds h0 (some x)).2.1
    · unfold loClamp hiClamp
      dsimp only
      have hxy := h x y rfl rfl
      refine le_max_iff.2 ?_
      rcases le_total x (-l) with h1 | h1
      · left; rw [max_eq_left h1]; exact min_le_right _ _
      · right; rw [max_eq_right h1]; exact min_le_min (le_refl _) hxy

variable (F) in
/-- The rounded difference of two finite numbers. -/
noncomputable abbrev rdiff (x y : ℝ) : EReal := IeeeRound.rd F (x - y)

/-- The product of a negated gain and a rounded difference. -/
theorem gain_sign {k a b : F} {K x y : ℝ} (hk : IsVal k K) (ha : IsVal a x) (hb : IsVal b y) (h0 : 0 < K) :
    ∃ z, val (-k * (a - b)) = some z ∧ (y ≤ x → z ≤ 0) ∧ (x ≤ y → 0 ≤ z) := by
  have hs := IeeeRound.sub a b x y ha hb
  have hn := neg_isVal hk
  have hneg : ¬ (0 < -K) := by linarith
  have hne : -K ≠ 0 := by linarith
  have s1 : y ≤ x → 0 ≤ IeeeRound.rd F (x - y) := fun h => by
    rw [← IeeeRound.zero (F := F)]; exact IeeeRound.mono (by linarith)
  have s2 : x ≤ y → IeeeRound.rd F (x - y) ≤ 0 := fun h => by
    rw [← IeeeRound.zero (F := F)]; exact IeeeRound.mono (by linarith)
  generalize IeeeRound.rd F (x - y) = d at hs s1 s2
  induction d with
  | bot =>
    rw [IeeeRound.mul_bot _ _ _ hn hs, if_neg hne, if_neg hneg]
    exact ⟨_, rfl, fun h => absurd (s1 h) (by simp), fun _ => le_top⟩
  | top =>
    rw [IeeeRound.mul_top _ _ _ hn hs, if_neg hne, if_neg hneg]
    exact ⟨_, rfl, fun _ => bot_le, fun h => absurd (s2 h) (by simp)⟩
  | coe d =>
    rw [IeeeRound.mul _ _ _ _ hn hs]
    refine ⟨_, rfl, fun h => ?_, fun h => ?_⟩
    · have hd : 0 ≤ d := by exact_mod_cast s1 h
      rw [← IeeeRound.zero (F := F)]; exact IeeeRound.mono (by nlinarith)
    · have hd : d ≤ 0 := by exact_mod_cast s2 h
      rw [← IeeeRound.zero (F := F)]; exact IeeeRound.mono (by nlinarith)

theorem gain_anti {k a b a' b' : F} {K x y x' y' : ℝ} (hk : IsVal k K) (ha : IsVal a x) (hb : IsVal b y) (ha' : IsVal a' x') (hb' : IsVal b' y')
    (h0 : 0 ≤ K) (h : x' - y' ≤ x - y) : ∀ z z', val (-k * (a - b)) = some z → val (-k * (a' - b')) = some z' → z ≤ z' := by
  intro z z' hz hz'
  have hs := IeeeRound.sub a b x y ha hb
  have hs' := IeeeRound.sub a' b' x' y' ha' hb'
  have hn := neg_isVal hk
  have hm : IeeeRound.rd F (x' - y') ≤ IeeeRound.rd F (x - y) := IeeeRound.mono h
  have hneg : ¬ (0 < -K) := by linarith
  generalize IeeeRound.rd F (x - y) = d at hs hm
  generalize IeeeRound.rd F (x' - y') = d' at hs' hm
  induction d with
  | bot =>
    have : d' = ⊥ := le_bot_iff.1 hm
    subst this
    rw [IeeeRound.mul_bot _ _ _ hn hs] at hz
    rw [IeeeRound.mul_bot _ _ _ hn hs'] at hz'
    rw [hz] at hz'; cases hz'; exact le_refl _
  | top =>
    rw [IeeeRound.mul_top _ _ _ hn hs] at hz
    split at hz
    · cases hz
    · cases hz; exact bot_le
  | coe d =>
    induction d' with
    | bot =>
      rw [IeeeRound.mul_bot _ _ _ hn hs'] at hz'
      split at hz'
      · cases hz'
      · cases hz'; exact le_top
    | top => exact absurd hm (by simp)
    | coe d' =>
      rw [IeeeRound.mul _ _ _ _ hn hs] at hz
      rw [IeeeRound.mul _ _ _ _ hn hs'] at hz'
      cases hz; cases hz'
      have : d' ≤ d := by exact_mod_cast hm
      exact IeeeRound.mono (by nlinarith)

/-- The velocity bounds are finite, ordered and within the limit; and at a soft limit they point inwards. -/
theorem velBounds_float {s : JState F} {v kp lo hi x : ℝ} {lim : JLimits F} {saf : JSafety F} (hv : IsVal lim.velocity v) (hkp : IsVal saf.kPosition kp)
    (hlo : IsVal saf.softLower lo) (hhi : IsVal saf.softUpper hi) (v0 : 0 ≤ v) (kp0 : 0 ≤ kp) (hs : lo ≤ hi) (hx : IsVal s.position x) :
    ∃ a b, IsVal (s.velBounds lim saf).1 a ∧ IsVal (s.velBounds lim saf).2 b ∧ -v ≤ a ∧ a ≤ b ∧ b ≤ v ∧
      (0 < kp → s.posLimited → (hi ≤ x → b ≤ 0) ∧ (x ≤ lo → 0 ≤ a)) := by
  unfold JState.velBounds
  by_cases hp : s.posLimited
  · have hc : (s.calibrated && (s.joint.type == .revolute || s.joint.type == .prismatic)) = true := by
      obtain ⟨h1, h2⟩ := hp
      rw [h1, Bool.true_and, Bool.or_eq_true, beq_iff_eq, beq_iff_eq]; exact h2
    rw [if_pos hc]
    have e1 := loClamp_val (b := -saf.kPosition * (s.position - saf.softLower)) hv v0
    have e2 := hiClamp_val (b := -saf.kPosition * (s.position - saf.softUpper)) hv v0
    obtain ⟨b1, b2, -, -⟩ := clamp_bounds v0 (val (-saf.kPosition * (s.position - saf.softLower)))
    obtain ⟨-, -, b3, b4⟩ := clamp_bounds v0 (val (-saf.kPosition * (s.position - saf.softUpper)))
    obtain ⟨a, ha, a1, a2⟩ := real_between b1 b2
    obtain ⟨b, hb, a3, a4⟩ := real_between b3 b4
    have hord := clamp_ordered v0 _ _ (gain_anti hkp hx hlo hx hhi kp0 (by linarith))
    refine ⟨a, b, by rw [ha] at e1; exact e1, by rw [hb] at e2; exact e2, a1, by rw [ha, hb] at hord; exact_mod_cast hord, a4, fun k0 _ => ⟨fun h => ?_, fun h => ?_⟩⟩
    · obtain ⟨z, hz, z1, -⟩ := gain_sign hkp hx hhi k0
      rw [hz] at hb
      have : (b : EReal) ≤ 0 := by
        rw [← hb]
        exact max_le (by exact_mod_cast (by linarith : -v ≤ 0)) ((min_le_right _ _).trans (z1 h))
      exact_mod_cast this
    · obtain ⟨z, hz, -, z2⟩ := gain_sign hkp hx hlo k0
      rw [hz] at ha
      have : (0 : EReal) ≤ a := by
        rw [← ha]
        exact le_min (by exact_mod_cast v0) ((z2 h).trans (le_max_right _ _))
      exact_mod_cast this
  · have hc : ¬ (s.calibrated && (s.joint.type == .revolute || s.joint.type == .prismatic)) = true := by
      rw [Bool.and_eq_true, Bool.or_eq_true, beq_iff_eq, beq_iff_eq]; exact hp
    rw [if_neg hc]
    exact ⟨-v, v, neg_isVal hv, hv, le_refl _, by linarith, le_refl _, fun _ h => absurd h hp⟩

/-- The effort bounds. -/
theorem getLimits_float {s : JState F} {e v kp kv lo hi x w : ℝ} (g : GuardedF s.joint e v kp kv lo hi) (big : F) (hx : IsVal s.position x)
    (hw : IsVal s.velocity w) :
    ∃ a b, IsVal (s.getLimits big).1 a ∧ IsVal (s.getLimits big).2 b ∧ -e ≤ a ∧ a ≤ b ∧ b ≤ e ∧
      (0 < kv → (v ≤ w → b ≤ 0) ∧ (w ≤ -v → 0 ≤ a) ∧
        (0 < kp → s.posLimited → (hi ≤ x → 0 ≤ w → b ≤ 0) ∧ (x ≤ lo → w ≤ 0 → 0 ≤ a))) := by
  obtain ⟨⟨lim, saf, hl, hs, he, hv, hkp, hkv, hlo, hhi⟩, e0, v0, kp0, kv0, hsoft⟩ := g
  obtain ⟨p, q, hp, hq, p1, pq, q1, hin⟩ := velBounds_float (s := s) hv hkp hlo hhi v0 kp0 hsoft hx
  unfold JState.getLimits
  rw [hs, hl]
  dsimp only
  have e1 := loClamp_val (b := -saf.kVelocity * (s.velocity - (s.velBounds lim saf).1)) he e0
  have e2 := hiClamp_val (b := -saf.kVelocity * (s.velocity - (s.velBounds lim saf).2)) he e0
  obtain ⟨b1, b2, -, -⟩ := clamp_bounds e0 (val (-saf.kVelocity * (s.velocity - (s.velBounds lim saf).1)))
  obtain ⟨-, -, b3, b4⟩ := clamp_bounds e0 (val (-saf.kVelocity * (s.velocity - (s.velBounds lim saf).2)))
  obtain ⟨a, ha, a1, a2⟩ := real_between b1 b2
  obtain ⟨b, hb, a3, a4⟩ := real_between b3 b4
  have hord := clamp_ordered e0 _ _ (gain_anti hkv hw hp hw hq kv0 (by linarith))
  have up : 0 < kv → q ≤ w → b ≤ 0 := by
    intro k0 h
    obtain ⟨z, hz, z1, -⟩ := gain_sign hkv hw hq k0
    rw [hz] at hb
    have : (b : EReal) ≤ 0 := by
      rw [← hb]
      exact max_le (by exact_mod_cast (by linarith : -e ≤ 0)) ((min_le_right _ _).trans (z1 h))
    exact_mod_cast this
  have down : 0 < kv → w ≤ p → 0 ≤ a := by
    intro k0 h
    obtain ⟨z, hz, -, z2⟩ := gain_sign hkv hw hp k0
    rw [hz] at ha
    have : (0 : EReal) ≤ a := by
      rw [← ha]
      exact le_min (by exact_mod_cast e0) ((z2 h).trans (le_max_right _ _))
    exact_mod_cast this
  refine ⟨a, b, by rw [ha] at e1; exact e1, by rw [hb] at e2; exact e2, a1, by rw [ha, hb] at hord; exact_mod_cast hord, a4, fun k0 => ⟨fun h => up k0 (q1.trans h),
    fun h => down k0 (h.trans p1), fun k1 hpl => ⟨fun h h' => up k0 (((hin k1 hpl).1 h).trans h'), fun h h' => down k0 (h'.trans ((hin k1 hpl).2 h))⟩⟩⟩

/-! ## Theorems -/

/-- **C103.**  The effort bounds are finite numbers, ordered and within the effort limit, and a command that is not NaN ends up between them; whatever is rounded and
whatever overflows. -/
theorem C103_ordered {s : JState F} {e v kp kv lo hi x w : ℝ} (g : GuardedF s.joint e v kp kv lo hi) (big : F) (hx : IsVal s.position x)
    (hw : IsVal s.velocity w) :
    ∃ a b, IsVal (s.getLimits big).1 a ∧ IsVal (s.getLimits big).2 b ∧ -e ≤ a ∧ a ≤ b ∧ b ≤ e ∧
      (val s.commanded ≠ none → ∃ y, IsVal (s.enforceLimits big).commanded y ∧ a ≤ y ∧ y ≤ b) := by
  obtain ⟨a, b, ha, hb, h1, h2, h3, -⟩ := getLimits_float g big hx hw
  refine ⟨a, b, ha, hb, h1, h2, h3, fun hc => ?_⟩
  obtain ⟨c, hc⟩ := Option.ne_none_iff_exists'.1 hc
  unfold JState.enforceLimits
  dsimp only
  have e1 := cmax_val (b := (s.getLimits big).1) hc
  rw [show val (s.getLimits big).1 = some (a : EReal) from ha] at e1
  have e2 := cmin_val (b := (s.getLimits big).2) e1
  rw [show val (s.getLimits big).2 = some (b : EReal) from hb] at e2
  dsimp only at e2
  have k1 : (a : EReal) ≤ min (max c a) b := le_min (le_max_right _ _) (by exact_mod_cast h2)
  have k2 : min (max c a) b ≤ (b : EReal) := min_le_right _ _
  generalize min (max c (a : EReal)) (b : EReal) = y at *
  induction y with
  | bot => exact absurd k1 (by simp)
  | top => exact absurd k2 (by simp)
  | coe y => exact ⟨y, e2, by exact_mod_cast k1, by exact_mod_cast k2⟩

/-- A joint state's command pushes inwards (or is NaN), if the joint is at a limit: at or beyond a soft limit and not moving inwards, or at the velocity limit. -/
structure PushesBack (s : JState F) (v lo hi x w : ℝ) : Prop where
  upper : s.posLimited → hi ≤ x → 0 ≤ w → ∀ y, val s.commanded = some y → y ≤ 0
  lower : s.posLimited → x ≤ lo → w ≤ 0 → ∀ y, val s.commanded = some y → 0 ≤ y
  fast : v ≤ w → ∀ y, val s.commanded = some y → y ≤ 0
  fastBack : w ≤ -v → ∀ y, val s.commanded = some y → 0 ≤ y

/-- **C103.**  With positive gains, the limited command pushes back. -/
theorem C103_pushes_back {s : JState F} {e v kp kv lo hi x w : ℝ} (g : GuardedF s.joint e v kp kv lo hi) (hkp : 0 < kp) (hkv : 0 < kv) (big : F)
    (hx : IsVal s.position x) (hw : IsVal s.velocity w) : PushesBack (s.enforceLimits big) v lo hi x w := by
  obtain ⟨a, b, ha, hb, -, -, -, hin⟩ := getLimits_float g big hx hw
  obtain ⟨a', b', ha', hb', -, -, -, hc⟩ := C103_ordered g big hx hw
  have e1 : a' = a := by have h : val _ = _ := ha; have h' : val _ = _ := ha'; rw [h] at h'; exact_mod_cast (Option.some.inj h').symm
  have e2 : b' = b := by have h : val _ = _ := hb; have h' : val _ = _ := hb'; rw [h] at h'; exact_mod_cast (Option.some.inj h').symm
  subst e1; subst e2
  have key : ∀ y, val (s.enforceLimits big).commanded = some y → ∃ r : ℝ, y = r ∧ a' ≤ r ∧ r ≤ b' := by
    intro y hy
    have hne : val s.commanded ≠ none := by
      intro e
      rw [C29_nan_passes big s e] at hy; cases hy
    obtain ⟨r, hr, h1, h2⟩ := hc hne
    have hr : val _ = _ := hr
    rw [hr] at hy; cases hy
    exact ⟨r, rfl, h1, h2⟩
  obtain ⟨i1, i2, i3⟩ := hin hkv
  constructor
  · intro hp h1 h2 y hy
    obtain ⟨r, rfl, k1, k2⟩ := key y hy
    have := ((i3 hkp hp).1 h1 h2)
    exact_mod_cast k2.trans this
  · intro hp h1 h2 y hy
    obtain ⟨r, rfl, k1, k2⟩ := key y hy
    have := ((i3 hkp hp).2 h1 h2)
    exact_mod_cast this.trans k1
  · intro h y hy
    obtain ⟨r, rfl, k1, k2⟩ := key y hy
    exact_mod_cast k2.trans (i1 h)
  · intro h y hy
    obtain ⟨r, rfl, k1, k2⟩ := key y hy
    exact_mod_cast (i2 h).trans k1

/-- **C103.**  So in the running system, whatever is loaded and whatever the controllers command: in every cycle, the command sent to a joint at a limit pushes back. -/
theorem C103_running {big : F} {m : Bool} {d : RtData F} (hd : d.Good) {p : Plant F} (h : Plant.Reach big m d PlantIn.Tame p) :
    ∀ r ∈ p.cycles, ∀ j ∈ r.sent.joints, ∀ e v kp kv lo hi x w : ℝ, GuardedF j.joint e v kp kv lo hi → 0 < kp → 0 < kv → IsVal j.position x → IsVal j.velocity w →
      PushesBack j v lo hi x w ∧ ∀ y, val j.commanded = some y → ∃ z : ℝ, y = z ∧ |z| ≤ e := by
  intro r hr j hj e v kp kv lo hi x w g hkp hkv hx hw
  obtain ⟨s, hs, he⟩ := (h.ginv hd).ready r hr
  rw [(C48_effort_only_commands _ _ hs he).2] at hj
  obtain ⟨j0, _, rfl⟩ := List.mem_map.1 hj
  refine ⟨C103_pushes_back (s := j0) g hkp hkv big hx hw, fun y hy => ?_⟩
  obtain ⟨a, b, -, -, h1, -, h2, hc⟩ := C103_ordered (s := j0) g big hx hw
  have hne : val j0.commanded ≠ none := by
    intro e
    rw [C29_nan_passes big j0 e] at hy; cases hy
  obtain ⟨z, hz, z1, z2⟩ := hc hne
  have hz : val _ = _ := hz
  rw [hz] at hy; cases hy
  exact ⟨z, rfl, abs_le.2 ⟨h1.trans z1, z2.trans h2⟩⟩

/-- **C103.**  And a motor behind a simple transmission pushes the same way as its joint: the command it gets is zero or has the sign of the exact quotient. -/
theorem C103_motor (t : SimpleT F) (as as' : List (Actuator F)) (js : List (JState F)) (hf : t.propagateEffort js as = some as')
    {k y : ℝ} (hk : IsVal t.reduction k) (h0 : k ≠ 0) (hy : ∀ j ∈ js.head?, IsVal j.commanded y) :
    ∀ a ∈ as', ∃ z, val a.effort = some z ∧ (0 ≤ y / k → 0 ≤ z) ∧ (y / k ≤ 0 → z ≤ 0) := by
  have key : ∀ j : JState F, IsVal j.commanded y → ∃ z, val (j.commanded / t.reduction) = some z ∧ (0 ≤ y / k → 0 ≤ z) ∧ (y / k ≤ 0 → z ≤ 0) := by
    intro j hj
    refine ⟨_, IeeeRound.div _ _ _ _ hj hk h0, fun h => ?_, fun h => ?_⟩ <;> (rw [← IeeeRound.zero (F := F)]; exact IeeeRound.mono h)
  unfold SimpleT.propagateEffort at hf
  split at hf
  · cases hf
    intro a ha
    cases List.mem_singleton.1 ha
    exact key _ (hy _ rfl)
  · cases hf
    intro a ha
    cases List.mem_singleton.1 ha
    exact key _ (hy _ rfl)
  · cases hf

end

/-! ## Double precision -/

/-- An elbow: limits 10 Nm and 2 rad/s, gains 5 and 3, soft limits ∓1. -/
noncomputable def fullElbow : UJoint Full :=
  ⟨"elbow", .revolute, some ⟨⟨some (-2 : ℝ)⟩, ⟨some (2 : ℝ)⟩, ⟨some (10 : ℝ)⟩, ⟨some (2 : ℝ)⟩⟩, some ⟨⟨some (-1 : ℝ)⟩, ⟨some (1 : ℝ)⟩, ⟨some (5 : ℝ)⟩, ⟨some (3 : ℝ)⟩⟩, none⟩

theorem fullElbow_guarded : GuardedF fullElbow 10 2 5 3 (-1) 1 :=
  ⟨⟨_, _, rfl, rfl, rfl, rfl, rfl, rfl, rfl, rfl⟩, by norm_num, by norm_num, by norm_num, by norm_num, by norm_num⟩

section
/-- The theorems about joints use none of these: any will do. -/
noncomputable local instance : Zero Full := ⟨⟨some 0⟩⟩
local instance : Add Full := ⟨fun a _ => a⟩
noncomputable local instance : FLit Full := ⟨fun _ => 0, fun _ => 0⟩
noncomputable local instance : FTrig Full := ⟨0, id, id, id, id, id, id⟩

/-- Calibrated, at 3/2, not moving, and a controller commands 7: the command sent is not positive. -/
noncomputable def fullAtLimit (st : JStats Full) (x : ℝ) : JState Full :=
  ⟨fullElbow, ⟨some (x : EReal)⟩, ⟨some (0 : ℝ)⟩, ⟨some (0 : ℝ)⟩, st, ⟨some (7 : ℝ)⟩, true, ⟨some (0 : ℝ)⟩⟩

example (st : JStats Full) (x : ℝ) (hx : 1 ≤ x) : ∃ y : ℝ, IsVal ((fullAtLimit st x).enforceLimits ⟨some ⊤⟩).commanded y ∧ -10 ≤ y ∧ y ≤ 0 := by
  obtain ⟨a, b, -, -, h1, h2, h3, h4⟩ := C103_ordered (s := fullAtLimit st x) fullElbow_guarded ⟨some ⊤⟩ rfl rfl
  obtain ⟨y, hy, h5, h6⟩ := h4 (by simp [fullAtLimit, val])
  have := (C103_pushes_back (s := fullAtLimit st x) fullElbow_guarded (by norm_num) (by norm_num) ⟨some ⊤⟩ rfl rfl).upper ⟨rfl, Or.inl rfl⟩ hx (le_refl _) y hy
  exact ⟨y, hy, h1.trans h5, by exact_mod_cast this⟩

end

/-! ## The running system

Exact rational arithmetic is correctly rounded, too; so the execution of `Verif.Props.Plant` meets the hypotheses of `C103_running`. -/

section
attribute [local instance] exactCmp demoTrig demoLit

@[reducible] noncomputable def ratRound : IeeeRound ℚ where
  val x := some (((x : ℚ) : ℝ) : EReal)
  lt_iff a b := by simp [FCmp.lt]
  eq_iff a b := by simp [FCmp.eq, eq_comm]
  neg a := by simp
  rd x := x
  mono := fun _ _ h => EReal.coe_le_coe_iff.2 h
  zero := rfl
  sub a b x y hx hy := by
    simp only [IsVal, val, Option.some.injEq, EReal.coe_eq_coe_iff] at hx hy ⊢
    rw [← hx, ← hy]; push_cast; rfl
  mul a b x y hx hy := by
    simp only [IsVal, val, Option.some.injEq, EReal.coe_eq_coe_iff] at hx hy ⊢
    rw [← hx, ← hy]; push_cast; rfl
  div a b x y hx hy _ := by
    simp only [IsVal, val, Option.some.injEq, EReal.coe_eq_coe_iff] at hx hy ⊢
    rw [← hx, ← hy]; push_cast; rfl
  mul_top a b x _ h := by simp at h
  mul_bot a b x _ h := by simp at h

attribute [local instance] ratRound

theorem demoElbow_guarded : GuardedF demoElbow 3 10 100 100 (-2) 2 := by
  refine ⟨⟨_, _, rfl, rfl, ?_, ?_, ?_, ?_, ?_, ?_⟩, ?_, ?_, ?_, ?_, ?_⟩ <;> simp [IsVal, val]

/-- In every cycle of that execution the joint is the one described; so the theorem speaks about each of them. -/
example : ∀ r ∈ (demoStart.runs 1000 demoActs).cycles, ∀ j ∈ r.sent.joints, j.joint = demoElbow →
    PushesBack j 10 (-2) 2 (j.position : ℝ) (j.velocity : ℝ) := fun r hr j hj he =>
  (C103_running demoGood demoReach r hr j hj 3 10 100 100 (-2) 2 _ _ (by rw [he]; exact demoElbow_guarded) (by norm_num) (by norm_num) rfl rfl).1
example : ((demoStart.runs 1000 demoActs).cycles.getLast?.map (fun r => r.sent.joints.map (fun j => (j.joint.name, j.commanded)))) = some [("elbow", -3)] := by
  decide +kernel

end

end Pr2
