import Verif.Spec.Float
import Verif.Props.SimpleWrist
import Verif.Props.Cycle

/-! # C92: transmissions with rounded arithmetic -/

namespace Pr2
open IeeeLike

/-- One more rounded operation: errors add up. -/
theorem round_step {u η α c M x z w : ℝ} (hu : 0 ≤ u) (hx : |x| ≤ M) (h : |z - x| ≤ α * M + c) (hw : |w - z| ≤ u * |z| + η) :
    |w - x| ≤ ((1 + α) * (1 + u) - 1) * M + ((1 + u) * c + η) := by
  have h1 : |w - x| ≤ |w - z| + |z - x| := abs_sub_le w z x
  have h2 : |z| ≤ |z - x| + |x| := by
    have := abs_add_le (z - x) x
    rwa [sub_add_cancel] at this
  have h3 : u * |z| ≤ u * (α * M + c + M) := mul_le_mul_of_nonneg_left (by linarith) hu
  nlinarith

section
variable {F : Type} [FCmp F] [Zero F] [Add F] [Sub F] [Mul F] [iDiv : Div F] [Neg F] [FLit F] [iTrig : FTrig F] [iA : IeeeArith F]

local notation "𝐮" => IeeeArith.u (F := F)
local notation "𝛈" => IeeeArith.η (F := F)

omit [Zero F] [Add F] [Sub F] [Mul F] iDiv [FLit F] iTrig iA in
theorem IsVal.unique [IeeeLike F] {a : F} {x y : ℝ} (h : IsVal a x) (k : IsVal a y) : x = y := by
  unfold IsVal at h k
  rw [h] at k
  exact_mod_cast Option.some.inj k

/-- Up by a factor and down again. -/
theorem mul_div_roundtrip {a b : F} {x k z : ℝ} (hx : IsVal a x) (hk : IsVal b k) (hz : IsVal (a * b / b) z) :
    |z - x| ≤ ((1 + 𝐮) ^ 2 - 1) * |x| + ((1 + 𝐮) * (𝛈 / |k|) + 𝛈) := by
  obtain ⟨m, hm, hd⟩ := IeeeArith.div _ _ _ hz
  obtain ⟨k0, hd⟩ := hd k hk
  obtain ⟨x', k', hx', hk', he⟩ := IeeeArith.mul _ _ _ hm
  cases hx.unique hx'; cases hk.unique hk'
  have hkpos : 0 < |k| := abs_pos.2 k0
  have h1 : |m / k - x| ≤ 𝐮 * |x| + 𝛈 / |k| := by
    have e : m / k - x = (m - x * k) / k := by field_simp
    rw [e, abs_div, div_le_iff₀ hkpos]
    rw [abs_mul] at he
    have : (𝐮 * |x| + 𝛈 / |k|) * |k| = 𝐮 * (|x| * |k|) + 𝛈 := by field_simp
    rw [this]; exact he
  have := round_step IeeeArith.u_nonneg le_rfl h1 hd
  convert this using 2; ring

/-- Down by a factor and up again. -/
theorem div_mul_roundtrip {a b : F} {x k z : ℝ} (hx : IsVal a x) (hk : IsVal b k) (hz : IsVal (a / b * b) z) :
    |z - x| ≤ ((1 + 𝐮) ^ 2 - 1) * |x| + ((1 + 𝐮) * (𝛈 * |k|) + 𝛈) := by
  obtain ⟨m, k', hm, hk', he⟩ := IeeeArith.mul _ _ _ hz
  cases hk.unique hk'
  obtain ⟨x', hx', hd⟩ := IeeeArith.div _ _ _ hm
  obtain ⟨k0, hd⟩ := hd k hk
  cases hx.unique hx'
  have hkpos : 0 < |k| := abs_pos.2 k0
  have h1 : |m * k - x| ≤ 𝐮 * |x| + 𝛈 * |k| := by
    have e : m * k - x = (m - x / k) * k := by field_simp
    rw [e, abs_mul]
    rw [abs_div] at hd
    have : 𝐮 * |x| + 𝛈 * |k| = (𝐮 * (|x| / |k|) + 𝛈) * |k| := by field_simp
    rw [this]; exact mul_le_mul_of_nonneg_right hd hkpos.le
  have := round_step IeeeArith.u_nonneg le_rfl h1 he
  convert this using 2; ring

/-- **C92.**  Simple transmission, from the joint to the actuator and back, with every operation rounded: if the resulting position, velocity and
measured effort are finite, they differ from the given ones by a few rounding errors. -/
theorem C92_simple_roundtrip (t t' : SimpleT F) (e : SimEnv) (as as' : List (Actuator F)) (js js' : List (JState F))
    (hb : t.propagatePositionBackwards e js as = some (t', as')) (hf : t'.propagatePosition as' js = some js')
    {j j' : JState F} (hj : js.head? = some j) (hj' : js'.head? = some j') {k : ℝ} (hk : IsVal t.reduction k) :
    (∀ p r p', IsVal j.position p → IsVal j.reference r → IsVal j'.position p' →
      |p' - p| ≤ ((1 + 𝐮) ^ 4 - (1 + 𝐮)) * |p - r| + 𝐮 * |p| + ((1 + 𝐮) ^ 3 + (1 + 𝐮) ^ 2 / |k| + (1 + 𝐮) + 1) * 𝛈) ∧
    (∀ v v', IsVal j.velocity v → IsVal j'.velocity v' → |v' - v| ≤ ((1 + 𝐮) ^ 2 - 1) * |v| + ((1 + 𝐮) / |k| + 1) * 𝛈) ∧
    (∀ x x', IsVal j.measured x → IsVal j'.measured x' → |x' - x| ≤ ((1 + 𝐮) ^ 2 - 1) * |x| + ((1 + 𝐮) * |k| + 1) * 𝛈) := by
  have hm := fun a k => (simulate_motion t.cal k a).1
  simp only [Actuator.motion, Prod.mk.injEq] at hm
  -- what the two functions compute
  have key : j'.position = (j.position - j.reference) * t.reduction / t.reduction + j.reference ∧
      j'.velocity = j.velocity * t.reduction / t.reduction ∧ j'.measured = j.measured / t.reduction * t.reduction := by
    unfold SimpleT.propagatePositionBackwards at hb
    split at hb
    · rename_i a i hu
      cases hb
      unfold SimpleT.propagatePosition SimpleT.backward at hf
      dsimp only at hf
      rw [hu] at hf
      cases hf; cases hj; cases hj'
      simp only [SimpleT.forward, (hm _ _).1, (hm _ _).2.1, (hm _ _).2.2]
      exact ⟨rfl, rfl, rfl⟩
    · rename_i a i k2 hu
      cases hb
      unfold SimpleT.propagatePosition SimpleT.backward at hf
      dsimp only at hf
      rw [hu] at hf
      cases hf; cases hj; cases hj'
      simp only [SimpleT.forward, (hm _ _).1, (hm _ _).2.1, (hm _ _).2.2]
      exact ⟨rfl, rfl, rfl⟩
    · cases hb
  obtain ⟨e1, e2, e3⟩ := key
  refine ⟨?_, ?_, ?_⟩
  · intro p r p' hp hr hp'
    rw [e1] at hp'
    obtain ⟨q, r', hq, hr', h4⟩ := IeeeArith.add _ _ _ hp'
    cases hr.unique hr'
    obtain ⟨m, hm, -⟩ := IeeeArith.div _ _ _ hq
    obtain ⟨d, k', hd, hk', -⟩ := IeeeArith.mul _ _ _ hm
    obtain ⟨p1, r1, hp1, hr1, h1⟩ := IeeeArith.sub _ _ _ hd
    cases hp.unique hp1; cases hr.unique hr1
    have h3 := mul_div_roundtrip hd hk hq
    have hu := IeeeArith.u_nonneg (F := F)
    have hη := IeeeArith.η_nonneg (F := F)
    have hdd : |d| ≤ (1 + 𝐮) * |p - r| + 𝛈 := by
      have := abs_sub_abs_le_abs_sub d (p - r)
      nlinarith
    have hc : 0 ≤ (1 + 𝐮) ^ 2 - 1 := by nlinarith
    have h5 : |q - (p - r)| ≤ ((1 + 𝐮) ^ 3 - 1) * |p - r| + ((1 + 𝐮) ^ 2 + (1 + 𝐮) / |k| + 1) * 𝛈 := by
      have := abs_sub_le q d (p - r)
      have h6 := mul_le_mul_of_nonneg_left hdd hc
      have h7 : (1 + 𝐮) * (𝛈 / |k|) = (1 + 𝐮) / |k| * 𝛈 := by ring
      rw [h7] at h3
      nlinarith
    have h8 : |(q + r) - p| ≤ ((1 + 𝐮) ^ 3 - 1) * |p - r| + ((1 + 𝐮) ^ 2 + (1 + 𝐮) / |k| + 1) * 𝛈 := by
      have : q + r - p = q - (p - r) := by ring
      rw [this]; exact h5
    have h9 : |q + r| ≤ |q + r - p| + |p| := by
      have := abs_add_le (q + r - p) p
      rwa [sub_add_cancel] at this
    have h10 := abs_sub_le p' (q + r) p
    have h11 : 𝐮 * |q + r| ≤ 𝐮 * (|q + r - p| + |p|) := mul_le_mul_of_nonneg_left h9 hu
    have h12 : (1 + 𝐮) * |q + r - p| ≤ (1 + 𝐮) * (((1 + 𝐮) ^ 3 - 1) * |p - r| + ((1 + 𝐮) ^ 2 + (1 + 𝐮) / |k| + 1) * 𝛈) :=
      mul_le_mul_of_nonneg_left h8 (by linarith)
    have h13 : (1 + 𝐮) * (((1 + 𝐮) ^ 3 - 1) * |p - r| + ((1 + 𝐮) ^ 2 + (1 + 𝐮) / |k| + 1) * 𝛈) =
      ((1 + 𝐮) ^ 4 - (1 + 𝐮)) * |p - r| + ((1 + 𝐮) ^ 3 + (1 + 𝐮) ^ 2 / |k| + (1 + 𝐮)) * 𝛈 := by ring
    rw [h13] at h12
    linarith
  · intro v v' hv hv'
    rw [e2] at hv'
    have := mul_div_roundtrip hv hk hv'
    convert this using 2; ring
  · intro x x' hx hx'
    rw [e3] at hx'
    have := div_mul_roundtrip hx hk hx'
    convert this using 2; ring

/-- The commanded effort of a joint, sent to the motor and read back by a simulator. -/
theorem C92_simple_effort (t : SimpleT F) (as as' : List (Actuator F)) (js js0 js' : List (JState F)) (hs : t.useSim = false)
    (hf : t.propagateEffort js as = some as') (hb : t.propagateEffortBackwards as' js0 = some js')
    {j j' : JState F} (hj : js.head? = some j) (hj' : js'.head? = some j') {k : ℝ} (hk : IsVal t.reduction k) :
    ∀ c c', IsVal j.commanded c → IsVal j'.commanded c' → |c' - c| ≤ ((1 + 𝐮) ^ 2 - 1) * |c| + ((1 + 𝐮) * |k| + 1) * 𝛈 := by
  have key : j'.commanded = j.commanded / t.reduction * t.reduction := by
    unfold SimpleT.propagateEffort at hf
    rw [hs] at hf
    split at hf
    · rename_i a i hu
      cases hf
      unfold SimpleT.propagateEffortBackwards at hb
      rw [hs] at hb
      split at hb
      · rename_i _ _ _ a' i' he _
        cases he; cases hb; cases hj; cases hj'; rfl
      · rename_i h; cases h
      · cases hb
    · rename_i h; cases h
    · cases hf
  intro c c' hc hc'
  rw [key] at hc'
  have := div_mul_roundtrip hc hk hc'
  convert this using 2; ring

/-! ## Motor efforts of limited joints -/

omit [Zero F] [Add F] [Sub F] [Mul F] iDiv [FLit F] iTrig iA in
theorem within_real [IeeeLike F] {a : F} {e x : ℝ} (h : Within (e : EReal) a) (hx : IsVal a x) : |x| ≤ e := by
  obtain ⟨y, hy, h1, h2⟩ := h
  unfold IsVal at hx
  rw [hx, Option.some.injEq] at hy
  subst hy
  rw [abs_le]
  constructor
  · have : ((-e : ℝ) : EReal) ≤ x := by rw [EReal.coe_neg]; exact h1
    exact EReal.coe_le_coe_iff.1 this
  · exact EReal.coe_le_coe_iff.1 h2

theorem div_bound {a b : F} {k z e c : ℝ} (ha : ∀ x, IsVal a x → |x| ≤ e) (hk : ∀ k', IsVal b k' → k' = k) (hb : IsVal b k) (hz : IsVal (a / b) z)
    (hc : c = |k|) : |z| ≤ (1 + 𝐮) * (e / c) + 𝛈 := by
  obtain ⟨x, hx, hd⟩ := IeeeArith.div _ _ _ hz
  obtain ⟨k0, hd⟩ := hd k hb
  have hkpos : 0 < |k| := abs_pos.2 k0
  have h1 : |x / k| ≤ e / c := by
    rw [hc, abs_div]
    exact div_le_div_of_nonneg_right (ha x hx) hkpos.le
  have h2 := abs_sub_abs_le_abs_sub z (x / k)
  have h3 := mul_le_mul_of_nonneg_left h1 (IeeeArith.u_nonneg (F := F))
  linarith

/-- The effort of the motor of a simple transmission, with rounding. -/
theorem C92_simple_motor (t : SimpleT F) (as as' : List (Actuator F)) (js : List (JState F)) (hf : t.propagateEffort js as = some as')
    {e k : ℝ} (hj : ∀ j ∈ js.head?, ∀ x, IsVal j.commanded x → |x| ≤ e) (hk : IsVal t.reduction k) :
    ∀ a ∈ as', ∀ x, IsVal a.effort x → |x| ≤ (1 + 𝐮) * (e / |k|) + 𝛈 := by
  unfold SimpleT.propagateEffort at hf
  split at hf
  · cases hf
    intro a ha x hx
    cases List.mem_singleton.1 ha
    exact div_bound (hj _ rfl) (fun k' h => h.unique hk) hk hx rfl
  · cases hf
    intro a ha x hx
    cases List.mem_singleton.1 ha
    exact div_bound (hj _ rfl) (fun k' h => h.unique hk) hk hx rfl
  · cases hf

theorem neg_bound {a : F} {e : ℝ} (h : ∀ x, IsVal a x → |x| ≤ e) : ∀ x, IsVal (-a) x → |x| ≤ e := by
  intro x hx
  rw [← abs_neg]
  apply h
  unfold IsVal at hx ⊢
  rw [IeeeLike.neg] at hx
  obtain ⟨y, hy, hyx⟩ := Option.map_eq_some_iff.1 hx
  rw [hy, ← neg_neg y, hyx, EReal.coe_neg]

theorem wrist_effort_bound {a b p q r : F} {e0 e1 k0 k1 kr z : ℝ} (ha : ∀ x, IsVal a x → |x| ≤ e0) (hb : ∀ x, IsVal b x → |x| ≤ e1)
    (hp : IsVal p k0) (hq : IsVal q k1) (hr : IsVal r kr) (h2 : IsVal (FLit.lit 2 * r) (2 * kr)) (hz : IsVal ((a / p - b / q) / (FLit.lit 2 * r)) z) :
    |z| ≤ (1 + 𝐮) ^ 3 * ((e0 / |k0| + e1 / |k1|) / (2 * |kr|)) + ((1 + 𝐮) * (3 + 2 * 𝐮) / (2 * |kr|) + 1) * 𝛈 := by
  have hu := IeeeArith.u_nonneg (F := F)
  have hd : ∀ d, IsVal (a / p - b / q) d → |d| ≤ (1 + 𝐮) * ((1 + 𝐮) * (e0 / |k0|) + 𝛈 + ((1 + 𝐮) * (e1 / |k1|) + 𝛈)) + 𝛈 := by
    intro d hd
    obtain ⟨x, y, hx, hy, h⟩ := IeeeArith.sub _ _ _ hd
    have h3 := div_bound ha (fun k' h => h.unique hp) hp hx rfl
    have h4 := div_bound hb (fun k' h => h.unique hq) hq hy rfl
    have h5 : |x - y| ≤ |x| + |y| := abs_sub x y
    have h6 := abs_sub_abs_le_abs_sub d (x - y)
    have h7 : |d| ≤ (1 + 𝐮) * |x - y| + 𝛈 := by linarith
    have h8 := mul_le_mul_of_nonneg_left (h5.trans (add_le_add h3 h4)) (show 0 ≤ 1 + 𝐮 by linarith)
    linarith
  have := div_bound hd (fun k' h => h.unique h2) h2 hz (c := 2 * |kr|) (by rw [abs_mul]; norm_num)
  refine this.trans (le_of_eq ?_)
  generalize |kr| = m
  ring

/-- The efforts of the motors of a wrist, with rounding. -/
theorem C92_wrist_motors (t : WristT F) (as as' : List (Actuator F)) (j0 j1 : JState F) (hf : t.propagateEffort [j0, j1] as = some as')
    {e0 e1 k0 k1 : ℝ} (h0 : ∀ x, IsVal j0.commanded x → |x| ≤ e0) (h1 : ∀ x, IsVal j1.commanded x → |x| ≤ e1)
    (hk0 : IsVal t.jr0 k0) (hk1 : IsVal t.jr1 k1) (n : Nat) (a : Actuator F) (ha : as'[n]? = some a) {r : ℝ}
    (hr : IsVal (if n = 0 then t.ar0 else t.ar1) r) (hr2 : ∃ w : ℝ, IsVal (FLit.lit 2 * (if n = 0 then t.ar0 else t.ar1)) w) :
    ∀ x, IsVal a.effort x → |x| ≤ (1 + 𝐮) ^ 3 * ((e0 / |k0| + e1 / |k1|) / (2 * |r|)) + ((1 + 𝐮) * (3 + 2 * 𝐮) / (2 * |r|) + 1) * 𝛈 := by
  unfold WristT.propagateEffort at hf
  split at hf
  · rename_i a0 a1 i0 i1 he
    cases he; cases hf
    replace hr2 : IsVal (FLit.lit 2 * (if n = 0 then t.ar0 else t.ar1)) (2 * r) := by
      obtain ⟨w, hw⟩ := hr2
      obtain ⟨y, hy, rfl⟩ := IeeeArith.twice _ _ hw
      rwa [hr.unique hy]
    match n, ha with
    | 0, ha =>
      cases ha
      intro x hx
      exact wrist_effort_bound h0 h1 hk0 hk1 hr hr2 hx
    | 1, ha =>
      cases ha
      intro x hx
      exact wrist_effort_bound (neg_bound h0) h1 hk0 hk1 hr hr2 hx
    | n + 2, ha => simp at ha
  · cases hf

/-- A joint with position limits, a safety controller and the finite effort limit `e`. -/
def JState.Protected (j : JState F) (e : ℝ) : Prop :=
  ∃ lim saf, j.joint.limits = some lim ∧ j.joint.safety = some saf ∧ IsVal lim.effort e ∧ 0 ≤ e


theorem limited_bound {s : RState F} (h : s.Limited) {j : JState F} (hj : j ∈ s.joints) {e : ℝ} (hp : j.Protected e) :
    ∀ x, IsVal j.commanded x → |x| ≤ e := by
  obtain ⟨lim, saf, hl, hs, he, h0⟩ := hp
  intro x hx
  rcases h j hj lim saf e hl hs he (by exact_mod_cast h0) with h | h
  · exact within_real h hx
  · unfold IsVal at hx; rw [hx] at h; cases h

/-- **C92.**  Whatever the controllers command: at the end of a control cycle the motors of protected joints, of simple transmissions and of wrists, are
told efforts within the joints' limits divided by the reductions, up to rounding. -/
theorem C92_motors (big : F) (restart : RState F → RState F) (cs : List (CUpdate F)) (s : RState F) (st : Nat → CStat) (hr : s.Ready)
    (h1 : ∀ s, SameRobot s (restart s)) (h2 : ∀ c ∈ cs, ∀ s, SameRobot s (c.act s)) (r : RState F × (Nat → CStat))
    (h : s.cycle big restart cs st = some r) (hu : Unshared s.conns) (c : Conn F) (hc : c ∈ r.1.conns) :
    (∀ t j js, c.trans.body = .simple t → gather r.1.joints c.outs = j :: js → ∀ e k, j.Protected e → IsVal t.reduction k →
      ∀ a ∈ gather r.1.acts c.ins, ∀ x, IsVal a.effort x → |x| ≤ (1 + 𝐮) * (e / |k|) + 𝛈) ∧
    (∀ t j0 j1, c.trans.body = .wrist t → gather r.1.joints c.outs = [j0, j1] → ∀ e0 e1 k0 k1, j0.Protected e0 → j1.Protected e1 →
      IsVal t.jr0 k0 → IsVal t.jr1 k1 → ∀ a0 a1, gather r.1.acts c.ins = [a0, a1] →
      (∀ m x, IsVal t.ar0 m → (∃ w : ℝ, IsVal (FLit.lit 2 * t.ar0) w) → IsVal a0.effort x →
        |x| ≤ (1 + 𝐮) ^ 3 * ((e0 / |k0| + e1 / |k1|) / (2 * |m|)) + ((1 + 𝐮) * (3 + 2 * 𝐮) / (2 * |m|) + 1) * 𝛈) ∧
      (∀ m x, IsVal t.ar1 m → (∃ w : ℝ, IsVal (FLit.lit 2 * t.ar1) w) → IsVal a1.effort x →
        |x| ≤ (1 + 𝐮) ^ 3 * ((e0 / |k0| + e1 / |k1|) / (2 * |m|)) + ((1 + 𝐮) * (3 + 2 * 𝐮) / (2 * |m|) + 1) * 𝛈)) := by
  obtain ⟨hlim, hloc⟩ := C28_limited big restart cs s st hr h1 h2 r h
  obtain ⟨n, hn⟩ := List.getElem?_of_mem hc
  obtain ⟨b, acts, out, ho, ha, -, hb⟩ := hloc hu n c hn
  have hmem : ∀ j ∈ gather r.1.joints c.outs, j ∈ r.1.joints := by
    intro j hj
    unfold gather at hj
    obtain ⟨i, -, hi⟩ := List.mem_filterMap.1 hj
    exact List.mem_of_getElem? hi
  refine ⟨?_, ?_⟩
  · intro t j js ht hg e k hp hk a ha'
    rw [hb] at ht
    rw [ha] at ha'
    have hbt : b = .simple t ∧ t.propagateEffort (gather r.1.joints c.outs) acts = some out.2.1 := by
      unfold Body.propagateEffort at ho
      split at ho <;>
      · obtain ⟨q, hq, rfl⟩ := Option.map_eq_some_iff.1 ho
        try cases ht
        try exact ⟨rfl, hq⟩
    refine C92_simple_motor t acts out.2.1 _ hbt.2 (fun j' hj' => ?_) hk a ha'
    rw [hg] at hj'
    cases hj'
    exact limited_bound hlim (hmem j (by rw [hg]; simp)) hp
  · intro t j0 j1 ht hg e0 e1 k0 k1 hp0 hp1 hk0 hk1 a0 a1 ha'
    rw [hb] at ht
    rw [ha] at ha'
    have hbt : b = .wrist t ∧ t.propagateEffort (gather r.1.joints c.outs) acts = some out.2.1 := by
      unfold Body.propagateEffort at ho
      split at ho <;>
      · obtain ⟨q, hq, rfl⟩ := Option.map_eq_some_iff.1 ho
        try cases ht
        try exact ⟨rfl, hq⟩
    have hw := hbt.2
    rw [hg] at hw
    have b0 := limited_bound hlim (hmem j0 (by rw [hg]; simp)) hp0
    have b1 := limited_bound hlim (hmem j1 (by rw [hg]; simp)) hp1
    exact ⟨fun m x hm hm2 hx => C92_wrist_motors t acts _ j0 j1 hw b0 b1 hk0 hk1 0 a0 (by rw [ha']; rfl) hm hm2 x hx,
      fun m x hm hm2 hx => C92_wrist_motors t acts _ j0 j1 hw b0 b1 hk0 hk1 1 a1 (by rw [ha']; rfl) hm hm2 x hx⟩

end

/-! ## Doubles -/

section doubles

theorem Dbl.isVal_ofReal {x : ℝ} (h : Rep x) (hx : |x| < 2 ^ 1024) : IsVal (Dbl.ofReal x) x := by
  rw [Dbl.isVal_iff]
  unfold Dbl.ofReal
  dsimp only
  rw [rnd_of_rep h, if_pos hx]

theorem rep_int (n : ℤ) (h : |n| ≤ 2 ^ 53) : Rep n := ⟨n, 0, by norm_num, h, by simp⟩

theorem Dbl.isVal_int (n : ℤ) (h : |n| ≤ 2 ^ 53) : IsVal (Dbl.ofReal n) (n : ℝ) := by
  apply Dbl.isVal_ofReal (rep_int n h)
  have h1 : ((|n| : ℤ) : ℝ) ≤ ((2 ^ 53 : ℤ) : ℝ) := Int.cast_le.2 h
  rw [Int.cast_abs, Int.cast_pow, Int.cast_ofNat] at h1
  exact h1.trans_lt (pow_lt_pow_right₀ (by norm_num) (by norm_num))

theorem Dbl.isVal_div {a b : Dbl} {x y : ℝ} (ha : IsVal a x) (hb : IsVal b y) (hy : y ≠ 0) (hr : |rnd (x / y)| < 2 ^ 1024) : IsVal (a / b) (rnd (x / y)) := by
  rw [Dbl.isVal_iff] at ha hb
  change IsVal (Dbl.lift2 _ a b) _
  unfold Dbl.lift2
  rw [ha, hb]
  dsimp only
  rw [if_neg hy]
  dsimp only
  rw [Dbl.isVal_iff]
  unfold Dbl.ofReal
  dsimp only
  rw [if_pos hr]

/-- A joint of a robot whose numbers are doubles: effort limit 3, motor with reduction 2. -/
noncomputable def dblElbow : UJoint Dbl := ⟨"elbow", .revolute, some ⟨0, 0, Dbl.ofReal 3, 0⟩, some ⟨0, 0, 0, 0⟩, none⟩
noncomputable def dblTrans (c : CalSim Dbl) : SimpleT Dbl := ⟨Dbl.ofReal 2, 0, false, ⟨false, 0⟩, c⟩
noncomputable def dblRobot (c : CalSim Dbl) : RState Dbl :=
  ⟨[⟨⟨"t", ["m"], ["elbow"], .simple (dblTrans c)⟩, [0], [0]⟩], [JState.fresh dblElbow 0], [("elbow", 0)], [Actuator.fresh "m"]⟩

/-- `C92_motors`: the hypotheses are met. -/
example (c : CalSim Dbl) (old : Dbl) : (dblRobot c).Ready ∧ Unshared (dblRobot c).conns ∧ (JState.fresh dblElbow old).Protected 3 ∧ IsVal (dblTrans c).reduction 2 ∧
    ∃ r, (dblRobot c).cycle 0 id [⟨0, springController 0, 0, 1⟩] (fun _ => CStat.fresh) = some r := by
  have hr : (dblRobot c).Ready := by
    refine ⟨⟨?_, ?_, ?_⟩, ?_, ?_⟩ <;> simp [dblRobot, dblTrans, Actuator.fresh, Body.Wants]
  refine ⟨hr, by simp [Unshared, dblRobot], ⟨_, _, rfl, rfl, ?_, by norm_num⟩, ?_, ?_⟩
  · exact_mod_cast Dbl.isVal_int 3 (by norm_num)
  · exact_mod_cast Dbl.isVal_int 2 (by norm_num)
  · obtain ⟨r, -, h, -⟩ := cycle_runs (0 : Dbl) id [⟨0, springController 0, 0, 1⟩] (dblRobot c) (fun _ => CStat.fresh) hr (fun s => SameRobot.refl s)
      (fun c hc s => by simp at hc; subst hc; exact (springController_tame 0).1 s)
    exact ⟨r, h⟩

/-- `C92_simple_motor`: the joint's command 3 becomes the finite effort 3/2. -/
example (c : CalSim Dbl) (a : Actuator Dbl) (j : JState Dbl) (hj : j.commanded = Dbl.ofReal 3) :
    ∃ a', (dblTrans c).propagateEffort [j] [a] = some [a'] ∧ IsVal a'.effort (3 / 2) := by
  refine ⟨_, rfl, ?_⟩
  change IsVal (j.commanded / Dbl.ofReal 2) (3 / 2)
  rw [hj]
  have hr : Rep (3 / 2) := ⟨3, -1, by norm_num, by norm_num, by norm_num⟩
  have := Dbl.isVal_div (Dbl.isVal_int 3 (by norm_num)) (Dbl.isVal_int 2 (by norm_num)) (by norm_num)
    (by push_cast; rw [rnd_of_rep hr, abs_of_pos (by norm_num)]; exact (by norm_num : (3 / 2 : ℝ) < 2 ^ 1).trans (pow_lt_pow_right₀ (by norm_num) (by norm_num)))
  push_cast at this
  rwa [rnd_of_rep hr] at this

theorem not_rep_third : ¬ Rep (1 / 3) := by
  rintro ⟨n, e, -, -, h⟩
  have h1 : (3 * n : ℝ) * 2 ^ e = 1 := by rw [mul_assoc, ← h]; norm_num
  rcases le_total 0 e with he | he
  · obtain ⟨m, rfl⟩ := Int.eq_ofNat_of_zero_le he
    have h2 : 3 * n * 2 ^ m = 1 := by rw [zpow_natCast] at h1; exact_mod_cast h1
    have h3 : (3 : ℤ) ∣ 1 := ⟨n * 2 ^ m, by rw [← h2]; ring⟩
    omega
  · obtain ⟨m, hm⟩ := Int.eq_ofNat_of_zero_le (show 0 ≤ -e by omega)
    have h2 : 3 * n = 2 ^ m := by
      have h3 : (3 * n : ℝ) = 2 ^ (-e) := by
        rw [zpow_neg]; exact eq_inv_of_mul_eq_one_left h1
      rw [hm, zpow_natCast] at h3
      exact_mod_cast h3
    have h3 : (3 : ℤ) ∣ 2 ^ m := ⟨n, h2.symm⟩
    have h4 : ∀ m : ℕ, (2 : ℤ) ^ m % 3 ≠ 0 := by
      intro m
      induction m with
      | zero => decide
      | succ m ih => rw [pow_succ]; omega
    exact h4 m (Int.emod_eq_zero_of_dvd h3)

/-- The rounding terms cannot be dropped: with doubles, a joint command of 1 behind a reduction of 3 gives a finite motor effort that is not 1/3. -/
theorem C92_inexact_counterexample : ∃ (t : SimpleT Dbl) (j : JState Dbl) (a a' : Actuator Dbl) (x : ℝ), IsVal t.reduction 3 ∧ IsVal j.commanded 1 ∧
    t.propagateEffort [j] [a] = some [a'] ∧ IsVal a'.effort x ∧ x ≠ 1 / 3 := by
  have h1 : IsVal (Dbl.ofReal 1) 1 := by exact_mod_cast Dbl.isVal_int 1 (by norm_num)
  have h3 : IsVal (Dbl.ofReal 3) 3 := by exact_mod_cast Dbl.isVal_int 3 (by norm_num)
  refine ⟨⟨Dbl.ofReal 3, 0, false, ⟨false, 0⟩, CalSim.fresh 0 0 0 0 false false⟩, { JState.fresh dblElbow 0 with commanded := Dbl.ofReal 1 }, Actuator.fresh "m", _,
    rnd (1 / 3), h3, h1, rfl, ?_, ?_⟩
  · refine Dbl.isVal_div h1 h3 (by norm_num) ?_
    have e := rnd_err (1 / 3)
    have h := abs_sub_abs_le_abs_sub (rnd (1 / 3)) (1 / 3)
    have h4 : |rnd (1 / 3)| < 2 ^ 1 := by
      rw [abs_of_pos (by norm_num : (0 : ℝ) < 1 / 3)] at e h
      have : (1 : ℝ) / 2 ^ 1075 ≤ 1 / 2 ^ 1 := one_div_le_one_div_of_le (by norm_num) (pow_le_pow_right₀ (by norm_num) (by norm_num))
      have : (1 : ℝ) / 2 ^ 53 ≤ 1 / 2 ^ 1 := one_div_le_one_div_of_le (by norm_num) (pow_le_pow_right₀ (by norm_num) (by norm_num))
      have h5 : |rnd (1 / 3)| ≤ 1 / 3 + (1 / 2 ^ 1 * (1 / 3) + 1 / 2 ^ 1) := by linarith
      exact h5.trans_lt (by norm_num)
    exact h4.trans (pow_lt_pow_right₀ (by norm_num) (by norm_num))
  · intro h
    exact not_rep_third (h ▸ rep_rnd (1 / 3))

end doubles

end Pr2
