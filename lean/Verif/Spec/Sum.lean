import Verif.Spec.Round

/-!
# Floating point sums and differences, with infinities and NaN

`IeeeSum F`: addition and subtraction of finite numbers are correctly rounded (by some monotone rounding that leaves the numbers of `F` alone), infinities and NaN follow
IEEE 754.  `B64`, the double precision numbers, is proved to be an instance.
-/

namespace Pr2
open IeeeLike

/-- Correctly rounded addition and subtraction. -/
class IeeeSum (F : Type) [FCmp F] [Neg F] [Zero F] [Add F] [Sub F] extends IeeeLike F where
  zero_val : val (0 : F) = some 0
  rd : ℝ → EReal
  mono : Monotone rd
  exact : ∀ (a : F) (x : ℝ), IsVal a x → rd x = x
  add : ∀ (a b : F) (x y : ℝ), IsVal a x → IsVal b y → val (a + b) = some (rd (x + y))
  sub : ∀ (a b : F) (x y : ℝ), IsVal a x → IsVal b y → val (a - b) = some (rd (x - y))
  add_nan_left : ∀ a b : F, val a = none → val (a + b) = none
  add_nan_right : ∀ a b : F, val b = none → val (a + b) = none
  sub_nan_left : ∀ a b : F, val a = none → val (a - b) = none
  sub_nan_right : ∀ a b : F, val b = none → val (a - b) = none
  add_top_left : ∀ (a b : F) (y : EReal), val a = some ⊤ → val b = some y → y ≠ ⊥ → val (a + b) = some ⊤
  add_top_right : ∀ (a b : F) (x : EReal), val a = some x → val b = some ⊤ → x ≠ ⊥ → val (a + b) = some ⊤
  sub_inf : ∀ (a b : F) (x y : EReal), val a = some x → val b = some y → ((x = ⊤ ∧ y = ⊤) ∨ (x = ⊥ ∧ y = ⊥)) → val (a - b) = none
  sub_top_left : ∀ (a b : F) (y : EReal), val a = some ⊤ → val b = some y → y ≠ ⊤ → val (a - b) = some ⊤
  sub_bot_left : ∀ (a b : F) (y : EReal), val a = some ⊥ → val b = some y → y ≠ ⊥ → val (a - b) = some ⊥
  sub_top_right : ∀ (a b : F) (x : EReal), val a = some x → val b = some ⊤ → x ≠ ⊤ → val (a - b) = some ⊥
  sub_bot_right : ∀ (a b : F) (x : EReal), val a = some x → val b = some ⊥ → x ≠ ⊥ → val (a - b) = some ⊤

/-- Double precision numbers: the representable ones, the infinities, and NaN (`none`). -/
structure B64 where
  v : Option EReal
  rep : ∀ x : ℝ, v = some (x : EReal) → Rep x ∧ |x| < 2 ^ 1024

namespace B64

theorem rndE_rep {x y : ℝ} (h : rndE x = (y : EReal)) : Rep y ∧ |y| < 2 ^ 1024 := by
  unfold rndE at h
  split at h
  · exact absurd h.symm (EReal.coe_ne_top y)
  · split at h
    · exact absurd h.symm (EReal.coe_ne_bot y)
    · rename_i h1 h2
      have : rnd x = y := by exact_mod_cast h
      rw [← this]
      exact ⟨rep_rnd x, abs_lt.2 ⟨not_le.1 h2, not_le.1 h1⟩⟩

theorem rndE_exact {x : ℝ} (h : Rep x ∧ |x| < 2 ^ 1024) : rndE x = x := by
  unfold rndE
  rw [rnd_of_rep h.1]
  have := abs_lt.1 h.2
  rw [if_neg (not_le.2 this.2), if_neg (not_le.2 this.1)]

/-- the rounded value of a real number -/
noncomputable def ofReal (x : ℝ) : B64 := ⟨some (rndE x), fun y h => rndE_rep (x := x) (by simpa using h)⟩
/-- infinity -/
noncomputable def top : B64 := ⟨some ⊤, fun y h => absurd (Option.some.inj h).symm (EReal.coe_ne_top y)⟩
/-- minus infinity -/
noncomputable def bot : B64 := ⟨some ⊥, fun y h => absurd (Option.some.inj h).symm (EReal.coe_ne_bot y)⟩
/-- not a number -/
def nan : B64 := ⟨none, fun y h => by cases h⟩

noncomputable instance : FCmp B64 where
  lt a b := match a.v, b.v with
    | some x, some y => @decide (x < y) (Classical.dec _)
    | _, _ => false
  eq a b := match a.v, b.v with
    | some x, some y => @decide (x = y) (Classical.dec _)
    | _, _ => false
noncomputable instance : Zero B64 := ⟨⟨some 0, fun x h => by
  have : x = 0 := by simpa using (Option.some.inj h).symm
  subst this
  exact ⟨rep_zero, by norm_num⟩⟩⟩
noncomputable instance : Neg B64 := ⟨fun a => ⟨a.v.map (fun x => -x), fun x h => by
  obtain ⟨y, hy, hx⟩ := Option.map_eq_some_iff.1 h
  have hy' : y = ((-x : ℝ) : EReal) := by
    rw [EReal.coe_neg, ← hx, neg_neg]
  rw [hy'] at hy
  obtain ⟨h1, h2⟩ := a.rep _ hy
  exact ⟨by simpa using rep_neg h1, by simpa using h2⟩⟩⟩
open Classical in
noncomputable instance : Add B64 := ⟨fun a b => match a.v, b.v with
  | some x, some y =>
    if (x = ⊤ ∧ y = ⊥) ∨ (x = ⊥ ∧ y = ⊤) then nan else if x = ⊤ ∨ y = ⊤ then top else if x = ⊥ ∨ y = ⊥ then bot else ofReal (x.toReal + y.toReal)
  | _, _ => nan⟩
noncomputable instance : Sub B64 := ⟨fun a b => a + -b⟩

noncomputable instance : IeeeLike B64 where
  val a := a.v
  lt_iff a b := by rcases a with ⟨_ | x, ha⟩ <;> rcases b with ⟨_ | y, hb⟩ <;> simp [FCmp.lt]
  eq_iff a b := by
    rcases a with ⟨_ | x, ha⟩ <;> rcases b with ⟨_ | y, hb⟩ <;> simp [FCmp.eq]
    exact eq_comm
  neg a := rfl

theorem add_nan (a b : B64) (h : a.v = none ∨ b.v = none) : (a + b).v = none := by
  change (match a.v, b.v with | some x, some y => _ | _, _ => nan : B64).v = none
  rcases a with ⟨_ | x, ha⟩ <;> rcases b with ⟨_ | y, hb⟩ <;> simp_all [nan]

open Classical in
theorem add_some (a b : B64) (x y : EReal) (ha : a.v = some x) (hb : b.v = some y) : (a + b).v =
    if (x = ⊤ ∧ y = ⊥) ∨ (x = ⊥ ∧ y = ⊤) then none else if x = ⊤ ∨ y = ⊤ then some ⊤ else if x = ⊥ ∨ y = ⊥ then some ⊥ else some (rndE (x.toReal + y.toReal)) := by
  obtain ⟨av, ra⟩ := a
  obtain ⟨bv, rb⟩ := b
  change av = some x at ha
  change bv = some y at hb
  subst ha hb
  change (if (x = ⊤ ∧ y = ⊥) ∨ (x = ⊥ ∧ y = ⊤) then nan else if x = ⊤ ∨ y = ⊤ then top else if x = ⊥ ∨ y = ⊥ then bot else ofReal (x.toReal + y.toReal) : B64).v = _
  split_ifs <;> rfl

theorem neg_v (a : B64) : (-a).v = a.v.map (fun x => -x) := rfl

theorem sub_some (a b : B64) (x y : EReal) (ha : a.v = some x) (hb : b.v = some y) : (a - b).v =
    (open Classical in if (x = ⊤ ∧ y = ⊤) ∨ (x = ⊥ ∧ y = ⊥) then none else if x = ⊤ ∨ y = ⊥ then some ⊤ else if x = ⊥ ∨ y = ⊤ then some ⊥
      else some (rndE (x.toReal - y.toReal))) := by
  have e : (-b).v = some (-y) := by rw [neg_v, hb]; rfl
  have h := add_some a (-b) x (-y) ha e
  change (a + -b).v = _
  rw [h]
  have hr : (-y).toReal = -y.toReal := by induction y <;> simp
  simp only [EReal.neg_eq_bot_iff, EReal.neg_eq_top_iff, hr, sub_eq_add_neg]

noncomputable instance : IeeeSum B64 where
  zero_val := rfl
  rd := rndE
  mono := rndE_mono
  exact a x h := rndE_exact (a.rep x h)
  add a b x y hx hy := by
    have := add_some a b x y hx hy
    change (a + b).v = _
    rw [this]; simp
  sub a b x y hx hy := by
    have := sub_some a b x y hx hy
    change (a - b).v = _
    rw [this]; simp
  add_nan_left a b h := add_nan a b (.inl h)
  add_nan_right a b h := add_nan a b (.inr h)
  sub_nan_left a b h := add_nan a (-b) (.inl h)
  sub_nan_right a b h := add_nan a (-b) (.inr (by rw [neg_v, show b.v = none from h]; rfl))
  add_top_left a b y ha hb hy := by
    change (a + b).v = _
    rw [add_some a b _ _ ha hb]; simp [hy]
  add_top_right a b x ha hb hx := by
    change (a + b).v = _
    rw [add_some a b _ _ ha hb]; simp [hx]
  sub_inf a b x y ha hb h := by
    change (a - b).v = _
    rw [sub_some a b _ _ ha hb, if_pos h]
  sub_top_left a b y ha hb hy := by
    change (a - b).v = _
    rw [sub_some a b _ _ ha hb]; simp [hy]
  sub_bot_left a b y ha hb hy := by
    change (a - b).v = _
    rw [sub_some a b _ _ ha hb, if_neg (by simp [hy]), if_neg (by simp [hy]), if_pos (.inl rfl)]
  sub_top_right a b x ha hb hx := by
    change (a - b).v = _
    rw [sub_some a b _ _ ha hb, if_neg (by simp [hx]), if_neg (by simp [hx]), if_pos (.inr rfl)]
  sub_bot_right a b x ha hb hx := by
    change (a - b).v = _
    rw [sub_some a b _ _ ha hb]; simp [hx]

end B64

end Pr2
