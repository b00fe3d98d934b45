import Verif.Spec.Float
import Verif.Props.Gripper
import Verif.Model.Plant

/-!
# C120: the gripper keeps the mathematics library within its domain, in floating point and for every input

C43 says so over the real numbers and for sane parameters.  Here the arithmetic is anything at all: `+`, `-`, `*`, `/`, `sin` and `cos` may round, overflow
and yield NaN, and parameters and readings are arbitrary.  Only comparisons and negation are as IEEE 754 has them (`IeeeLike`).
-/

set_option linter.unusedSectionVars false

namespace Pr2
open IeeeLike FLit

section
variable {F : Type} [FCmp F] [Zero F] [Add F] [Sub F] [Mul F] [Div F] [Neg F] [FLit F] [IeeeLike F]

/-- Specification: two mathematics libraries that may differ where C leaves a domain error: `acos` and `asin` outside [-1, 1], `sqrt` of zero and of
negative numbers and of NaN.  (`acos` and `asin` of NaN are NaN in both.) -/
structure SameInDomain (T T' : FTrig F) : Prop where
  pi : T.pi = T'.pi
  sin : ∀ x, T.sin x = T'.sin x
  cos : ∀ x, T.cos x = T'.cos x
  normAngle : ∀ x, T.normAngle x = T'.normAngle x
  acos : ∀ x, val x = none ∨ (∃ v : ℝ, IsVal x v ∧ -1 ≤ v ∧ v ≤ 1) → T.acos x = T'.acos x
  asin : ∀ x, val x = none ∨ (∃ v : ℝ, IsVal x v ∧ -1 ≤ v ∧ v ≤ 1) → T.asin x = T'.asin x
  sqrt : ∀ x, (∃ v : EReal, val x = some v ∧ 0 < v) → T.sqrt x = T'.sqrt x

/-- The literals of the code have their values: zero and one are exact, 1e-5 is positive. -/
class GoodLits (F : Type) [FCmp F] [Zero F] [Neg F] [FLit F] [IeeeLike F] : Prop where
  zero : IsVal (0 : F) 0
  one : IsVal (lit 1 : F) 1
  tol : ∃ v : ℝ, IsVal (tol : F) v ∧ 0 < v

variable [GoodLits F]

theorem val_neg_one : IsVal (-lit 1 : F) (-1) := by
  have h := GoodLits.one (F := F)
  unfold IsVal at h ⊢
  rw [IeeeLike.neg, h]; rfl

/-- Not a number, or between -1 and 1. -/
def InUnit (x : F) : Prop := val x = none ∨ ∃ v : ℝ, IsVal x v ∧ -1 ≤ v ∧ v ≤ 1

theorem inUnit_between {x : F} (h1 : ¬FCmp.lt x (-lit 1) = true) (h2 : ¬FCmp.lt (lit 1) x = true) : InUnit x := by
  rw [lt_iff] at h1 h2
  rcases hv : val x with _ | v
  · exact Or.inl hv
  · right
    have a1 : ((-1 : ℝ) : EReal) ≤ v := not_lt.1 fun h => h1 ⟨v, _, hv, val_neg_one, h⟩
    have a2 : v ≤ ((1 : ℝ) : EReal) := not_lt.1 fun h => h2 ⟨_, v, GoodLits.one, hv, h⟩
    have hb : v ≠ ⊥ := by rintro rfl; exact absurd (le_bot_iff.1 a1) (EReal.coe_ne_bot _)
    have ht : v ≠ ⊤ := by rintro rfl; exact absurd (top_le_iff.1 a2) (EReal.coe_ne_top _)
    lift v to ℝ using ⟨ht, hb⟩
    exact ⟨v, hv, EReal.coe_le_coe_iff.1 a1, EReal.coe_le_coe_iff.1 a2⟩

theorem inUnit_one : InUnit (lit 1 : F) := Or.inr ⟨1, GoodLits.one, by norm_num, le_refl _⟩
theorem inUnit_neg_one : InUnit (-lit 1 : F) := Or.inr ⟨-1, val_neg_one, le_refl _, by norm_num⟩

theorem clampU_inUnit (x : F) : InUnit (clampU x) := by
  unfold clampU
  split
  · exact inUnit_neg_one
  · split
    · exact inUnit_one
    · exact inUnit_between ‹_› ‹_›

theorem clampS_inUnit (x : F) : InUnit (clampS x) := by
  unfold clampS
  split
  · exact inUnit_one
  · split
    · exact inUnit_neg_one
    · exact inUnit_between ‹_› ‹_›

theorem floor_pos (x : F) : ∃ v : EReal, val (if FCmp.lt tol x = true then x else tol) = some v ∧ 0 < v := by
  obtain ⟨w, hw, hp⟩ := GoodLits.tol (F := F)
  split
  · rename_i h
    obtain ⟨y, v, hy, hv, hlt⟩ := (lt_iff _ _).1 h
    refine ⟨v, hv, lt_trans ?_ hlt⟩
    unfold IsVal at hw
    rw [hw] at hy
    rw [← Option.some.inj hy]
    exact EReal.coe_pos.2 hp
  · exact ⟨w, hw, EReal.coe_pos.2 hp⟩

theorem pos_of_lt {x : F} (h : FCmp.lt 0 x = true) : ∃ v : EReal, val x = some v ∧ 0 < v := by
  obtain ⟨y, v, hy, hv, hlt⟩ := (lt_iff _ _).1 h
  have hz := GoodLits.zero (F := F)
  unfold IsVal at hz
  rw [hz] at hy
  rw [← Option.some.inj hy] at hlt
  exact ⟨v, hv, hlt⟩

variable {T T' : FTrig F} (hT : SameInDomain T T')
include hT

theorem rad2mr_same : rad2mr (iTrig := T) = rad2mr (iTrig := T') := by
  unfold rad2mr; rw [hT.pi]

theorem computeGap_same (t : GripperT F) (mr d m : F) :
    t.computeGapStates (iTrig := T) mr d m = t.computeGapStates (iTrig := T') mr d m := by
  unfold GripperT.computeGapStates
  simp only [hT.sin, hT.cos, hT.acos _ (clampU_inUnit _), hT.sqrt _ (floor_pos _), rad2mr_same hT]

theorem inverse1_same (t : GripperT F) (θ : F) :
    t.inverseGapStates1 (iTrig := T) θ = t.inverseGapStates1 (iTrig := T') θ := by
  unfold GripperT.inverseGapStates1
  simp only [hT.sin, hT.cos, hT.sqrt _ (floor_pos _)]
  generalize (-lit 2 * t.a * t.b * _ - t.h * t.h + t.a * t.a + t.b * t.b : F) = arg
  by_cases h : FCmp.lt 0 arg = true
  · rw [hT.sqrt _ (pos_of_lt h)]
  · simp only [h, Bool.false_eq_true, if_false]

theorem inverse_same (t : GripperT F) (g : F) :
    t.inverseGapStates (iTrig := T) g = t.inverseGapStates (iTrig := T') g := by
  unfold GripperT.inverseGapStates
  rw [inverse1_same hT, hT.sin, hT.asin _ (clampS_inUnit _)]

theorem simulate_same (c : CalSim F) (j : JState F) (a : Actuator F) :
    @CalSim.simulate F _ _ _ T c j a = @CalSim.simulate F _ _ _ T' c j a := by
  have h1 : @CalSim.getInfo F _ _ T = @CalSim.getInfo F _ _ T' := by
    funext c j
    unfold CalSim.getInfo CalSim.continuousEdges
    simp only [hT.pi, hT.normAngle]
  have h2 : @CalSim.reading F _ T = @CalSim.reading F _ T' := by
    funext c p o
    unfold CalSim.reading
    simp only [hT.normAngle]
  unfold CalSim.simulate
  simp only [h1, h2]

/-- **C120.** The functions of the gripper: for every parameters, joint states and motor states, NaN and infinities included, and however the arithmetic
rounds, the results are the same with two libraries that differ only outside the domains. -/
theorem C120_gripper (t : GripperT F) (e : SimEnv) (as : List (Actuator F)) (js : List (JState F)) :
    t.propagatePosition (iTrig := T) as js = t.propagatePosition (iTrig := T') as js ∧
    t.propagateEffort (iTrig := T) js as = t.propagateEffort (iTrig := T') js as ∧
    t.propagatePositionBackwards (iTrig := T) e js as = t.propagatePositionBackwards (iTrig := T') e js as ∧
    t.propagateEffortBackwards (iTrig := T) as js = t.propagateEffortBackwards (iTrig := T') as js := by
  unfold GripperT.propagatePosition GripperT.propagateEffort GripperT.propagatePositionBackwards GripperT.propagateEffortBackwards
  simp only [rad2mr_same hT, computeGap_same hT, inverse_same hT, simulate_same hT, and_self]

theorem body_position_same (b : Body F) : Body.propagatePosition (iTrig := T) b = Body.propagatePosition (iTrig := T') b := by
  funext as js
  cases b <;> unfold Body.propagatePosition <;> try rfl
  simp only [(C120_gripper hT _ ⟨false, 0, 0⟩ as js).1]

theorem body_effort_same (b : Body F) : Body.propagateEffort (iTrig := T) b = Body.propagateEffort (iTrig := T') b := by
  funext as js
  cases b <;> unfold Body.propagateEffort <;> try rfl
  simp only [(C120_gripper hT _ ⟨false, 0, 0⟩ as js).2.1]

theorem body_positionBack_same (e : SimEnv) (b : Body F) :
    Body.propagatePositionBackwards (iTrig := T) e b = Body.propagatePositionBackwards (iTrig := T') e b := by
  funext as js
  cases b <;> unfold Body.propagatePositionBackwards
  · simp only [SimpleT.propagatePositionBackwards, SimpleT.backward, simulate_same hT]
  · simp only [WristT.propagatePositionBackwards, simulate_same hT]
  · simp only [(C120_gripper hT _ e as js).2.2.1]
  · rename_i t
    simp only [BeltT.propagatePositionBackwards, simulate_same hT]

theorem body_effortBack_same (b : Body F) : Body.propagateEffortBackwards (iTrig := T) b = Body.propagateEffortBackwards (iTrig := T') b := by
  funext as js
  cases b <;> unfold Body.propagateEffortBackwards <;> try rfl
  simp only [(C120_gripper hT _ ⟨false, 0, 0⟩ as js).2.2.2]

/-- **C120.** All sweeps over a robot, of any transmissions. -/
theorem C120_robot (s : RState F) (e : SimEnv) :
    s.propagatePosition (iTrig := T) = s.propagatePosition (iTrig := T') ∧
    s.propagateEffort (iTrig := T) = s.propagateEffort (iTrig := T') ∧
    s.propagatePositionBackwards (iTrig := T) e = s.propagatePositionBackwards (iTrig := T') e ∧
    s.propagateEffortBackwards (iTrig := T) = s.propagateEffortBackwards (iTrig := T') := by
  have h1 := funext (body_position_same hT)
  have h2 := funext (body_effort_same hT)
  have h3 := funext (body_positionBack_same hT e)
  have h4 := funext (body_effortBack_same hT)
  unfold RState.propagatePosition RState.propagateEffort RState.propagatePositionBackwards RState.propagateEffortBackwards
  rw [h1, h2, h3, h4]
  exact ⟨rfl, rfl, rfl, rfl⟩

theorem step_same (big : F) (p : Plant F) (a : PAct F) :
    Plant.step (iTrig := T) big p a = Plant.step (iTrig := T') big p a := by
  have h1 := fun s : RState F => (C120_robot hT s ⟨false, 0, 0⟩).1
  have h2 := fun s : RState F => (C120_robot hT s ⟨false, 0, 0⟩).2.1
  unfold Plant.step Plant.rtStep
  simp only [h1, h2]

/-- **C120.** The whole machine, of any robot and with any plugins: the states it can reach are the same. -/
theorem C120_machine (big : F) (m : Bool) (d : RtData F) (ok : PlantIn F → Prop) (p : Plant F) :
    Plant.Reach (iTrig := T) big m d ok p ↔ Plant.Reach (iTrig := T') big m d ok p := by
  constructor
  · intro h
    induction h with
    | init => exact Plant.Reach.init (iTrig := T')
    | rt _ i hi ih => rw [step_same hT]; exact Plant.Reach.rt (iTrig := T') ih i hi
    | nrt _ hu ih => rw [step_same hT]; exact Plant.Reach.nrt (iTrig := T') ih hu
    | call _ hu op ih => rw [step_same hT]; exact Plant.Reach.call (iTrig := T') ih hu op
  · intro h
    induction h with
    | init => exact Plant.Reach.init (iTrig := T)
    | rt _ i hi ih => rw [← step_same hT]; exact Plant.Reach.rt (iTrig := T) ih i hi
    | nrt _ hu ih => rw [← step_same hT]; exact Plant.Reach.nrt (iTrig := T) ih hu
    | call _ hu op ih => rw [← step_same hT]; exact Plant.Reach.call (iTrig := T) ih hu op

end

/-! ## A reading that is not a number -/

section
variable {F : Type} [FCmp F] [Zero F] [Add F] [Sub F] [Mul F] [Div F] [Neg F] [FLit F] [FTrig F] [IeeeArith F]

/-- NaN goes through every operation, and zero times anything is zero or NaN. -/
class NanFlows (F : Type) [FCmp F] [Zero F] [Add F] [Sub F] [Mul F] [Div F] [Neg F] [FLit F] [FTrig F] [IeeeArith F] : Prop where
  zero : IsVal (0 : F) 0
  add : ∀ a b : F, val a = none ∨ val b = none → val (a + b) = none
  sub : ∀ a b : F, val a = none ∨ val b = none → val (a - b) = none
  mul : ∀ a b : F, val a = none ∨ val b = none → val (a * b) = none
  div : ∀ a b : F, val a = none ∨ val b = none → val (a / b) = none
  sin : ∀ a : F, val a = none → val (FTrig.sin a) = none
  cos : ∀ a : F, val a = none → val (FTrig.cos a) = none
  acos : ∀ a : F, val a = none → val (FTrig.acos a) = none
  asin : ∀ a : F, val a = none → val (FTrig.asin a) = none
  zero_mul : ∀ b : F, IsVal (0 * b) 0 ∨ val (0 * b) = none

/-- Specification: a finite number. -/
def IsNum (x : F) : Prop := ∃ v : ℝ, IsVal x v

variable [NanFlows F]

theorem lt_nan_left {a b : F} (h : val a = none) : ¬FCmp.lt a b = true := by
  rw [lt_iff]; rintro ⟨x, y, hx, _⟩; rw [h] at hx; cases hx

theorem lt_nan_right {a b : F} (h : val b = none) : ¬FCmp.lt a b = true := by
  rw [lt_iff]; rintro ⟨x, y, _, hy, _⟩; rw [h] at hy; cases hy

theorem clampU_nan {x : F} (h : val x = none) : clampU x = x := by
  unfold clampU; rw [if_neg (lt_nan_left h), if_neg (lt_nan_right h)]

theorem clampS_nan {x : F} (h : val x = none) : clampS x = x := by
  unfold clampS; rw [if_neg (lt_nan_right h), if_neg (lt_nan_left h)]

theorem gap_nan (t : GripperT F) {mr : F} (h : val mr = none) (d m : F) : val (t.computeGapStates mr d m).gapSize = none := by
  have h1 := NanFlows.mul mr t.screw (Or.inl h)
  have h2 := NanFlows.add t.L0 _ (Or.inr (NanFlows.div _ t.gear (Or.inl h1)))
  have h3 : val (t.linkU mr) = none := NanFlows.div _ _ (Or.inl (NanFlows.sub _ _ (Or.inr (NanFlows.mul _ _ (Or.inl h2)))))
  have h4 : val (FTrig.acos (clampU (t.linkU mr))) = none := by rw [clampU_nan h3]; exact NanFlows.acos _ h3
  have h5 := NanFlows.sin _ (NanFlows.add (t.theta0 - t.phi0) _ (Or.inr h4))
  exact NanFlows.add _ _ (Or.inr (NanFlows.mul _ _ (Or.inr (NanFlows.sub _ _ (Or.inl h5)))))

theorem fabs_zero : fabs (0 : F) = 0 := by
  have hz := NanFlows.zero (F := F)
  unfold fabs
  rw [if_neg]
  rw [lt_iff]
  rintro ⟨x, y, hx, hy, hlt⟩
  rw [hx] at hy
  cases hy
  exact lt_irrefl _ hlt

theorem inverse_nan (t : GripperT F) {g : F} (h : val g = none) :
    IsVal (t.inverseGapStates g).dMR_dt 0 ∨ val (t.inverseGapStates g).dMR_dt = none := by
  have h1 : val ((g - t.t0) / t.r + FTrig.sin t.theta0) = none :=
    NanFlows.add _ _ (Or.inl (NanFlows.div _ _ (Or.inl (NanFlows.sub _ _ (Or.inl h)))))
  have h2 : val (FTrig.asin (clampS ((g - t.t0) / t.r + FTrig.sin t.theta0))) = none := by
    rw [clampS_nan h1]; exact NanFlows.asin _ h1
  unfold GripperT.inverseGapStates
  generalize FTrig.asin (clampS ((g - t.t0) / t.r + FTrig.sin t.theta0)) = θ at h2
  have h3 : val (-lit 2 * t.a * t.b * FTrig.cos (θ - t.theta0 + t.phi0) - t.h * t.h + t.a * t.a + t.b * t.b) = none := by
    have h4 := NanFlows.cos _ (NanFlows.add _ t.phi0 (Or.inl (NanFlows.sub θ t.theta0 (Or.inl h2))))
    exact NanFlows.add _ _ (Or.inl (NanFlows.add _ _ (Or.inl (NanFlows.sub _ _ (Or.inl (NanFlows.mul _ _ (Or.inr h4)))))))
  unfold GripperT.inverseGapStates1
  dsimp only
  rw [if_neg (lt_nan_right h3), fabs_zero]
  exact NanFlows.zero_mul _

/-- **C120.** The command of a gripper whose gap is not a number is not a finite number, whatever effort is asked for (also zero). -/
theorem C120_nan_command (t : GripperT F) (j : JState F) (rest : List (JState F)) (a : Actuator F) (hj : val j.position = none)
    {as' : List (Actuator F)} (h : t.propagateEffort (j :: rest) [a] = some as') : ∀ b ∈ as', b.enable = true ∧ ¬IsNum b.effort := by
  unfold GripperT.propagateEffort at h
  dsimp only at h
  by_cases hl : rest.length = t.passive.length + (if t.hasPassive then 2 else 1)
  · rw [if_pos hl] at h
    cases h
    intro b hb
    rw [List.mem_singleton] at hb
    subst hb
    refine ⟨rfl, ?_⟩
    rintro ⟨z, hz⟩
    obtain ⟨x1, _, h1, _⟩ := IeeeArith.mul _ _ _ hz
    obtain ⟨x2, _, h2, _⟩ := IeeeArith.mul _ _ _ h1
    have hn := NanFlows.div j.position (lit 2) (Or.inl hj)
    obtain ⟨_, _, h3⟩ := IeeeArith.div _ _ _ h2
    rcases inverse_nan t hn with h4 | h4
    · exact (h3 0 h4).1 rfl
    · have := NanFlows.div (lit 2 * j.commanded) _ (Or.inr h4)
      unfold IsVal at h2
      rw [this] at h2
      cases h2
  · rw [if_neg hl] at h; cases h

/-- **C120.** And it is so in the very cycle in which the motor's position is not a number: what the gripper computes for the gap is not a number, and
whatever is commanded (`c`), the effort that the motor is sent is no finite number, with the motor enabled. -/
theorem C120_nan_reading (t : GripperT F) (a : Actuator F) (ha : val a.position = none) {j : JState F} {rest : List (JState F)} {js : List (JState F)}
    (h : t.propagatePosition [a] (j :: rest) = some js) :
    ∃ j' rest', js = j' :: rest' ∧ val j'.position = none ∧
      ∀ (c : F) (b : Actuator F), ∃ b', t.propagateEffort ({ j' with commanded := c } :: rest') [b] = some [b'] ∧ b'.enable = true ∧ ¬IsNum b'.effort := by
  unfold GripperT.propagatePosition at h
  dsimp only at h
  by_cases hl : rest.length = t.passive.length + (if t.hasPassive then 2 else 1)
  · rw [if_pos hl] at h
    cases h
    have hp : val ((t.computeGapStates (a.position / t.reduction * rad2mr) (a.velocity / t.reduction * rad2mr) (a.measured / t.reduction)).gapSize *
        lit 2) = none := NanFlows.mul _ _ (Or.inl (gap_nan t (NanFlows.mul _ _ (Or.inl (NanFlows.div _ _ (Or.inl ha)))) _ _))
    refine ⟨_, _, rfl, hp, fun c b => ?_⟩
    have hl' : ∀ (f : JState F → JState F) (g : JState F → JState F),
        ((rest.take t.passive.length).map f ++ (rest.drop t.passive.length).map g).length = t.passive.length + (if t.hasPassive then 2 else 1) := by
      intro f g
      rw [List.length_append, List.length_map, List.length_map, ← List.length_append, List.take_append_drop, hl]
    have he : ∀ (j1 : JState F) (r1 : List (JState F)), r1.length = t.passive.length + (if t.hasPassive then 2 else 1) →
        val j1.position = none → ∃ b', t.propagateEffort (j1 :: r1) [b] = some [b'] ∧ b'.enable = true ∧ ¬IsNum b'.effort := by
      intro j1 r1 h1 h2
      have h3 : ∃ b', t.propagateEffort (j1 :: r1) [b] = some [b'] := by
        unfold GripperT.propagateEffort
        dsimp only
        rw [if_pos h1]
        exact ⟨_, rfl⟩
      obtain ⟨b', h3⟩ := h3
      exact ⟨b', h3, C120_nan_command t j1 r1 b h2 h3 b' (List.mem_singleton.2 rfl)⟩
    exact he _ _ (hl' _ _) hp
  · rw [if_neg hl] at h; cases h

end
/-! ## Example: double precision with a library that returns 42 where the arguments are out of the domain -/

noncomputable section

theorem rep_one : Rep 1 := ⟨1, 0, by norm_num, by norm_num, by norm_num⟩

theorem small_lt {x : ℝ} (h : |x| ≤ 1) : |x| < 2 ^ 1024 := h.trans_lt (one_lt_pow₀ (by norm_num) (by norm_num))

theorem tol_rounded : 0 < rnd (1 / 100000) ∧ |rnd (1 / 100000)| ≤ 1 := by
  have h := rnd_err (1 / 100000)
  have h2 : (1 : ℝ) / 2 ^ 1075 ≤ 1 / 2 ^ 53 := one_div_le_one_div_of_le (by positivity) (pow_le_pow_right₀ (by norm_num) (by norm_num))
  generalize (1 : ℝ) / 2 ^ 1075 = η at h h2
  generalize rnd (1 / 100000) = z at h ⊢
  rw [abs_of_pos (show (0 : ℝ) < 1 / 100000 by norm_num)] at h
  have h3 := abs_le.1 h
  norm_num at h2 h3
  constructor
  · linarith
  · rw [abs_le]; constructor <;> linarith

instance : GoodLits Dbl where
  zero := (Dbl.isVal_iff _ _).2 rfl
  one := by
    rw [Dbl.isVal_iff]
    show (Dbl.ofReal ((1 : ℚ) : ℝ)).v = _
    unfold Dbl.ofReal
    dsimp only
    rw [Rat.cast_one, rnd_of_rep rep_one, if_pos (small_lt (by norm_num))]
  tol := by
    refine ⟨rnd (1 / 100000), ?_, tol_rounded.1⟩
    rw [Dbl.isVal_iff]
    show (Dbl.ofReal ((1 / 100000 : ℚ) : ℝ)).v = _
    unfold Dbl.ofReal
    dsimp only
    have : ((1 / 100000 : ℚ) : ℝ) = 1 / 100000 := by norm_num
    rw [this, if_pos (small_lt tol_rounded.2)]

/-- Another library: 42 where the mathematical function is not defined. -/
@[instance_reducible] def strangeLib : FTrig Dbl where
  pi := FTrig.pi
  sqrt x := open Classical in if ∃ v : EReal, val x = some v ∧ 0 < v then FTrig.sqrt x else lit 42
  sin := FTrig.sin
  cos := FTrig.cos
  acos x := open Classical in if InUnit x then FTrig.acos x else lit 42
  asin x := open Classical in if InUnit x then FTrig.asin x else lit 42
  normAngle := FTrig.normAngle

/-- The hypothesis is met by two libraries that differ. -/
theorem strange_same : SameInDomain (F := Dbl) inferInstance strangeLib where
  pi := rfl
  sin _ := rfl
  cos _ := rfl
  normAngle _ := rfl
  acos _ h := (if_pos h).symm
  asin _ h := (if_pos h).symm
  sqrt _ h := (if_pos h).symm

/-- For instance: a motor whose reported position is not a number. -/
example (t : GripperT Dbl) (nan : Dbl) (_ : nan.v = none) (a : Actuator Dbl) (j : JState Dbl) (ks : List (JState Dbl)) :
    t.propagatePosition [{ a with position := nan }] (j :: ks) = t.propagatePosition (iTrig := strangeLib) [{ a with position := nan }] (j :: ks) :=
  (C120_gripper strange_same t ⟨false, 0, 0⟩ _ _).1

theorem Dbl.val_none (a : Dbl) : val a = none ↔ a.v = none := by
  rcases a with ⟨_ | x, h⟩ <;> simp [val]

theorem Dbl.lift2_none {f : ℝ → ℝ → Option ℝ} {a b : Dbl} (h : val a = none ∨ val b = none) : val (Dbl.lift2 f a b) = none := by
  rw [Dbl.val_none, Dbl.val_none] at h
  rw [Dbl.val_none]
  unfold Dbl.lift2
  rcases h with h | h <;> rw [h]
  rcases a.v with _ | x <;> rfl

/-- Double precision numbers let NaN through. -/
instance : NanFlows Dbl where
  zero := GoodLits.zero
  add _ _ h := Dbl.lift2_none h
  sub _ _ h := Dbl.lift2_none h
  mul _ _ h := Dbl.lift2_none h
  div _ _ h := Dbl.lift2_none h
  sin _ h := Dbl.lift2_none (Or.inl h)
  cos _ h := Dbl.lift2_none (Or.inl h)
  acos _ h := Dbl.lift2_none (Or.inl h)
  asin _ h := Dbl.lift2_none (Or.inl h)
  zero_mul b := by
    rcases hb : b.v with _ | y
    · right
      exact Dbl.lift2_none (Or.inr ((Dbl.val_none b).2 hb))
    · left
      rw [Dbl.isVal_iff]
      show (Dbl.lift2 (fun x y => some (x * y)) 0 b).v = _
      unfold Dbl.lift2
      rw [hb, show (0 : Dbl).v = some 0 from rfl]
      dsimp only
      rw [zero_mul]
      unfold Dbl.ofReal
      dsimp only
      rw [rnd_of_rep rep_zero, if_pos (small_lt (by norm_num))]

/-- A gripper with two passive joints, one motor with a NaN reading: the hypotheses are met. -/
example (t : GripperT Dbl) (ht : t.passive = []) (hp : t.hasPassive = false) (a : Actuator Dbl) (j k : JState Dbl) :
    ∃ js, t.propagatePosition [{ a with position := ⟨none, by simp⟩ }] [j, k] = some js := by
  unfold GripperT.propagatePosition
  dsimp only
  rw [if_pos (by rw [ht, hp]; rfl)]
  exact ⟨_, rfl⟩

end

end Pr2
