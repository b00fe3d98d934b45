import Verif.Model.Cycle
import Mathlib.Tactic.Linarith
import Mathlib.Tactic.Ring
import Mathlib.Tactic.NormNum
import Mathlib.Tactic.Positivity
import Mathlib.Algebra.Order.Field.Basic

/-! # C25: publishing clocks -/

namespace Pr2

/-- A run of the loop `while (last + period < now) last = last + period;` that ends, from `last` to `r`. -/
inductive CatchUpRun (period now : Int) : Int → Int → Prop
  | done {last : Int} : ¬ last + period < now → CatchUpRun period now last last
  | step {last r : Int} : last + period < now → CatchUpRun period now (last + period) r → CatchUpRun period now last r

/-- The model of the loop computes exactly its terminating runs. -/
theorem catchUp_adequate (period now last r : Int) : catchUp period now last = some r ↔ CatchUpRun period now last r := by
  constructor
  · intro h
    by_cases hp : 0 < period
    · have : ∀ n : Nat, ∀ last, (now - last).toNat ≤ n → catchUp period now last = some r → CatchUpRun period now last r := by
        intro n
        induction n with
        | zero =>
          intro last hn h
          unfold catchUp at h
          rw [if_neg (by omega)] at h; cases h; exact .done (by omega)
        | succ n ih =>
          intro last hn h
          unfold catchUp at h
          split at h
          · rename_i hl
            exact .step hl (ih _ (by omega) h)
          · rename_i hl
            cases h; exact .done hl
      exact this _ last (le_refl _) h
    · unfold catchUp at h
      split at h
      · cases h
      · rename_i hl; cases h; exact .done hl
  · intro h
    have hang : ∀ last, period ≤ 0 → last + period < now → ∀ r, ¬ CatchUpRun period now last r := by
      intro last hp hl r hr
      induction hr with
      | done h => exact h hl
      | step _ _ ih => exact ih (by omega)
    induction h with
    | done h => unfold catchUp; rw [if_neg h]
    | step hl hr ih =>
      unfold catchUp
      rw [if_pos hl]
      by_cases hp : 0 < period
      · rw [if_pos hp]; exact ih
      · exact (hang _ (by omega) (by omega) _ hr).elim

/-- **C25.**  With a positive period the loop ends, at the last grid point before `now` (or where it was, if that is later). -/
theorem C25_catch_up (period now last : Int) (hp : 0 < period) :
    ∃ k : Nat, catchUp period now last = some (last + k * period) ∧ now ≤ last + k * period + period ∧ (0 < k → last + k * period < now) := by
  have : ∀ n : Nat, ∀ last, (now - last).toNat ≤ n →
      ∃ k : Nat, catchUp period now last = some (last + k * period) ∧ now ≤ last + k * period + period ∧ (0 < k → last + k * period < now) := by
    intro n
    induction n with
    | zero =>
      intro last hn
      refine ⟨0, ?_, ?_, by simp⟩
      · unfold catchUp; rw [if_neg (by omega)]; simp
      · push_cast; omega
    | succ n ih =>
      intro last hn
      by_cases hl : last + period < now
      · obtain ⟨k, h1, h2, h3⟩ := ih (last + period) (by omega)
        have e : last + period + (k : Int) * period = last + ((k + 1 : Nat) : Int) * period := by push_cast; ring
        rw [e] at h1 h2 h3
        refine ⟨k + 1, ?_, h2, fun _ => ?_⟩
        · unfold catchUp; rw [if_pos hl, if_pos hp]; exact h1
        · rcases Nat.eq_zero_or_pos k with rfl | hk
          · simpa using hl
          · exact h3 hk
      · refine ⟨0, ?_, ?_, by simp⟩
        · unfold catchUp; rw [if_neg hl]; simp
        · push_cast; omega
  exact this _ last (le_refl _)

/-- **C25, counterexample.**  With a period of zero (or less) the realtime loop hangs at the first publication. -/
theorem C25_zero_period_hangs (period now last : Int) (hp : period ≤ 0) (h : last + period < now) : pubTick period now true last = none := by
  have hc : catchUp period now last = none := by
    unfold catchUp; rw [if_pos h, if_neg (by omega)]
  unfold pubTick
  rw [if_pos h, hc]; rfl

/-- The period is positive exactly if the configured rate is at most 2·10⁹ Hz. -/
theorem C25_period_positive (rate : ℚ) : 0 < publishPeriod rate ↔ rate ≤ 2000000000 := by
  unfold publishPeriod
  rw [Int.floor_pos]
  have key : ∀ r : ℚ, 0 < r → (1 ≤ 1 / r * 1000000000 + 1 / 2 ↔ r ≤ 2000000000) := by
    intro r hr
    rw [show 1 / r * 1000000000 + 1 / 2 = (1000000000 / r) + 1 / 2 by ring]
    rw [← sub_le_iff_le_add, le_div_iff₀ hr]
    constructor <;> intro h <;> linarith
  split
  · rename_i h
    rw [key _ (by norm_num)]
    constructor
    · intro _; linarith
    · intro _; norm_num
  · rename_i h
    exact key _ (by linarith)

/-- Grid point number `k`. -/
def gridPoint (start period : Int) (k : Nat) : Int := start + k * period

theorem gridPoint_mono {start period : Int} (hp : 0 < period) {k k' : Nat} (h : k ≤ k') : gridPoint start period k ≤ gridPoint start period k' := by
  unfold gridPoint
  have : (k : Int) * period ≤ k' * period := Int.mul_le_mul_of_nonneg_right (by exact_mod_cast h) hp.le
  omega

/-- **C25, exactly when messages are published.**  With a positive period, whatever the times of the calls and the outcomes of `trylock`: the
publisher never hangs; a call publishes only if `trylock` succeeds; two publications are separated by a grid point `start + k * period`; and a call
with the lock available that does not publish lies before the end of the grid interval of the last publication (of the first interval if there was
none).  The clock is always on the grid. -/
theorem C25_publishing (start period : Int) (hp : 0 < period) (cs : List (Int × Bool)) :
    ∃ (pubs : List Bool) (k : Nat), pubRun period start cs = some (gridPoint start period k, pubs) ∧ pubs.length = cs.length ∧
      (∀ (i : Nat) (c : Int × Bool), cs[i]? = some c → pubs[i]? = some true → c.2 = true ∧ gridPoint start period 1 < c.1) ∧
      (∀ (i j : Nat) (c d : Int × Bool), i < j → cs[i]? = some c → cs[j]? = some d → pubs[i]? = some true → pubs[j]? = some true →
        ∃ g : Nat, c.1 ≤ gridPoint start period g ∧ gridPoint start period g < d.1) ∧
      (∀ (j : Nat) (d : Int × Bool), cs[j]? = some d → d.2 = true → pubs[j]? = some false →
        ∃ g : Nat, d.1 ≤ gridPoint start period (g + 1) ∧
          (g = 0 ∨ ∃ (i : Nat) (c : Int × Bool), i < j ∧ cs[i]? = some c ∧ pubs[i]? = some true ∧ gridPoint start period g < c.1)) := by
  -- generalise over the clock
  have gen : ∀ (cs : List (Int × Bool)) (k : Nat), ∃ (pubs : List Bool) (k' : Nat),
      pubRun period (gridPoint start period k) cs = some (gridPoint start period k', pubs) ∧ pubs.length = cs.length ∧ k ≤ k' ∧
      (∀ (i : Nat) (c : Int × Bool), cs[i]? = some c → pubs[i]? = some true → c.2 = true ∧ gridPoint start period (k + 1) < c.1) ∧
      (∀ (i j : Nat) (c d : Int × Bool), i < j → cs[i]? = some c → cs[j]? = some d → pubs[i]? = some true → pubs[j]? = some true →
        ∃ g : Nat, c.1 ≤ gridPoint start period g ∧ gridPoint start period g < d.1) ∧
      (∀ (j : Nat) (d : Int × Bool), cs[j]? = some d → d.2 = true → pubs[j]? = some false →
        ∃ g : Nat, d.1 ≤ gridPoint start period (g + 1) ∧
          (g = k ∨ ∃ (i : Nat) (c : Int × Bool), i < j ∧ cs[i]? = some c ∧ pubs[i]? = some true ∧ gridPoint start period g < c.1)) := by
    intro cs
    induction cs with
    | nil => intro k; exact ⟨[], k, rfl, rfl, le_refl _, by simp, by simp, by simp⟩
    | cons c cs ih =>
      intro k
      have e1 : gridPoint start period k + period = gridPoint start period (k + 1) := by unfold gridPoint; push_cast; ring
      by_cases hpub : c.1 > gridPoint start period k + period ∧ c.2 = true
      · -- published
        obtain ⟨m, h1, h2, h3⟩ := C25_catch_up period c.1 (gridPoint start period k) hp
        have em : gridPoint start period k + m * period = gridPoint start period (k + m) := by unfold gridPoint; push_cast; ring
        rw [em] at h1 h2 h3
        have em1 : gridPoint start period (k + m) + period = gridPoint start period (k + m + 1) := by unfold gridPoint; push_cast; ring
        rw [em1] at h2
        have hm : 0 < m := by
          rcases Nat.eq_zero_or_pos m with rfl | h
          · rw [e1] at hpub; simp at h2; omega
          · exact h
        have ht : pubTick period c.1 c.2 (gridPoint start period k) = some (gridPoint start period (k + m), true) := by
          unfold pubTick; rw [if_pos hpub.1, if_pos hpub.2, h1]; rfl
        obtain ⟨pubs, k', r1, r2, r3, r4, r5, r6⟩ := ih (k + m)
        refine ⟨true :: pubs, k', ?_, by simp [r2], by omega, ?_, ?_, ?_⟩
        · unfold pubRun; rw [ht]; simp [r1]
        · intro i d hd hi
          cases i with
          | zero => simp at hd; subst hd; exact ⟨hpub.2, by rw [← e1]; exact hpub.1⟩
          | succ i =>
            obtain ⟨a, b⟩ := r4 i d (by simpa using hd) (by simpa using hi)
            exact ⟨a, lt_of_le_of_lt (gridPoint_mono hp (by omega)) b⟩
        · intro i j a b hij ha hb hi hj
          cases j with
          | zero => omega
          | succ j =>
            cases i with
            | zero =>
              simp at ha; subst ha
              exact ⟨k + m + 1, h2, (r4 j b (by simpa using hb) (by simpa using hj)).2⟩
            | succ i => exact r5 i j a b (by omega) (by simpa using ha) (by simpa using hb) (by simpa using hi) (by simpa using hj)
        · intro j d hd hf hj
          cases j with
          | zero => simp at hj
          | succ j =>
            obtain ⟨g, g1, g2⟩ := r6 j d (by simpa using hd) hf (by simpa using hj)
            refine ⟨g, g1, Or.inr ?_⟩
            rcases g2 with rfl | ⟨i, a, hij, ha, hi, hg⟩
            · exact ⟨0, c, by omega, by simp, by simp, h3 hm⟩
            · exact ⟨i + 1, a, by omega, by simpa using ha, by simpa using hi, hg⟩
      · -- not published
        have ht : pubTick period c.1 c.2 (gridPoint start period k) = some (gridPoint start period k, false) := by
          unfold pubTick
          split
          · split
            · rename_i h1 h2; exact (hpub ⟨h1, h2⟩).elim
            · rfl
          · rfl
        obtain ⟨pubs, k', r1, r2, r3, r4, r5, r6⟩ := ih k
        refine ⟨false :: pubs, k', ?_, by simp [r2], r3, ?_, ?_, ?_⟩
        · unfold pubRun; rw [ht]; simp [r1]
        · intro i d hd hi
          cases i with
          | zero => simp at hi
          | succ i => exact r4 i d (by simpa using hd) (by simpa using hi)
        · intro i j a b hij ha hb hi hj
          cases j with
          | zero => omega
          | succ j =>
            cases i with
            | zero => simp at hi
            | succ i => exact r5 i j a b (by omega) (by simpa using ha) (by simpa using hb) (by simpa using hi) (by simpa using hj)
        · intro j d hd hf hj
          cases j with
          | zero =>
            simp at hd; subst hd
            refine ⟨k, ?_, Or.inl rfl⟩
            rw [← e1]
            by_contra hc
            exact hpub ⟨by omega, hf⟩
          | succ j =>
            obtain ⟨g, g1, g2⟩ := r6 j d (by simpa using hd) hf (by simpa using hj)
            refine ⟨g, g1, ?_⟩
            rcases g2 with rfl | ⟨i, a, hij, ha, hi, hg⟩
            · exact Or.inl rfl
            · exact Or.inr ⟨i + 1, a, by omega, by simpa using ha, by simpa using hi, hg⟩
  obtain ⟨pubs, k, r1, r2, _, r4, r5, r6⟩ := gen cs 0
  have e0 : gridPoint start period 0 = start := by simp [gridPoint]
  rw [e0] at r1
  exact ⟨pubs, k, r1, r2, r4, r5, r6⟩

/-- **C25, never behind.**  After a publication at `now` the clock is less than one period behind `now`. -/
theorem C25_after_publishing (period now last l : Int) (hp : 0 < period) (free : Bool) (h : pubTick period now free last = some (l, true)) :
    l < now ∧ now ≤ l + period ∧ ∃ k : Nat, 0 < k ∧ l = last + k * period := by
  unfold pubTick at h
  split at h
  · rename_i hn
    split at h
    · obtain ⟨k, h1, h2, h3⟩ := C25_catch_up period now last hp
      rw [h1] at h
      simp only [Option.map_some, Option.some.injEq, Prod.mk.injEq, and_true] at h
      have hk : 0 < k := by
        rcases Nat.eq_zero_or_pos k with rfl | h
        · simp at h2; omega
        · exact h
      rw [← h]
      exact ⟨h3 hk, h2, k, hk, rfl⟩
    · simp at h
  · simp at h

/-- 100 Hz from time 0; cycles every 4 ms, except for a pause; the lock is not available once (20 ms ends an interval, so 24 ms is published later). -/
example : pubRun 10 0 [(4, true), (8, true), (12, true), (16, true), (20, true), (24, false), (28, true), (65, true), (69, true), (70, true), (71, true)] =
    some (70, [false, false, true, false, false, false, true, true, false, false, true]) := by
  have c1 : catchUp 10 12 0 = some 10 := by rw [catchUp]; simp; rw [catchUp]; simp
  have c2 : catchUp 10 28 10 = some 20 := by rw [catchUp]; simp; rw [catchUp]; simp
  have c3 : catchUp 10 65 20 = some 60 := by iterate 4 (rw [catchUp]; simp)
                                             rw [catchUp]; simp
  have c4 : catchUp 10 71 60 = some 70 := by rw [catchUp]; simp; rw [catchUp]; simp
  simp [pubRun, pubTick, c1, c2, c3, c4]

end Pr2
