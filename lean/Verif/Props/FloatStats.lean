import Verif.Spec.Sum
import Verif.Props.Joint
import Verif.Props.PlantPublish
import Mathlib.Data.List.Induction
import Mathlib.Analysis.SpecialFunctions.Exp

/-! # C108: joint statistics in floating point arithmetic, for whatever the sensors deliver -/

namespace Pr2
open IeeeLike

section
variable {F : Type} [FCmp F] [Zero F] [Neg F] [Sub F] [Add F]

/-- Statistics after a history, in any arithmetic. -/
def JStats.hist (st : JStats F) (h : List (StatEv F)) : JStats F :=
  h.foldl (fun st e => match e with | .sample x => st.update x | .reset => st.reset) st

/-- cycles in a row -/
def cycles (xs : List (JSample F)) : List (StatEv F) := xs.map .sample

theorem hist_append (st : JStats F) (h h' : List (StatEv F)) : st.hist (h ++ h') = (st.hist h).hist h' := by simp [JStats.hist]
theorem hist_sample (st : JStats F) (h : List (StatEv F)) (x : JSample F) : st.hist (h ++ [.sample x]) = (st.hist h).update x := by simp [JStats.hist]
theorem hist_reset (st : JStats F) (h : List (StatEv F)) : st.hist (h ++ [.reset]) = (st.hist h).reset := by simp [JStats.hist]

/-- the first sample initialises; the last position is remembered -/
theorem hist_base (old : F) (h : List (StatEv F)) :
    (((JStats.fresh old).hist h).initialized = true ↔ sampled h ≠ []) ∧ ∀ l p, sampled h = l ++ [p] → ((JStats.fresh old).hist h).oldPos = p := by
  induction h using List.reverseRecOn with
  | nil => exact ⟨by simp [JStats.hist, JStats.fresh, sampled], fun l p e => by simp [sampled] at e⟩
  | append_singleton h e ih =>
    cases e with
    | reset =>
      have hs : sampled (h ++ [.reset]) = sampled h := by simp [sampled]
      rw [hist_reset, hs]
      exact ih
    | sample x =>
      have hs : sampled (h ++ [.sample x]) = sampled h ++ [x.position] := by simp [sampled]
      rw [hist_sample, hs]
      refine ⟨?_, ?_⟩
      · unfold JStats.update; split <;> simp_all
      · intro l p e
        have : x.position = p := by simpa using (List.append_inj' e rfl).2
        rw [← this]; unfold JStats.update; split <;> rfl

section
variable [S : IeeeSum F]

theorem cnan_val (a : F) : cnan a = true ↔ val a = none := by
  unfold cnan
  rw [Bool.not_eq_true', Bool.eq_false_iff, Ne, eq_iff]
  cases val a <;> simp

omit [Zero F] [Sub F] [Add F] S in
theorem lt_val [IeeeLike F] {a b : F} {x y : EReal} (ha : val a = some x) (hb : val b = some y) : FCmp.lt a b = true ↔ x < y := by
  rw [lt_iff]
  constructor
  · rintro ⟨_, _, h1, h2, h3⟩
    rw [ha] at h1; rw [hb] at h2; cases h1; cases h2; exact h3
  · intro h; exact ⟨x, y, ha, hb, h⟩

theorem fabs_val (a : F) : val (fabs a) = (val a).map (fun x => max x (-x)) := by
  unfold fabs
  cases ha : val a with
  | none =>
    rw [if_neg]
    · exact ha
    · rw [lt_iff]; rintro ⟨_, _, h1, _⟩; rw [ha] at h1; cases h1
  | some x =>
    by_cases h : FCmp.lt a (0 : F) = true
    · have hx : x < 0 := (lt_val ha S.zero_val).1 h
      rw [if_pos h, IeeeLike.neg, ha]
      simp only [Option.map_some, Option.some.injEq]
      rw [max_eq_right]
      have : (0 : EReal) ≤ -x := by rw [EReal.le_neg]; simpa using hx.le
      exact hx.le.trans this
    · have hx : ¬ x < 0 := fun hx => h ((lt_val ha S.zero_val).2 hx)
      rw [if_neg h, ha]
      simp only [Option.map_some, Option.some.injEq]
      rw [max_eq_left]
      have : -x ≤ 0 := by rw [EReal.neg_le]; simpa using not_lt.1 hx
      exact this.trans (not_lt.1 hx)

theorem fmax_nan_left {a b : F} (ha : val a = none) : fmax a b = b := by
  unfold fmax; rw [if_pos ((cnan_val a).2 ha)]
theorem fmax_nan_right {a b : F} {x : EReal} (ha : val a = some x) (hb : val b = none) : fmax a b = a := by
  unfold fmax; rw [if_neg (by rw [cnan_val, ha]; simp), if_pos ((cnan_val b).2 hb)]
theorem fmax_some {a b : F} {x y : EReal} (ha : val a = some x) (hb : val b = some y) :
    val (fmax a b) = some (max x y) ∧ (fmax a b = a ∨ fmax a b = b) := by
  unfold fmax
  rw [if_neg (by rw [cnan_val, ha]; simp), if_neg (by rw [cnan_val, hb]; simp)]
  by_cases h : FCmp.lt a b = true
  · rw [if_pos h, hb, max_eq_right ((lt_val ha hb).1 h).le]; exact ⟨rfl, .inr rfl⟩
  · rw [if_neg h, ha, max_eq_left (not_lt.1 fun k => h ((lt_val ha hb).2 k))]; exact ⟨rfl, .inl rfl⟩
theorem fmin_nan_left {a b : F} (ha : val a = none) : fmin a b = b := by
  unfold fmin; rw [if_pos ((cnan_val a).2 ha)]
theorem fmin_nan_right {a b : F} {x : EReal} (ha : val a = some x) (hb : val b = none) : fmin a b = a := by
  unfold fmin; rw [if_neg (by rw [cnan_val, ha]; simp), if_pos ((cnan_val b).2 hb)]
theorem fmin_some {a b : F} {x y : EReal} (ha : val a = some x) (hb : val b = some y) :
    val (fmin a b) = some (min x y) ∧ (fmin a b = a ∨ fmin a b = b) := by
  unfold fmin
  rw [if_neg (by rw [cnan_val, ha]; simp), if_neg (by rw [cnan_val, hb]; simp)]
  by_cases h : FCmp.lt b a = true
  · rw [if_pos h, hb, min_eq_right ((lt_val hb ha).1 h).le]; exact ⟨rfl, .inr rfl⟩
  · rw [if_neg h, ha, min_eq_left (not_lt.1 fun k => h ((lt_val hb ha).2 k))]; exact ⟨rfl, .inl rfl⟩

/-- `m` is the largest magnitude among the numbers in `l` that are not NaN, or zero if there is none. -/
def IsMaxAbs (m : F) (l : List F) : Prop :=
  ∃ x, val m = some x ∧ (x = 0 ∨ ∃ a ∈ l, ∃ v, val a = some v ∧ x = max v (-v)) ∧ 0 ≤ x ∧ ∀ a ∈ l, ∀ v, val a = some v → max v (-v) ≤ x

theorem isMaxAbs_snoc {m : F} {l : List F} (h : IsMaxAbs m l) (a : F) : IsMaxAbs (fmax (fabs a) m) (l ++ [a]) := by
  obtain ⟨x, h1, h2, h3, h4⟩ := h
  cases ha : val a with
  | none =>
    have hf : val (fabs a) = none := by rw [fabs_val, ha]; rfl
    rw [fmax_nan_left hf]
    refine ⟨x, h1, ?_, h3, ?_⟩
    · rcases h2 with h2 | ⟨b, hb, h2⟩
      · exact .inl h2
      · exact .inr ⟨b, by simp [hb], h2⟩
    · intro b hb v hv
      rcases List.mem_append.1 hb with hb | hb
      · exact h4 b hb v hv
      · cases List.mem_singleton.1 hb; rw [ha] at hv; cases hv
  | some y =>
    have hf : val (fabs a) = some (max y (-y)) := by rw [fabs_val, ha]; rfl
    refine ⟨_, (fmax_some hf h1).1, ?_, h3.trans (le_max_right _ _), ?_⟩
    · rcases le_total x (max y (-y)) with h | h
      · exact .inr ⟨a, by simp, y, ha, max_eq_left h⟩
      · rw [max_eq_right h]
        rcases h2 with h2 | ⟨b, hb, h2⟩
        · exact .inl h2
        · exact .inr ⟨b, by simp [hb], h2⟩
    · intro b hb v hv
      rcases List.mem_append.1 hb with hb | hb
      · exact (h4 b hb v hv).trans (le_max_right _ _)
      · cases List.mem_singleton.1 hb; rw [ha] at hv; cases hv; exact le_max_left _ _

/-- `lo` and `hi` enclose every number in `l` that is not NaN. -/
def Encloses (lo hi : F) (l : List F) : Prop := ∀ a ∈ l, ∀ v, val a = some v → ∃ x y, val lo = some x ∧ val hi = some y ∧ x ≤ v ∧ v ≤ y

theorem encloses_snoc {lo hi : F} {l : List F} (h : Encloses lo hi l) (a : F) : Encloses (fmin a lo) (fmax a hi) (l ++ [a]) := by
  intro b hb v hv
  cases ha : val a with
  | none =>
    rw [fmin_nan_left ha, fmax_nan_left ha]
    rcases List.mem_append.1 hb with hb | hb
    · exact h b hb v hv
    · cases List.mem_singleton.1 hb; rw [ha] at hv; cases hv
  | some w =>
    have hmin : ∃ x, val (fmin a lo) = some x ∧ x ≤ w ∧ ∀ z, val lo = some z → x ≤ z := by
      cases hl : val lo with
      | none => rw [fmin_nan_right ha hl]; exact ⟨w, ha, le_refl _, by simp⟩
      | some z => exact ⟨_, (fmin_some ha hl).1, min_le_left _ _, fun _ e => by cases e; exact min_le_right _ _⟩
    have hmax : ∃ x, val (fmax a hi) = some x ∧ w ≤ x ∧ ∀ z, val hi = some z → z ≤ x := by
      cases hl : val hi with
      | none => rw [fmax_nan_right ha hl]; exact ⟨w, ha, le_refl _, by simp⟩
      | some z => exact ⟨_, (fmax_some ha hl).1, le_max_left _ _, fun _ e => by cases e; exact le_max_right _ _⟩
    obtain ⟨x, x1, x2, x3⟩ := hmin
    obtain ⟨y, y1, y2, y3⟩ := hmax
    rcases List.mem_append.1 hb with hb | hb
    · obtain ⟨x', y', p1, p2, p3, p4⟩ := h b hb v hv
      exact ⟨x, y, x1, y1, (x3 _ p1).trans p3, p4.trans (y3 _ p2)⟩
    · cases List.mem_singleton.1 hb; rw [ha] at hv; cases hv
      exact ⟨x, y, x1, y1, x2, y2⟩

omit [Zero F] [Neg F] [Sub F] [Add F] S in
theorem fmin_mem {a b : F} : fmin a b = a ∨ fmin a b = b := by
  unfold fmin; split
  · exact .inr rfl
  · split
    · exact .inl rfl
    · split
      · exact .inr rfl
      · exact .inl rfl
omit [Zero F] [Neg F] [Sub F] [Add F] S in
theorem fmax_mem {a b : F} : fmax a b = a ∨ fmax a b = b := by
  unfold fmax; split
  · exact .inr rfl
  · split
    · exact .inl rfl
    · split
      · exact .inr rfl
      · exact .inl rfl

/-- **C108.**  What is reported about a reporting interval, whatever the readings are (infinite and NaN ones included): maximal velocity and effort are numbers, exactly the
largest magnitudes of the readings that are numbers; the position range contains every position that is a number, and each of its ends is a position of the interval
or the opposite end of the previous range; the violation flag is set exactly if in some cycle the commanded effort was larger than the measured one. -/
theorem C108_report (old : F) (h : List (StatEv F)) (hh : sampled h ≠ []) (xs : List (JSample F)) :
    let prev := (JStats.fresh old).hist h
    let st := (JStats.fresh old).hist (h ++ [.reset] ++ cycles xs)
    IsMaxAbs st.maxVel (xs.map (·.velocity)) ∧ IsMaxAbs st.maxEff (xs.map (·.measured)) ∧ Encloses st.minPos st.maxPos (xs.map (·.position)) ∧
    (st.minPos = prev.maxPos ∨ st.minPos ∈ xs.map (·.position)) ∧ (st.maxPos = prev.minPos ∨ st.maxPos ∈ xs.map (·.position)) ∧
    (st.violated = true ↔ ∃ x ∈ xs, x.guarded = true ∧ ∃ m c, val x.measured = some m ∧ val x.commanded = some c ∧ max m (-m) < max c (-c)) := by
  intro prev st
  have hinit : prev.initialized = true := (hist_base old h).1.2 hh
  have key : (prev.reset.hist (cycles xs)).initialized = true ∧ IsMaxAbs (prev.reset.hist (cycles xs)).maxVel (xs.map (·.velocity)) ∧
      IsMaxAbs (prev.reset.hist (cycles xs)).maxEff (xs.map (·.measured)) ∧
      Encloses (prev.reset.hist (cycles xs)).minPos (prev.reset.hist (cycles xs)).maxPos (xs.map (·.position)) ∧
      ((prev.reset.hist (cycles xs)).minPos = prev.maxPos ∨ (prev.reset.hist (cycles xs)).minPos ∈ xs.map (·.position)) ∧
      ((prev.reset.hist (cycles xs)).maxPos = prev.minPos ∨ (prev.reset.hist (cycles xs)).maxPos ∈ xs.map (·.position)) ∧
      ((prev.reset.hist (cycles xs)).violated = true ↔
        ∃ x ∈ xs, x.guarded = true ∧ ∃ m c, val x.measured = some m ∧ val x.commanded = some c ∧ max m (-m) < max c (-c)) := by
    clear st
    induction xs using List.reverseRecOn with
    | nil =>
      have hz : IsMaxAbs (0 : F) [] := ⟨0, S.zero_val, .inl rfl, le_refl _, by simp⟩
      exact ⟨hinit, hz, hz, (by intro a ha; cases ha), .inl rfl, .inl rfl, by simp [cycles, JStats.hist, JStats.reset]⟩
    | append_singleton xs x ih =>
      obtain ⟨i0, i1, i2, i3, i4, i5, i6⟩ := ih
      have e : cycles (xs ++ [x]) = cycles xs ++ [.sample x] := by simp [cycles]
      rw [e, hist_sample]
      generalize hst : prev.reset.hist (cycles xs) = st at *
      have hu : st.update x = { st with
          odometer := st.odometer + fabs (st.oldPos - x.position)
          violated := st.violated || (x.guarded && FCmp.lt (fabs x.measured) (fabs x.commanded))
          minPos := fmin x.position st.minPos
          maxPos := fmax x.position st.maxPos
          maxVel := fmax (fabs x.velocity) st.maxVel
          maxEff := fmax (fabs x.measured) st.maxEff
          oldPos := x.position } := by
        unfold JStats.update; rw [if_pos i0]
      rw [hu]
      simp only [List.map_append, List.map_cons, List.map_nil]
      refine ⟨i0, isMaxAbs_snoc i1 _, isMaxAbs_snoc i2 _, encloses_snoc i3 _, ?_, ?_, ?_⟩
      · rcases fmin_mem (a := x.position) (b := st.minPos) with k | k
        · exact .inr (by rw [k]; simp)
        · rw [k]
          rcases i4 with i4 | i4
          · exact .inl i4
          · exact .inr (List.mem_append_left _ i4)
      · rcases fmax_mem (a := x.position) (b := st.maxPos) with k | k
        · exact .inr (by rw [k]; simp)
        · rw [k]
          rcases i5 with i5 | i5
          · exact .inl i5
          · exact .inr (List.mem_append_left _ i5)
      · have hlt : FCmp.lt (fabs x.measured) (fabs x.commanded) = true ↔
            ∃ m c, val x.measured = some m ∧ val x.commanded = some c ∧ max m (-m) < max c (-c) := by
          rw [lt_iff, fabs_val, fabs_val]
          constructor
          · rintro ⟨p, q, h1, h2, h3⟩
            obtain ⟨m, hm, rfl⟩ := Option.map_eq_some_iff.1 h1
            obtain ⟨c, hc, rfl⟩ := Option.map_eq_some_iff.1 h2
            exact ⟨m, c, hm, hc, h3⟩
          · rintro ⟨m, c, hm, hc, h3⟩
            exact ⟨_, _, by rw [hm]; rfl, by rw [hc]; rfl, h3⟩
        simp only [Bool.or_eq_true, Bool.and_eq_true, i6, hlt, List.mem_append, List.mem_singleton]
        constructor
        · rintro (⟨y, hy, h2⟩ | ⟨h1, h2⟩)
          · exact ⟨y, .inl hy, h2⟩
          · exact ⟨x, .inr rfl, h1, h2⟩
        · rintro ⟨y, hy | rfl, h2⟩
          · exact .inl ⟨y, hy, h2⟩
          · exact .inr h2
  have e : st = prev.reset.hist (cycles xs) := by
    show (JStats.fresh old).hist (h ++ [.reset] ++ cycles xs) = _
    rw [hist_append, hist_reset]
  rw [e]
  exact key.2

/-- **C108.**  One position that is not a number, and the odometer is not a number from the next cycle on, for ever: no reset or later reading repairs it. -/
theorem C108_odometer_nan (old : F) (h : List (StatEv F)) (hn : 2 ≤ (sampled h).length) (hp : ∃ p ∈ sampled h, val p = none) :
    val ((JStats.fresh old).hist h).odometer = none := by
  induction h using List.reverseRecOn with
  | nil => simp [sampled] at hn
  | append_singleton h e ih =>
    cases e with
    | reset =>
      have hs : sampled (h ++ [.reset]) = sampled h := by simp [sampled]
      rw [hs] at hn hp
      rw [hist_reset]
      exact ih hn hp
    | sample x =>
      have hs : sampled (h ++ [.sample x]) = sampled h ++ [x.position] := by simp [sampled]
      rw [hs] at hn hp
      have hne : sampled h ≠ [] := by rintro e; rw [e] at hn; simp at hn
      obtain ⟨b1, b2⟩ := hist_base old h
      rw [hist_sample]
      have hu : (((JStats.fresh old).hist h).update x).odometer = ((JStats.fresh old).hist h).odometer + fabs (((JStats.fresh old).hist h).oldPos - x.position) := by
        unfold JStats.update; rw [if_pos (b1.2 hne)]
      rw [hu]
      obtain ⟨p, hp, hpn⟩ := hp
      have hd : ∀ d : F, val d = none → val (fabs d) = none := fun d hd => by rw [fabs_val, hd]; rfl
      rcases List.mem_append.1 hp with hp | hp
      · by_cases h2 : 2 ≤ (sampled h).length
        · exact S.add_nan_left _ _ (ih h2 ⟨p, hp, hpn⟩)
        · have : sampled h = [p] := by
            match hsh : sampled h, hp, h2 with
            | [a], hp, _ => rw [List.mem_singleton.1 hp]
            | a :: b :: l, _, h2 => simp at h2
          have ho := b2 [] p this
          rw [ho]
          exact S.add_nan_right _ _ (hd _ (S.sub_nan_left _ _ hpn))
      · cases List.mem_singleton.1 hp
        exact S.add_nan_right _ _ (hd _ (S.sub_nan_right _ _ hpn))

/-- the odometer after one more cycle, for finite positions -/
theorem odometer_step {o p q : F} {a : EReal} {x y : ℝ} (ho : val o = some a) (ha : 0 ≤ a) (hp : IsVal p x) (hq : IsVal q y) :
    ∃ b, val (o + fabs (p - q)) = some b ∧ a ≤ b := by
  have h1 : val (p - q) = some (S.rd (x - y)) := S.sub p q x y hp hq
  have h2 : val (fabs (p - q)) = some (max (S.rd (x - y)) (-S.rd (x - y))) := by rw [fabs_val, h1]; rfl
  generalize hd : max (S.rd (x - y)) (-S.rd (x - y)) = d at h2
  have hd0 : 0 ≤ d := by
    rw [← hd]
    rcases le_total 0 (S.rd (x - y)) with h | h
    · exact h.trans (le_max_left _ _)
    · exact le_trans (by rw [EReal.le_neg]; simpa using h) (le_max_right _ _)
  have hab : a ≠ ⊥ := fun e => by rw [e] at ha; simp at ha
  have hdb : d ≠ ⊥ := fun e => by rw [e] at hd0; simp at hd0
  by_cases hat : a = ⊤
  · subst hat; exact ⟨⊤, S.add_top_left _ _ d ho h2 hdb, le_refl _⟩
  by_cases hdt : d = ⊤
  · subst hdt; exact ⟨⊤, S.add_top_right _ _ a ho h2 hab, le_top⟩
  lift a to ℝ using ⟨hat, hab⟩
  lift d to ℝ using ⟨hdt, hdb⟩
  refine ⟨_, S.add _ _ a d ho h2, ?_⟩
  have := S.mono (show a ≤ a + d by have : 0 ≤ d := by exact_mod_cast hd0
                                    linarith)
  rw [S.exact _ a ho] at this
  exact this

/-- **C108.**  With finite positions the odometer is always a number (possibly infinite), and never decreases. -/
theorem C108_odometer_monotone (old : F) (h h' : List (StatEv F)) (hf : ∀ p ∈ sampled (h ++ h'), ∃ x, IsVal p x) :
    ∃ a b, val ((JStats.fresh old).hist h).odometer = some a ∧ val ((JStats.fresh old).hist (h ++ h')).odometer = some b ∧ 0 ≤ a ∧ a ≤ b := by
  have step : ∀ (h : List (StatEv F)) (e : StatEv F) (a : EReal), (∀ p ∈ sampled (h ++ [e]), ∃ x, IsVal p x) →
      val ((JStats.fresh old).hist h).odometer = some a → 0 ≤ a → ∃ b, val ((JStats.fresh old).hist (h ++ [e])).odometer = some b ∧ a ≤ b := by
    intro h e a hf ha h0
    cases e with
    | reset => rw [hist_reset]; exact ⟨a, ha, le_refl _⟩
    | sample x =>
      have hs : sampled (h ++ [.sample x]) = sampled h ++ [x.position] := by simp [sampled]
      rw [hs] at hf
      rw [hist_sample]
      obtain ⟨b1, b2⟩ := hist_base old h
      rcases List.eq_nil_or_concat (sampled h) with hn | ⟨l, p, hl⟩
      · have : ((JStats.fresh old).hist h).initialized = false := by
          rw [Bool.eq_false_iff]; intro k; exact b1.1 k hn
        refine ⟨a, ?_, le_refl _⟩
        unfold JStats.update
        rw [if_neg (by rw [this]; simp)]
        exact ha
      · rw [List.concat_eq_append] at hl
        have hi : ((JStats.fresh old).hist h).initialized = true := b1.2 (by rw [hl]; simp)
        have ho := b2 l p hl
        obtain ⟨y, hy⟩ := hf p (by rw [hl]; simp)
        obtain ⟨z, hz⟩ := hf x.position (by simp)
        unfold JStats.update
        rw [if_pos hi, ho]
        exact odometer_step ha h0 hy hz
  have nonneg : ∀ h : List (StatEv F), (∀ p ∈ sampled h, ∃ x, IsVal p x) → ∃ a, val ((JStats.fresh old).hist h).odometer = some a ∧ 0 ≤ a := by
    intro h
    induction h using List.reverseRecOn with
    | nil => intro _; exact ⟨0, S.zero_val, le_refl _⟩
    | append_singleton h e ih =>
      intro hf
      obtain ⟨a, ha, h0⟩ := ih (fun p hp => hf p (by unfold sampled at hp ⊢; rw [List.filterMap_append]; exact List.mem_append_left _ hp))
      obtain ⟨b, hb, hab⟩ := step h e a hf ha h0
      exact ⟨b, hb, h0.trans hab⟩
  have hsub : ∀ p ∈ sampled h, p ∈ sampled (h ++ h') := fun p hp => by
    unfold sampled at hp ⊢; rw [List.filterMap_append]; exact List.mem_append_left _ hp
  obtain ⟨a, ha, h0⟩ := nonneg h (fun p hp => hf p (hsub p hp))
  suffices ∃ b, val ((JStats.fresh old).hist (h ++ h')).odometer = some b ∧ a ≤ b by
    obtain ⟨b, hb, hab⟩ := this; exact ⟨a, b, ha, hb, h0, hab⟩
  induction h' using List.reverseRecOn with
  | nil => exact ⟨a, by simpa using ha, le_refl _⟩
  | append_singleton h' e ih =>
    have hsub' : ∀ p ∈ sampled (h ++ h'), p ∈ sampled (h ++ (h' ++ [e])) := fun p hp => by
      unfold sampled at hp ⊢; rw [← List.append_assoc, List.filterMap_append]; exact List.mem_append_left _ hp
    obtain ⟨b, hb, hab⟩ := ih (fun p hp => hf p (hsub' p hp)) (fun p hp => by
      unfold sampled at hp ⊢; rw [List.filterMap_append]; exact List.mem_append_left _ hp)
    rw [← List.append_assoc] at hf ⊢
    obtain ⟨c, hc, hbc⟩ := step (h ++ h') e b hf hb (h0.trans hab)
    exact ⟨c, hc, hab.trans hbc⟩

end

/-! ## How far the odometer is from the distance travelled -/

section
variable [Mul F] [Div F] [FLit F] [A : IeeeArith F]

theorem fabs_isVal (hz : IsVal (0 : F) 0) {a : F} {z : ℝ} (h : IsVal (fabs a) z) : ∃ x, IsVal a x ∧ z = |x| := by
  unfold fabs at h
  by_cases hl : FCmp.lt a (0 : F) = true
  · rw [if_pos hl] at h
    unfold IsVal at h
    rw [IeeeLike.neg] at h
    obtain ⟨x, hx, hxz⟩ := Option.map_eq_some_iff.1 h
    have hx' : x = ((-z : ℝ) : EReal) := by rw [EReal.coe_neg, ← hxz, neg_neg]
    rw [hx'] at hx
    refine ⟨-z, hx, ?_⟩
    obtain ⟨p, q, h1, h2, h3⟩ := (lt_iff _ _).1 hl
    rw [hx] at h1; rw [hz] at h2; cases h1; cases h2
    have : -z < 0 := by exact_mod_cast h3
    rw [abs_neg, abs_of_pos (by linarith)]
  · rw [if_neg hl] at h
    refine ⟨z, h, ?_⟩
    have : ¬ z < 0 := fun hn => hl ((lt_iff _ _).2 ⟨z, _, h, hz, by exact_mod_cast hn⟩)
    rw [abs_of_nonneg (not_lt.1 this)]

omit [Zero F] in
theorem isVal_inj {a : F} {x y : ℝ} (h : IsVal a x) (k : IsVal a y) : x = y := by
  unfold IsVal at h k
  rw [h] at k
  exact_mod_cast Option.some.inj k

theorem forall₂_snoc {α β : Type} {R : α → β → Prop} {l : List α} {a : α} {m : List β} (h : List.Forall₂ R (l ++ [a]) m) :
    ∃ m' b, m = m' ++ [b] ∧ List.Forall₂ R l m' ∧ R a b := by
  induction l generalizing m with
  | nil =>
    cases h with
    | cons h1 h2 => cases h2; exact ⟨[], _, rfl, .nil, h1⟩
  | cons x l ih =>
    cases h with
    | cons h1 h2 =>
      obtain ⟨m', b, rfl, h3, h4⟩ := ih h2
      exact ⟨_ :: m', b, rfl, .cons h1 h3, h4⟩

theorem travelled_nonneg (l : List ℝ) : 0 ≤ travelled l := by
  induction l with
  | nil => exact le_refl _
  | cons a l ih =>
    cases l with
    | nil => exact le_refl _
    | cons b l => exact add_nonneg (abs_nonneg _) ih

/-- one step of the error recurrence -/
theorem odometer_error_step {u η o T d D z : ℝ} (hu : 0 ≤ u) (hη : 0 ≤ η) (hT : 0 ≤ T) (hD : 0 ≤ D) (n : ℕ)
    (ho : |o - T| ≤ ((1 + u) ^ (2 * n) - 1) * T + n * (2 + u) * (1 + u) ^ n * η) (hd : |d - D| ≤ u * D + η) (hz : |z - (o + d)| ≤ u * |o + d| + η) :
    |z - (T + D)| ≤ ((1 + u) ^ (2 * (n + 1)) - 1) * (T + D) + (n + 1 : ℕ) * (2 + u) * (1 + u) ^ (n + 1) * η := by
  set e := |o - T| with he
  have h1 : |o + d| ≤ T + D + e + (u * D + η) := by
    have : o + d = (T + D) + (o - T) + (d - D) := by ring
    rw [this]
    refine (abs_add_le _ _).trans ?_
    refine add_le_add ((abs_add_le _ _).trans ?_) hd
    rw [abs_of_nonneg (by linarith)]
  have h2 : |z - (T + D)| ≤ |z - (o + d)| + e + (u * D + η) := by
    have : z - (T + D) = (z - (o + d)) + (o - T) + (d - D) := by ring
    rw [this]
    exact (abs_add_le _ _).trans (add_le_add (abs_add_le _ _) hd)
  have h3 : |z - (T + D)| ≤ (1 + u) * e + u * T + (2 * u + u ^ 2) * D + (2 + u) * η := by
    have := mul_le_mul_of_nonneg_left h1 hu
    nlinarith
  have hq1 : (1 : ℝ) ≤ (1 + u) ^ (2 * n) := one_le_pow₀ (by linarith)
  have hq2 : (1 : ℝ) ≤ (1 + u) ^ n := one_le_pow₀ (by linarith)
  have e1 : (1 + u) ^ (2 * (n + 1)) = (1 + u) ^ (2 * n) * (1 + u) ^ 2 := by rw [← pow_add]; ring_nf
  have e2 : (1 + u) ^ (n + 1) = (1 + u) ^ n * (1 + u) := pow_succ _ _
  rw [e1, e2]
  push_cast
  set q := (1 + u) ^ (2 * n)
  set r := (1 + u) ^ n
  have h4 : (1 + u) * e ≤ (1 + u) * ((q - 1) * T + n * (2 + u) * r * η) := mul_le_mul_of_nonneg_left ho (by linarith)
  have hn : (0 : ℝ) ≤ n := Nat.cast_nonneg n
  -- coefficients
  have c1 : ((1 + u) * (q - 1) + u) * T ≤ (q * (1 + u) ^ 2 - 1) * T := by
    apply mul_le_mul_of_nonneg_right _ hT
    nlinarith [mul_nonneg hu (by linarith : (0:ℝ) ≤ q), mul_nonneg (mul_nonneg hu hu) (by linarith : (0:ℝ) ≤ q)]
  have c2 : (2 * u + u ^ 2) * D ≤ (q * (1 + u) ^ 2 - 1) * D := by
    apply mul_le_mul_of_nonneg_right _ hD
    nlinarith [mul_le_mul_of_nonneg_right hq1 (sq_nonneg (1 + u))]
  have c3 : ((1 + u) * (n * (2 + u) * r) + (2 + u)) * η ≤ ((n + 1) * (2 + u) * (r * (1 + u))) * η := by
    apply mul_le_mul_of_nonneg_right _ hη
    have : (2 + u) * 1 ≤ (2 + u) * (r * (1 + u)) := mul_le_mul_of_nonneg_left (by nlinarith) (by linarith)
    nlinarith
  nlinarith

/-- **C108.**  As long as the odometer has not overflowed, it differs from the exact total distance between consecutive positions by at most the relative error
`(1 + u)^(2n) - 1` (and a multiple of the underflow error), where `n` is the number of cycles since the first and `u` the relative error of one operation. -/
theorem C108_odometer_error (hz : IsVal (0 : F) 0) (old : F) (h : List (StatEv F)) (ps : List ℝ) (hps : List.Forall₂ IsVal (sampled h) ps) (z : ℝ)
    (hfin : IsVal ((JStats.fresh old).hist h).odometer z) :
    |z - travelled ps| ≤ ((1 + A.u) ^ (2 * (ps.length - 1)) - 1) * travelled ps + (ps.length - 1 : ℕ) * (2 + A.u) * (1 + A.u) ^ (ps.length - 1) * A.η := by
  induction h using List.reverseRecOn generalizing ps z with
  | nil =>
    have : ps = [] := by simpa [sampled] using hps
    subst this
    have : z = 0 := isVal_inj hfin hz
    subst this
    simp [travelled]
  | append_singleton h e ih =>
    cases e with
    | reset =>
      have hs : sampled (h ++ [.reset]) = sampled h := by simp [sampled]
      rw [hs] at hps
      rw [hist_reset] at hfin
      exact ih ps hps z hfin
    | sample x =>
      have hs : sampled (h ++ [.sample x]) = sampled h ++ [x.position] := by simp [sampled]
      rw [hs] at hps
      rw [hist_sample] at hfin
      obtain ⟨b1, b2⟩ := hist_base old h
      rcases List.eq_nil_or_concat (sampled h) with hn | ⟨l, p, hl⟩
      · have hi : ((JStats.fresh old).hist h).initialized = false := by
          rw [Bool.eq_false_iff]; intro k; exact b1.1 k hn
        unfold JStats.update at hfin
        rw [if_neg (by rw [hi]; simp)] at hfin
        rw [hn] at hps
        obtain ⟨y, rfl⟩ : ∃ y, ps = [y] := by
          cases hps with
          | cons _ h2 => cases h2; exact ⟨_, rfl⟩
        have := ih [] (by rw [hn]; exact .nil) z hfin
        simpa [travelled] using this
      · rw [List.concat_eq_append] at hl
        have hi : ((JStats.fresh old).hist h).initialized = true := b1.2 (by rw [hl]; simp)
        have ho := b2 l p hl
        unfold JStats.update at hfin
        rw [if_pos hi, ho] at hfin
        obtain ⟨ps1, b, rfl, hps1, hb⟩ := forall₂_snoc hps
        rw [hl] at hps1
        obtain ⟨qs, a, rfl, hqs, ha⟩ := forall₂_snoc hps1
        obtain ⟨o, d', ho1, hd1, herr⟩ := A.add _ _ z hfin
        obtain ⟨d, hd2, rfl⟩ := fabs_isVal hz hd1
        obtain ⟨a', b', ha', hb', hsub⟩ := A.sub _ _ d hd2
        cases isVal_inj ha ha'
        cases isVal_inj hb hb'
        have hih := ih (qs ++ [a]) (by rw [hl]; exact hps1) o ho1
        have hlen : (qs ++ [a]).length - 1 = qs.length := by simp
        have hlen' : (qs ++ [a] ++ [b]).length - 1 = qs.length + 1 := by simp
        rw [hlen] at hih
        rw [hlen', show qs ++ [a] ++ [b] = qs ++ [a, b] by simp, travelled_snoc]
        refine odometer_error_step A.u_nonneg A.η_nonneg (travelled_nonneg _) (abs_nonneg _) qs.length hih (d := |d|) ?_ herr
        exact (abs_abs_sub_abs_le _ _).trans hsub
end
end

/-! ## In the running system -/

section
variable {F : Type} [FCmp F] [Zero F] [Add F] [Sub F] [Mul F] [Div F] [Neg F] [FLit F] [FTrig F] [S : IeeeSum F]

/-- **C108.**  In the running system, whatever is loaded, unloaded and switched: as long as the positions sampled for a joint were finite, its odometer is a number that
has never decreased; once one of them was not a number, neither is the odometer, from the second cycle on and for ever. -/
theorem C108_running {big : F} {m : Bool} {d : RtData F} (hd : d.Good) {l l' : List (Plant F × PAct F)} {p p' : Plant F}
    (h : Plant.Trace big m d PlantIn.Reports l p) (h' : Plant.Trace big m d PlantIn.Reports (l ++ l') p')
    (k : Nat) (j0 : JState F) (hk : d.robot.joints[k]? = some j0) (old : F) (hfresh : j0.stats = JStats.fresh old) :
    ∃ j j', p.data.robot.joints[k]? = some j ∧ p'.data.robot.joints[k]? = some j' ∧
      ((∀ q ∈ sampled (statHistory big k (l ++ l')), ∃ x, IsVal q x) → ∃ a b, val j.stats.odometer = some a ∧ val j'.stats.odometer = some b ∧ 0 ≤ a ∧ a ≤ b) ∧
      (2 ≤ (sampled (statHistory big k l)).length → (∃ q ∈ sampled (statHistory big k l), val q = none) →
        val j.stats.odometer = none ∧ val j'.stats.odometer = none) := by
  obtain ⟨j, hj, -, hst⟩ := C90_history hd h k j0 hk
  obtain ⟨j', hj', -, hst'⟩ := C90_history hd h' k j0 hk
  have happ : statHistory big k (l ++ l') = statHistory big k l ++ statHistory big k l' := by simp [statHistory]
  rw [hfresh] at hst hst'
  rw [happ] at hst'
  have e : ∀ hh : List (StatEv F), (JStats.fresh old).lived hh = (JStats.fresh old).hist hh := fun _ => rfl
  rw [e] at hst hst'
  refine ⟨j, j', hj, hj', ?_, ?_⟩
  · rw [happ, hst, hst']
    exact C108_odometer_monotone old _ _
  · rintro h2 ⟨q, hq, hqn⟩
    rw [hst, hst']
    refine ⟨C108_odometer_nan old _ h2 ⟨q, hq, hqn⟩, C108_odometer_nan old _ ?_ ⟨q, ?_, hqn⟩⟩
    · unfold sampled at h2 ⊢; rw [List.filterMap_append, List.length_append]; omega
    · unfold sampled at hq ⊢; rw [List.filterMap_append]; exact List.mem_append_left _ hq
end

/-! ## Double precision -/

theorem pow_le_exp {u : ℝ} (hu : 0 ≤ u) (m : ℕ) : (1 + u) ^ m ≤ Real.exp (m * u) := by
  have : 1 + u ≤ Real.exp u := by linarith [Real.add_one_le_exp u]
  have h := pow_le_pow_left₀ (by linarith) this m
  rwa [← Real.exp_nat_mul] at h

theorem exp_small {x : ℝ} (h : x ≤ 1 / 4000001) : Real.exp x ≤ 1 + 1 / 4000000 := by
  have h1 := Real.one_sub_le_exp_neg x
  rw [Real.exp_neg] at h1
  have hp := Real.exp_pos x
  have h5 : Real.exp x * (1 - x) ≤ 1 := by
    have := mul_le_mul_of_nonneg_left h1 hp.le
    rwa [mul_inv_cancel₀ hp.ne'] at this
  nlinarith

theorem pow_error {n : ℕ} (hn : n ≤ 1000000000) : (1 + (1 : ℝ) / 2 ^ 53) ^ (2 * n) - 1 ≤ 1 / 4000000 := by
  have h1 := pow_le_exp (u := 1 / 2 ^ 53) (by norm_num) (2 * n)
  have hn' : ((2 * n : ℕ) : ℝ) ≤ 2000000000 := by exact_mod_cast (by omega : 2 * n ≤ 2000000000)
  have h3 : ((2 * n : ℕ) : ℝ) * (1 / 2 ^ 53) ≤ 1 / 4000001 := by
    have : ((2 * n : ℕ) : ℝ) * (1 / 2 ^ 53) ≤ 2000000000 * (1 / 2 ^ 53) := by gcongr
    refine this.trans ?_
    norm_num
  have h4 := exp_small h3
  linarith

/-- **C108.**  In double precision the odometer is right to one part in four million after up to 10⁹ cycles (eleven days at 1 kHz). -/
theorem C108_odometer_double (old : Dbl) (h : List (StatEv Dbl)) (ps : List ℝ) (hps : List.Forall₂ IsVal (sampled h) ps) (hn : ps.length ≤ 1000000000) (z : ℝ)
    (hfin : IsVal ((JStats.fresh old).hist h).odometer z) : |z - travelled ps| ≤ travelled ps / 4000000 + 1 / 2 ^ 1000 := by
  have hz : IsVal (0 : Dbl) 0 := by rw [Dbl.isVal_iff]; rfl
  have h1 := C108_odometer_error hz old h ps hps z hfin
  have hu : (IeeeArith.u Dbl : ℝ) = 1 / 2 ^ 53 := rfl
  have hη : (IeeeArith.η Dbl : ℝ) = 1 / 2 ^ 1075 := rfl
  rw [hu, hη] at h1
  have hp := pow_error (n := ps.length - 1) (by omega)
  have hT := travelled_nonneg ps
  have h2 : (1 + (1 : ℝ) / 2 ^ 53) ^ (ps.length - 1) ≤ 2 := by
    have h3 : (1 + (1 : ℝ) / 2 ^ 53) ^ (ps.length - 1) ≤ (1 + (1 : ℝ) / 2 ^ 53) ^ (2 * (ps.length - 1)) := pow_le_pow_right₀ (by norm_num) (by omega)
    linarith
  have h4 : ((ps.length - 1 : ℕ) : ℝ) ≤ 1000000000 := by exact_mod_cast (by omega : ps.length - 1 ≤ 1000000000)
  have h5 : ((ps.length - 1 : ℕ) : ℝ) * (2 + 1 / 2 ^ 53) * (1 + 1 / 2 ^ 53) ^ (ps.length - 1) * (1 / 2 ^ 1075) ≤ 1000000000 * 3 * 2 * (1 / 2 ^ 1075) := by
    gcongr
    norm_num
  have h6 : (1000000000 : ℝ) * 3 * 2 * (1 / 2 ^ 1075) ≤ 1 / 2 ^ 1000 := by
    have e : (2 : ℝ) ^ 1075 = 2 ^ 1000 * 2 ^ 75 := by rw [← pow_add]
    have hpos : (0 : ℝ) < 2 ^ 1000 := pow_pos two_pos _
    rw [e]
    generalize (2 : ℝ) ^ 1000 = b at hpos
    rw [one_div, mul_inv, one_div, mul_comm b⁻¹, ← mul_assoc]
    have hb : 0 ≤ b⁻¹ := (inv_pos.2 hpos).le
    have : (1000000000 : ℝ) * 3 * 2 * (2 ^ 75)⁻¹ ≤ 1 := by norm_num
    nlinarith
  have h7 := mul_le_mul_of_nonneg_right hp hT
  linarith

/-- the hypotheses of `C108_odometer_double` are met by a joint that moves -/
example : ∃ (h : List (StatEv Dbl)) (ps : List ℝ), List.Forall₂ IsVal (sampled h) ps ∧ travelled ps = 2 := by
  have h0 : IsVal (0 : Dbl) 0 := by rw [Dbl.isVal_iff]; rfl
  have h2 : IsVal (⟨some 2, by rintro x ⟨⟩; exact rep_two⟩ : Dbl) 2 := by rw [Dbl.isVal_iff]
  refine ⟨[.sample ⟨false, 0, 0, 0, 0⟩, .reset, .sample ⟨false, ⟨some 2, by rintro x ⟨⟩; exact rep_two⟩, 0, 0, 0⟩], [0, 2], .cons h0 (.cons h2 .nil), ?_⟩
  norm_num [travelled]

/-- readings of a joint with a broken sensor: the second position is not a number -/
noncomputable def glitch : List (StatEv B64) :=
  [.sample ⟨false, 0, 0, 0, 0⟩, .sample ⟨false, B64.nan, B64.nan, B64.top, 0⟩, .reset, .sample ⟨true, 0, B64.bot, 0, B64.top⟩, .sample ⟨false, 0, 0, 0, 0⟩]

/-- One bad reading: the odometer is lost for good, all else is reported as if the reading had not been there. -/
theorem C108_glitch (old : B64) : val ((JStats.fresh old).hist glitch).odometer = none ∧ val ((JStats.fresh old).hist glitch).maxVel = some ⊤ ∧
    ((JStats.fresh old).hist glitch).violated = true ∧ val ((JStats.fresh old).hist glitch).minPos = some 0 ∧ val ((JStats.fresh old).hist glitch).maxPos = some 0 := by
  have hr := C108_report old [.sample ⟨false, 0, 0, 0, 0⟩, .sample ⟨false, B64.nan, B64.nan, B64.top, 0⟩] (by simp [sampled])
    [⟨true, 0, B64.bot, 0, B64.top⟩, ⟨false, 0, 0, 0, 0⟩]
  obtain ⟨h1, h2, h3, h4, h5, h6⟩ := hr
  have hz : val (0 : B64) = some 0 := IeeeSum.zero_val
  have hprev : val ((JStats.fresh old).hist [.sample ⟨false, 0, 0, 0, 0⟩, .sample ⟨false, B64.nan, B64.nan, B64.top, 0⟩]).maxPos = some 0 ∧
      val ((JStats.fresh old).hist [.sample ⟨false, 0, 0, 0, 0⟩, .sample ⟨false, B64.nan, B64.nan, B64.top, 0⟩]).minPos = some 0 := by
    constructor
    · show val (fmax B64.nan (0 : B64)) = some 0
      rw [fmax_nan_left rfl, hz]
    · show val (fmin B64.nan (0 : B64)) = some 0
      rw [fmin_nan_left rfl, hz]
  refine ⟨C108_odometer_nan old glitch (by simp [glitch, sampled]) ⟨B64.nan, by simp [glitch, sampled], rfl⟩, ?_, h6.2 ⟨_, List.mem_cons_self, rfl, 0, ⊤, hz, rfl, by simp⟩, ?_, ?_⟩
  · obtain ⟨x, hx, -, -, hmax⟩ := h1
    have := hmax B64.bot (by simp) ⊥ rfl
    have : x = ⊤ := by simpa using this
    rw [this] at hx
    exact hx
  · rcases h4 with h | h
    · show val _ = _
      exact (congrArg val h).trans hprev.1
    · simp only [List.map_cons, List.map_nil, List.mem_cons, List.not_mem_nil, or_false, or_self] at h
      exact (congrArg val h).trans hz
  · rcases h5 with h | h
    · exact (congrArg val h).trans hprev.2
    · simp only [List.map_cons, List.map_nil, List.mem_cons, List.not_mem_nil, or_false, or_self] at h
      exact (congrArg val h).trans hz

end Pr2
