import Verif.Model.TimeRange
import Verif.Props.Publish

/-! # C25 continued: the range of `ros::Time`, and how long catching up takes -/

namespace Pr2

theorem timeAdd_some {t d : Int} (h0 : 0 ≤ t + d) (h1 : t + d < timeEnd) : timeAdd t d = some (t + d) := if_pos ⟨h0, h1⟩

/-- the loop in the range of `ros::Time` does what the unbounded loop does -/
theorem catchUp32_run {period now : Int} (hp : 0 < period) (hend : now + period < timeEnd) (n : Nat) :
    ∀ last, 0 ≤ last → last + period < timeEnd → (now - last).toNat ≤ n →
      ∃ k : Nat, CatchUp32 period now last k (some (last + k * period)) ∧ now ≤ last + k * period + period ∧ (0 < k → last + k * period < now) := by
  induction n with
  | zero =>
    intro last h0 h1 hn
    have ht := timeAdd_some (t := last) (d := period) (by omega) h1
    refine ⟨0, ?_, by push_cast; omega, by simp⟩
    have := CatchUp32.done (now := now) ht (by omega)
    simpa using this
  | succ n ih =>
    intro last h0 h1 hn
    have ht := timeAdd_some (t := last) (d := period) (by omega) h1
    by_cases hl : last + period < now
    · obtain ⟨k, h2, h3, h4⟩ := ih (last + period) (by omega) (by omega) (by omega)
      have e : last + period + (k : Int) * period = last + ((k + 1 : Nat) : Int) * period := by push_cast; ring
      rw [e] at h2 h3 h4
      refine ⟨k + 1, .step ht hl ht h2, h3, fun _ => ?_⟩
      rcases Nat.eq_zero_or_pos k with rfl | hk
      · simpa using hl
      · exact h4 hk
    · refine ⟨0, ?_, by push_cast; omega, by simp⟩
      have := CatchUp32.done (now := now) ht hl
      simpa using this

theorem CatchUp32.det {period now last : Int} {n m : Nat} {r r' : Option Int} (h : CatchUp32 period now last n r) (h' : CatchUp32 period now last m r') :
    n = m ∧ r = r' := by
  induction h generalizing m r' with
  | throws h1 => cases h' <;> simp_all
  | done h1 h2 =>
    cases h' with
    | throws h3 => simp_all
    | done h3 h4 => exact ⟨rfl, rfl⟩
    | step h3 h4 _ _ => rw [h1] at h3; cases h3; exact absurd h4 h2
  | step h1 h2 _ _ ih =>
    cases h' with
    | throws h3 => simp_all
    | done h3 h4 => rw [h1] at h3; cases h3; exact absurd h2 h4
    | step h3 h4 _ h5 =>
      rw [h1] at h3; cases h3
      obtain ⟨e1, e2⟩ := ih h5
      exact ⟨by rw [e1], e2⟩

theorem PubTick32.det {period now : Int} {free : Bool} {last : Int} {n m : Nat} {r r' : Option (Int × Bool)} (h : PubTick32 period now free last n r)
    (h' : PubTick32 period now free last m r') : n = m ∧ r = r' := by
  cases h with
  | throws h1 => cases h' <;> simp_all
  | early h1 h2 =>
    cases h' with
    | throws h3 => simp_all
    | early h3 h4 => exact ⟨rfl, rfl⟩
    | busy h3 h4 _ => rw [h1] at h3; cases h3; exact absurd h4 h2
    | publish h3 h4 _ _ => rw [h1] at h3; cases h3; exact absurd h4 h2
  | busy h1 h2 h2' =>
    cases h' with
    | throws h3 => simp_all
    | early h3 h4 => rw [h1] at h3; cases h3; exact absurd h2 h4
    | busy h3 h4 _ => exact ⟨rfl, rfl⟩
    | publish h3 h4 h5 _ => rw [h2'] at h5; cases h5
  | publish h1 h2 h2' hc =>
    cases h' with
    | throws h3 => simp_all
    | early h3 h4 => rw [h1] at h3; cases h3; exact absurd h2 h4
    | busy h3 h4 h5 => rw [h2'] at h5; cases h5
    | publish h3 h4 h5 hc' =>
      obtain ⟨e1, e2⟩ := hc.det hc'
      exact ⟨e1, by rw [e2]⟩

theorem PubRun32.det {period last : Int} {cs : List (Int × Bool)} {ns ms : List Nat} {r r' : Option (Int × List Bool)} (h : PubRun32 period last cs ns r)
    (h' : PubRun32 period last cs ms r') : ns = ms ∧ r = r' := by
  induction h generalizing ms r' with
  | nil => cases h'; exact ⟨rfl, rfl⟩
  | throws h1 =>
    cases h' with
    | throws h2 => exact ⟨by rw [(h1.det h2).1], rfl⟩
    | cons h2 _ => exact absurd (h1.det h2).2 (by simp)
  | cons h1 _ ih =>
    cases h' with
    | throws h2 => exact absurd (h1.det h2).2 (by simp)
    | cons h2 h3 =>
      obtain ⟨e1, e2⟩ := h1.det h2
      cases e2
      obtain ⟨e3, e4⟩ := ih h3
      exact ⟨by rw [e1, e3], by rw [e4]⟩

/-- one call, before the end of time -/
theorem pubTick32_run {period now : Int} (hp : 0 < period) {last : Int} (free : Bool) (h0 : 0 ≤ last) (h1 : last + period < timeEnd) (h2 : now + period < timeEnd) :
    ∃ n l b, PubTick32 period now free last n (some (l, b)) ∧ pubTick period now free last = some (l, b) ∧ l = last + n * period ∧
      (b = false → n = 0) ∧ (0 < n → l < now) ∧ (b = true → now ≤ l + period) := by
  have ht := timeAdd_some (t := last) (d := period) (by omega) h1
  unfold pubTick
  by_cases hl : now > last + period
  · rw [if_pos hl]
    cases free with
    | false =>
      exact ⟨0, last, false, .busy ht hl rfl, by simp, by simp, fun _ => rfl, by simp, by simp⟩
    | true =>
      obtain ⟨k, h3, h4, h5⟩ := catchUp32_run hp h2 _ last h0 h1 (le_refl _)
      obtain ⟨k', h3', h4', h5'⟩ := C25_catch_up period now last hp
      have hk : k' = k := by
        have m : ∀ a b : Nat, a < b → now ≤ last + a * period + period → last + b * period < now → False := by
          intro a b hab x y
          have : ((a : Int) + 1) * period ≤ b * period := Int.mul_le_mul_of_nonneg_right (by omega) hp.le
          have e : ((a : Int) + 1) * period = a * period + period := by ring
          omega
        rcases Nat.lt_trichotomy k' k with h | h | h
        · exact (m k' k h h4' (h5 (by omega))).elim
        · exact h
        · exact (m k k' h h4 (h5' (by omega))).elim
      subst hk
      rw [if_pos rfl, h3']
      exact ⟨k', _, true, .publish ht hl rfl h3, rfl, rfl, by simp, h5, fun _ => h4⟩
  · rw [if_neg hl]
    exact ⟨0, last, false, .early ht hl, rfl, by simp, fun _ => rfl, by simp, by simp⟩

/-- **C25.**  As long as no clock reading comes within one period of the end of `ros::Time`, the publishing clocks never throw and do exactly what C25 says of
unbounded times. -/
theorem C25_in_range {period : Int} (hp : 0 < period) {start : Int} (cs : List (Int × Bool)) (h0 : 0 ≤ start) (h1 : start + period < timeEnd)
    (hc : ∀ c ∈ cs, c.1 + period < timeEnd) (r : Option (Int × List Bool)) :
    (∃ ns, PubRun32 period start cs ns r) ↔ r = pubRun period start cs := by
  have key : ∀ (cs : List (Int × Bool)) (start : Int), 0 ≤ start → start + period < timeEnd → (∀ c ∈ cs, c.1 + period < timeEnd) →
      ∃ ns, PubRun32 period start cs ns (pubRun period start cs) := by
    intro cs
    induction cs with
    | nil => intro start _ _ _; exact ⟨[], .nil⟩
    | cons c cs ih =>
      intro start h0 h1 hc
      have hc1 := hc c (by simp)
      obtain ⟨n, l, b, e1, e2, e3, e4, e5, e6⟩ := pubTick32_run (now := c.1) hp (last := start) c.2 h0 h1 hc1
      have hn : (0 : Int) ≤ n * period := Int.mul_nonneg (by omega) hp.le
      have hl : l + period < timeEnd := by
        rcases Nat.eq_zero_or_pos n with rfl | hn
        · simp at e3; omega
        · have := e5 hn; omega
      obtain ⟨ns, hr⟩ := ih l (by omega) hl (fun d hd => hc d (by simp [hd]))
      refine ⟨n :: ns, ?_⟩
      have hrun : pubRun period start (c :: cs) = (pubRun period l cs).map (fun x => (x.1, b :: x.2)) := by
        have e : pubRun period start (c :: cs) = (pubTick period c.1 c.2 start).bind (fun r => (pubRun period r.1 cs).bind (fun rs => some (rs.1, r.2 :: rs.2))) := rfl
        rw [e, e2]
        show (pubRun period l cs).bind (fun rs => some (rs.1, b :: rs.2)) = _
        cases pubRun period l cs <;> rfl
      rw [hrun]
      exact .cons e1 hr
  obtain ⟨ns, hr⟩ := key cs start h0 h1 hc
  exact ⟨fun ⟨ms, h⟩ => (h.det hr).2, fun h => ⟨ns, h ▸ hr⟩⟩

/-- **C25.**  Whatever rates are configured (up to 2·10⁹ Hz), that is the case until a million seconds before the end of `ros::Time` (January 2106). -/
theorem C25_until_2106 (rate : ℚ) (hr : rate ≤ 2000000000) {start : Int} (cs : List (Int × Bool)) (h0 : 0 ≤ start)
    (h1 : start < timeEnd - 1000000000000000) (hc : ∀ c ∈ cs, c.1 < timeEnd - 1000000000000000) (r : Option (Int × List Bool)) :
    (∃ ns, PubRun32 (publishPeriod rate) start cs ns r) ↔ r = pubRun (publishPeriod rate) start cs := by
  have hp := (C25_period_positive rate).2 hr
  have hle : publishPeriod rate ≤ 1000000000000000 := by
    unfold publishPeriod
    rw [← Int.lt_add_one_iff, Int.floor_lt]
    split
    · norm_num
    · rename_i h
      push Not at h
      have hr0 : 0 < rate := lt_of_lt_of_le (by norm_num) h
      have : 1 / rate ≤ 1000000 := by rw [div_le_iff₀ hr0]; linarith
      push_cast
      linarith
  exact C25_in_range hp cs h0 (by omega) (fun c hcc => by have := hc c hcc; omega) r

/-- **C25.**  Catching up takes one iteration of the realtime loop for every period that has passed: a publication at time `now` takes `n` iterations with
`n * period < now - last ≤ (n + 1) * period`. -/
theorem C25_catch_up_time {period now last : Int} (hp : 0 < period) (h0 : 0 ≤ last) (h2 : now + period < timeEnd) (h : now > last + period) :
    ∃ n l, PubTick32 period now true last n (some (l, true)) ∧ n * period < now - last ∧ now - last ≤ (n + 1) * period := by
  have ht := timeAdd_some (t := last) (d := period) (by omega) (by omega)
  obtain ⟨k, h3, h4, h5⟩ := catchUp32_run hp h2 _ last h0 (by omega) (le_refl _)
  refine ⟨k, last + k * period, .publish ht h rfl h3, ?_, ?_⟩
  · rcases Nat.eq_zero_or_pos k with rfl | hk
    · push_cast; omega
    · have := h5 hk; omega
  · have e : ((k : Int) + 1) * period = k * period + period := by ring
    omega

/-- **C25, counterexample.**  So there is no bound on how long the realtime loop may be kept catching up: if the clock jumps (the manager is constructed before
the first message of the simulated clock arrives, say), one call takes any given number of iterations. -/
theorem C25_jump_stalls (period : Int) (hp : 0 < period) (n : Nat) (hn : (n + 3) * period < timeEnd) :
    ∃ now l, now < timeEnd ∧ PubTick32 period now true 0 (n + 1) (some (l, true)) := by
  have e1 : ((n : Int) + 3) * period = (n + 2) * period + period := by ring
  have e2 : ((n : Int) + 2) * period = n * period + period + period := by ring
  have hpos : (0 : Int) ≤ n * period := Int.mul_nonneg (by omega) hp.le
  obtain ⟨m, l, h, h1, h2⟩ := C25_catch_up_time (now := (n + 2) * period) (last := 0) hp (le_refl _) (by omega) (by omega)
  have hm : m = n + 1 := by
    have a1 : ((m : Int) - (n + 2)) * period < 0 := by
      have e : ((m : Int) - (n + 2)) * period = m * period - (n + 2) * period := by ring
      omega
    have a2 : ((n : Int) + 2 - (m + 1)) * period ≤ 0 := by
      have e : ((n : Int) + 2 - (m + 1)) * period = (n + 2) * period - (m + 1) * period := by ring
      omega
    have b1 : (m : Int) - (n + 2) < 0 := by
      by_contra hc
      have := Int.mul_nonneg (show (0 : Int) ≤ m - (n + 2) by omega) hp.le
      omega
    have b2 : (n : Int) + 2 - (m + 1) ≤ 0 := by
      by_contra hc
      have := Int.mul_pos (show (0 : Int) < n + 2 - (m + 1) by omega) hp
      omega
    omega
  subst hm
  exact ⟨_, l, by omega, h⟩

/-- With 100 Hz, from time zero to the time of writing: over 170 000 000 000 iterations in one control cycle. -/
example : ∃ now l, now < timeEnd ∧ PubTick32 10000000 now true 0 170000000000 (some (l, true)) := by
  have := C25_jump_stalls 10000000 (by norm_num) 169999999999 (by norm_num [timeEnd])
  exact this

/-- The hypotheses of `C25_until_2106` are met: 100 Hz, two calls in 2026. -/
example : ∃ ns, PubRun32 (publishPeriod 100) 1790000000000000000 [(1790000000000000000, true), (1790000000020000000, true)] ns (some (1790000000010000000, [false, true])) := by
  rw [C25_until_2106 100 (by norm_num) _ (by norm_num) (by norm_num [timeEnd])
    (by intro c hc; simp at hc; rcases hc with rfl | rfl <;> norm_num [timeEnd])]
  have hper : publishPeriod 100 = 10000000 := by unfold publishPeriod; norm_num
  rw [hper]
  have hcu : catchUp 10000000 1790000000020000000 1790000000000000000 = some 1790000000010000000 := by
    unfold catchUp; rw [if_pos (by norm_num), if_pos (by norm_num)]
    unfold catchUp; rw [if_neg (by norm_num)]; norm_num
  simp [pubRun, pubTick, hcu]

/-- **C25, counterexample.**  In the last period before the end of `ros::Time` the realtime loop is ended by an exception. -/
theorem C25_end_of_time {period last now : Int} (h : timeEnd ≤ last + period) (free : Bool) :
    PubTick32 period now free last 0 none :=
  .throws (if_neg (by omega))

end Pr2
