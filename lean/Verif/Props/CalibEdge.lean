import Verif.Props.Calib

/-! # C54 continued: recorded edges lie where the description puts them -/

namespace Pr2

section
variable {F : Type} [FCmp F] [Add F] [Sub F] [FTrig F]

omit [FCmp F] [Add F] [Sub F] [FTrig F] in
/-- Two observations directly after each other. -/
def Consecutive (x y : CalObs F) (tr : List (CalObs F)) : Prop := ∃ pre post, tr = pre ++ x :: y :: post

theorem lastTrip_none (trip : CalObs F → CalObs F → Bool) (tr : List (CalObs F)) :
    lastTrip trip tr = none ↔ ∀ x y, Consecutive x y tr → trip x y = false := by
  induction tr using List.reverseRecOn with
  | nil =>
    refine ⟨fun _ x y h => ?_, fun _ => rfl⟩
    obtain ⟨pre, post, h⟩ := h
    simp at h
  | append_singleton tr y ih =>
    rcases List.eq_nil_or_concat tr with rfl | ⟨tr', o, rfl⟩
    · refine ⟨fun _ x z h => ?_, fun _ => rfl⟩
      obtain ⟨pre, post, h⟩ := h
      have := congrArg List.length h
      simp at this
      omega
    · rw [List.concat_eq_append] at ih ⊢
      rw [List.append_assoc, List.singleton_append, lastTrip_snoc]
      constructor
      · intro h x z hx
        by_cases hc : trip o y = true
        · rw [if_pos hc] at h; cases h
        · rw [if_neg hc] at h
          obtain ⟨pre, post, hx⟩ := hx
          rcases List.eq_nil_or_concat post with rfl | ⟨post', w, rfl⟩
          · have h1 : tr' ++ [o, y] = pre ++ [x, z] := hx
            have h2 := List.append_inj_right' h1 rfl
            simp only [List.cons.injEq, and_true] at h2
            rw [← h2.1, ← h2.2]; simpa using hc
          · refine ih.1 h x z ⟨pre, post', ?_⟩
            rw [List.concat_eq_append] at hx
            have h1 : (tr' ++ [o]) ++ [y] = (pre ++ x :: z :: post') ++ [w] := by simpa using hx
            exact List.append_inj_left' h1 rfl
      · intro h
        rw [if_neg (by rw [h o y ⟨tr', [], rfl⟩]; simp)]
        refine ih.2 fun x z ⟨pre, post, hx⟩ => h x z ⟨pre, post ++ [y], ?_⟩
        have : tr' ++ [o, y] = (tr' ++ [o]) ++ [y] := by simp
        rw [this, hx]; simp

theorem lastTrip_some (trip : CalObs F → CalObs F → Bool) (tr : List (CalObs F)) {v : F} (h : lastTrip trip tr = some v) :
    ∃ pre x y post, tr = pre ++ x :: y :: post ∧ trip x y = true ∧ x.asPos = v ∧ ∀ a b, Consecutive a b (y :: post) → trip a b = false := by
  induction tr using List.reverseRecOn with
  | nil => cases h
  | append_singleton tr y ih =>
    rcases List.eq_nil_or_concat tr with rfl | ⟨tr', o, rfl⟩
    · cases h
    · rw [List.concat_eq_append] at ih h ⊢
      rw [List.append_assoc, List.singleton_append, lastTrip_snoc] at h
      by_cases hc : trip o y = true
      · rw [if_pos hc] at h
        refine ⟨tr', o, y, [], by simp, hc, Option.some.inj h, ?_⟩
        rintro a b ⟨pre, post, hx⟩
        have := congrArg List.length hx
        simp at this
        omega
      · rw [if_neg hc] at h
        obtain ⟨pre, x, z, post, h1, h2, h3, h4⟩ := ih h
        refine ⟨pre, x, z, post ++ [y], by rw [h1]; simp, h2, h3, ?_⟩
        rintro a b ⟨p, q, hx⟩
        rcases List.eq_nil_or_concat q with rfl | ⟨q', w, rfl⟩
        · -- the last pair is `o, y`
          have e1 : ((pre ++ [x]) ++ (z :: post)) = tr' ++ [o] := by rw [h1]; simp
          have e2 : (z :: post) ++ [y] = (p ++ [a]) ++ [b] := by rw [List.cons_append, hx]; simp
          have e3 := List.append_inj_left' e2 rfl
          have e4 := List.append_inj_right' e2 rfl
          rw [e3, ← List.append_assoc] at e1
          have e5 := List.append_inj_right' e1 rfl
          simp only [List.cons.injEq, and_true] at e4 e5
          rw [e5, ← e4]; simpa using hc
        · refine h4 a b ⟨p, q', ?_⟩
          rw [List.concat_eq_append] at hx
          have e2 : (z :: post) ++ [y] = (p ++ a :: b :: q') ++ [w] := by rw [List.cons_append, hx]; simp
          exact List.append_inj_left' e2 rfl

end

section
variable {F : Type} [FCmp F] [Add F] [Sub F] [FTrig F] [Zero F]

/-- **C54.** A new motor with a new simulator: an edge is valid exactly if some two consecutive calls tripped the sensor that way. -/
theorem C54_new_motor (name : String) (r f p q : F) (b o : Bool) (xs : List (CalCall F)) :
    let run := calRun (CalSim.fresh r f p q b o, Actuator.fresh name) xs
    (run.1.2.risingValid = true ↔ ∃ x y, Consecutive x y run.2 ∧ RisingTrip x y = true) ∧
    (run.1.2.fallingValid = true ↔ ∃ x y, Consecutive x y run.2 ∧ FallingTrip x y = true) := by
  obtain ⟨h1, _, h3, _⟩ := C54_edges (CalSim.fresh r f p q b o) rfl (Actuator.fresh name) xs
  dsimp only at h1 h3 ⊢
  have key : ∀ (trip : CalObs F → CalObs F → Bool) (tr : List (CalObs F)), ((false || (lastTrip trip tr).isSome) = true ↔ ∃ x y, Consecutive x y tr ∧ trip x y = true) := by
    intro trip tr
    rw [Bool.false_or, Option.isSome_iff_ne_none, Ne, lastTrip_none]
    push Not
    simp only [ne_eq, Bool.not_eq_false]
  rw [h1, h3]
  exact ⟨key _ _, key _ _⟩

end

/-- The edge `e` lies between two joint positions. -/
def Crosses (e : ℝ) (x y : CalObs ℝ) : Prop := (x.pos ≤ e ∧ e < y.pos) ∨ (y.pos ≤ e ∧ e < x.pos)

/-- The edge `e` lies between two joint positions (for sensors that are high below the edge). -/
def CrossesDown (e : ℝ) (x y : CalObs ℝ) : Prop := (x.pos < e ∧ e ≤ y.pos) ∨ (y.pos < e ∧ e ≤ x.pos)

theorem calRun_reading {j : UJoint ℝ} (R : ℝ → Prop)
    (hR : ∀ c, CalOf j c → ∀ (js : JState ℝ), js.joint = j → ∀ a : Actuator ℝ, (c.simulate js a).2.calReading = true ↔ R (js.position - js.reference))
    (c : CalSim ℝ) (hc : CalOf j c) (a : Actuator ℝ) (xs : List (CalCall ℝ)) (hx : ∀ x ∈ xs, x.j.joint = j) :
    ∀ o ∈ (calRun (c, a) xs).2, (o.reading = true ↔ R o.pos) := by
  induction xs generalizing c a with
  | nil => intro o ho; cases ho
  | cons x xs ih =>
    intro o ho
    simp only [calRun, List.mem_cons] at ho
    rcases ho with rfl | ho
    · exact hR c hc x.j (hx x (by simp)) _
    · exact ih _ (CalOf.call c x.j { a with position := x.asPos } hc (hx x (by simp))) _ (fun y hy => hx y (by simp [hy])) o ho

theorem Consecutive.mem {x y : CalObs F} {tr : List (CalObs F)} (h : Consecutive x y tr) : x ∈ tr ∧ y ∈ tr := by
  obtain ⟨pre, post, rfl⟩ := h
  simp

/-- **C54.** A joint that is not continuous, with a rising edge described at `e`: the rising edge is valid exactly if the joint has crossed `e`, in either
direction; the recorded position is that of the motor at the call before the latest crossing; the falling edge is never recorded. -/
theorem C54_located_rising {j : UJoint ℝ} (ht : j.type ≠ .continuous) (e : ℝ) (f' : Option ℝ) (hr : j.calibration = some ⟨some e, f'⟩)
    (name : String) (r f p q : ℝ) (b o : Bool) (xs : List (CalCall ℝ)) (hx : ∀ x ∈ xs, x.j.joint = j) :
    let run := calRun (CalSim.fresh r f p q b o, Actuator.fresh name) xs
    (run.1.2.risingValid = true ↔ ∃ x y, Consecutive x y run.2 ∧ Crosses e x y) ∧
    (run.1.2.risingValid = true → ∃ pre x y post, run.2 = pre ++ x :: y :: post ∧ Crosses e x y ∧ run.1.2.risingEdge = x.asPos ∧
      ∀ u v, Consecutive u v (y :: post) → ¬ Crosses e u v) ∧
    run.1.2.fallingValid = false := by
  have hread := calRun_reading (j := j) (fun x => e < x) (fun c hc js hj a => C53_limited_rising hc js hj a ht e f' hr) _ (CalOf.new r f p q b o) (Actuator.fresh name) xs hx
  obtain ⟨h1, h2, h3, _⟩ := C54_edges (CalSim.fresh r f p q b o) rfl (Actuator.fresh name) xs
  obtain ⟨n1, n2⟩ := C54_new_motor name r f p q b o xs
  dsimp only at h1 h2 h3 n1 n2 ⊢
  generalize calRun (CalSim.fresh r f p q b o, Actuator.fresh name) xs = run at *
  have key : ∀ x ∈ run.2, ∀ y ∈ run.2, (RisingTrip x y = true ↔ Crosses e x y) ∧ FallingTrip x y = false := by
    intro x hx y hy
    have ax := hread x hx
    have ay := hread y hy
    unfold RisingTrip FallingTrip Crosses
    have hl : FCmp.lt x.pos y.pos = decide (x.pos < y.pos) := rfl
    rw [hl]
    cases hxr : x.reading <;> cases hyr : y.reading <;> simp only [hxr, hyr, Bool.false_eq_true, false_iff, true_iff, not_lt] at ax ay
    · simp; constructor <;> intro h <;> linarith
    · have : x.pos < y.pos := lt_of_le_of_lt ax ay
      simp [this, ax, ay]
    · have : ¬ x.pos < y.pos := by linarith
      simp [this, ax, ay]
    · simp; constructor <;> intro h <;> linarith
  refine ⟨?_, ?_, ?_⟩
  · rw [n1]
    exact ⟨fun ⟨x, y, hc, h⟩ => ⟨x, y, hc, ((key x hc.mem.1 y hc.mem.2).1).1 h⟩, fun ⟨x, y, hc, h⟩ => ⟨x, y, hc, ((key x hc.mem.1 y hc.mem.2).1).2 h⟩⟩
  · intro hv
    rw [h1] at hv
    have hv' : (lastTrip RisingTrip run.2).isSome = true := by simpa [Actuator.fresh] using hv
    obtain ⟨v, hv⟩ := Option.isSome_iff_exists.1 hv'
    obtain ⟨pre, x, y, post, e1, e2, e3, e4⟩ := lastTrip_some _ _ hv
    have hm : ∀ z ∈ x :: y :: post, z ∈ run.2 := by intro z hz; rw [e1]; simp only [List.mem_append]; exact Or.inr hz
    refine ⟨pre, x, y, post, e1, ((key x (hm x (by simp)) y (hm y (by simp))).1).1 e2, by rw [h2, hv, e3]; rfl, ?_⟩
    intro u w hc hcr
    have := ((key u (hm u (List.mem_cons_of_mem _ hc.mem.1)) w (hm w (List.mem_cons_of_mem _ hc.mem.2))).1).2 hcr
    rw [e4 u w hc] at this; cases this
  · rw [← Bool.not_eq_true, n2]
    rintro ⟨x, y, hc, h⟩
    rw [(key x hc.mem.1 y hc.mem.2).2] at h; cases h

/-- **C54.** A joint that is not continuous, with only a falling edge described at `e`: the same with the falling edge. -/
theorem C54_located_falling {j : UJoint ℝ} (ht : j.type ≠ .continuous) (e : ℝ) (hr : j.calibration = some ⟨none, some e⟩)
    (name : String) (r f p q : ℝ) (b o : Bool) (xs : List (CalCall ℝ)) (hx : ∀ x ∈ xs, x.j.joint = j) :
    let run := calRun (CalSim.fresh r f p q b o, Actuator.fresh name) xs
    (run.1.2.fallingValid = true ↔ ∃ x y, Consecutive x y run.2 ∧ CrossesDown e x y) ∧
    (run.1.2.fallingValid = true → ∃ pre x y post, run.2 = pre ++ x :: y :: post ∧ CrossesDown e x y ∧ run.1.2.fallingEdge = x.asPos ∧
      ∀ u v, Consecutive u v (y :: post) → ¬ CrossesDown e u v) ∧
    run.1.2.risingValid = false := by
  have hread := calRun_reading (j := j) (fun x => x < e) (fun c hc js hj a => (C53_limited_falling hc js hj a ht).1 e hr) _ (CalOf.new r f p q b o) (Actuator.fresh name) xs hx
  obtain ⟨_, _, h1, h2⟩ := C54_edges (CalSim.fresh r f p q b o) rfl (Actuator.fresh name) xs
  obtain ⟨n2, n1⟩ := C54_new_motor name r f p q b o xs
  dsimp only at h1 h2 n1 n2 ⊢
  generalize calRun (CalSim.fresh r f p q b o, Actuator.fresh name) xs = run at *
  have key : ∀ x ∈ run.2, ∀ y ∈ run.2, (FallingTrip x y = true ↔ CrossesDown e x y) ∧ RisingTrip x y = false := by
    intro x hx y hy
    have ax := hread x hx
    have ay := hread y hy
    unfold RisingTrip FallingTrip CrossesDown
    have hl : FCmp.lt x.pos y.pos = decide (x.pos < y.pos) := rfl
    rw [hl]
    cases hxr : x.reading <;> cases hyr : y.reading <;> simp only [hxr, hyr, Bool.false_eq_true, false_iff, true_iff, not_lt] at ax ay
    · simp; constructor <;> intro h <;> linarith
    · have : ¬ x.pos < y.pos := by linarith
      simp [this, ax, ay]
    · have : x.pos < y.pos := lt_of_lt_of_le ax ay
      simp [this, ax, ay]
    · simp; constructor <;> intro h <;> linarith
  refine ⟨?_, ?_, ?_⟩
  · rw [n1]
    exact ⟨fun ⟨x, y, hc, h⟩ => ⟨x, y, hc, ((key x hc.mem.1 y hc.mem.2).1).1 h⟩, fun ⟨x, y, hc, h⟩ => ⟨x, y, hc, ((key x hc.mem.1 y hc.mem.2).1).2 h⟩⟩
  · intro hv
    rw [h1] at hv
    have hv' : (lastTrip FallingTrip run.2).isSome = true := by simpa [Actuator.fresh] using hv
    obtain ⟨v, hv⟩ := Option.isSome_iff_exists.1 hv'
    obtain ⟨pre, x, y, post, e1, e2, e3, e4⟩ := lastTrip_some _ _ hv
    have hm : ∀ z ∈ x :: y :: post, z ∈ run.2 := by intro z hz; rw [e1]; simp only [List.mem_append]; exact Or.inr hz
    refine ⟨pre, x, y, post, e1, ((key x (hm x (by simp)) y (hm y (by simp))).1).1 e2, by rw [h2, hv, e3]; rfl, ?_⟩
    intro u w hc hcr
    have := ((key u (hm u (List.mem_cons_of_mem _ hc.mem.1)) w (hm w (List.mem_cons_of_mem _ hc.mem.2))).1).2 hcr
    rw [e4 u w hc] at this; cases this
  · rw [← Bool.not_eq_true, n2]
    rintro ⟨x, y, hc, h⟩
    rw [(key x hc.mem.1 y hc.mem.2).2] at h; cases h

/-- **C54, accuracy.** If the motor position is proportional to the joint position (gear ratio `k`, offset `d`), and the joint moves by at most `step` between
two calls, a recorded rising edge is off by at most `|k| * step` from the motor position of the described edge. -/
theorem C54_accuracy {j : UJoint ℝ} (ht : j.type ≠ .continuous) (e : ℝ) (f' : Option ℝ) (hr : j.calibration = some ⟨some e, f'⟩)
    (name : String) (r f p q : ℝ) (b o : Bool) (xs : List (CalCall ℝ)) (hx : ∀ x ∈ xs, x.j.joint = j) (k d step : ℝ)
    (hk : ∀ x ∈ xs, x.asPos = k * (x.j.position - x.j.reference) + d)
    (hs : ∀ x y, Consecutive x y (calRun (CalSim.fresh r f p q b o, Actuator.fresh name) xs).2 → |y.pos - x.pos| ≤ step)
    (hv : (calRun (CalSim.fresh r f p q b o, Actuator.fresh name) xs).1.2.risingValid = true) :
    |(calRun (CalSim.fresh r f p q b o, Actuator.fresh name) xs).1.2.risingEdge - (k * e + d)| ≤ |k| * step := by
  obtain ⟨_, h, _⟩ := C54_located_rising ht e f' hr name r f p q b o xs hx
  obtain ⟨pre, x, y, post, h1, h2, h3, _⟩ := h hv
  have hobs : ∀ (s : CalSim ℝ × Actuator ℝ) (xs : List (CalCall ℝ)), (∀ x ∈ xs, x.asPos = k * (x.j.position - x.j.reference) + d) →
      ∀ o ∈ (calRun s xs).2, o.asPos = k * o.pos + d := by
    intro s xs
    induction xs generalizing s with
    | nil => intro _ o ho; cases ho
    | cons a xs ih =>
      intro ha o ho
      simp only [calRun, List.mem_cons] at ho
      rcases ho with rfl | ho
      · exact ha a (by simp)
      · exact ih _ (fun z hz => ha z (by simp [hz])) o ho
  have hc : Consecutive x y (calRun (CalSim.fresh r f p q b o, Actuator.fresh name) xs).2 := ⟨pre, post, h1⟩
  rw [h3, hobs _ xs hk x hc.mem.1]
  have h4 : k * x.pos + d - (k * e + d) = k * (x.pos - e) := by ring
  rw [h4, abs_mul]
  refine mul_le_mul_of_nonneg_left (le_trans ?_ (hs x y hc)) (abs_nonneg k)
  unfold Crosses at h2
  rcases h2 with ⟨h5, h6⟩ | ⟨h5, h6⟩
  · rw [abs_of_nonpos (by linarith), abs_of_nonneg (by linarith)]; linarith
  · rw [abs_of_nonneg (by linarith), abs_of_nonpos (by linarith)]; linarith

/-- The hypotheses are met: an elbow with a rising edge at 1 moves from 0 to 2, behind a gear of ratio 10. -/
example : ∃ (j : UJoint ℝ) (xs : List (CalCall ℝ)), j.type ≠ .continuous ∧ j.calibration = some ⟨some 1, none⟩ ∧ (∀ x ∈ xs, x.j.joint = j) ∧
    (∀ x ∈ xs, x.asPos = 10 * (x.j.position - x.j.reference) + 0) ∧
    (calRun (CalSim.fresh 0 0 0 0 false false, Actuator.fresh "m") xs).1.2.risingValid = true := by
  let j : UJoint ℝ := ⟨"elbow", .revolute, none, none, some ⟨some 1, none⟩⟩
  let st : ℝ → JState ℝ := fun p => ⟨j, p, 0, 0, .fresh 0, 0, false, 0⟩
  refine ⟨j, [⟨st 0, 0⟩, ⟨st 2, 20⟩], by decide, rfl, ?_, ?_, ?_⟩
  · intro x hx; simp at hx; rcases hx with rfl | rfl <;> rfl
  · intro x hx; simp at hx; rcases hx with rfl | rfl <;> norm_num [st]
  · rw [(C54_located_rising (j := j) (by decide) 1 none rfl "m" 0 0 0 0 false false [⟨st 0, 0⟩, ⟨st 2, 20⟩]
      (by intro x hx; simp at hx; rcases hx with rfl | rfl <;> rfl)).1]
    refine ⟨_, _, ⟨[], [], rfl⟩, Or.inl ⟨?_, ?_⟩⟩ <;> norm_num [st]

end Pr2
