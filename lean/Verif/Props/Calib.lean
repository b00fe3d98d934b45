import Verif.Spec.Real
import Mathlib.Data.List.Induction
import Mathlib.Analysis.Real.Pi.Bounds

/-! # C53, C54: simulated calibration sensors -/

namespace Pr2
set_option linter.unusedVariables false

/-! ## The simulator of one joint over its lifetime -/

section
variable {F : Type} [FCmp F] [Add F] [Sub F] [FTrig F]

/-- One call: the joint state, and the actuator position the transmission has just written. -/
structure CalCall (F : Type) where
  j : JState F
  asPos : F

/-- Simulator and actuator after a call; the transmission sets the actuator's position before. -/
def calStep (s : CalSim F × Actuator F) (x : CalCall F) : CalSim F × Actuator F := s.1.simulate x.j { s.2 with position := x.asPos }

/-- What an observer sees of a call: joint position (relative to the reference), actuator position, and the reading afterwards. -/
structure CalObs (F : Type) where
  pos : F
  asPos : F
  reading : Bool

/-- Simulator, actuator and the observations after a sequence of calls. -/
def calRun (s : CalSim F × Actuator F) : List (CalCall F) → (CalSim F × Actuator F) × List (CalObs F)
  | [] => (s, [])
  | x :: xs =>
    let s' := calStep s x
    let r := calRun s' xs
    (r.1, ⟨x.j.position - x.j.reference, x.asPos, s'.2.calReading⟩ :: r.2)

/-- The reading changed between two consecutive calls, and the sensor is high on the side of larger positions. -/
def RisingTrip (x y : CalObs F) : Bool := (x.reading != y.reading) && (y.reading == FCmp.lt x.pos y.pos)
/-- The reading changed, and the sensor is high on the side of smaller positions. -/
def FallingTrip (x y : CalObs F) : Bool := (x.reading != y.reading) && (y.reading != FCmp.lt x.pos y.pos)

/-- The actuator position at the call before the latest trip. -/
def lastTrip (trip : CalObs F → CalObs F → Bool) (tr : List (CalObs F)) : Option F :=
  ((tr.zip tr.tail).reverse.find? (fun p => trip p.1 p.2)).map (fun p => p.1.asPos)

theorem getInfo_keeps (c : CalSim F) (j : UJoint F) : (c.getInfo j).initialized = c.initialized ∧ (c.getInfo j).oldReading = c.oldReading ∧
    (c.getInfo j).oldPos = c.oldPos ∧ (c.getInfo j).oldAsPos = c.oldAsPos ∧ (c.getInfo j).gotInfo = true := by
  have h1 : (c.readEdges j).initialized = c.initialized ∧ (c.readEdges j).oldReading = c.oldReading ∧
      (c.readEdges j).oldPos = c.oldPos ∧ (c.readEdges j).oldAsPos = c.oldAsPos := by
    unfold CalSim.readEdges
    split
    · exact ⟨rfl, rfl, rfl, rfl⟩
    · rename_i cal _
      rcases cal with ⟨_ | r, _ | f⟩ <;> exact ⟨rfl, rfl, rfl, rfl⟩
  have h2 : ∀ c : CalSim F, (c.continuousEdges).initialized = c.initialized ∧ (c.continuousEdges).oldReading = c.oldReading ∧
      (c.continuousEdges).oldPos = c.oldPos ∧ (c.continuousEdges).oldAsPos = c.oldAsPos := by
    intro c
    rcases c with ⟨_, hr, hf, _, _, _, _, _, _, _, _⟩
    cases hr <;> cases hf <;> exact ⟨rfl, rfl, rfl, rfl⟩
  unfold CalSim.getInfo
  dsimp only
  split
  · exact ⟨(h2 _).1.trans h1.1, (h2 _).2.1.trans h1.2.1, (h2 _).2.2.1.trans h1.2.2.1, (h2 _).2.2.2.trans h1.2.2.2, rfl⟩
  · exact ⟨h1.1, h1.2.1, h1.2.2.1, h1.2.2.2, rfl⟩

/-- One call, in terms of what the simulator remembers. -/
theorem calStep_spec (s : CalSim F × Actuator F) (x : CalCall F) :
    let y : CalObs F := ⟨x.j.position - x.j.reference, x.asPos, (calStep s x).2.calReading⟩
    (calStep s x).1.initialized = true ∧ (calStep s x).1.oldReading = y.reading ∧ (calStep s x).1.oldPos = y.pos ∧
    (calStep s x).1.oldAsPos = y.asPos ∧
    (s.1.initialized = false → (calStep s x).2.risingValid = s.2.risingValid ∧ (calStep s x).2.risingEdge = s.2.risingEdge ∧
      (calStep s x).2.fallingValid = s.2.fallingValid ∧ (calStep s x).2.fallingEdge = s.2.fallingEdge) ∧
    (s.1.initialized = true →
      let o : CalObs F := ⟨s.1.oldPos, s.1.oldAsPos, s.1.oldReading⟩
      (calStep s x).2.risingValid = (s.2.risingValid || RisingTrip o y) ∧
      (calStep s x).2.risingEdge = (if RisingTrip o y then o.asPos else s.2.risingEdge) ∧
      (calStep s x).2.fallingValid = (s.2.fallingValid || FallingTrip o y) ∧
      (calStep s x).2.fallingEdge = (if FallingTrip o y then o.asPos else s.2.fallingEdge)) := by
  obtain ⟨c, a⟩ := s
  unfold calStep CalSim.simulate
  dsimp only
  have hc : ∃ c', (if c.gotInfo = true then c else c.getInfo x.j.joint) = c' ∧ c'.initialized = c.initialized ∧
      c'.oldReading = c.oldReading ∧ c'.oldPos = c.oldPos ∧ c'.oldAsPos = c.oldAsPos := by
    split
    · exact ⟨_, rfl, rfl, rfl, rfl, rfl⟩
    · obtain ⟨h1, h2, h3, h4, _⟩ := getInfo_keeps c x.j.joint
      exact ⟨_, rfl, h1, h2, h3, h4⟩
  obtain ⟨c', he, h1, h2, h3, h4⟩ := hc
  rw [he]
  rw [h1, h2, h3, h4]
  generalize c'.reading (x.j.position - x.j.reference) a.calReading = r
  unfold RisingTrip FallingTrip
  dsimp only
  generalize FCmp.lt c.oldPos (x.j.position - x.j.reference) = up
  cases hi : c.initialized <;> cases ho : c.oldReading <;> cases r <;> cases up <;> simp

theorem getLast?_calRun (s : CalSim F × Actuator F) (xs : List (CalCall F)) (x : CalCall F) :
    calRun s (xs ++ [x]) = (calStep (calRun s xs).1 x, (calRun s xs).2 ++
      [⟨x.j.position - x.j.reference, x.asPos, (calStep (calRun s xs).1 x).2.calReading⟩]) := by
  induction xs generalizing s with
  | nil => rfl
  | cons y xs ih => simp only [List.cons_append, calRun, ih]

theorem lastTrip_snoc (trip : CalObs F → CalObs F → Bool) (tr : List (CalObs F)) (o y : CalObs F) :
    lastTrip trip (tr ++ [o, y]) = if trip o y then some o.asPos else lastTrip trip (tr ++ [o]) := by
  have h : ((tr ++ [o, y]).zip (tr ++ [o, y]).tail) = ((tr ++ [o]).zip (tr ++ [o]).tail) ++ [(o, y)] := by
    induction tr with
    | nil => rfl
    | cons z tr ih =>
      cases tr with
      | nil => rfl
      | cons w tr => simpa using ih
  unfold lastTrip
  rw [h, List.reverse_append]
  simp only [List.reverse_cons, List.reverse_nil, List.nil_append, List.singleton_append, List.find?_cons]
  split
  · rename_i h1; rw [if_pos h1]; rfl
  · rename_i h1; rw [if_neg (by simp [h1])]

/-- **C54.** From a new simulator, after any sequence of calls: an edge position is recorded exactly if the reading has changed between
two consecutive calls (never at the first); it is the actuator position at the call before the latest change of that kind; rising or
falling is decided by the direction of motion and the new reading; valid flags are never cleared. -/
theorem C54_edges (c : CalSim F) (hc : c.initialized = false) (a : Actuator F) (xs : List (CalCall F)) :
    let r := calRun (c, a) xs
    r.1.2.risingValid = (a.risingValid || (lastTrip RisingTrip r.2).isSome) ∧
    r.1.2.risingEdge = (lastTrip RisingTrip r.2).getD a.risingEdge ∧
    r.1.2.fallingValid = (a.fallingValid || (lastTrip FallingTrip r.2).isSome) ∧
    r.1.2.fallingEdge = (lastTrip FallingTrip r.2).getD a.fallingEdge := by
  suffices h : let r := calRun (c, a) xs
      (r.1.2.risingValid = (a.risingValid || (lastTrip RisingTrip r.2).isSome) ∧
        r.1.2.risingEdge = (lastTrip RisingTrip r.2).getD a.risingEdge ∧
        r.1.2.fallingValid = (a.fallingValid || (lastTrip FallingTrip r.2).isSome) ∧
        r.1.2.fallingEdge = (lastTrip FallingTrip r.2).getD a.fallingEdge) ∧
      (r.2 = [] ∧ r.1.1.initialized = false ∨
        ∃ tr, r.2 = tr ++ [⟨r.1.1.oldPos, r.1.1.oldAsPos, r.1.1.oldReading⟩] ∧ r.1.1.initialized = true) from h.1
  induction xs using List.reverseRecOn with
  | nil => exact ⟨⟨by simp [calRun, lastTrip], by simp [calRun, lastTrip], by simp [calRun, lastTrip], by simp [calRun, lastTrip]⟩, Or.inl ⟨rfl, hc⟩⟩
  | append_singleton xs x ih =>
    rw [getLast?_calRun]
    obtain ⟨⟨i1, i2, i3, i4⟩, ih⟩ := ih
    obtain ⟨s1, s2, s3, s4, s5, s6⟩ := calStep_spec (calRun (c, a) xs).1 x
    dsimp only at s2 s3 s4 s5 s6 ⊢
    refine ⟨?_, Or.inr ⟨(calRun (c, a) xs).2, ?_, s1⟩⟩
    · rcases ih with ⟨he, hi⟩ | ⟨tr, he, hi⟩
      · obtain ⟨t1, t2, t3, t4⟩ := s5 hi
        rw [he] at i1 i2 i3 i4 ⊢
        rw [t1, t2, t3, t4, i1, i2, i3, i4]
        simp [lastTrip]
      · obtain ⟨t1, t2, t3, t4⟩ := s6 hi
        rw [he] at i1 i2 i3 i4 ⊢
        rw [t1, t2, t3, t4, i1, i2, i3, i4]
        rw [List.append_assoc, List.singleton_append, lastTrip_snoc, lastTrip_snoc]
        refine ⟨?_, ?_, ?_, ?_⟩
        · cases RisingTrip (F := F) _ _ <;> simp
        · cases RisingTrip (F := F) _ _ <;> simp
        · cases FallingTrip (F := F) _ _ <;> simp
        · cases FallingTrip (F := F) _ _ <;> simp
    · rw [s2, s3, s4]

/-- Nothing but the calibration fields changes. -/
theorem C54_only_calibration (c : CalSim F) (j : JState F) (a : Actuator F) :
    ∃ r rv fv re fe, (c.simulate j a).2 = { a with calReading := r, risingValid := rv, fallingValid := fv, risingEdge := re, fallingEdge := fe } := by
  unfold CalSim.simulate
  dsimp only
  generalize (if c.gotInfo = true then c else c.getInfo j.joint) = c'
  split
  · split <;> split <;> exact ⟨_, _, _, _, _, rfl⟩
  · exact ⟨_, _, _, _, _, rfl⟩

end

/-! ## The reading -/

/-- The simulator of joint `j` after any number of calls. -/
inductive CalOf (j : UJoint ℝ) : CalSim ℝ → Prop
  | new (r f p q : ℝ) (b o : Bool) : CalOf j (CalSim.fresh r f p q b o)
  | call (c : CalSim ℝ) (js : JState ℝ) (a : Actuator ℝ) : CalOf j c → js.joint = j → CalOf j (c.simulate js a).1

theorem simulate_info (c : CalSim ℝ) (js : JState ℝ) (a : Actuator ℝ) :
    ∃ r p q, (c.simulate js a).1 = { (if c.gotInfo then c else c.getInfo js.joint) with oldReading := r, oldPos := p, oldAsPos := q, initialized := true } ∧
    (c.simulate js a).2.calReading = CalSim.reading (if c.gotInfo then c else c.getInfo js.joint) (js.position - js.reference) a.calReading := by
  unfold CalSim.simulate
  dsimp only
  generalize (if c.gotInfo = true then c else c.getInfo js.joint) = c'
  refine ⟨_, _, _, rfl, ?_⟩
  split
  · split <;> split <;> rfl
  · rfl

/-- The part of the simulator that `getInfo` computes. -/
def CalSim.info (c : CalSim ℝ) : Bool × Bool × Bool × ℝ × ℝ × Bool := (c.hasRising, c.hasFalling, c.continuous, c.rising, c.falling, c.bump)

theorem reading_info {c c' : CalSim ℝ} (h : c.info = c'.info) (pos : ℝ) (old : Bool) : c.reading pos old = c'.reading pos old := by
  unfold CalSim.info at h
  simp only [Prod.mk.injEq] at h
  obtain ⟨h1, h2, h3, h4, h5, h6⟩ := h
  unfold CalSim.reading
  rw [h1, h2, h3, h4, h5, h6]

theorem calOf_info {j : UJoint ℝ} {c : CalSim ℝ} (h : CalOf j c) :
    ∃ r f p q b o, (c.gotInfo = true → c.info = ((CalSim.fresh r f p q b o).getInfo j).info) ∧ (c.gotInfo = false → c = CalSim.fresh r f p q b o) := by
  induction h with
  | new r f p q b o => exact ⟨r, f, p, q, b, o, (by intro h; cases h), fun _ => rfl⟩
  | call c js a hc hj ih =>
    obtain ⟨r, f, p, q, b, o, h1, h2⟩ := ih
    obtain ⟨x, y, z, he, _⟩ := simulate_info c js a
    refine ⟨r, f, p, q, b, o, ?_, ?_⟩
    · intro _
      rw [he]
      cases hg : c.gotInfo
      · rw [if_neg (by simp), h2 hg, hj]; rfl
      · rw [if_pos rfl]; exact h1 hg
    · intro hx
      rw [he] at hx
      cases hg : c.gotInfo
      · rw [hg, if_neg (by simp)] at hx
        have := (getInfo_keeps c js.joint).2.2.2.2
        dsimp only at hx
        rw [this] at hx; cases hx
      · rw [hg, if_pos rfl] at hx
        dsimp only at hx
        rw [hg] at hx; cases hx

theorem call_reading {j : UJoint ℝ} {c : CalSim ℝ} (h : CalOf j c) (js : JState ℝ) (hj : js.joint = j) (a : Actuator ℝ) :
    ∃ r f p q b o, (c.simulate js a).2.calReading =
      ((CalSim.fresh r f p q b o).getInfo j).reading (js.position - js.reference) a.calReading := by
  obtain ⟨r, f, p, q, b, o, h1, h2⟩ := calOf_info h
  obtain ⟨_, _, _, _, he⟩ := simulate_info c js a
  refine ⟨r, f, p, q, b, o, ?_⟩
  rw [he]
  cases hg : c.gotInfo
  · rw [if_neg (by simp), h2 hg, hj]
  · rw [if_pos rfl]; exact reading_info (h1 hg) _ _

/-- **C53.** Joints that are not continuous: with a rising edge, the sensor is high exactly above it. -/
theorem C53_limited_rising {j : UJoint ℝ} {c : CalSim ℝ} (h : CalOf j c) (js : JState ℝ) (hj : js.joint = j) (a : Actuator ℝ)
    (ht : j.type ≠ .continuous) (e : ℝ) (f : Option ℝ) (hr : j.calibration = some ⟨some e, f⟩) :
    (c.simulate js a).2.calReading = true ↔ e < js.position - js.reference := by
  obtain ⟨r, f', p, q, b, o, he⟩ := call_reading h js hj a
  rw [he]
  cases f <;> simp [CalSim.getInfo, CalSim.readEdges, hr, ht, CalSim.reading, CalSim.fresh]

/-- **C53.** With only a falling edge, exactly below it; without edges the reading never changes. -/
theorem C53_limited_falling {j : UJoint ℝ} {c : CalSim ℝ} (h : CalOf j c) (js : JState ℝ) (hj : js.joint = j) (a : Actuator ℝ)
    (ht : j.type ≠ .continuous) :
    (∀ e, j.calibration = some ⟨none, some e⟩ → ((c.simulate js a).2.calReading = true ↔ js.position - js.reference < e)) ∧
    (j.calibration = none ∨ j.calibration = some ⟨none, none⟩ → (c.simulate js a).2.calReading = a.calReading) := by
  obtain ⟨r, f', p, q, b, o, he⟩ := call_reading h js hj a
  rw [he]
  constructor
  · intro e hr
    simp [CalSim.getInfo, CalSim.readEdges, hr, ht, CalSim.reading, CalSim.fresh]
  · rintro (hr | hr) <;> simp [CalSim.getInfo, CalSim.readEdges, hr, ht, CalSim.reading, CalSim.fresh]

/-- `x` lies on the arc from `r` in positive direction to `f`, modulo full turns, ends excluded. -/
def OnArc (r f x : ℝ) : Prop := ∃ k m : ℤ, r < x + k * (2 * Real.pi) ∧ x + k * (2 * Real.pi) < f + m * (2 * Real.pi) ∧
  f + m * (2 * Real.pi) ≤ r + 2 * Real.pi

/-- Equal modulo full turns. -/
def SameAngle (x y : ℝ) : Prop := ∃ k : ℤ, x = y + k * (2 * Real.pi)

theorem normAngle_spec (x : ℝ) : -Real.pi < FTrig.normAngle x ∧ FTrig.normAngle x ≤ Real.pi ∧ SameAngle (FTrig.normAngle x) x := by
  rw [normAngle_real]
  have h := toIocMod_mem_Ioc Real.two_pi_pos (-Real.pi) x
  refine ⟨h.1, by have := h.2; linarith, -toIocDiv Real.two_pi_pos (-Real.pi) x, ?_⟩
  rw [toIocMod]
  push_cast
  rw [zsmul_eq_mul]; ring

theorem onArc_shift {r f x R F X : ℝ} (hr : SameAngle R r) (hf : SameAngle F f) (hx : SameAngle X x) : OnArc R F X ↔ OnArc r f x := by
  obtain ⟨a, ha⟩ := hr; obtain ⟨b, hb⟩ := hf; obtain ⟨c, hc⟩ := hx
  subst ha hb hc
  constructor
  · rintro ⟨k, m, h1, h2, h3⟩
    refine ⟨k + c - a, m + b - a, ?_, ?_, ?_⟩ <;> push_cast <;> linarith
  · rintro ⟨k, m, h1, h2, h3⟩
    refine ⟨k - c + a, m - b + a, ?_, ?_, ?_⟩ <;> push_cast <;> linarith

theorem turns_le (k : ℤ) (h : k ≤ 0) : (k : ℝ) * (2 * Real.pi) ≤ 0 :=
  mul_nonpos_of_nonpos_of_nonneg (by exact_mod_cast h) Real.two_pi_pos.le
theorem turns_ge (k n : ℤ) (h : n ≤ k) : (n : ℝ) * (2 * Real.pi) ≤ (k : ℝ) * (2 * Real.pi) :=
  mul_le_mul_of_nonneg_right (by exact_mod_cast h) Real.two_pi_pos.le

theorem arc_bump {R F P : ℝ} (hR : -Real.pi < R ∧ R ≤ Real.pi) (hF : -Real.pi < F ∧ F ≤ Real.pi) (hP : -Real.pi < P ∧ P ≤ Real.pi) (h : R < F) :
    (R < P ∧ P < F) ↔ OnArc R F P := by
  constructor
  · rintro ⟨h1, h2⟩
    exact ⟨0, 0, by simpa using h1, by simpa using h2, by push_cast; linarith⟩
  · rintro ⟨k, m, h1, h2, h3⟩
    have hm : m = 0 := by
      by_contra hne
      rcases lt_or_gt_of_ne hne with hm | hm
      · have := turns_ge (-1) m (by omega)
        push_cast at this; linarith
      · have := turns_ge m 1 (by omega)
        push_cast at this; linarith
    subst hm
    have hk : k = 0 := by
      by_contra hne
      rcases lt_or_gt_of_ne hne with hk | hk
      · have := turns_ge (-1) k (by omega)
        push_cast at this h2; linarith
      · have := turns_ge k 1 (by omega)
        push_cast at this h2; linarith
    subst hk
    push_cast at h1 h2
    constructor <;> linarith

theorem arc_dip {R F P : ℝ} (hR : -Real.pi < R ∧ R ≤ Real.pi) (hF : -Real.pi < F ∧ F ≤ Real.pi) (hP : -Real.pi < P ∧ P ≤ Real.pi) (h : F ≤ R)
    (hPR : P ≠ R) (hPF : P ≠ F) : ¬ (P < R ∧ F < P) ↔ OnArc R F P := by
  constructor
  · intro hn
    by_cases h1 : R < P
    · exact ⟨0, 1, by simpa using h1, by push_cast; linarith, by push_cast; linarith⟩
    · have h2 : P < F := by
        by_contra hcon
        exact hn ⟨lt_of_le_of_ne (not_lt.1 h1) hPR, lt_of_le_of_ne (not_lt.1 hcon) (Ne.symm hPF)⟩
      exact ⟨1, 1, by push_cast; linarith, by push_cast; linarith, by push_cast; linarith⟩
  · rintro ⟨k, m, h1, h2, h3⟩ ⟨h4, h5⟩
    have hk : 1 ≤ k := by
      by_contra hcon
      have := turns_le k (by omega)
      linarith
    have hm : k + 1 ≤ m := by
      by_contra hcon
      have := turns_ge k m (by omega)
      linarith
    have := turns_ge m 2 (by omega)
    push_cast at this
    linarith

theorem getInfo_continuous {j : UJoint ℝ} (ht : j.type = .continuous) (r f : ℝ) (er ef : ℝ) (cal : JCalib ℝ) (hcal : j.calibration = some cal)
    (h : cal = ⟨some er, some ef⟩ ∨ (cal = ⟨some er, none⟩ ∧ ef = er + Real.pi) ∨ (cal = ⟨none, some ef⟩ ∧ er = ef + Real.pi)) (p q : ℝ) (b o : Bool) :
    ((CalSim.fresh r f p q b o).getInfo j).info = (true, true, true, FTrig.normAngle er, FTrig.normAngle ef, decide ((FTrig.normAngle er : ℝ) < FTrig.normAngle ef)) := by
  rcases h with h | ⟨h, he⟩ | ⟨h, he⟩
  · subst h
    simp [CalSim.getInfo, CalSim.readEdges, hcal, ht, CalSim.fresh, CalSim.continuousEdges, CalSim.info]
  · subst h; subst he
    simp [CalSim.getInfo, CalSim.readEdges, hcal, ht, CalSim.fresh, CalSim.continuousEdges, CalSim.info]
  · subst h; subst he
    simp [CalSim.getInfo, CalSim.readEdges, hcal, ht, CalSim.fresh, CalSim.continuousEdges, CalSim.info]

/-- **C53.** Continuous joints: with rising edge `er` and falling edge `ef` (one of which may be missing: it is then half a turn away),
at any position other than an edge the sensor is high exactly on the arc from the rising to the falling edge. -/
theorem C53_continuous {j : UJoint ℝ} {c : CalSim ℝ} (h : CalOf j c) (js : JState ℝ) (hj : js.joint = j) (a : Actuator ℝ)
    (ht : j.type = .continuous) (cal : JCalib ℝ) (hcal : j.calibration = some cal) (er ef : ℝ)
    (he : cal = ⟨some er, some ef⟩ ∨ (cal = ⟨some er, none⟩ ∧ ef = er + Real.pi) ∨ (cal = ⟨none, some ef⟩ ∧ er = ef + Real.pi))
    (hnr : ¬ SameAngle (js.position - js.reference) er) (hnf : ¬ SameAngle (js.position - js.reference) ef) :
    (c.simulate js a).2.calReading = true ↔ OnArc er ef (js.position - js.reference) := by
  obtain ⟨r, f, p, q, b, o, hrd⟩ := call_reading h js hj a
  rw [hrd]
  have hi := getInfo_continuous ht r f er ef cal hcal he p q b o
  generalize (CalSim.fresh r f p q b o).getInfo j = c' at hi
  generalize js.position - js.reference = pos at *
  simp only [CalSim.info, Prod.mk.injEq] at hi
  obtain ⟨i1, i2, i3, i4, i5, i6⟩ := hi
  obtain ⟨R1, R2, R3⟩ := normAngle_spec er
  obtain ⟨F1, F2, F3⟩ := normAngle_spec ef
  obtain ⟨P1, P2, P3⟩ := normAngle_spec pos
  rw [← onArc_shift R3 F3 P3]
  have hPR : (FTrig.normAngle pos : ℝ) ≠ FTrig.normAngle er := by
    intro hx
    apply hnr
    obtain ⟨k, hk⟩ := P3; obtain ⟨m, hm⟩ := R3
    exact ⟨m - k, by push_cast; linarith⟩
  have hPF : (FTrig.normAngle pos : ℝ) ≠ FTrig.normAngle ef := by
    intro hx
    apply hnf
    obtain ⟨k, hk⟩ := P3; obtain ⟨m, hm⟩ := F3
    exact ⟨m - k, by push_cast; linarith⟩
  unfold CalSim.reading
  rw [i3, i4, i5, i6]
  generalize (FTrig.normAngle er : ℝ) = R at *
  generalize (FTrig.normAngle ef : ℝ) = F at *
  generalize (FTrig.normAngle pos : ℝ) = P at *
  simp only [if_true, lt_real, decide_eq_true_eq]
  split
  · rename_i hb
    rw [← arc_bump ⟨R1, R2⟩ ⟨F1, F2⟩ ⟨P1, P2⟩ hb]; simp
  · rename_i hb
    rw [← arc_dip ⟨R1, R2⟩ ⟨F1, F2⟩ ⟨P1, P2⟩ (not_lt.1 hb) hPR hPF, Bool.not_eq_true', ← Bool.not_eq_true, Bool.and_eq_true,
      decide_eq_true_eq, decide_eq_true_eq]

/-! Concrete cases meeting the hypotheses. -/

/-- A continuous joint with a rising edge at 3 and a falling edge at 5: at position 4 the sensor is high. -/
example (js : JState ℝ) (a : Actuator ℝ) (hp : js.position = 4) (hr : js.reference = 0)
    (hj : js.joint = ⟨"shoulder", .continuous, none, none, some ⟨some 3, some 5⟩⟩) :
    ((CalSim.fresh 0 0 0 0 false false).simulate js a).2.calReading = true := by
  have h2 := Real.pi_gt_three
  have h3 := Real.pi_le_four
  rw [C53_continuous (CalOf.new 0 0 0 0 false false) js hj a rfl _ rfl 3 5 (Or.inl rfl)]
  · exact ⟨0, 0, by rw [hp, hr]; norm_num, by rw [hp, hr]; norm_num, by push_cast; linarith⟩
  · rintro ⟨k, hk⟩
    rw [hp, hr] at hk
    rcases le_or_gt k 0 with h | h
    · have := turns_le k h; linarith
    · have := turns_ge k 1 h; push_cast at this; linarith
  · rintro ⟨k, hk⟩
    rw [hp, hr] at hk
    rcases le_or_gt k (-1) with h | h
    · have := turns_ge (-1) k h; push_cast at this; linarith
    · have := turns_ge k 0 h; push_cast at this; linarith

/-- `C53_limited_rising`, `C53_limited_falling`: an elbow with a rising edge at 1, at -0.1 and at 1.5; and one with a falling edge. -/
example (js : JState ℝ) (a : Actuator ℝ) (hp : js.position = 1.5) (hr : js.reference = 0) (hj : js.joint = ⟨"elbow", .revolute, none, none, some ⟨some 1, some 2⟩⟩) :
    ((CalSim.fresh 0 0 0 0 false false).simulate js a).2.calReading = true :=
  (C53_limited_rising (CalOf.new 0 0 0 0 false false) js hj a (by decide) 1 _ rfl).2 (by rw [hp, hr]; norm_num)
example (js : JState ℝ) (a : Actuator ℝ) (hp : js.position = 1.5) (hr : js.reference = 0) (hj : js.joint = ⟨"elbow", .revolute, none, none, some ⟨none, some 2⟩⟩) :
    ((CalSim.fresh 0 0 0 0 false false).simulate js a).2.calReading = true :=
  ((C53_limited_falling (CalOf.new 0 0 0 0 false false) js hj a (by decide)).1 2 rfl).2 (by rw [hp, hr]; norm_num)

attribute [local instance] exactCmp in
/-- `C54_edges` with real trips: the elbow moves 0 → 2 → 3 → 1/2 across a rising edge at 1 with motor positions ten times as large: the last
crossing was downwards, from motor position 30. -/
example : letI : FTrig ℚ := ⟨0, id, id, id, id, id, id⟩
    let a : Actuator ℚ := Actuator.fresh "m"
    let r := calRun (CalSim.fresh 0 0 0 0 false false, a)
      ([0, 2, 3, 1 / 2].map (fun p : ℚ => ⟨⟨⟨"elbow", .revolute, none, none, some ⟨some 1, none⟩⟩, p, 0, 0, .fresh 0, 0, false, 0⟩, 10 * p⟩))
    lastTrip RisingTrip r.2 = some 30 ∧ lastTrip FallingTrip r.2 = none ∧ r.1.2.risingEdge = 30 ∧ r.1.2.risingValid = true ∧ r.1.2.fallingValid = false := by
  decide +kernel

end Pr2
