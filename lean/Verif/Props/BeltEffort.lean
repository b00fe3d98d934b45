import Verif.Props.Glitch

/-!
# C110: how far a belt's motor can be driven beyond the effort limit

A belt transmission adds the motor damping to the effort after the limits have been enforced.  What it adds is bounded by twice the damping constant times the largest speed of the
motor (in joint units), in every cycle of every execution, for any sampling times.
-/

namespace Pr2
open FLit
set_option linter.unusedVariables false
set_option linter.unusedSectionVars false

section exact
variable {F : Type} [Field F] [LinearOrder F] [IsStrictOrderedRing F]
attribute [local instance] exactCmp
variable [FLit F] [iTrig : FTrig F]

/-! ## Specification -/

/-- Constants and times are exact. -/
structure ExactLit (F : Type) [Field F] [FLit F] : Prop where
  lit : ∀ q : ℚ, (FLit.lit q : F) = q
  sec : ∀ n : Int, (FLit.sec n : F) = n / 1000000000

/-- In cycle `n` motor `an` was at `x`, at time `τ`. -/
def Plant.Reading (p : Plant F) (an : String) (n : Nat) (x : F) (τ : Int) : Prop := ∃ r a, p.cycles[n]? = some r ∧ r.entry.Motor an a ∧ a.position = x ∧ a.sampleTs = τ

/-- Time stamps do not decrease, and between two readings the motor's average speed is at most `V`.  The reading before the first one is position 0 at time 0. -/
structure Plant.MotorSpeed (p : Plant F) (an : String) (V : F) : Prop where
  first : ∀ x τ, p.Reading an 0 x τ → 0 ≤ τ ∧ (0 < τ → |x| ≤ V * (τ / 1000000000))
  next : ∀ n x τ x' τ', p.Reading an n x τ → p.Reading an (n + 1) x' τ' → τ ≤ τ' ∧ (τ < τ' → |x' - x| ≤ V * ((τ' - τ : Int) / 1000000000))

/-! ## The filter -/

theorem damping_step (hx : ExactLit F) {p : BeltP F} (hl : 0 ≤ p.lamMotor) (hkd : 0 ≤ p.kd) {s : BeltS F} {ts : Int} {pos meas : F} (hts : s.lastTs ≤ ts) {V : F}
    (hv : |s.motorVel| ≤ V) (hw : |s.damping + p.kd * s.motorVel| ≤ p.kd * V)
    (hm : s.lastTs < ts → |pos / p.reduction - s.motorPos| ≤ V * ((ts - s.lastTs : Int) / 1000000000)) {e : BeltS F} (he : e = s.estimate p ts pos meas) :
    |e.motorVel| ≤ V ∧ |e.dampingForce p + p.kd * e.motorVel| ≤ p.kd * V ∧ |e.dampingForce p| ≤ 2 * p.kd * V := by
  have hV : 0 ≤ V := (abs_nonneg _).trans hv
  have hdt : e.dt = ((ts - s.lastTs : Int) : F) / 1000000000 := by rw [he]; exact hx.sec _
  have hdt0 : 0 ≤ e.dt := by
    rw [hdt]
    have : (0 : F) ≤ ((ts - s.lastTs : Int) : F) := by exact_mod_cast sub_nonneg.2 hts
    positivity
  have hvel : e.motorVel = if 0 < e.dt then (pos / p.reduction - s.motorPos) / e.dt else 0 := by
    rw [he]
    unfold BeltS.estimate
    simp only [FCmp.lt, decide_eq_true_eq]
  have hdelta : e.deltaMotorVel = e.motorVel - s.motorVel := by rw [he]; rfl
  have hdamp : e.damping = s.damping := by rw [he]; rfl
  have e1 : |e.motorVel| ≤ V := by
    rw [hvel]
    split
    · rename_i h0
      have hlt : s.lastTs < ts := by
        rw [hdt] at h0
        have : (0 : F) < ((ts - s.lastTs : Int) : F) := by
          by_contra h
          have := div_nonpos_of_nonpos_of_nonneg (not_lt.1 h) (by norm_num : (0 : F) ≤ 1000000000)
          exact absurd h0 (not_lt.2 this)
        have : 0 < ts - s.lastTs := by exact_mod_cast this
        omega
      rw [abs_div, abs_of_pos h0, div_le_iff₀ h0, hdt]
      exact hm hlt
    · simpa using hV
  have hkV : |p.kd * e.motorVel| ≤ p.kd * V := by
    rw [abs_mul, abs_of_nonneg hkd]; exact mul_le_mul_of_nonneg_left e1 hkd
  have hkV' : |p.kd * s.motorVel| ≤ p.kd * V := by
    rw [abs_mul, abs_of_nonneg hkd]; exact mul_le_mul_of_nonneg_left hv hkd
  have e2 : |e.dampingForce p + p.kd * e.motorVel| ≤ p.kd * V := by
    unfold BeltS.dampingForce
    simp only [FCmp.eq, decide_eq_true_eq]
    split
    · rw [neg_mul, neg_add_cancel, abs_zero]; exact mul_nonneg hkd hV
    · rename_i h0
      set L := limLam e.dt p.lamMotor with hL
      have hLlim : 0 ≤ 1 / 2 * e.dt * L ∧ 1 / 2 * e.dt * L ≤ 1 := by
        rw [hL]
        unfold limLam
        simp only [FCmp.lt, decide_eq_true_eq, hx.lit]
        split
        · rename_i h1
          push_cast at h1
          constructor
          · positivity
          · have : 1 / 2 * e.dt * p.lamMotor = (e.dt * p.lamMotor) / 2 := by ring
            rw [this]
            rw [div_le_one (by norm_num)]
            exact h1.le
        · rename_i h1
          push_cast at h1
          have hne : e.dt ≠ 0 := by
            intro h
            rw [h, zero_mul] at h1
            exact h1 (by norm_num)
          push_cast
          have : 1 / 2 * e.dt * (2 / e.dt) = 1 := by field_simp
          rw [this]
          exact ⟨zero_le_one, le_refl _⟩
      rw [hx.lit, hx.lit, hdamp, hdelta]
      push_cast
      set h := 1 / 2 * e.dt * L with hh
      obtain ⟨h1, h2⟩ := hLlim
      have hpos : 0 < 1 + h := by linarith
      have : ((1 - h) * s.damping - p.kd * (e.motorVel - s.motorVel)) / (1 + h) + p.kd * e.motorVel =
          ((1 - h) * (s.damping + p.kd * s.motorVel) + h * (p.kd * e.motorVel) + h * (p.kd * s.motorVel)) / (1 + h) := by
        field_simp
        ring
      rw [this, abs_div, abs_of_pos hpos, div_le_iff₀ hpos]
      have a1 : |(1 - h) * (s.damping + p.kd * s.motorVel)| ≤ (1 - h) * (p.kd * V) := by
        rw [abs_mul, abs_of_nonneg (by linarith)]; exact mul_le_mul_of_nonneg_left hw (by linarith)
      have a2 : |h * (p.kd * e.motorVel)| ≤ h * (p.kd * V) := by
        rw [abs_mul, abs_of_nonneg h1]; exact mul_le_mul_of_nonneg_left hkV h1
      have a3 : |h * (p.kd * s.motorVel)| ≤ h * (p.kd * V) := by
        rw [abs_mul, abs_of_nonneg h1]; exact mul_le_mul_of_nonneg_left hkV' h1
      calc _ ≤ |(1 - h) * (s.damping + p.kd * s.motorVel)| + |h * (p.kd * e.motorVel)| + |h * (p.kd * s.motorVel)| := abs_add_three _ _ _
        _ ≤ (1 - h) * (p.kd * V) + h * (p.kd * V) + h * (p.kd * V) := add_le_add (add_le_add a1 a2) a3
        _ = p.kd * V * (1 + h) := by ring
  refine ⟨e1, e2, ?_⟩
  have : e.dampingForce p = (e.dampingForce p + p.kd * e.motorVel) - p.kd * e.motorVel := by ring
  rw [this]
  calc _ ≤ |e.dampingForce p + p.kd * e.motorVel| + |p.kd * e.motorVel| := abs_sub _ _
    _ ≤ p.kd * V + p.kd * V := add_le_add e2 hkV
    _ = 2 * p.kd * V := by ring

/-! ## The running system -/

variable [Parse F]
variable {l : TransLoader F} {urdf : Xml → Option (String → Option (UJoint F))} {root : Xml} {joint : String → Option (UJoint F)} {acts : List (Actuator F)}
  {ts : List (Trans F)} {s0 : RState F} {t : Trans F}

/-- A belt that has just been loaded: its filters are at rest, at zero. -/
theorem loaded_belt (h : Loaded l urdf root joint acts ts s0) {k : Nat} (hk : ts[k]? = some t) {b0 : BeltT F} (hb : t.body = .belt b0) {b : BeltT F} (hbb : s0.BeltAt k b) :
    b = b0 ∧ b.s.damping = 0 ∧ b.s.motorVel = 0 ∧ b.s.motorPos = 0 ∧ b.s.lastTs = 0 := by
  have hd := (C95_described h .start).1 t (List.mem_of_getElem? hk)
  obtain ⟨⟨hw, acts', old, hload, hmk⟩, _⟩ := h
  obtain ⟨js, hwire, _⟩ := mk'_inv hmk
  obtain ⟨w1, _⟩ := wire_spec hwire
  obtain ⟨c, h1, h2⟩ := hbb
  have : ts[k]? = some c.trans := by rw [← w1, List.getElem?_map, h1]; rfl
  rw [hk] at this
  cases this
  rw [hb] at h2
  cases h2
  refine ⟨rfl, ?_⟩
  obtain ⟨x, _, bb, hd⟩ := hd
  cases bb with
  | simple t0 =>
    obtain ⟨jel, jn, ael, an, mel, red, uses, q, _, _, _, _, _, _, _, _, _, _, _, _, e, _⟩ := hd
    rw [hb] at e; cases e
  | wrist t0 =>
    obtain ⟨rn, ln, fn, on, w, _, _, _, _, _, _, _, e, _⟩ := hd
    rw [hb] at e; cases e
  | gripper t0 =>
    obtain ⟨ael, an, gaps, ps, screws, q, _, _, _, _, _, _, _, _, _, _, e, _⟩ := hd
    rw [hb] at e; cases e
  | belt t0 =>
    obtain ⟨jel, jn, ael, an, mel, red, c', k', mass, kd, lm, lj, lc, b, _, _, _, _, _, _, _, _, _, _, _, _, _, _, _, _, _, _, e, _, _, _, _, _, _, _, _, e2, _⟩ := hd
    rw [hb] at e; cases e
    rw [e2]
    exact ⟨rfl, rfl, rfl, rfl⟩

/-- **C110.**  In every cycle, whatever has been loaded, switched, commanded and read: the effort sent to a belt's motor is the joint's effort - which is within its limits - and a
damping of at most `2 kd V`, where `V` is the largest speed of the motor, seen from the joint. -/
theorem C110_damping (hx : ExactLit F) (h : Loaded l urdf root joint acts ts s0) (hn : (ts.flatMap (·.actNames)).Nodup) {big : F} {sim : Bool} {d : RtData F} (hs : Later s0 d.robot)
    (hfresh : d.robot.conns = s0.conns) {p : Plant F} (hp : Plant.Reach big sim d PlantIn.Mannered p) {k : Nat} (hk : ts[k]? = some t) {b0 : BeltT F} (hb : t.body = .belt b0)
    {an jn : String} (han : t.actNames = [an]) (hjn : t.jointNames = [jn]) (hred : b0.p.reduction ≠ 0) (hkd : 0 ≤ b0.p.kd) (hlam : 0 ≤ b0.p.lamMotor)
    {V : F} (hV0 : 0 ≤ V) (hV : p.MotorSpeed an V) (n : Nat) (r : CycleRec F) (hr : p.cycles[n]? = some r) :
    ∃ (a : Actuator F) (j : JState F) (f : F), r.sent.Motor an a ∧ r.sent.Joint jn j ∧ joint jn = some j.joint ∧ a.effort * b0.p.reduction = j.commanded + f ∧ |f| ≤ 2 * b0.p.kd * (V / |b0.p.reduction|) := by
  have habs : 0 < |b0.p.reduction| := abs_pos.2 hred
  have scale : ∀ (y : F) (τ : Int), |y| ≤ V * ((τ : F) / 1000000000) → |y / b0.p.reduction| ≤ V / |b0.p.reduction| * ((τ : F) / 1000000000) := by
    intro y τ hy
    rw [abs_div, div_le_iff₀ habs]
    calc |y| ≤ _ := hy
      _ = _ := by field_simp
  -- one cycle
  have one : ∀ (n : Nat) (r : CycleRec F), p.cycles[n]? = some r → (∀ (b : BeltT F) (a : Actuator F), r.entry.BeltAt k b → r.entry.Motor an a → |b.s.motorVel| ≤ V / |b0.p.reduction| ∧
        |b.s.damping + b0.p.kd * b.s.motorVel| ≤ b0.p.kd * (V / |b0.p.reduction|) ∧ b.s.lastTs ≤ a.sampleTs ∧
        (b.s.lastTs < a.sampleTs → |a.position / b0.p.reduction - b.s.motorPos| ≤ V / |b0.p.reduction| * ((a.sampleTs - b.s.lastTs : Int) / 1000000000))) →
      (∃ (b : BeltT F) (a : Actuator F), r.sent.BeltAt k b ∧ r.entry.Motor an a ∧ |b.s.motorVel| ≤ V / |b0.p.reduction| ∧ |b.s.damping + b0.p.kd * b.s.motorVel| ≤ b0.p.kd * (V / |b0.p.reduction|) ∧
        b.s.lastTs = a.sampleTs ∧ b.s.motorPos = a.position / b0.p.reduction) ∧
      ∃ (a : Actuator F) (j : JState F) (f : F), r.sent.Motor an a ∧ r.sent.Joint jn j ∧ joint jn = some j.joint ∧ a.effort * b0.p.reduction = j.commanded + f ∧ |f| ≤ 2 * b0.p.kd * (V / |b0.p.reduction|) := by
    intro n r hr hq
    obtain ⟨b, b', a, j, e, q1, q2, q3, q4, q5, q6, q7, q8, q9, _, q10, q11⟩ := belt_cycle h hs hp (List.mem_of_getElem? hr) hk hb han hjn
    obtain ⟨a', q12, q13⟩ := q11 hn
    obtain ⟨i1, i2, i3, i4⟩ := hq b a q1 q3
    obtain ⟨e1, e2, e3⟩ := damping_step hx hlam hkd i3 i1 i2 i4 q4
    refine ⟨⟨b', a, q5, q3, ?_, ?_, ?_, ?_⟩, a', j, e.dampingForce b0.p, q12, q8, q10, ?_, e3⟩
    · rw [q7]; exact e1
    · rw [q7]; exact e2
    · rw [q7, q4]; rfl
    · rw [q7, q4]; rfl
    · rw [q13, div_mul_cancel₀ _ hred]
  suffices H : ∀ (n : Nat) (r : CycleRec F), p.cycles[n]? = some r → (∃ (b : BeltT F) (a : Actuator F), r.sent.BeltAt k b ∧ r.entry.Motor an a ∧ |b.s.motorVel| ≤ V / |b0.p.reduction| ∧
      |b.s.damping + b0.p.kd * b.s.motorVel| ≤ b0.p.kd * (V / |b0.p.reduction|) ∧ b.s.lastTs = a.sampleTs ∧ b.s.motorPos = a.position / b0.p.reduction) ∧
      ∃ (a : Actuator F) (j : JState F) (f : F), r.sent.Motor an a ∧ r.sent.Joint jn j ∧ joint jn = some j.joint ∧ a.effort * b0.p.reduction = j.commanded + f ∧ |f| ≤ 2 * b0.p.kd * (V / |b0.p.reduction|) from
    (H n r hr).2
  intro n
  induction n with
  | zero =>
    intro r hr
    refine one 0 r hr fun b a hb1 ha => ?_
    have hc : r.entry.conns = s0.conns := by
      rcases hcy : p.cycles with _ | ⟨r1, post⟩
      · rw [hcy] at hr; cases hr
      · rw [hcy] at hr; cases hr
        rw [hp.chained.recs [] r post hcy, ← hfresh]; rfl
    obtain ⟨_, f1, f2, f3, f4⟩ := loaded_belt h hk hb (hb1.congr hc.symm)
    obtain ⟨g1, g2⟩ := hV.first _ _ ⟨r, a, hr, ha, rfl, rfl⟩
    rw [f1, f2, f3, f4]
    refine ⟨by simpa using div_nonneg hV0 habs.le, by simpa using mul_nonneg hkd (div_nonneg hV0 habs.le), g1, fun h0 => ?_⟩
    rw [sub_zero, sub_zero]
    exact scale _ _ (g2 h0)
  | succ n ih =>
    intro r hr
    obtain ⟨r0, hr0⟩ : ∃ r0, p.cycles[n]? = some r0 := ⟨_, List.getElem?_eq_getElem (by have := (List.getElem?_eq_some_iff.1 hr).1; omega)⟩
    obtain ⟨⟨b, a0, i1, i2, i3, i4, i5, i6⟩, _⟩ := ih _ hr0
    refine one (n + 1) r hr fun b' a hb1 ha => ?_
    have hc : r.entry.conns = r0.sent.conns := by
      have hl := (List.getElem?_eq_some_iff.1 hr).1
      have e1 : p.cycles = p.cycles.take (n + 1) ++ r :: p.cycles.drop (n + 2) := by
        have := (List.getElem?_eq_some_iff.1 hr).2
        rw [← this, List.cons_getElem_drop_succ, List.take_append_drop]
      have e2 : p.cycles.take (n + 1) = p.cycles.take n ++ [r0] := by rw [List.take_add_one, hr0]; rfl
      rw [hp.chained.recs _ _ _ e1, e2, lastConns_snoc]
    obtain rfl := hb1.unique (i1.congr hc)
    obtain ⟨g1, g2⟩ := hV.next n _ _ _ _ ⟨_, a0, hr0, i2, rfl, rfl⟩ ⟨r, a, hr, ha, rfl, rfl⟩
    rw [i5, i6]
    refine ⟨i3, i4, g1, fun h0 => ?_⟩
    rw [← sub_div]
    exact scale _ _ (g2 h0)

/-- **C110.**  So a belt's motor is never sent more than the joint's effort limit and that damping. -/
theorem C110_effort (hx : ExactLit F) (h : Loaded l urdf root joint acts ts s0) (hn : (ts.flatMap (·.actNames)).Nodup) {big : F} {sim : Bool} {d : RtData F} (hg : d.Good)
    (hs : Later s0 d.robot) (hfresh : d.robot.conns = s0.conns) {p : Plant F} (hp : Plant.Reach big sim d PlantIn.Mannered p) {k : Nat} (hk : ts[k]? = some t) {b0 : BeltT F}
    (hb : t.body = .belt b0) {an jn : String} (han : t.actNames = [an]) (hjn : t.jointNames = [jn]) (hred : b0.p.reduction ≠ 0) (hkd : 0 ≤ b0.p.kd) (hlam : 0 ≤ b0.p.lamMotor)
    {u : UJoint F} (hu : joint jn = some u) {lim : JLimits F} {saf : JSafety F} (g : Guarded u lim saf)
    {V : F} (hV0 : 0 ≤ V) (hV : p.MotorSpeed an V) (n : Nat) (r : CycleRec F) (hr : p.cycles[n]? = some r) (a : Actuator F) (ha : r.sent.Motor an a) :
    |a.effort| * |b0.p.reduction| ≤ lim.effort + 2 * b0.p.kd * (V / |b0.p.reduction|) := by
  obtain ⟨a', j, f, h1, h2, h3, h4, h5⟩ := C110_damping hx h hn hs hfresh hp hk hb han hjn hred hkd hlam hV0 hV n r hr
  cases h1.unique ha
  rw [hu] at h3
  cases h3
  obtain ⟨b1, b2⟩ := sent_bounds hg (hp.mono fun i hi => hi.tame) (List.mem_of_getElem? hr) h2 g
  rw [getLimits_eq g] at b1 b2
  have hc : |j.commanded| ≤ lim.effort := abs_le.2 ⟨(le_clamp _ _).trans b1, b2.trans (clamp_le g.effort _)⟩
  rw [← abs_mul, h4]
  exact (abs_add_le _ _).trans (add_le_add hc h5)

end exact

/-! ## A concrete run -/

section examples
attribute [local instance] exactCmp demoTrig
@[reducible] def beltLit : FLit ℚ := ⟨id, fun n => n / 1000000000⟩
attribute [local instance] beltLit

theorem belt_exact : ExactLit ℚ := ⟨fun q => (Rat.cast_id q).symm, fun n => rfl⟩

/-- The numbers that occur in the description. -/
def beltNumber (s : String) : ℚ :=
  if s = "1" then 1 else if s = "2" then 2 else if s = "5" then 5 else if s = "60" then 60 else if s = "70" then 70 else if s = "80" then 80 else if s = "100" then 100 else 0
@[reducible] def beltParse : Parse ℚ := ⟨beltNumber, fun s => some (beltNumber s), fun s => some (beltNumber s)⟩
attribute [local instance] beltParse

def beltUJoint (n : String) : UJoint ℚ := ⟨n, .revolute, some ⟨-2, 2, 30, 3⟩, some ⟨-2, 2, 20, 4⟩, none⟩
def beltJoint (n : String) : Option (UJoint ℚ) := some (beltUJoint n)
def beltT0 : BeltT ℚ := ⟨⟨0, 0, 0, 0, 0, 0, 0⟩, BeltS.init 0, BeltB.init, ⟨false, 0⟩, CalSim.fresh 0 0 0 0 false false⟩
def beltLoader : TransLoader ℚ := ⟨fun _ => true, [], id, fun _ ty => if ty = "pr2_belt" then some (.belt beltT0) else none⟩
def beltCompl : ℚ := if FCmp.lt 0 (beltNumber "100") then lit 1 / beltNumber "100" else lit 0
def beltP0 : BeltP ℚ := ⟨beltNumber "2", beltCompl, FTrig.sqrt (beltNumber "1" * beltCompl), beltNumber "5", beltNumber "60", beltNumber "70", beltNumber "80"⟩
def beltTrans : List (Trans ℚ) := [⟨"t", ["m"], ["elbow"], .belt { beltT0 with p := beltP0 }⟩]
def beltState0 : RState ℚ := (RState.mk' beltTrans beltJoint [{ Actuator.fresh "m" with enable := true }] (fun _ => 0)).getD ⟨[], [], [], []⟩

theorem belt_loaded : Loaded beltLoader (fun _ => some beltJoint) glitchRoot beltJoint [.fresh "m"] beltTrans beltState0 := by
  refine ⟨⟨true, _, fun _ => 0, by rfl, rfl⟩, rfl, ?_, by decide⟩
  intro k x _ ty b hx _ _ _ hb
  have hb : (if ty = "pr2_belt" then some (Body.belt beltT0) else none) = some b := hb
  split at hb
  · cases hb; exact ⟨trivial, trivial⟩
  · cases hb

/-- The motor moves by `q` in every millisecond. -/
def beltIn (q : ℚ) : PlantIn ℚ := ⟨fun as => as.map fun a => { a with position := a.position + q, sampleTs := a.sampleTs + 1000000 }, id, 0, 2000000, 0, false, 0, false⟩
def beltRt : RtData ℚ :=
  ⟨beltState0, fun _ => CStat.fresh, ⟨0, 10, (beltState0.joints.map (·.srow 0), beltState0.acts.map (·.arow))⟩, ⟨0, 10, beltState0.joints.map (·.jrow)⟩⟩

theorem beltIn_mannered (q : ℚ) : (beltIn q).Mannered := by
  refine ⟨?_, Mannered.id⟩
  intro as
  change List.Forall₂ _ as (as.map _)
  rw [List.forall₂_map_right_iff]
  exact List.forall₂_same.2 fun _ _ => rfl

def beltRuns (q : ℚ) : Nat → Plant ℚ
  | 0 => Plant.init false beltRt
  | n + 1 => (beltRuns q n).step 1000 (.rt (beltIn q))
theorem beltReach (q : ℚ) (n : Nat) : Plant.Reach 1000 false beltRt PlantIn.Mannered (beltRuns q n) := by
  induction n with
  | zero => exact .init
  | succ n ih => exact ih.rt _ (beltIn_mannered q)

theorem beltGood : beltRt.Good := by
  refine ⟨⟨⟨?_, ?_, ?_⟩, ?_, ?_⟩, ?_, rfl, rfl, rfl, by decide, by decide⟩
  all_goals first | decide +kernel | skip
  intro c hc
  have hc : c ∈ [_] := hc
  simp only [List.mem_cons, List.not_mem_nil, or_false] at hc
  subst hc
  exact ⟨rfl, rfl⟩

theorem belt_readings : (beltRuns (1/1000) 30).cycles.map (fun r => r.entry.acts.map fun a => (a.name, a.position, a.sampleTs)) =
    [[("m", (1/1000 : ℚ), 1000000)], [("m", 2/1000, 2000000)], [("m", 3/1000, 3000000)], [("m", 4/1000, 4000000)]] := by decide +kernel

theorem belt_reading {n : Nat} {x : ℚ} {τ : Int} (h : (beltRuns (1/1000) 30).Reading "m" n x τ) : x = (n + 1) / 1000 ∧ τ = (n + 1) * 1000000 := by
  obtain ⟨r, a, h1, h2, rfl, rfl⟩ := h
  have h3 := congrArg (fun l => l[n]?) belt_readings
  simp only [List.getElem?_map, h1, Option.map_some] at h3
  obtain ⟨pre, post, e, e2, _⟩ := h2
  rw [e] at h3
  have hm : (a.name, a.position, a.sampleTs) ∈ (pre ++ a :: post).map fun a => (a.name, a.position, a.sampleTs) := List.mem_map.2 ⟨a, by simp, rfl⟩
  rcases n with _ | _ | _ | _ | n
  all_goals simp only [List.getElem?_cons_zero, List.getElem?_cons_succ, List.getElem?_nil, Option.some.injEq, reduceCtorEq] at h3
  all_goals rw [h3] at hm
  all_goals simp only [List.mem_singleton, Prod.mk.injEq] at hm
  all_goals obtain ⟨_, hx, hτ⟩ := hm
  all_goals rw [hx, hτ]
  all_goals norm_num

theorem belt_speed : (beltRuns (1/1000) 30).MotorSpeed "m" 1 := by
  refine ⟨fun x τ h => ?_, fun n x τ x' τ' h h' => ?_⟩
  · obtain ⟨rfl, rfl⟩ := belt_reading h
    norm_num
  · obtain ⟨rfl, rfl⟩ := belt_reading h
    obtain ⟨rfl, rfl⟩ := belt_reading h'
    refine ⟨by push_cast; omega, fun _ => ?_⟩
    have e1 : ((n + 1 : ℕ) + 1 : ℚ) / 1000 - (n + 1) / 1000 = 1 / 1000 := by push_cast; ring
    rw [e1]
    push_cast
    rw [abs_of_pos (by norm_num)]
    linarith

/-- C110: the hypotheses are met; the motor is never sent more than (30 + 5) / 2. -/
example (n : Nat) (r : CycleRec ℚ) (hr : (beltRuns (1/1000) 30).cycles[n]? = some r) (a : Actuator ℚ) (ha : r.sent.Motor "m" a) : |a.effort| ≤ 35 / 2 := by
  have h := C110_effort belt_exact belt_loaded (by decide) beltGood .start rfl (beltReach (1/1000) 30) (k := 0) rfl rfl rfl rfl (by decide +kernel) (by decide +kernel) (by decide +kernel)
    (u := beltUJoint "elbow") rfl (lim := ⟨-2, 2, 30, 3⟩) (saf := ⟨-2, 2, 20, 4⟩) ⟨rfl, rfl, by norm_num, by norm_num, by norm_num, by norm_num, by norm_num⟩ zero_le_one belt_speed n r hr a ha
  have e1 : |beltP0.reduction| = 2 := by
    have : beltP0.reduction = 2 := by decide +kernel
    rw [this]; norm_num
  have e2 : beltP0.kd = 5 := by decide +kernel
  change |a.effort| * |beltP0.reduction| ≤ 30 + 2 * beltP0.kd * (1 / |beltP0.reduction|) at h
  rw [e1, e2] at h
  linarith

/-- C110: the motor can be sent more than the limit: at a speed of 1000 the first effort is -1228, although the joint's limit is 30. -/
example : ((beltRuns 1 30).cycles[0]?).map (fun r => (r.sent.joints.map (·.commanded), r.sent.acts.map (·.effort))) = some ([(-30 : ℚ)], [(-126545 / 103 : ℚ)]) := by
  decide +kernel

end examples

end Pr2
