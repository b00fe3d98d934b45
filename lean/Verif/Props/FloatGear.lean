import Verif.Props.FloatLoop

/-!
# C116: the safety limits in floating point arithmetic, from the description to the motors

C115 is about a joint.  Here its motor moves: what the motor reports is divided by the reduction and shifted by the reference position, with rounding, before the limiter sees it; and the limited effort is divided by the reduction,
with rounding, before the motor gets it.
-/

namespace Pr2
open IeeeLike
set_option linter.unusedSectionVars false
set_option linter.unusedVariables false

/-! ## Specification -/

/-- Sums of size up to `B` are off by at most `u` times their size plus `η`. -/
def AddsTo (F : Type) [FCmp F] [Neg F] [IeeeLike F] [Add F] (u η B : ℝ) : Prop :=
  ∀ (a b : F) (x y : ℝ), IsVal a x → IsVal b y → |x + y| ≤ B → ∃ z : ℝ, IsVal (a + b) z ∧ |z - (x + y)| ≤ u * |x + y| + η

/-- How far from zero the motor's position, in units of the joint, can be while the joint is safe. -/
noncomputable def reach (saf : JSafety ℝ) (ρ D N G : ℝ) : ℝ := max |saf.softLower| |saf.softUpper| + overshoot saf D N G + |ρ|

/-- Errors `D` and `N` of the motor's encoder, `R` of the reference position `ρ` and a load of `G` at the motor, with a reduction of `K`, are errors of at most `D'` and `N'` of the joint's position and velocity and a load of at most
`G'` at the joint, with the rounding errors, as long as the joint is safe up to these and `E`. -/
structure Conveys (u η B : ℝ) (lim : JLimits ℝ) (saf : JSafety ℝ) (K ρ D N G R D' N' G' E : ℝ) : Prop where
  pos : D / |K| + R + (u * (reach saf ρ D' N' (G' + E) + D / |K|) + η) + (u * ((1 + u) * (reach saf ρ D' N' (G' + E) + D / |K|) + η + (|ρ| + R)) + η) ≤ D'
  vel : N / |K| + (u * (2 * (lim.velocity + overspeed saf N' (G' + E)) + N / |K|) + η) ≤ N'
  load : (G + (u * (lim.effort / |K|) + η)) * |K| ≤ G'
  range1 : reach saf ρ D' N' (G' + E) + D / |K| ≤ B
  range2 : (1 + u) * (reach saf ρ D' N' (G' + E) + D / |K|) + η + (|ρ| + R) ≤ B
  range3 : 2 * (lim.velocity + overspeed saf N' (G' + E)) + N / |K| ≤ B
  range4 : lim.effort / |K| ≤ B

section
variable {F : Type} [FCmp F] [Zero F] [Add F] [Sub F] [Mul F] [iDiv : Div F] [Neg F] [FLit F] [iTrig : FTrig F] [IeeeRound F]
variable {u η B : ℝ}

/-- From cycle `n0` on, motor `an` is at `Q n` with velocity `W n` when cycle `n` begins; what it reports is finite and off by at most `D` and `N`; and under the effort it is sent and a load of at most `G` it moves until the next cycle. -/
structure Plant.MotorMovesF (p : Plant F) (n0 : Nat) (an : String) (D N G : ℝ) (Q W I dt : Nat → ℝ) : Prop where
  read : ∀ n r a, n0 ≤ n → p.cycles[n]? = some r → r.entry.Motor an a → ∃ q w, IsVal a.position q ∧ IsVal a.velocity w ∧ |q - Q n| ≤ D ∧ |w - W n| ≤ N
  move : ∀ n r a f, n0 ≤ n → p.cycles[n]? = some r → n + 1 < p.cycles.length → r.sent.Motor an a → IsVal a.effort f → Carried (I n) (dt n) G f (Q n) (W n) (Q (n + 1)) (W (n + 1))

/-- From cycle `n0` on, joint `jn` is calibrated, and its reference position is a finite number that is off by at most `R`. -/
structure Plant.ReferencedF (p : Plant F) (n0 : Nat) (jn : String) (ρ R : ℝ) : Prop where
  ref : ∀ n r j, n0 ≤ n → p.cycles[n]? = some r → r.entry.Joint jn j → ∃ y, IsVal j.reference y ∧ |y - ρ| ≤ R
  cal : ∀ n r j, n0 ≤ n → p.cycles[n]? = some r → r.sent.Joint jn j → j.calibrated = true

/-! ## The transmission -/

theorem div_near (hr : RoundsTo F u η B) {a k : F} {x K P : ℝ} (ha : IsVal a x) (hk : IsVal k K) (hK : K ≠ 0) (hP : |x / K| ≤ P) (hB : P ≤ B) :
    ∃ z : ℝ, IsVal (a / k) z ∧ |z - x / K| ≤ u * P + η ∧ |z| ≤ (1 + u) * P + η := by
  obtain ⟨u0, η0, hr⟩ := hr
  obtain ⟨z, hz, z1⟩ := hr (x / K) (hP.trans hB)
  have hd := IeeeRound.div a k x K ha hk hK
  rw [hz] at hd
  have := mul_le_mul_of_nonneg_left hP u0
  have h1 : |z - x / K| ≤ u * P + η := by linarith
  refine ⟨z, hd, h1, ?_⟩
  have : |z| ≤ |z - x / K| + |x / K| := by simpa using abs_add_le (z - x / K) (x / K)
  linarith

/-- The position that the limiter sees. -/
theorem position_near (hr : RoundsTo F u η B) (ha : AddsTo F u η B) {a k c : F} {q Q K ρ y D R P : ℝ} (hq : IsVal a q) (hk : IsVal k K) (hc : IsVal c y) (hK : K ≠ 0) (h1 : |q - Q| ≤ D) (h2 : |y - ρ| ≤ R)
    (hP : |Q / K| ≤ P) (r1 : P + D / |K| ≤ B) (r2 : (1 + u) * (P + D / |K|) + η + (|ρ| + R) ≤ B) :
    ∃ z, IsVal (a / k + c) z ∧ |z - (Q / K + ρ)| ≤ D / |K| + R + (u * (P + D / |K|) + η) + (u * ((1 + u) * (P + D / |K|) + η + (|ρ| + R)) + η) := by
  have d1 : |q / K - Q / K| ≤ D / |K| := by
    rw [← sub_div, abs_div]; exact div_le_div_of_nonneg_right h1 (abs_nonneg K)
  have p1 : |q / K| ≤ P + D / |K| := by
    have : |q / K| ≤ |q / K - Q / K| + |Q / K| := by simpa using abs_add_le (q / K - Q / K) (Q / K)
    linarith
  obtain ⟨z1, hz1, e1, e2⟩ := div_near hr hq hk hK p1 r1
  have y1 : |y| ≤ |ρ| + R := by
    have : |y| ≤ |y - ρ| + |ρ| := by simpa using abs_add_le (y - ρ) ρ
    linarith
  have s1 : |z1 + y| ≤ (1 + u) * (P + D / |K|) + η + (|ρ| + R) := (abs_add_le _ _).trans (add_le_add e2 y1)
  obtain ⟨z, hz, e3⟩ := ha _ _ _ _ hz1 hc (s1.trans r2)
  refine ⟨z, hz, ?_⟩
  have e : z - (Q / K + ρ) = (z - (z1 + y)) + ((z1 - q / K) + ((q / K - Q / K) + (y - ρ))) := by ring
  rw [e]
  refine (abs_add_le _ _).trans ?_
  have t1 := abs_add_le (z1 - q / K) ((q / K - Q / K) + (y - ρ))
  have t2 := abs_add_le (q / K - Q / K) (y - ρ)
  have t3 := mul_le_mul_of_nonneg_left s1 hr.1
  linarith

variable [Parse F]
variable {l : TransLoader F} {urdf : Xml → Option (String → Option (UJoint F))} {root : Xml} {joint : String → Option (UJoint F)} {acts : List (Actuator F)}
  {ts : List (Trans F)} {s0 : RState F} {t : Trans F} {x : Xml}

/-- **C116.**  The joint of a simple transmission of a robot loaded from its description, in floating point arithmetic.  The motor reports finite numbers, with errors; it is loaded; the calibration is off by at most `R`; controllers
command anything but NaN.  Then the joint stays inside the described soft limits, up to load, errors and rounding, at all times from cycle `n0` on. -/
theorem C116_simple (hr : RoundsTo F u η B) (hadd : AddsTo F u η B) (h : Loaded l urdf root joint acts ts s0) (hm : (ts.flatMap (·.actNames)).Nodup) {big : F} {sim : Bool} {d : RtData F} (hg : d.Good) (hs : Later s0 d.robot)
    {p : Plant F} (hp : Plant.Reach big sim d PlantIn.Mannered p) (ht : t ∈ ts) {t0 : SimpleT F} (hd : Described (.simple t0) x joint acts t)
    {jel ael mel : Xml} {jn an red : String} (h1 : x.FirstChild "joint" jel) (h2 : jel.Says "name" jn) (h3 : x.FirstChild "actuator" ael) (h4 : ael.Says "name" an)
    (h5 : ReductionElement x ael mel) (h6 : mel.text = some red) {K : ℝ} (hk : IsVal (Parse.atof red : F) K) (hK : K ≠ 0) {uj : UJoint F} (hu : joint jn = some uj) {lim : JLimits ℝ} {saf : JSafety ℝ}
    (g : Describes uj lim saf) (hty : uj.type = .revolute ∨ uj.type = .prismatic) {n0 : Nat} {ρ R : ℝ} (hc : p.ReferencedF n0 jn ρ R)
    (hnan : ∀ n r j, n0 ≤ n → p.cycles[n]? = some r → r.sent.Joint jn j → val j.commanded ≠ none) {D N G D' N' G' E : ℝ} {Q W I dt : Nat → ℝ}
    (hmv : p.MotorMovesF n0 an D N G Q W I dt) (hI : ∀ n, 0 < I n) (hcv : Conveys u η B lim saf K ρ D N G R D' N' G' E) (hmu : MakesUp u η B lim saf D' N' G' E)
    (hsu : ∀ n, Withstands lim saf (I n * K ^ 2) (dt n) D' N' (G' + E)) (h0 : SafeUpTo lim saf D' N' (G' + E) (Q n0 / K + ρ) (W n0 / K))
    (n : Nat) (r : CycleRec F) (a : Actuator F) (hn : n0 ≤ n) (hrn : p.cycles[n]? = some r) (ha : r.sent.Motor an a) :
    ∃ f, IsVal a.effort f ∧ ∀ τ q w, 0 ≤ τ → τ ≤ dt n → Carried (I n) τ G f (Q n) (W n) q w → SafeUpTo lim saf D' N' (G' + E) (q / K + ρ) (w / K) := by
  have cyc := fun r (hr : r ∈ p.cycles) => C98_simple_cycle h hm hs hp hr ht hd h1 h2 h3 h4 h5 h6
  generalize (Parse.atof red : F) = k at hk cyc
  have K0 : 0 < |K| := abs_pos.2 hK
  -- the effort at the motor
  have eff : ∀ (c b : F) (f : ℝ), b = c / k → IsVal c f → |f| ≤ lim.effort → ∃ z, IsVal b z ∧ |z - f / K| ≤ u * (lim.effort / |K|) + η := by
    intro c b f hb hcf hf
    have : |f / K| ≤ lim.effort / |K| := by rw [abs_div]; exact div_le_div_of_nonneg_right hf K0.le
    obtain ⟨z, hz, z1, _⟩ := div_near hr hcf hk hK this hcv.range4
    exact ⟨z, by rw [hb]; exact hz, z1⟩
  have conv : ∀ {I' τ f z q w q' w' : ℝ}, 0 < I' → 0 ≤ τ → |z - f / K| ≤ u * (lim.effort / |K|) + η → Carried I' τ G z q w q' w' →
      Carried (I' * K ^ 2) τ G' f (q / K + ρ) (w / K) (q' / K + ρ) (w' / K) := by
    intro I' τ f z q w q' w' hI' hτ hz hca
    have c1 := (hca.off hI' hτ hz).gear (ρ := ρ) hI'.ne' hK
    have hm' : 0 ≤ I' * K ^ 2 := by positivity
    have := div_le_div_of_nonneg_right hcv.load hm'
    constructor
    · refine c1.pos.trans ?_
      have := mul_le_mul_of_nonneg_right this (by positivity : 0 ≤ τ ^ 2 / 2)
      linarith
    · exact c1.vel.trans (mul_le_mul_of_nonneg_right this hτ)
  have main := fun j => float_cycles (jn := jn) (X := fun n => Q n / K + ρ) (V := fun n => W n / K) (m := fun n => I n * K ^ 2) (D := D') (N := N') (G := G') (E := E) hr hg (hp.mono fun i hi => hi.tame)
    (fun r hr => by obtain ⟨_, _, _, j', _, _, _, e, _⟩ := cyc r hr; exact ⟨j', e⟩)
    (fun r hr j hj => by
      obtain ⟨_, _, _, j', _, _, _, e, e2, _⟩ := cyc r hr
      cases hj.unique e
      rw [hu] at e2; exact (Option.some.inj e2).symm) hc.cal g hty hmu hsu
    (fun n r j hn hrn hj hsf => by
      obtain ⟨a0, i, b, j', c1, c2, c3, c4, c5, c6, c7, _⟩ := cyc r (List.mem_of_getElem? hrn)
      cases hj.unique c4
      obtain ⟨q, w, hq, hw, q1, w1⟩ := hmv.read n r a0 hn hrn c1
      obtain ⟨y, hy, y1⟩ := hc.ref n r i hn hrn c2
      have hlo := hsf.lower
      have hhi := hsf.upper
      have hfa := hsf.fast
      simp only [JLimits.faster, JSafety.wider] at hlo hhi hfa
      have hP : |Q n / K| ≤ reach saf ρ D' N' (G' + E) := by
        unfold reach
        have m1 := le_max_left |saf.softLower| |saf.softUpper|
        have m2 := le_max_right |saf.softLower| |saf.softUpper|
        have m3 := neg_abs_le saf.softLower
        have m4 := le_abs_self saf.softUpper
        have m5 := le_abs_self ρ
        have m6 := neg_abs_le ρ
        exact abs_le.2 ⟨by linarith, by linarith⟩
      obtain ⟨z, hz, z1⟩ := position_near hr hadd hq hk hy hK q1 y1 hP hcv.range1 hcv.range2
      have v1 : |w / K - W n / K| ≤ N / |K| := by
        rw [← sub_div, abs_div]; exact div_le_div_of_nonneg_right w1 K0.le
      have v2 : |w / K| ≤ 2 * (lim.velocity + overspeed saf N' (G' + E)) + N / |K| := by
        have : |w / K| ≤ |w / K - W n / K| + |W n / K| := by simpa using abs_add_le (w / K - W n / K) (W n / K)
        linarith
      obtain ⟨zv, hzv, zv1, _⟩ := div_near hr hw hk hK v2 hcv.range3
      refine ⟨z, zv, by rw [c6]; exact hz, by rw [c7]; exact hzv, z1.trans hcv.pos, ?_⟩
      refine le_trans ?_ hcv.vel
      have : |zv - W n / K| ≤ |zv - w / K| + |w / K - W n / K| := by simpa using abs_add_le (zv - w / K) (w / K - W n / K)
      linarith) hnan
    (fun n r j f hn hrn hl hj hsf hf hfe => by
      obtain ⟨a0, i, b, j', c1, c2, c3, c4, c5, c6, c7, c8, c9, c10, c11⟩ := cyc r (List.mem_of_getElem? hrn)
      cases hj.unique c4
      obtain ⟨z, hz, z1⟩ := eff _ _ _ c11 hf hfe
      exact conv (hI n) (hsu n).time z1 (hmv.move n r b z hn hrn hl c3 hz)) h0 n r j hn hrn
  obtain ⟨a0, i, b, j, c1, c2, c3, c4, c5, c6, c7, c8, c9, c10, c11⟩ := cyc r (List.mem_of_getElem? hrn)
  cases ha.unique c3
  obtain ⟨_, f, hf, hfe, hst⟩ := main j c4
  obtain ⟨z, hz, z1⟩ := eff _ _ _ c11 hf hfe
  exact ⟨z, hz, fun τ q w t0 t1 hca => hst τ _ _ t0 t1 (conv (hI n) t0 z1 hca)⟩

end

/-! ## Double precision -/

/-- Addition in double precision. -/
@[reducible] noncomputable def fullAdd : Add Full := ⟨fun a b => ⟨match a.v, b.v with
  | some x, some y =>
    open Classical in if (x = ⊤ ∧ y = ⊥) ∨ (x = ⊥ ∧ y = ⊤) then none else if x = ⊤ ∨ x = ⊥ ∨ y = ⊤ ∨ y = ⊥ then some (x + y) else some (rndE (x.toReal + y.toReal))
  | _, _ => none⟩⟩

section
attribute [local instance] fullAdd

/-- **C116, double precision.**  Addition in double precision is of this kind; C115_double says it of the other operations. -/
theorem C116_double : AddsTo Full (1 / 2 ^ 53) (1 / 2 ^ 1075) (2 ^ 100) := by
  intro a b x y hx hy hB
  obtain ⟨-, -, hr⟩ := C115_double
  obtain ⟨z, hz, z1⟩ := hr (x + y) hB
  refine ⟨z, ?_, z1⟩
  have hz : rndE (x + y) = z := hz
  rw [Full.isVal_eq hx, Full.isVal_eq hy]
  unfold IsVal
  rw [← hz]
  simp [val, HAdd.hAdd, Add.add]

end

/-! ## The laser's tilt joint of the PR2 -/

theorem laser_conveys {u η B : ℝ} (u0 : 0 ≤ u) (u1 : u ≤ 1/10000000) (η0 : 0 ≤ η) (η1 : η ≤ 1/10000000) (hB : 1000 ≤ B) :
    Conveys u η B ⟨-3927 / 5000, 148353 / 100000, 13 / 20, 10⟩ ⟨-3677 / 5000, 143353 / 100000, 100, 1 / 20⟩ (-605/100) (1/500) (1/50) 0 (1/100) (1/500) (6/1000) (1/100000) (61/1000) (1/1000) := by
  have hre : reach (⟨-3677 / 5000, 143353 / 100000, 100, 1 / 20⟩ : JSafety ℝ) (1/500) (6/1000) (1/100000) (61/1000 + 1/1000) = 143353/100000 + (6/1000 + (1/100000 + 62/50) / 100) + 1/500 := by
    norm_num [reach, overshoot, overspeed, abs_of_pos, abs_of_neg]
  have hsp : overspeed (⟨-3677 / 5000, 143353 / 100000, 100, 1 / 20⟩ : JSafety ℝ) (1/100000) (61/1000 + 1/1000) = 1/100000 + 62/50 := by norm_num [overspeed]
  have ha : |(-605/100 : ℝ)| = 605/100 := by norm_num [abs_of_neg]
  have hρ : |(1/500 : ℝ)| = 1/500 := by norm_num [abs_of_pos]
  have h1 : u * u ≤ u := by nlinarith
  have h2 : u * η ≤ η := by nlinarith
  have h3 : 0 ≤ u * η := mul_nonneg u0 η0
  refine ⟨?_, ?_, ?_, ?_, ?_, ?_, ?_⟩ <;> simp only [hre, hsp, ha, hρ] <;> nlinarith

theorem laser_makesUp {u η B : ℝ} (u0 : 0 ≤ u) (u1 : u ≤ 1/10000000) (η0 : 0 ≤ η) (η1 : η ≤ 1/10000000) (hB : 1000 ≤ B) :
    MakesUp u η B ⟨-3927 / 5000, 148353 / 100000, 13 / 20, 10⟩ ⟨-3677 / 5000, 143353 / 100000, 100, 1 / 20⟩ (6/1000) (1/100000) (61/1000) (1/1000) := by
  have h1 : u * u ≤ u := by nlinarith
  have h2 : u * η ≤ η := by nlinarith
  have h3 : 0 ≤ u * η := mul_nonneg u0 η0
  refine ⟨?_, ?_, ?_, ?_, ?_⟩ <;> simp only [slack, overshoot, overspeed] <;> norm_num <;> nlinarith

/-- The hypotheses about precision, in double precision. -/
example : Conveys (1 / 2 ^ 53) (1 / 2 ^ 1075) (2 ^ 100) ⟨-3927 / 5000, 148353 / 100000, 13 / 20, 10⟩ ⟨-3677 / 5000, 143353 / 100000, 100, 1 / 20⟩ (-605/100) (1/500) (1/50) 0 (1/100) (1/500) (6/1000)
      (1/100000) (61/1000) (1/1000) ∧
    MakesUp (1 / 2 ^ 53) (1 / 2 ^ 1075) (2 ^ 100) ⟨-3927 / 5000, 148353 / 100000, 13 / 20, 10⟩ ⟨-3677 / 5000, 143353 / 100000, 100, 1 / 20⟩ (6/1000) (1/100000) (61/1000) (1/1000) :=
  ⟨laser_conveys (by positivity) (by norm_num) double_eta.1 double_eta.2 (by norm_num), laser_makesUp (by positivity) (by norm_num) double_eta.1 double_eta.2 (by norm_num)⟩

section
attribute [local instance] exactCmp demoTrig demoLit decimalParse ratRound

theorem ratAdds (B : ℝ) : AddsTo ℚ 0 0 B := by
  intro a b x y hx hy _
  rw [ratVal] at hx hy
  exact ⟨x + y, ratVal.2 (by rw [← hx, ← hy]; push_cast; rfl), by simp⟩

theorem carried_motorF {p : Plant ℚ} {n0 : Nat} {an : String} {D N G : ℚ} {Q W I dt : Nat → ℚ} (h : p.MotorCarried n0 an D N G Q W I dt) :
    p.MotorMovesF n0 an (D : ℝ) N G (fun n => Q n) (fun n => W n) (fun n => I n) (fun n => dt n) := by
  refine ⟨fun n r a hn hr ha => ⟨a.position, a.velocity, rfl, rfl, ?_⟩, fun n r a f hn hr hl ha hf => ?_⟩
  · obtain ⟨h1, h2⟩ := h.read n r a hn hr ha
    exact ⟨by exact_mod_cast h1, by exact_mod_cast h2⟩
  · rw [ratVal] at hf
    subst hf
    exact carried_cast (h.move n r a hn hr hl ha)

/-- C116_simple: the execution of C113's example.  The laser's tilt joint is at most a fiftieth beyond its soft limit, so inside the hard limit 1.48353. -/
example (n : Nat) (r : CycleRec ℚ) (a : Actuator ℚ) (hr : pr2Run.cycles[n]? = some r) (ha : r.sent.Motor "laser_tilt_mount_motor" a) (τ q w : ℝ) (h0 : 0 ≤ τ) (h1 : τ ≤ 1/1000)
    (hq : Carried (pr2Inertia : ℝ) τ (1/100) (a.effort : ℝ) (pr2Q n : ℝ) (pr2W n : ℝ) q w) : q / (-605/100) + 1/500 ≤ 143353/100000 + 2/100 := by
  have hrow : Row.simple "laser_tilt_mount_trans" "laser_tilt_mount_motor" "laser_tilt_mount_joint" "-6.05" ∈ pr2Rows := by
    refine List.mem_of_getElem? (i := 15) rfl
  have hg : ("laser_tilt_mount_joint", (⟨-3927 / 5000, 148353 / 100000, 13 / 20, 10⟩ : JLimits ℚ), (⟨-3677 / 5000, 143353 / 100000, 100, 1 / 20⟩ : JSafety ℚ)) ∈ pr2Guards :=
    List.mem_of_getElem? (i := 1) rfl
  obtain ⟨u, hju, hgu, hty⟩ := guards_joint (fun q => by simp [FLit.lit]) (pr2_read _ pr2_names.2) hg
  obtain ⟨idx, ht, hde⟩ := complete_described (new := pr2New) decimals_read (pr2_read _ pr2_names.2) pr2_motors hrow
  have hnd : ((pr2Trans pr2New).flatMap (·.actNames)).Nodup := by rw [(complete_ts _).2]; decide +kernel
  have gF : Describes u ⟨-3927 / 5000, 148353 / 100000, 13 / 20, 10⟩ ⟨-3677 / 5000, 143353 / 100000, 100, 1 / 20⟩ :=
    ⟨⟨_, _, hgu.hlim, hgu.hsaf, by rw [ratVal]; norm_num [JLimits.cast], by rw [ratVal]; norm_num [JLimits.cast], by rw [ratVal]; norm_num [JSafety.cast], by rw [ratVal]; norm_num [JSafety.cast],
      by rw [ratVal]; norm_num [JSafety.cast], by rw [ratVal]; norm_num [JSafety.cast]⟩, by norm_num, by norm_num, by norm_num, by norm_num, by norm_num⟩
  have hk : (Parse.atof "-6.05" : ℚ) = -605/100 := by decide +kernel
  obtain ⟨f, hf, hst⟩ := C116_simple (ratRounds 1000000) (ratAdds 1000000) pr2_loaded.1 hnd pr2Good pr2_later pr2Reach ht hde (firstChild _ _ _ rfl) (saysOf _ _ _ rfl) (firstChild _ _ _ rfl) (saysOf _ _ _ rfl)
    (Or.inr ⟨(first_none _ _).1 rfl, firstChild _ _ _ rfl⟩) rfl (K := -605/100) (ratVal.2 (by rw [hk]; norm_num)) (by norm_num) hju gF (Or.inl hty) (n0 := 0) (ρ := 1/500) (R := 1/500)
    ⟨fun n r j hn hr hj => ⟨j.reference, rfl, by rw [(pr2Calibrated n r hn hr).1 j hj]; norm_num [abs_le]⟩, fun n r j hn hr hj => (pr2Calibrated n r hn hr).2 j hj⟩ (fun n r j hn hr hj h => by cases h)
    (carried_motorF pr2Carried) (fun n => by norm_num [pr2Inertia])
    (by have := laser_conveys (B := 1000000) (le_refl 0) (by norm_num) (le_refl 0) (by norm_num) (by norm_num); push_cast; exact this)
    (laser_makesUp (B := 1000000) (le_refl 0) (by norm_num) (le_refl 0) (by norm_num) (by norm_num))
    (fun n => by refine ⟨?_, ?_, ?_, ?_, ?_, ?_, ?_, ?_, ?_, ?_, ?_⟩ <;> norm_num [pr2Inertia])
    (by
      have e1 : pr2Q 0 = -799/100 := by decide +kernel
      have e2 : pr2W 0 = -10 := by decide +kernel
      rw [e1, e2]
      unfold SafeUpTo overshoot overspeed
      refine ⟨?_, ?_, ?_, ?_, ?_⟩ <;> norm_num [JLimits.faster, JSafety.wider, abs_le, abs_div, abs_of_pos])
    n r a (Nat.zero_le _) hr ha
  rw [ratVal] at hf
  subst hf
  have h := (hst τ q w h0 (by push_cast; exact h1) (by push_cast; exact hq)).upper
  have hov : overshoot (⟨-3677 / 5000, 143353 / 100000, 100, 1 / 20⟩ : JSafety ℝ) (6/1000) (1/100000) (61/1000 + 1/1000) ≤ 2/100 := by norm_num [overshoot, overspeed]
  change q / (-605/100) + 1/500 ≤ 143353/100000 + overshoot _ _ _ _ at h
  linarith

end
end Pr2
