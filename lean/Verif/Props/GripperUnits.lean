import Verif.Props.Readings
import Verif.Props.Gripper
import Verif.Props.Shipped
import Mathlib.Analysis.Real.Pi.Bounds

/-! # C95, grippers: rates and efforts in terms of the described linkage -/

namespace Pr2
open Init FLit FTrig
set_option linter.unusedSectionVars false

/-- The gap joint's position (the full gap) as the motor's position varies around `p`, by the described linkage. -/
def GripperT.Follows (g : GripperT ℝ) (f : ℝ → ℝ) (p : ℝ) : Prop :=
  ∀ᶠ q in nhds p, ∃ θ, g.Linkage (q / g.reduction / (2 * Real.pi)) θ ∧ f q = 2 * (g.t0 + g.r * (Real.sin θ - Real.sin g.theta0))

/-- The signs of the constants of a real gripper: the motor turning forwards opens it. -/
def GripperT.Opens (g : GripperT ℝ) : Prop := 0 < g.gear * g.a * g.b / g.screw

theorem follows_derivative {g : GripperT ℝ} (hg : g.Sane) {f : ℝ → ℝ} {p θ D : ℝ} (hr : g.Regular (p / g.reduction / (2 * Real.pi)) θ) (hf : g.Follows f p) (hd : HasDerivAt f D p) (x y : ℝ) :
    D = 2 * (g.computeGapStates (p / g.reduction / (2 * Real.pi)) x y).dt_dMR / g.reduction / (2 * Real.pi) := by
  have h1 : f =ᶠ[nhds p] fun q => 2 * (g.computeGapStates (q / g.reduction / (2 * Real.pi)) x y).gapSize := by
    refine hf.mono ?_
    rintro q ⟨θ', hl, hq⟩
    change f q = 2 * (g.computeGapStates (q / g.reduction / (2 * Real.pi)) x y).gapSize
    rw [hq, C40_forward hg hl]
    rfl
  have h2 := hd.congr_of_eventuallyEq h1.symm
  have h3 : HasDerivAt (fun q : ℝ => q / g.reduction / (2 * Real.pi)) (1 / g.reduction / (2 * Real.pi)) p := ((hasDerivAt_id p).div_const _).div_const _
  have h4 := ((C41_derivative hg hr x y).1.comp p h3).const_mul 2
  have := h2.unique h4
  rw [this]
  ring

theorem sameGap_states {q g : GripperT ℝ} (h : SameGap q g) (mr x y : ℝ) : q.computeGapStates mr x y = g.computeGapStates mr x y := by
  obtain ⟨e1, e2, e3, e4, e5, e6, e7, e8, e9, e10, e11⟩ := h
  unfold GripperT.computeGapStates GripperT.linkU
  simp only [e2, e3, e4, e5, e6, e7, e8, e9, e10, e11]

theorem sameGap_inverse {q g : GripperT ℝ} (h : SameGap q g) (y : ℝ) : q.inverseGapStates y = g.inverseGapStates y := by
  obtain ⟨e1, e2, e3, e4, e5, e6, e7, e8, e9, e10, e11⟩ := h
  unfold GripperT.inverseGapStates GripperT.inverseGapStates1
  simp only [e2, e3, e4, e5, e6, e7, e8, e9, e10, e11]

/-- What a description with one gap joint says about the transmission. -/
theorem gap_described [Parse ℝ] {joint : String → Option (UJoint ℝ)} {acts : List (Actuator ℝ)} {t : Trans ℝ} {x : Xml} {t0 : GripperT ℝ} (hd : Described (.gripper t0) x joint acts t)
    {ael gel : Xml} {an n : String} {g : GripperT ℝ} (h1 : x.FirstChild "actuator" ael) (h2 : ael.Says "name" an) (h3 : x.childrenTagged "gap_joint" = [gel]) (h4 : GapEntry gel n g) :
    t.actNames = [an] ∧ (∃ ns, t.jointNames = n :: ns) ∧ ∃ q, t.body = .gripper q ∧ SameGap q g := by
  obtain ⟨ael', an', gaps, ps, screws, q, d1, d2, _, d3, _, _, _, d4, d5, _, d6, d7, _⟩ := hd
  cases FirstChild.unique h1 d1
  cases Says.unique h2 d2
  rw [h3] at d3
  cases d3 with
  | @cons _ p _ _ d3 d3' =>
  cases d3'
  obtain ⟨n', g'⟩ := p
  cases Says.unique h4.name d3.name
  have hgg : SameGap g' g := by
    have co : ∀ {e : Xml} {name : String} {d v w : ℝ}, Coeff e name d v → Coeff e name d w → v = w := by
      intro e name d v w a b
      unfold Coeff at a b
      simp only [← attr_some, ← attr_none] at a b
      rcases a with ⟨h, rfl⟩ | ⟨p, h, h'⟩ <;> rcases b with ⟨k, rfl⟩ | ⟨q, k, k'⟩
      · rfl
      · rw [h] at k; cases k
      · rw [h] at k; cases k
      · rw [h] at k; cases k
        rw [h'] at k'; exact Option.some.inj k'
    refine ⟨?_, co d3.screw h4.screw, co d3.gear h4.gear, co d3.theta0 h4.theta0, co d3.phi0 h4.phi0, co d3.t0 h4.t0, co d3.L0 h4.L0, co d3.h h4.h, co d3.a h4.a, co d3.b h4.b,
      co d3.r h4.r⟩
    obtain ⟨r1, a1, a2⟩ := d3.reduction
    obtain ⟨r2, b1, b2⟩ := h4.reduction
    cases Says.unique a1 b1
    rw [a2] at b2; exact Option.some.inj b2
  refine ⟨d4, ⟨_, d5⟩, q, d6, ?_⟩
  obtain ⟨a1, a2, a3, a4, a5, a6, a7, a8, a9, a10, a11⟩ := d7
  obtain ⟨b1, b2, b3, b4, b5, b6, b7, b8, b9, b10, b11⟩ := hgg
  exact ⟨a1.trans b1, a2.trans b2, a3.trans b3, a4.trans b4, a5.trans b5, a6.trans b6, a7.trans b7, a8.trans b8, a9.trans b9, a10.trans b10, a11.trans b11⟩

section
variable [Parse ℝ] {l : TransLoader ℝ} {urdf : Xml → Option (String → Option (UJoint ℝ))} {root : Xml} {joint : String → Option (UJoint ℝ)} {acts : List (Actuator ℝ)}
    {ts : List (Trans ℝ)} {s0 s s' : RState ℝ} {t : Trans ℝ} {x : Xml}

/-- **C95.**  If the gap joint's position varies with the motor's position at the rate `D` by the described linkage, the gap joint reads `D` times the motor's velocity, and its effort
times `D` is the motor's (times the square of the described reduction, see C42). -/
theorem C95_gripper_rates (h : Loaded l urdf root joint acts ts s0) (hl : Later s0 s) (hs : s.propagatePosition = some s') (ht : t ∈ ts)
    {t0 : GripperT ℝ} (hd : Described (.gripper t0) x joint acts t) {ael gel : Xml} {an n : String} {g : GripperT ℝ} (h1 : x.FirstChild "actuator" ael) (h2 : ael.Says "name" an)
    (h3 : x.childrenTagged "gap_joint" = [gel]) (h4 : GapEntry gel n g) (hg : g.Sane) (ho : g.Opens) :
    ∃ a j', s.Motor an a ∧ s'.Joint n j' ∧ ∀ θ f D, g.Regular (a.position / g.reduction / (2 * Real.pi)) θ → g.Follows f a.position → HasDerivAt f D a.position →
      j'.velocity = D * a.velocity ∧ j'.measured * D * g.reduction ^ 2 = a.measured := by
  obtain ⟨d4, ⟨ns, d5⟩, q, d6, hq⟩ := gap_described hd h1 h2 h3 h4
  obtain ⟨b, as, js, r, hb, ha, hj, hp, hr⟩ := h.reading hl hs ht
  rw [d4] at ha
  rw [d5] at hj hr
  rw [d6] at hb
  cases b with
  | simple _ => exact hb.elim
  | wrist _ => exact hb.elim
  | belt _ => exact hb.elim
  | gripper q' =>
    obtain ⟨c, k, rfl⟩ := hb
    cases ha with
    | @cons _ a _ _ ha ha' =>
    cases ha'
    obtain ⟨js', hqf, rfl⟩ := Option.map_eq_some_iff.1 hp
    obtain ⟨j, rest, rest', rfl, _, _, rfl⟩ := gripper_forward hqf
    cases hr with
    | cons hr hr' =>
    obtain ⟨st, hr⟩ := hr
    refine ⟨_, _, ha, hr, ?_⟩
    intro θ f D hreg hf hD
    have hq' : SameGap { q with clock := c, cal := k } g := hq
    have hpi := Real.pi_pos
    have hred := hg.reduction
    have hrevs : GripperT.revs { q with clock := c, cal := k } a = a.position / g.reduction / (2 * Real.pi) := by
      unfold GripperT.revs; rw [hq'.1]
    dsimp only
    rw [hrevs, sameGap_states hq', hq.1]
    have hder := follows_derivative hg hreg hf hD (a.velocity / g.reduction * rad2mr) (a.measured / g.reduction)
    have hrec := C41_reciprocal hg hreg ho (a.velocity / g.reduction * rad2mr) (a.measured / g.reduction)
    have hvel := (C41_derivative hg hreg (a.velocity / g.reduction * rad2mr) (a.measured / g.reduction)).2.2
    have heff : (g.computeGapStates (a.position / g.reduction / (2 * Real.pi)) (a.velocity / g.reduction * rad2mr) (a.measured / g.reduction)).gapEffort =
      a.measured / g.reduction / (g.computeGapStates (a.position / g.reduction / (2 * Real.pi)) (a.velocity / g.reduction * rad2mr) (a.measured / g.reduction)).dt_dMR / rad2mr := rfl
    rw [hvel, heff, hder, rad2mr_real]
    rw [rad2mr_real] at hrec
    generalize (g.computeGapStates (a.position / g.reduction / (2 * Real.pi)) (a.velocity / g.reduction * (1 / (2 * Real.pi))) (a.measured / g.reduction)).dt_dMR = d at *
    have hne : d ≠ 0 := by rintro rfl; rw [zero_mul] at hrec; norm_num at hrec
    constructor
    · field_simp
    · field_simp

/-- **C95.**  And a gripper's motor is sent the effort commanded to the gap joint times `D` (times the square of the described reduction), by the principle of virtual work. -/
theorem C95_gripper_command (h : Loaded l urdf root joint acts ts s0) (hm : (ts.flatMap (·.actNames)).Nodup) (hl : Later s0 s) (hs : s.propagateEffort = some s') (ht : t ∈ ts)
    {t0 : GripperT ℝ} (hd : Described (.gripper t0) x joint acts t) {ael gel : Xml} {an n : String} {g : GripperT ℝ} (h1 : x.FirstChild "actuator" ael) (h2 : ael.Says "name" an)
    (h3 : x.childrenTagged "gap_joint" = [gel]) (h4 : GapEntry gel n g) (hg : g.Sane) (ho : g.Opens) :
    ∃ a' j, s.Joint n j ∧ s'.Motor an a' ∧ a'.enable = true ∧
      ∀ p θ f D, g.Regular (p / g.reduction / (2 * Real.pi)) θ → j.position = 2 * (g.t0 + g.r * (Real.sin θ - Real.sin g.theta0)) → g.Follows f p → HasDerivAt f D p →
        a'.effort = j.commanded * D * g.reduction ^ 2 := by
  obtain ⟨d4, ⟨ns, d5⟩, q, d6, hq⟩ := gap_described hd h1 h2 h3 h4
  obtain ⟨b, as, js, r, hb, ha, hj, hp, hr⟩ := h.command hm hl hs ht
  rw [d4] at ha hr
  rw [d5] at hj
  rw [d6] at hb
  cases b with
  | simple _ => exact hb.elim
  | wrist _ => exact hb.elim
  | belt _ => exact hb.elim
  | gripper q' =>
    obtain ⟨c, k, rfl⟩ := hb
    cases ha with
    | @cons _ a _ _ ha ha' =>
    cases ha'
    cases hj with
    | @cons _ j _ js hj hj' =>
    obtain ⟨as', hqf, rfl⟩ := Option.map_eq_some_iff.1 hp
    unfold GripperT.propagateEffort at hqf
    dsimp only at hqf
    by_cases hlen : js.length = q.passive.length + (if q.hasPassive then 2 else 1)
    swap
    · rw [if_neg hlen] at hqf; cases hqf
    rw [if_pos hlen] at hqf
    cases hqf
    cases hr with
    | cons hr hr' =>
    refine ⟨_, _, hj, hr, rfl, ?_⟩
    intro p θ f D hreg hpos hf hD
    have hq' : SameGap { q with clock := c, cal := k } g := hq
    have hpi := Real.pi_pos
    have hred := hg.reduction
    dsimp only
    have hder := follows_derivative hg hreg hf hD 0 0
    have hrec := C41_reciprocal hg hreg ho 0 0
    rw [C40_forward hg hreg.toLinkage] at hrec
    have hhalf : j.position / lit 2 = g.gapAt θ := by
      rw [hpos, lit_real]; push_cast; unfold GripperT.gapAt; ring
    have hinv : GripperT.inverseGapStates { q with clock := c, cal := k } (j.position / lit 2) = g.inverseGapStates (g.gapAt θ) := by
      rw [sameGap_inverse hq', hhalf]
    have hgoal : (lit 2 : ℝ) * j.commanded / (g.inverseGapStates (g.gapAt θ)).dMR_dt * rad2mr * g.reduction = j.commanded * D * g.reduction ^ 2 := by
      rw [hder, rad2mr_real, lit_real]
      push_cast
      generalize (g.computeGapStates (p / g.reduction / (2 * Real.pi)) 0 0).dt_dMR = d at *
      generalize (g.inverseGapStates (g.gapAt θ)).dMR_dt = e at *
      have hd0 : d ≠ 0 := by rintro rfl; rw [zero_mul] at hrec; norm_num at hrec
      have he0 : e ≠ 0 := by rintro rfl; rw [mul_zero] at hrec; norm_num at hrec
      have : d = 1 / e := by field_simp; exact hrec
      rw [this]
      field_simp
    rw [hinv, hq.1]
    exact hgoal

end

/-! ## The grippers of the shipped description (C99) -/

/-- The finger angle of a PR2 gripper when its motor has turned by `p` (radians), with the constants of the file: the law of cosines. -/
noncomputable def pr2Finger (p : ℝ) : ℝ :=
  0.0628824676201 - 0.518518122146 + Real.arccos ((0.0683698 ^ 2 + 0.0433849 ^ 2 - (0.0375528 + p / (2 * Real.pi) * 0.004 / 40.095) ^ 2) / (2 * 0.0683698 * 0.0433849))

/-- The gap between the finger tips: two fingers of length 91.5 mm. -/
noncomputable def pr2Gap (p : ℝ) : ℝ := 2 * (-0.0001914 + 0.0915 * (Real.sin (pr2Finger p) - Real.sin 0.0628824676201))

/-- The constants of the file. -/
noncomputable def pr2Gripper : GripperT ℝ := { demoGripper with
  reduction := 1, screw := 0.004, gear := 40.095, theta0 := 0.0628824676201, phi0 := 0.518518122146, t0 := -0.0001914, L0 := 0.0375528, h := 0, a := 0.0683698, b := 0.0433849, r := 0.0915 }

theorem pr2Gripper_sane : pr2Gripper.Sane := by constructor <;> norm_num [pr2Gripper]
theorem pr2Gripper_opens : pr2Gripper.Opens := by norm_num [pr2Gripper, GripperT.Opens]

/-- Over the whole stroke (and beyond: 400 turns of the motor) the linkage is away from its singular positions. -/
theorem pr2_regular {p : ℝ} (h0 : 0 ≤ p / (2 * Real.pi)) (h1 : p / (2 * Real.pi) ≤ 400) : pr2Gripper.Regular (p / pr2Gripper.reduction / (2 * Real.pi)) (pr2Finger p) := by
  have hp : p / pr2Gripper.reduction / (2 * Real.pi) = p / (2 * Real.pi) := by norm_num [pr2Gripper]
  rw [hp]
  have hth : pr2Finger p - pr2Gripper.theta0 + pr2Gripper.phi0 =
      Real.arccos ((0.0683698 ^ 2 + 0.0433849 ^ 2 - (0.0375528 + p / (2 * Real.pi) * 0.004 / 40.095) ^ 2) / (2 * 0.0683698 * 0.0433849)) := by
    simp only [pr2Finger, pr2Gripper]; ring
  have hthe : pr2Finger p = 0.0628824676201 - 0.518518122146 + Real.arccos ((0.0683698 ^ 2 + 0.0433849 ^ 2 - (0.0375528 + p / (2 * Real.pi) * 0.004 / 40.095) ^ 2) / (2 * 0.0683698 * 0.0433849)) := rfl
  generalize p / (2 * Real.pi) = m at *
  generalize hu : (0.0683698 ^ 2 + 0.0433849 ^ 2 - ((0.0375528 : ℝ) + m * 0.004 / 40.095) ^ 2) / (2 * 0.0683698 * 0.0433849) = u at *
  have hu' : ((0.0375528 : ℝ) + m * 0.004 / 40.095) ^ 2 = 0.0683698 ^ 2 + 0.0433849 ^ 2 - 2 * 0.0683698 * 0.0433849 * u := by
    rw [← hu]; field_simp; ring
  have hs1 : (0.0375528 : ℝ) ≤ 0.0375528 + m * 0.004 / 40.095 := by
    have : 0 ≤ m * 0.004 / 40.095 := by positivity
    linarith
  have hs2 : (0.0375528 : ℝ) + m * 0.004 / 40.095 ≤ 0.0775 := by
    have : m * 0.004 / 40.095 ≤ 400 * 0.004 / 40.095 := by gcongr
    norm_num at this ⊢; linarith
  have hsq1 : (0.0375528 : ℝ) ^ 2 ≤ (0.0375528 + m * 0.004 / 40.095) ^ 2 := by gcongr
  have hsq2 : ((0.0375528 : ℝ) + m * 0.004 / 40.095) ^ 2 ≤ 0.0775 ^ 2 := by gcongr
  rw [hu'] at hsq1 hsq2
  have u0 : 0 ≤ u := by norm_num at hsq2 ⊢; linarith
  have u1 : u ≤ 0.9 := by norm_num at hsq1 ⊢; linarith
  have ha0 := Real.arccos_nonneg u
  have ha1 : Real.arccos u ≤ Real.pi / 2 := Real.arccos_le_pi_div_two.2 u0
  have hpi := Real.pi_pos
  have hpi3 := Real.pi_gt_three
  have hpi4 := Real.pi_lt_d4
  have hcos : Real.cos (Real.arccos u) = u := Real.cos_arccos (by linarith) (by linarith)
  refine ⟨⟨?_, ?_, ?_, ?_⟩, h0, ?_, ?_, ?_⟩
  · rw [hth, hcos]
    simp only [GripperT.side, pr2Gripper]
    rw [hu']; ring
  · rw [hth]; exact ⟨ha0, by linarith⟩
  · rw [hthe]; constructor <;> norm_num <;> linarith
  · simp only [GripperT.side, pr2Gripper]; linarith
  · simp only [GripperT.side, pr2Gripper]; norm_num at hs1 ⊢; linarith
  · rw [hth]
    have e := Real.sin_sq_add_cos_sq (Real.arccos u)
    rw [hcos] at e
    have : u ^ 2 ≤ 0.9 ^ 2 := by gcongr
    norm_num at this ⊢; linarith
  · have h5 : pr2Finger p ^ 2 ≤ 1.12 ^ 2 := by
      rw [hthe]
      apply sq_le_sq'
      · norm_num; linarith
      · norm_num at hpi4 ⊢; linarith
    have h6 := Real.one_sub_sq_div_two_le_cos (x := pr2Finger p)
    have h7 : (1 / 4 : ℝ) ≤ Real.cos (pr2Finger p) := by norm_num at h5; linarith
    have : (1 / 4 : ℝ) ^ 2 ≤ Real.cos (pr2Finger p) ^ 2 := by gcongr
    norm_num at this; linarith

theorem pr2_follows {p : ℝ} (h0 : 0 < p / (2 * Real.pi)) (h1 : p / (2 * Real.pi) < 400) : pr2Gripper.Follows pr2Gap p := by
  have hc : ContinuousAt (fun q : ℝ => q / (2 * Real.pi)) p := by fun_prop
  filter_upwards [hc.eventually (lt_mem_nhds h0), hc.eventually (gt_mem_nhds h1)] with q a b
  exact ⟨pr2Finger q, (pr2_regular a.le b.le).toLinkage, rfl⟩

theorem gap_opens {g : GripperT ℝ} (hg : g.Sane) (ho : g.Opens) (hr : 0 < g.r) {mr θ : ℝ} (h : g.Regular mr θ) (x y : ℝ) : 0 < (g.computeGapStates mr x y).dt_dMR := by
  have hrec := C41_reciprocal hg h ho x y
  have : 0 ≤ (g.inverseGapStates (g.computeGapStates mr x y).gapSize).dMR_dt := by
    unfold GripperT.inverseGapStates GripperT.inverseGapStates1
    dsimp only
    simp only [fabs_real, lit_real, sqrt_real]
    positivity
  by_contra hc
  nlinarith [mul_nonneg (by linarith : 0 ≤ -(g.computeGapStates mr x y).dt_dMR) this]

theorem pr2_rate {p : ℝ} (h0 : 0 < p / (2 * Real.pi)) (h1 : p / (2 * Real.pi) < 400) : ∃ D, 0 < D ∧ HasDerivAt pr2Gap D p := by
  have hreg := pr2_regular h0.le h1.le
  have h3 : HasDerivAt (fun q : ℝ => q / pr2Gripper.reduction / (2 * Real.pi)) (1 / pr2Gripper.reduction / (2 * Real.pi)) p := ((hasDerivAt_id p).div_const _).div_const _
  have h4 := ((C41_derivative pr2Gripper_sane hreg 0 0).1.comp p h3).const_mul 2
  refine ⟨_, ?_, h4.congr_of_eventuallyEq ?_⟩
  · have := gap_opens pr2Gripper_sane pr2Gripper_opens (by norm_num [pr2Gripper]) hreg 0 0
    have hpi := Real.pi_pos
    have : 0 < pr2Gripper.reduction := by norm_num [pr2Gripper]
    positivity
  · refine (pr2_follows h0 h1).mono ?_
    rintro q ⟨θ, hl, hq⟩
    change pr2Gap q = 2 * (pr2Gripper.computeGapStates (q / pr2Gripper.reduction / (2 * Real.pi)) 0 0).gapSize
    rw [hq, C40_forward pr2Gripper_sane hl]
    rfl

theorem pr2_gap_entry [Parse ℝ] (hd : ReadsDecimals ℝ) (g : String) : GapEntry (.node "gap_joint" [("L0", "0.0375528"), ("a", "0.0683698"), ("b", "0.0433849"), ("gear_ratio", "40.095"), ("h", "0.0"), ("mechanical_reduction", "1.0"), ("name", g),
          ("phi0", "0.518518122146"), ("r", "0.0915"), ("screw_reduction", "0.004"), ("t0", "-0.0001914"), ("theta0", "0.0628824676201")] none []) g pr2Gripper := by
  have lex : ∀ (s : String) (q : ℚ) (v : ℝ), decimal s = some q → (q : ℝ) = v → Parse.lexical s = some v := by
    intro s q v h e
    rw [hd.lexical s q h, lit_real, e]
  constructor
  · exact saysOf _ _ _ rfl
  · exact ⟨_, saysOf _ _ _ rfl, lex _ 1 _ (by decide +kernel) (by norm_num [pr2Gripper])⟩
  · exact Or.inr ⟨_, saysOf _ _ _ rfl, lex _ 0.004 _ (by decide +kernel) (by norm_num [pr2Gripper])⟩
  · exact Or.inr ⟨_, saysOf _ _ _ rfl, lex _ 40.095 _ (by decide +kernel) (by norm_num [pr2Gripper])⟩
  · exact Or.inr ⟨_, saysOf _ _ _ rfl, lex _ 0.0628824676201 _ (by decide +kernel) (by norm_num [pr2Gripper])⟩
  · exact Or.inr ⟨_, saysOf _ _ _ rfl, lex _ 0.518518122146 _ (by decide +kernel) (by norm_num [pr2Gripper])⟩
  · exact Or.inr ⟨_, saysOf _ _ _ rfl, lex _ (-0.0001914) _ (by decide +kernel) (by norm_num [pr2Gripper])⟩
  · exact Or.inr ⟨_, saysOf _ _ _ rfl, lex _ 0.0375528 _ (by decide +kernel) (by norm_num [pr2Gripper])⟩
  · exact Or.inr ⟨_, saysOf _ _ _ rfl, lex _ 0 _ (by decide +kernel) (by norm_num [pr2Gripper])⟩
  · exact Or.inr ⟨_, saysOf _ _ _ rfl, lex _ 0.0683698 _ (by decide +kernel) (by norm_num [pr2Gripper])⟩
  · exact Or.inr ⟨_, saysOf _ _ _ rfl, lex _ 0.0433849 _ (by decide +kernel) (by norm_num [pr2Gripper])⟩
  · exact Or.inr ⟨_, saysOf _ _ _ rfl, lex _ 0.0915 _ (by decide +kernel) (by norm_num [pr2Gripper])⟩

section
variable [Parse ℝ] {urdf : Xml → Option (String → Option (UJoint ℝ))} {joint : String → Option (UJoint ℝ)} {new : Nat → NewTrans ℝ} {acts : List (Actuator ℝ)} {s0 s s' : RState ℝ}

/-- **C99, grippers.**  While the motor is between 0 and 400 turns, the gap joint of each gripper of the file reads the gap that the fingers of the file's lengths have at the motor's position;
the gap opens with the motor at a rate `D`, the joint's velocity is `D` times the motor's and its effort satisfies virtual work. -/
theorem C99_gripper_reading (hd : ReadsDecimals ℝ) (hu : ReadsUrdf urdf pr2Complete joint) (hm : ∀ r ∈ pr2Rows, ∀ m ∈ r.motors, ∃ a ∈ acts, a.name = m)
    (h : Loaded (pluginLoader new) urdf pr2Complete joint acts (pr2Trans new) s0) (hl : Later s0 s) (hs : s.propagatePosition = some s')
    {n m g : String} {ps : List String} (hr : Row.gripper n m g ps ∈ pr2Rows) :
    ∃ a j', s.Motor m a ∧ s'.Joint g j' ∧ (0 < a.position / (2 * Real.pi) → a.position / (2 * Real.pi) < 400 →
      j'.position = pr2Gap a.position ∧ ∃ D, 0 < D ∧ HasDerivAt pr2Gap D a.position ∧ j'.velocity = D * a.velocity ∧ j'.measured * D = a.measured) := by
  obtain ⟨k, ht, hde⟩ := complete_described (new := new) hd hu hm hr
  obtain ⟨a, j', h1, h2, _, h3⟩ := C95_gripper_reading h hl hs ht hde (firstChild _ _ _ rfl) (saysOf _ _ _ rfl) (gripper_children _ n m g ps _).1 (pr2_gap_entry hd g) pr2Gripper_sane
  obtain ⟨a₁, j₁, k1, k2, k3⟩ := C95_gripper_rates h hl hs ht hde (firstChild _ _ _ rfl) (saysOf _ _ _ rfl) (gripper_children _ n m g ps _).1 (pr2_gap_entry hd g) pr2Gripper_sane pr2Gripper_opens
  cases h1.unique k1
  cases h2.unique k2
  refine ⟨a, j', h1, h2, fun lo hi => ⟨?_, ?_⟩⟩
  · exact h3 _ (pr2_regular lo.le hi.le).toLinkage
  · obtain ⟨D, d0, hD⟩ := pr2_rate lo hi
    obtain ⟨e1, e2⟩ := k3 _ _ _ (pr2_regular lo.le hi.le) (pr2_follows lo hi) hD
    refine ⟨D, d0, hD, e1, ?_⟩
    have : pr2Gripper.reduction = 1 := rfl
    rw [this] at e2; linarith

/-- **C99, grippers.**  When the gap joint reads the gap at the motor position `p`, the motor is sent the commanded gap effort times the rate `D` of the gap: virtual work. -/
theorem C99_gripper_command (hd : ReadsDecimals ℝ) (hu : ReadsUrdf urdf pr2Complete joint) (hm : ∀ r ∈ pr2Rows, ∀ m ∈ r.motors, ∃ a ∈ acts, a.name = m)
    (h : Loaded (pluginLoader new) urdf pr2Complete joint acts (pr2Trans new) s0) (hl : Later s0 s) (hs : s.propagateEffort = some s')
    {n m g : String} {ps : List String} (hr : Row.gripper n m g ps ∈ pr2Rows) :
    ∃ a' j, s.Joint g j ∧ s'.Motor m a' ∧ a'.enable = true ∧ ∀ p, 0 < p / (2 * Real.pi) → p / (2 * Real.pi) < 400 → j.position = pr2Gap p →
      ∃ D, 0 < D ∧ HasDerivAt pr2Gap D p ∧ a'.effort = j.commanded * D := by
  obtain ⟨k, ht, hde⟩ := complete_described (new := new) hd hu hm hr
  obtain ⟨a', j, h1, h2, h3, h4⟩ := C95_gripper_command h (by rw [(complete_ts new).2]; decide +kernel) hl hs ht hde (firstChild _ _ _ rfl) (saysOf _ _ _ rfl)
    (gripper_children _ n m g ps _).1 (pr2_gap_entry hd g) pr2Gripper_sane pr2Gripper_opens
  refine ⟨a', j, h1, h2, h3, fun p lo hi hp => ?_⟩
  obtain ⟨D, d0, hD⟩ := pr2_rate lo hi
  refine ⟨D, d0, hD, ?_⟩
  have := h4 p _ _ _ (pr2_regular lo.le hi.le) hp (pr2_follows lo hi) hD
  rw [this]
  have : pr2Gripper.reduction = 1 := rfl
  rw [this]; ring

end

/-! ## Example: the PR2 with real numbers, every motor at 100 turns -/

section example_
@[reducible] noncomputable def realParse : Parse ℝ := ⟨fun s => ((decimal s).getD 0 : ℚ), fun s => (decimal s).map fun q => (q : ℝ), fun s => (decimal s).map fun q => (q : ℝ)⟩
attribute [local instance] realParse
noncomputable def UJoint.real (u : UJoint ℚ) : UJoint ℝ := ⟨u.name, u.type, u.limits.map JLimits.cast, u.safety.map JSafety.cast, none⟩
noncomputable def realUrdf (root : Xml) : Option (String → Option (UJoint ℝ)) := (readUrdf root).map fun f n => (f n).map UJoint.real

theorem real_decimals : ReadsDecimals ℝ :=
  ⟨fun s q h => by change (((decimal s).getD 0 : ℚ) : ℝ) = lit q; rw [h, lit_real]; rfl, fun s q h => by change ((decimal s).map fun q => (q : ℝ)) = some (lit q : ℝ); rw [h, lit_real]; rfl⟩

theorem real_attr {e : Xml} {n : String} {v : ℚ} (h : @NumAttr ℚ demoLit e n v) : NumAttr e n (v : ℝ) := by
  refine ⟨fun s q hs hq => ?_, fun hs => ?_⟩
  · rw [lit_real, h.1 s q hs hq]; rfl
  · rw [lit_real, h.2 hs]; rfl

theorem real_urdf : ReadsUrdf realUrdf pr2Complete (fun n => (pr2Joint pr2Complete n).map UJoint.real) := by
  refine ⟨rfl, fun x hx n hn => ?_⟩
  obtain ⟨u, h1, h2, h3, h4, h5⟩ := (pr2_read _ pr2_names.2).2 x hx n hn
  refine ⟨u.real, by change ((pr2Joint pr2Complete n).map UJoint.real) = _; rw [h1]; rfl, h2, h3, fun e he => ?_, fun e he => ?_⟩
  · obtain ⟨l, k1, k2, k3, k4, k5⟩ := h4 e he
    exact ⟨l.cast, by unfold UJoint.real; rw [k1]; rfl, real_attr k2, real_attr k3, real_attr k4, real_attr k5⟩
  · obtain ⟨l, k1, k2, k3, k4, k5⟩ := h5 e he
    exact ⟨l.cast, by unfold UJoint.real; rw [k1]; rfl, real_attr k2, real_attr k3, real_attr k4, real_attr k5⟩

noncomputable def realNew (_ : Nat) : NewTrans ℝ where
  simple := ⟨0, 0, false, ⟨false, 0⟩, CalSim.fresh 0 0 0 0 false false⟩
  wrist := ⟨0, 0, 0, 0, 0, 0, ⟨false, 0⟩, CalSim.fresh 0 0 0 0 false false, CalSim.fresh 0 0 0 0 false false⟩
  gripper := ⟨0, 0, false, [], 0, 0, 0, 0, 0, 0, 0, 0, 0, 0, ⟨false, 0⟩, CalSim.fresh 0 0 0 0 false false⟩
  belt := ⟨⟨0, 0, 0, 0, 0, 0, 0⟩, .init 0, .init, ⟨false, 0⟩, CalSim.fresh 0 0 0 0 false false⟩
noncomputable def realActs : List (Actuator ℝ) := (pr2Rows.flatMap Row.motors).map Actuator.fresh
theorem real_motors : ∀ r ∈ pr2Rows, ∀ m ∈ r.motors, ∃ a ∈ realActs, a.name = m := by
  intro r hr m hm
  exact ⟨.fresh m, List.mem_map_of_mem (List.mem_flatMap.2 ⟨r, hr, hm⟩), rfl⟩

/-- The right gripper of the PR2 then reads a definite gap, and commands reach its motor by virtual work. -/
example : ∃ (s0 s s' s'' : RState ℝ) (j : JState ℝ) (a : Actuator ℝ), Loaded (pluginLoader realNew) realUrdf pr2Complete (fun n => (pr2Joint pr2Complete n).map UJoint.real) realActs (pr2Trans realNew) s0 ∧
    Later s0 s ∧ s.propagatePosition = some s' ∧ s'.propagateEffort = some s'' ∧ s'.Joint "r_gripper_joint" j ∧ j.position = pr2Gap (200 * Real.pi) ∧
    s''.Motor "r_gripper_motor" a ∧ ∃ D, 0 < D ∧ HasDerivAt pr2Gap D (200 * Real.pi) ∧ a.effort = j.commanded * D := by
  obtain ⟨acts', s0, hi, hmk, hld, _⟩ := C99_complete real_decimals realUrdf _ real_urdf realNew (fun _ => ⟨rfl, ⟨by simp [realNew, lit_real], by simp [realNew, lit_real]⟩, rfl, rfl⟩) realActs real_motors (fun _ => 0)
  have hready := C67_ready _ _ _ _ _ _ _ hi _ (by rw [all_eq]; exact hld.well) _ _ hld.urdf hmk
  let s : RState ℝ := { s0 with acts := s0.acts.map fun a => { a with position := 200 * Real.pi } }
  have hl : Later s0 s := by
    refine Later.start.touch rfl rfl (List.forall₂_same.2 fun _ _ => rfl) ?_
    change List.Forall₂ _ s0.acts (s0.acts.map _)
    rw [List.forall₂_map_right_iff]
    exact List.forall₂_same.2 fun a _ => rfl
  obtain ⟨s', hs', hr'⟩ := C67_position_never_aborts s ((hl.same hready).1.ready hready)
  obtain ⟨s'', hs'', _⟩ := C67_effort_never_aborts s' hr'
  have hl' := hl.position hs'
  have hrow : Row.gripper "r_gripper_trans" "r_gripper_motor" "r_gripper_joint" ["r_gripper_l_finger_joint", "r_gripper_r_finger_joint", "r_gripper_r_finger_tip_joint", "r_gripper_l_finger_tip_joint", "r_gripper_r_parallel_root_joint", "r_gripper_l_parallel_root_joint"] ∈ pr2Rows := by
    simp [pr2Rows]
  obtain ⟨a, j', h1, h2, h3⟩ := C99_gripper_reading real_decimals real_urdf real_motors hld hl hs' hrow
  obtain ⟨a', j, k1, k2, _, k4⟩ := C99_gripper_command real_decimals real_urdf real_motors hld hl' hs'' hrow
  cases h2.unique k1
  have hpi := Real.pi_pos
  have e : 200 * Real.pi / (2 * Real.pi) = 100 := by field_simp; norm_num
  have ha : a.position = 200 * Real.pi := by
    have : a ∈ s.acts := by obtain ⟨pre, post, e, _⟩ := h1; rw [e]; simp
    obtain ⟨b, _, rfl⟩ := List.mem_map.1 this
    rfl
  rw [ha, e] at h3
  obtain ⟨h3, _⟩ := h3 (by norm_num) (by norm_num)
  exact ⟨s0, s, s', s'', _, a', hld, hl, hs', hs'', h2, h3, k2, k4 _ (by rw [e]; norm_num) (by rw [e]; norm_num) h3⟩
end example_

end Pr2
