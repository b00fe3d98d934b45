import Verif.Props.Stack
import Verif.Props.Rounding
import Verif.Props.GripperUnits
import Verif.Props.Glitch

/-! C111: what the motors of a described robot can be sent, in every cycle of the running system. -/

namespace Pr2
open FLit FTrig IeeeLike

/-! ## Simple transmissions and wrists, with rounding -/

section
variable {F : Type} [FCmp F] [Zero F] [Add F] [Sub F] [Mul F] [iDiv : Div F] [Neg F] [FLit F] [iTrig : FTrig F] [Parse F] [iA : IeeeArith F]
variable {l : TransLoader F} {urdf : Xml → Option (String → Option (UJoint F))} {root : Xml} {joint : String → Option (UJoint F)} {acts : List (Actuator F)} {ts : List (Trans F)}
  {s0 : RState F} {t : Trans F} {x : Xml}

local notation "𝐮" => IeeeArith.u F
local notation "𝛈" => IeeeArith.η F

/-- The description gives the joint the finite effort limit `e`, and a safety controller. -/
def EffortLimit (joint : String → Option (UJoint F)) (jn : String) (e : ℝ) : Prop :=
  ∃ u lim saf, joint jn = some u ∧ u.limits = some lim ∧ u.safety = some saf ∧ IsVal lim.effort e ∧ 0 ≤ e

omit [Parse F] in
theorem sent_effort {big : F} {sim : Bool} {d : RtData F} (hg : d.Good) {p : Plant F} (hp : Plant.Reach big sim d PlantIn.Tame p) {r : CycleRec F} (hr : r ∈ p.cycles)
    {jn : String} {j : JState F} (hj : r.sent.Joint jn j) (hd : joint jn = some j.joint) {e : ℝ} (he : EffortLimit joint jn e) : ∀ x, IsVal j.commanded x → |x| ≤ e := by
  obtain ⟨u, lim, saf, h1, h2, h3, h4, h5⟩ := he
  rw [hd] at h1
  cases h1
  obtain ⟨i, _, hi⟩ := hj
  exact limited_bound (C84_limited hg hp r hr) (List.mem_of_getElem? hi) ⟨lim, saf, h2, h3, h4, h5⟩

/-- **C111, simple transmissions.**  In every cycle of every run of a robot loaded from a description, whatever controllers command and whatever is called: if the joint has
a described effort limit and safety controller, a finite effort sent to the motor is within the described limit divided by the described reduction, up to one rounding. -/
theorem C111_simple (h : Loaded l urdf root joint acts ts s0) (hm : (ts.flatMap (·.actNames)).Nodup) {big : F} {sim : Bool} {d : RtData F} (hg : d.Good) (hs : Later s0 d.robot)
    {p : Plant F} (hp : Plant.Reach big sim d PlantIn.Mannered p) {r : CycleRec F} (hr : r ∈ p.cycles) (ht : t ∈ ts) {t0 : SimpleT F} (hd : Described (.simple t0) x joint acts t)
    {jel ael mel : Xml} {jn an red : String} (h1 : x.FirstChild "joint" jel) (h2 : jel.Says "name" jn) (h3 : x.FirstChild "actuator" ael) (h4 : ael.Says "name" an)
    (h5 : ReductionElement x ael mel) (h6 : mel.text = some red) {e k : ℝ} (he : EffortLimit joint jn e) (hk : IsVal (Parse.atof red : F) k) :
    ∃ a, r.sent.Motor an a ∧ a.enable = true ∧ ∀ y, IsVal a.effort y → |y| ≤ (1 + 𝐮) * (e / |k|) + 𝛈 := by
  obtain ⟨a, j, a', j', _, _, q3, q4, q5, _, _, _, _, q6, q7⟩ := C98_simple_cycle h hm hs hp hr ht hd h1 h2 h3 h4 h5 h6
  refine ⟨a', q3, q6, fun y hy => ?_⟩
  rw [q7] at hy
  exact div_bound (sent_effort hg (hp.mono fun i hi => hi.tame) hr q4 q5 he) (fun k' h => h.unique hk) hk hy rfl

/-- **C111, wrists.**  The same for the two motors of a wrist, up to three roundings. -/
theorem C111_wrist (h : Loaded l urdf root joint acts ts s0) (hm : (ts.flatMap (·.actNames)).Nodup) {big : F} {sim : Bool} {d : RtData F} (hg : d.Good) (hs : Later s0 d.robot)
    {p : Plant F} (hp : Plant.Reach big sim d PlantIn.Mannered p) {r : CycleRec F} (hr : r ∈ p.cycles) (ht : t ∈ ts) {t0 : WristT F} (hd : Described (.wrist t0) x joint acts t)
    {rn ln fn on : String} {kr kl kf ko of oo : F} (h1 : WristMotor x "rightActuator" acts rn kr) (h2 : WristMotor x "leftActuator" acts ln kl)
    (h3 : WristAxis x "flexJoint" joint fn kf of) (h4 : WristAxis x "rollJoint" joint on ko oo)
    {ef eo qf qo qr ql : ℝ} (hef : EffortLimit joint fn ef) (heo : EffortLimit joint on eo) (hqf : IsVal kf qf) (hqo : IsVal ko qo) (hqr : IsVal kr qr) (hql : IsVal kl ql)
    (hr2 : ∃ w : ℝ, IsVal (lit 2 * kr) w) (hl2 : ∃ w : ℝ, IsVal (lit 2 * kl) w) :
    ∃ ar al, r.sent.Motor rn ar ∧ r.sent.Motor ln al ∧ ar.enable = true ∧ al.enable = true ∧
      (∀ y, IsVal ar.effort y → |y| ≤ (1 + 𝐮) ^ 3 * ((ef / |qf| + eo / |qo|) / (2 * |qr|)) + ((1 + 𝐮) * (3 + 2 * 𝐮) / (2 * |qr|) + 1) * 𝛈) ∧
      (∀ y, IsVal al.effort y → |y| ≤ (1 + 𝐮) ^ 3 * ((ef / |qf| + eo / |qo|) / (2 * |ql|)) + ((1 + 𝐮) * (3 + 2 * 𝐮) / (2 * |ql|) + 1) * 𝛈) := by
  obtain ⟨ar, al, jf, jo, ar', al', jf', jo', _, _, _, _, a5, a6, a7, a8, a9, a10, _, _, _, _, ⟨_, _, b3, b4⟩, ⟨_, _, c3, c4⟩⟩ := C98_wrist_cycle h hm hs hp hr ht hd h1 h2 h3 h4
  have tw : ∀ {k : F} {q : ℝ}, IsVal k q → (∃ w : ℝ, IsVal (lit 2 * k) w) → IsVal (lit 2 * k) (2 * q) := by
    rintro k q hq ⟨w, hw⟩
    obtain ⟨y, hy, rfl⟩ := IeeeArith.twice _ _ hw
    rwa [hq.unique hy]
  have bf := sent_effort hg (hp.mono fun i hi => hi.tame) hr a7 a9 hef
  have bo := sent_effort hg (hp.mono fun i hi => hi.tame) hr a8 a10 heo
  refine ⟨ar', al', a5, a6, b3, c3, fun y hy => ?_, fun y hy => ?_⟩
  · rw [b4] at hy
    exact wrist_effort_bound bf bo hqf hqo hqr (tw hqr hr2) hy
  · rw [c4] at hy
    exact wrist_effort_bound (neg_bound bf) bo hqf hqo hql (tw hql hl2) hy

end

/-! ## Grippers, in real numbers -/

section
variable [Parse ℝ] {l : TransLoader ℝ} {urdf : Xml → Option (String → Option (UJoint ℝ))} {root : Xml} {joint : String → Option (UJoint ℝ)} {acts : List (Actuator ℝ)}
    {ts : List (Trans ℝ)} {s0 : RState ℝ} {t : Trans ℝ} {x : Xml}

/-- A cycle of a gripper: the gap joint is where the described linkage puts it at the motor's reading, and its motor is sent the limited gap effort times the rate of the gap. -/
theorem C111_gripper_cycle (h : Loaded l urdf root joint acts ts s0) (hm : (ts.flatMap (·.actNames)).Nodup) {big : ℝ} {sim : Bool} {d : RtData ℝ} (hs : Later s0 d.robot)
    {p : Plant ℝ} (hp : Plant.Reach big sim d PlantIn.Mannered p) {r : CycleRec ℝ} (hr : r ∈ p.cycles) (ht : t ∈ ts) {t0 : GripperT ℝ} (hd : Described (.gripper t0) x joint acts t)
    {ael gel : Xml} {an n : String} {g : GripperT ℝ} (h1 : x.FirstChild "actuator" ael) (h2 : ael.Says "name" an) (h3 : x.childrenTagged "gap_joint" = [gel]) (h4 : GapEntry gel n g)
    (hg : g.Sane) (ho : g.Opens) :
    ∃ a a' j', r.entry.Motor an a ∧ r.sent.Motor an a' ∧ r.sent.Joint n j' ∧ joint n = some j'.joint ∧
      a'.position = a.position ∧ a'.velocity = a.velocity ∧ a'.enable = true ∧
      ∀ θ, g.Regular (a.position / g.reduction / (2 * Real.pi)) θ → j'.position = 2 * (g.t0 + g.r * (Real.sin θ - Real.sin g.theta0)) ∧
        ∀ f D, g.Follows f a.position → HasDerivAt f D a.position → j'.velocity = D * a.velocity ∧ a'.effort = j'.commanded * D * g.reduction ^ 2 := by
  obtain ⟨l1, moved, y, hmv, l2, he, q1, q2, q3⟩ := hp.cycle hs hr
  obtain ⟨a, j1, a1, a3, a4, a5⟩ := C95_gripper_reading h l1 hmv ht hd h1 h2 h3 h4 hg
  obtain ⟨_, _, a1', a3', a6⟩ := C95_gripper_rates h l1 hmv ht hd h1 h2 h3 h4 hg ho
  cases a1.unique a1'
  cases a3.unique a3'
  obtain ⟨a', j2, b1, b2, b3, b4⟩ := C95_gripper_command h hm l2 he ht hd h1 h2 h3 h4 hg ho
  obtain ⟨j2', c1, c2⟩ := a3.move q1 q2
  cases b1.unique c1
  have hr1 := (h.conn l1 ht).1
  have hr2 := (h.conn l2 ht).1
  obtain ⟨f1, f2⟩ := C48_effort_only_commands _ _ hr2 he
  have hsent : r.sent.Joint n j2 := by
    obtain ⟨j3, g1, g2⟩ := b1.move (s' := r.sent) (R := fun a b => b = a) (SameRobot.effort hr2 he).jmap (by rw [f2]; exact List.forall₂_same.2 fun _ _ => rfl)
    cases g2; exact g1
  have hact : List.Forall₂ Actuator.SameMotion r.entry.acts r.sent.acts := by
    rw [← position_acts _ _ hr1 hmv]
    refine forall2_trans' (R := Actuator.SameMotion) (fun _ _ _ h k => h.trans k) q3 (f1.imp ?_)
    rintro u v ⟨e, b, rfl, _⟩
    exact ⟨rfl, rfl, rfl⟩
  obtain ⟨a'', g1, g2⟩ := a1.move hact fun _ _ h => h.name
  cases g1.unique b2
  refine ⟨a, a', j2, a1, b2, hsent, by rw [c2.joint]; exact a4, g2.position, g2.velocity, b3, fun θ hθ => ?_⟩
  have hpos : j2.position = 2 * (g.t0 + g.r * (Real.sin θ - Real.sin g.theta0)) := by rw [c2.position]; exact a5 θ hθ.toLinkage
  refine ⟨hpos, fun f D hf hD => ⟨?_, b4 _ θ f D hθ hpos hf hD⟩⟩
  rw [c2.velocity]
  exact (a6 θ f D hθ hf hD).1

/-- **C111, grippers.**  So the motor of a gripper is sent at most the described effort limit of the gap joint times the rate of the gap. -/
theorem C111_gripper (h : Loaded l urdf root joint acts ts s0) (hm : (ts.flatMap (·.actNames)).Nodup) {big : ℝ} {sim : Bool} {d : RtData ℝ} (hgd : d.Good) (hs : Later s0 d.robot)
    {p : Plant ℝ} (hp : Plant.Reach big sim d PlantIn.Mannered p) {r : CycleRec ℝ} (hr : r ∈ p.cycles) (ht : t ∈ ts) {t0 : GripperT ℝ} (hd : Described (.gripper t0) x joint acts t)
    {ael gel : Xml} {an n : String} {g : GripperT ℝ} (h1 : x.FirstChild "actuator" ael) (h2 : ael.Says "name" an) (h3 : x.childrenTagged "gap_joint" = [gel]) (h4 : GapEntry gel n g)
    (hg : g.Sane) (ho : g.Opens) {u : UJoint ℝ} (hu : joint n = some u) {lim : JLimits ℝ} {saf : JSafety ℝ} (gd : Guarded u lim saf) :
    ∃ a a', r.entry.Motor an a ∧ r.sent.Motor an a' ∧ ∀ θ f D, g.Regular (a.position / g.reduction / (2 * Real.pi)) θ → g.Follows f a.position → HasDerivAt f D a.position →
      |a'.effort| ≤ lim.effort * |D| * g.reduction ^ 2 := by
  obtain ⟨a, a', j', q1, q2, q3, q4, _, _, _, q5⟩ := C111_gripper_cycle h hm hs hp hr ht hd h1 h2 h3 h4 hg ho
  refine ⟨a, a', q1, q2, fun θ f D hθ hf hD => ?_⟩
  rw [((q5 θ hθ).2 f D hf hD).2]
  rw [hu] at q4
  cases q4
  obtain ⟨b1, b2⟩ := sent_bounds hgd (hp.mono fun i hi => hi.tame) hr q3 gd
  rw [getLimits_eq gd] at b1 b2
  have hc : |j'.commanded| ≤ lim.effort := abs_le.2 ⟨(le_clamp _ _).trans b1, b2.trans (clamp_le gd.effort _)⟩
  rw [abs_mul, abs_mul, abs_of_nonneg (sq_nonneg g.reduction)]
  gcongr

end

/-! ## The grippers of the shipped description -/

/-- Over 400 turns of the motor the gap of a PR2 gripper opens by less than a fifth of a millimetre per radian. -/
theorem pr2_rate_bound {p : ℝ} (h0 : 0 < p / (2 * Real.pi)) (h1 : p / (2 * Real.pi) < 400) {D : ℝ} (hD : HasDerivAt pr2Gap D p) : |D| ≤ 2 / 10000 := by
  have hreg := pr2_regular h0.le h1.le
  have hder := follows_derivative pr2Gripper_sane hreg (pr2_follows h0 h1) hD 0 0
  obtain ⟨j1, j2⟩ := jac_forward pr2Gripper_sane hreg 0 0
  have hp : p / pr2Gripper.reduction / (2 * Real.pi) = p / (2 * Real.pi) := by norm_num [pr2Gripper]
  have hdt : (pr2Gripper.computeGapStates (p / pr2Gripper.reduction / (2 * Real.pi)) 0 0).dt_dMR =
      (pr2Gripper.computeGapStates (p / pr2Gripper.reduction / (2 * Real.pi)) 0 0).dt_dtheta * (pr2Gripper.computeGapStates (p / pr2Gripper.reduction / (2 * Real.pi)) 0 0).dtheta_dMR := rfl
  rw [hdt, j1, j2, hp] at hder
  have htri := hreg.triangle
  obtain ⟨hc, hsn⟩ := regular_facts hreg
  rw [hp] at htri
  have hred : pr2Gripper.reduction = 1 := rfl
  have hside : pr2Gripper.side (p / (2 * Real.pi)) = 0.0375528 + p / (2 * Real.pi) * 0.004 / 40.095 := by simp only [GripperT.side, pr2Gripper]
  have hs1 : (0.0375528 : ℝ) ≤ pr2Gripper.side (p / (2 * Real.pi)) := by
    rw [hside]
    have : 0 ≤ p / (2 * Real.pi) * 0.004 / 40.095 := by positivity
    linarith
  have hs2 : pr2Gripper.side (p / (2 * Real.pi)) ≤ 0.0775 := by
    rw [hside]
    have : p / (2 * Real.pi) * 0.004 / 40.095 ≤ 400 * 0.004 / 40.095 := by gcongr
    norm_num at this ⊢; linarith
  have hsq1 : (0.0375528 : ℝ) ^ 2 ≤ pr2Gripper.side (p / (2 * Real.pi)) ^ 2 := by gcongr
  have hsq2 : pr2Gripper.side (p / (2 * Real.pi)) ^ 2 ≤ 0.0775 ^ 2 := by gcongr
  have hpi := Real.pi_gt_three
  have hc1 := Real.cos_le_one (pr2Finger p)
  have ep := Real.sin_sq_add_cos_sq (pr2Finger p - pr2Gripper.theta0 + pr2Gripper.phi0)
  generalize pr2Gripper.side (p / (2 * Real.pi)) = σ at *
  generalize Real.sin (pr2Finger p - pr2Gripper.theta0 + pr2Gripper.phi0) = sn at *
  generalize Real.cos (pr2Finger p - pr2Gripper.theta0 + pr2Gripper.phi0) = cs at *
  generalize Real.cos (pr2Finger p) = cf at *
  have ha : pr2Gripper.a = 0.0683698 := rfl
  have hb : pr2Gripper.b = 0.0433849 := rfl
  have hh : pr2Gripper.h = 0 := rfl
  have hgear : pr2Gripper.gear = 40.095 := rfl
  have hscrew : pr2Gripper.screw = 0.004 := rfl
  have hr : pr2Gripper.r = 0.0915 := rfl
  rw [ha, hb, hh] at htri
  rw [ha, hb, hgear, hscrew, hr, hred] at hder
  have u0 : 0 ≤ cs := by norm_num at hsq2 htri ⊢; linarith
  have u1 : cs ≤ 0.9 := by norm_num at hsq1 htri ⊢; linarith
  have u2 : cs ^ 2 ≤ 0.9 ^ 2 := by gcongr
  have hs43 : (0.43 : ℝ) ≤ sn := by
    by_contra hcon
    have : sn ^ 2 ≤ 0.43 ^ 2 := by gcongr; linarith
    norm_num at this u2; linarith
  have hn : cf * (σ * 0.004 / (40.095 * 0.0683698 * 0.0433849 * sn)) ≤ 1 * (0.0775 * 0.004 / (40.095 * 0.0683698 * 0.0433849 * 0.43)) := by
    have hσ : 0 ≤ σ := by linarith
    gcongr
  have hn0 : 0 ≤ cf * (σ * 0.004 / (40.095 * 0.0683698 * 0.0433849 * sn)) := by
    have hσ : 0 ≤ σ := by linarith
    positivity
  have e : D = 0.0915 * (cf * (σ * 0.004 / (40.095 * 0.0683698 * 0.0433849 * sn))) / Real.pi := by
    rw [hder]; ring
  generalize cf * (σ * 0.004 / (40.095 * 0.0683698 * 0.0433849 * sn)) = y at *
  rw [e, abs_of_nonneg (by positivity), div_le_iff₀ Real.pi_pos]
  norm_num at hn ⊢
  linarith

/-- Does the joint element state the limits and safety parameters of the grippers? -/
def gripperLim : JLimits ℚ := ⟨0, 9/100, 1000, 1/5⟩
def gripperSaf : JSafety ℚ := ⟨-1/100, 88/1000, 20, 5000⟩
def Xml.gripperJoint (x : Xml) (jn : String) : Bool :=
  x.attr "name" == some jn &&
  (match x.first "limit", x.first "safety_controller" with
   | some e, some f => (e.attr "lower").bind decimal == some gripperLim.lower && (e.attr "upper").bind decimal == some gripperLim.upper && (e.attr "effort").bind decimal == some gripperLim.effort &&
      (e.attr "velocity").bind decimal == some gripperLim.velocity && (f.attr "soft_lower_limit").bind decimal == some gripperSaf.softLower &&
      (f.attr "soft_upper_limit").bind decimal == some gripperSaf.softUpper && (f.attr "k_position").bind decimal == some gripperSaf.kPosition && (f.attr "k_velocity").bind decimal == some gripperSaf.kVelocity
   | _, _ => false)

/-- Of every gripper in the file, the gap joint is stated with these numbers. -/
def Row.gapOk : Row → Bool
  | .gripper _ _ g _ => (pr2Complete.all "joint").any (·.gripperJoint g)
  | _ => true
theorem pr2_gripper_file : ∀ r ∈ pr2Rows, r.gapOk = true := by decide +kernel

section
variable [Parse ℝ] {urdf : Xml → Option (String → Option (UJoint ℝ))} {joint : String → Option (UJoint ℝ)} {new : Nat → NewTrans ℝ} {acts : List (Actuator ℝ)} {s0 : RState ℝ}

theorem gripper_guarded (hu : ReadsUrdf urdf pr2Complete joint) {n m g : String} {ps : List String} (hr : Row.gripper n m g ps ∈ pr2Rows) :
    ∃ u, joint g = some u ∧ Guarded u (gripperLim.cast : JLimits ℝ) gripperSaf.cast := by
  obtain ⟨x, hx, hxg⟩ := List.any_eq_true.1 (pr2_gripper_file _ hr)
  rw [all_eq] at hx
  unfold Xml.gripperJoint at hxg
  rw [Bool.and_eq_true, beq_iff_eq] at hxg
  obtain ⟨g1, g3⟩ := hxg
  obtain ⟨u, hu1, hu2⟩ := hu.2 x hx g (saysOf _ _ _ g1)
  rcases he : x.first "limit" with _ | e
  · rw [he] at g3; cases g3
  rcases hf : x.first "safety_controller" with _ | f
  · rw [he, hf] at g3; cases g3
  rw [he, hf] at g3
  simp only [Bool.and_eq_true, beq_iff_eq] at g3
  obtain ⟨⟨⟨⟨⟨⟨⟨k1, k2⟩, k3⟩, k4⟩, k5⟩, k6⟩, k7⟩, k8⟩ := g3
  obtain ⟨l, l0, l1, l2, l3, l4⟩ := hu2.limits e (firstChild _ _ _ he)
  obtain ⟨s, s0, s1, s2, s3, s4⟩ := hu2.safety f (firstChild _ _ _ hf)
  have hlit : ∀ q : ℚ, (lit q : ℝ) = q := fun q => rfl
  have el : l = gripperLim.cast := by
    cases l
    simp only [JLimits.cast, JLimits.mk.injEq]
    exact ⟨(numAttr_of l1 k1).trans (hlit _), (numAttr_of l2 k2).trans (hlit _), (numAttr_of l3 k3).trans (hlit _), (numAttr_of l4 k4).trans (hlit _)⟩
  have es : s = gripperSaf.cast := by
    cases s
    simp only [JSafety.cast, JSafety.mk.injEq]
    exact ⟨(numAttr_of s1 k5).trans (hlit _), (numAttr_of s2 k6).trans (hlit _), (numAttr_of s3 k7).trans (hlit _), (numAttr_of s4 k8).trans (hlit _)⟩
  subst el es
  exact ⟨u, hu1, l0, s0, by norm_num [JLimits.cast, gripperLim], by norm_num [JLimits.cast, gripperLim], by norm_num [JSafety.cast, gripperSaf], by norm_num [JSafety.cast, gripperSaf],
    by norm_num [JSafety.cast, gripperSaf]⟩

/-- **C111, the PR2's grippers.**  On the robot of the completed description, a gripper's motor that is between 0 and 400 turns is never sent more than 0.2, whatever controllers command. -/
theorem C111_pr2_gripper (hd : ReadsDecimals ℝ) (hu : ReadsUrdf urdf pr2Complete joint) (hm : ∀ r ∈ pr2Rows, ∀ m ∈ r.motors, ∃ a ∈ acts, a.name = m)
    (h : Loaded (pluginLoader new) urdf pr2Complete joint acts (pr2Trans new) s0) {big : ℝ} {sim : Bool} {d : RtData ℝ} (hg : d.Good) (hs : Later s0 d.robot)
    {p : Plant ℝ} (hp : Plant.Reach big sim d PlantIn.Mannered p) {r : CycleRec ℝ} (hr : r ∈ p.cycles) {n m g : String} {ps : List String} (hrow : Row.gripper n m g ps ∈ pr2Rows) :
    ∃ a a', r.entry.Motor m a ∧ r.sent.Motor m a' ∧ (0 < a.position / (2 * Real.pi) → a.position / (2 * Real.pi) < 400 → |a'.effort| ≤ 0.2) := by
  obtain ⟨k, ht, hde⟩ := complete_described (new := new) hd hu hm hrow
  obtain ⟨u, hu1, gd⟩ := gripper_guarded hu hrow
  obtain ⟨a, a', h1, h2, h3⟩ := C111_gripper h (by rw [(complete_ts new).2]; decide +kernel) hg hs hp hr ht hde (firstChild _ _ _ rfl) (saysOf _ _ _ rfl)
    (gripper_children _ n m g ps _).1 (pr2_gap_entry hd g) pr2Gripper_sane pr2Gripper_opens hu1 gd
  refine ⟨a, a', h1, h2, fun lo hi => ?_⟩
  obtain ⟨D, d0, hD⟩ := pr2_rate lo hi
  have hb := pr2_rate_bound lo hi hD
  have := h3 _ _ _ (pr2_regular lo.le hi.le) (pr2_follows lo hi) hD
  have e : (gripperLim.cast : JLimits ℝ).effort = 1000 := by norm_num [JLimits.cast, gripperLim]
  have e2 : pr2Gripper.reduction = 1 := rfl
  rw [e, e2] at this
  norm_num at hb ⊢
  linarith

end

/-! ## No bound near the stretched linkage -/

/-- A gripper whose linkage is stretched out when it is closed. -/
noncomputable def stretchedGripper : GripperT ℝ := { demoGripper with a := 2, L0 := 1 }

/-- **C111, counterexample.**  In general the effort limit of the gap joint does not bound the efforts that a gripper's motor is sent: with sensible constants, and a gap effort of 1,
the effort grows without bound as the gap closes. -/
theorem C111_gripper_unbounded : stretchedGripper.Sane ∧ stretchedGripper.Opens ∧ ∀ B : ℝ, ∃ q : ℝ, 0 < q ∧ q ≤ 1 ∧
    ∀ (j : JState ℝ) rest a as', j.position = q → j.commanded = 1 → stretchedGripper.propagateEffort (j :: rest) [a] = some as' → ∀ a' ∈ as', B < a'.effort := by
  refine ⟨by constructor <;> simp [stretchedGripper, demoGripper], by simp [stretchedGripper, demoGripper, GripperT.Opens], fun B => ?_⟩
  obtain ⟨y, hy0, hy1, hyB⟩ : ∃ y : ℝ, 0 < y ∧ y ≤ 1 / 2 ∧ B * y < 1 / 14 := by
    refine ⟨1 / (14 * (|B| + 1)), by positivity, ?_, ?_⟩
    · rw [div_le_div_iff₀ (by positivity) (by norm_num)]
      have := abs_nonneg B
      linarith
    · rw [mul_one_div, div_lt_div_iff₀ (by positivity) (by norm_num)]
      have := le_abs_self B
      linarith
  refine ⟨2 * y, by linarith, by linarith, fun j rest a as' hj hc h a' ha' => ?_⟩
  unfold GripperT.propagateEffort at h
  dsimp only at h
  by_cases hlen : rest.length = stretchedGripper.passive.length + (if stretchedGripper.hasPassive then 2 else 1)
  swap
  · rw [if_neg hlen] at h; cases h
  rw [if_pos hlen] at h
  cases h
  rw [List.mem_singleton] at ha'
  subst ha'
  dsimp only
  have hred : stretchedGripper.reduction = 1 := rfl
  have hinv : (stretchedGripper.inverseGapStates (j.position / lit 2)).dMR_dt = 2 * y / (Real.sqrt (5 - 4 * Real.cos (Real.arcsin y)) * Real.sqrt (1 - y ^ 2)) := by
    have hpos : j.position / (lit 2 : ℝ) = y := by rw [hj, lit_real]; push_cast; ring
    rw [hpos]
    have hcl : clampS ((y - stretchedGripper.t0) / stretchedGripper.r + FTrig.sin stretchedGripper.theta0) = y := by
      rw [clampS_real]
      have : (y - stretchedGripper.t0) / stretchedGripper.r + FTrig.sin stretchedGripper.theta0 = y := by
        change (y - 0) / 1 + Real.sin 0 = y
        rw [Real.sin_zero]; ring
      rw [this, clamp_id (by linarith) (by linarith)]
    unfold GripperT.inverseGapStates
    rw [hcl]
    change (stretchedGripper.inverseGapStates1 (Real.arcsin y)).dMR_dt = _
    have hs : Real.sin (Real.arcsin y) = y := Real.sin_arcsin (by linarith) (by linarith)
    have hc := Real.cos_le_one (Real.arcsin y)
    unfold GripperT.inverseGapStates1
    dsimp only [stretchedGripper, demoGripper]
    simp only [lit_real, lt_real, sqrt_real, fabs_real, cos_real, sin_real, tol_real, sub_zero, add_zero, mul_zero, Real.sin_zero, hs, div_one, mul_one, one_mul, zero_add]
    have harg : (-((2 : ℚ) : ℝ) * 2 * Real.cos (Real.arcsin y) + 2 * 2 + 1 : ℝ) = 5 - 4 * Real.cos (Real.arcsin y) := by push_cast; ring
    have hpos2 : (0 : ℝ) < 5 - 4 * Real.cos (Real.arcsin y) := by linarith
    have hy2 : y * y ≤ 1 / 4 := by nlinarith
    rw [harg]
    have harg2 : ((1 : ℚ) : ℝ) - y * y = 1 - y ^ 2 := by push_cast; ring
    rw [harg2]
    rw [if_pos (by simpa using hpos2), if_pos (by simp only [decide_eq_true_eq]; nlinarith), abs_of_nonneg (by positivity)]
    have h1 : Real.sqrt (5 - 4 * Real.cos (Real.arcsin y)) ≠ 0 := (Real.sqrt_pos.2 hpos2).ne'
    have h2 : Real.sqrt (1 - y ^ 2) ≠ 0 := (Real.sqrt_pos.2 (by nlinarith)).ne'
    push_cast
    field_simp
  rw [hinv, hred, hc, rad2mr_real, lit_real]
  have hS : 1 ≤ Real.sqrt (5 - 4 * Real.cos (Real.arcsin y)) := by
    rw [Real.one_le_sqrt]
    have := Real.cos_le_one (Real.arcsin y)
    linarith
  have hT : 1 / 2 ≤ Real.sqrt (1 - y ^ 2) := by
    apply Real.le_sqrt_of_sq_le
    nlinarith
  generalize Real.sqrt (5 - 4 * Real.cos (Real.arcsin y)) = S at *
  generalize Real.sqrt (1 - y ^ 2) = T at *
  have hST : 1 / 2 ≤ S * T := by nlinarith
  have hpi := Real.pi_lt_d2
  have hpi0 := Real.pi_pos
  have e : ((2 : ℚ) : ℝ) * 1 / (2 * y / (S * T)) * (1 / (2 * Real.pi)) * 1 = S * T / (2 * Real.pi * y) := by
    have : S ≠ 0 := by linarith
    have : T ≠ 0 := by linarith
    push_cast
    field_simp
  rw [e, lt_div_iff₀ (by positivity)]
  have h7 : 2 * Real.pi * (B * y) < 2 * Real.pi * (1 / 14) := by gcongr
  norm_num at hpi
  linarith

/-! ## Every robot that is started completes a cycle -/

section
variable {F : Type} [FCmp F] [Zero F] [Add F] [Sub F] [Mul F] [iDiv : Div F] [Neg F] [FLit F] [iTrig : FTrig F]

/-- The first cycles, without a service call. -/
def Plant.idles (big : F) (p : Plant F) (i : PlantIn F) : Nat → Plant F
  | 0 => p
  | n + 1 => (p.idles big i n).step big (.rt i)

theorem idles_reach {big : F} {m : Bool} {d : RtData F} {ok : PlantIn F → Prop} {i : PlantIn F} (hi : ok i) (n : Nat) : Plant.Reach big m d ok ((Plant.init m d).idles big i n) := by
  induction n with
  | zero => exact .init
  | succ n ih => exact ih.rt _ hi

/-- A first cycle is completed, which begins with the readings of the hardware. -/
theorem first_cycle {big : F} {m : Bool} {d : RtData F} (hd : d.Good) {i : PlantIn F} (hi : i.Tame) :
    ∃ n r as, r ∈ ((Plant.init m d).idles big i n).cycles ∧ r.entry.acts = i.hw as := by
  by_contra hcon
  push Not at hcon
  have alive := fun n => (C84_survives hd (idles_reach (big := big) (m := m) hi n)).1
  have st : ∀ n, (Plant.init m d).idles big i (n + 1) = ((Plant.init m d).idles big i n).rtStep big i := by
    intro n
    change Plant.step big _ _ = _
    unfold Plant.step
    rw [alive n]
    rfl
  -- in a sweep over no controllers, the cycle ends
  have last : ∀ n (s : State), s.bad = false → s.used = some false → s.writing = none → s.lists false = [] → s.rt = .sweep 0 → ((Plant.init m d).idles big i n).mgr = s →
      ∀ as, ((Plant.init m d).idles big i n).entry.acts = i.hw as → False := by
    intro n s b1 b2 b3 b4 b5 hs as hent
    have h1 := st n
    have hm : (s.step (.rt ⟨false, false, false⟩)).rt = .publish := by
      unfold State.step
      rw [b1]
      simp [State.rtStep, b5, b2, b3, b4]
    have h2 := hcon (n + 1)
    have h3 := alive (n + 1)
    rw [h1] at h2 h3
    unfold Plant.rtStep at h2 h3
    rw [hs, b5] at h2 h3
    dsimp only at h2 h3
    rw [hm] at h2 h3
    dsimp only at h2 h3
    generalize (((Plant.init m d).idles big i n).data.robot.enforceSafety big).propagateEffort = o at h2 h3
    cases o with
    | none => cases h3
    | some y => exact h2 _ as (List.mem_append.2 (.inr (List.mem_singleton.2 rfl))) hent
  have s2 : ((Plant.init m d).idles big i 2).mgr = { State.init m with rt := .pre, used := some false } := by
    rw [st, st]; rfl
  have s3 : ∃ h : Bool, ((Plant.init m d).idles big i 3).mgr = ({ State.init m with rt := .pre, used := some false } : State).step (.rt ⟨h, false, false⟩) ∧
      ∃ as, ((Plant.init m d).idles big i 3).entry.acts = i.hw as := by
    have h3 := alive 3
    rw [st] at h3 ⊢
    unfold Plant.rtStep at h3 ⊢
    rw [s2] at h3 ⊢
    dsimp only at h3 ⊢
    generalize RState.propagatePosition (F := F) _ = o at h3 ⊢
    cases o with
    | none => cases h3
    | some y => exact ⟨_, rfl, _, rfl⟩
  obtain ⟨h, s3, as, e3⟩ := s3
  by_cases hre : (!h && m) = true
  · have s4 : ((Plant.init m d).idles big i 4).mgr = (({ State.init m with rt := .pre, used := some false } : State).step (.rt ⟨h, false, false⟩)).step (.rt ⟨false, false, false⟩) := by
      rw [st]
      have hr : ((Plant.init m d).idles big i 3).mgr.rt = .restart 0 := by
        rw [s3]
        simp only [Bool.and_eq_true, Bool.not_eq_true'] at hre
        rw [hre.1, hre.2]; rfl
      unfold Plant.rtStep
      rw [hr]
      dsimp only [Plant.advance]
      rw [s3]
    have e4 : ((Plant.init m d).idles big i 4).entry = ((Plant.init m d).idles big i 3).entry := by
      rw [st]
      have hr : ((Plant.init m d).idles big i 3).mgr.rt = .restart 0 := by
        rw [s3]
        simp only [Bool.and_eq_true, Bool.not_eq_true'] at hre
        rw [hre.1, hre.2]; rfl
      unfold Plant.rtStep
      rw [hr]
      rfl
    simp only [Bool.and_eq_true, Bool.not_eq_true'] at hre
    refine last 4 _ ?_ ?_ ?_ ?_ ?_ s4 as (by rw [e4]; exact e3)
    all_goals rw [hre.1, hre.2]; rfl
  · refine last 3 _ ?_ ?_ ?_ ?_ ?_ s3 as e3
    all_goals clear s3 s2 e3 last st alive hcon
    all_goals cases h <;> cases m <;> first | exact absurd rfl hre | rfl

end

/-! ## Examples -/

section real
attribute [local instance] realParse

/-- The hardware reports 100 turns of every motor. -/
noncomputable def turnsIn : PlantIn ℝ := ⟨fun as => as.map fun a => { a with position := 200 * Real.pi }, id, 0, 2000000, 0, false, 0, false⟩
theorem turnsIn_mannered : turnsIn.Mannered := by
  refine ⟨?_, Mannered.id⟩
  intro as
  change List.Forall₂ _ as (as.map _)
  rw [List.forall₂_map_right_iff]
  exact List.forall₂_same.2 fun _ _ => rfl

/-- C111: the PR2 is loaded, its manager runs and completes a cycle, in which the right gripper's motor is told at most 0.2. -/
example : ∃ (d : RtData ℝ) (p : Plant ℝ) (r : CycleRec ℝ) (a' : Actuator ℝ), d.Good ∧ Plant.Reach 1000 false d PlantIn.Mannered p ∧ r ∈ p.cycles ∧
    r.sent.Motor "r_gripper_motor" a' ∧ |a'.effort| ≤ 0.2 := by
  obtain ⟨s0, hl, hg, _⟩ := C99_survives real_decimals real_urdf (new := realNew) (fun _ => ⟨rfl, ⟨by simp [realNew, lit_real], by simp [realNew, lit_real]⟩, rfl, rfl⟩) real_motors (fun _ => 0)
    1 1 (by norm_num) (by norm_num) 0 (List.replicate 48 (JState.srow 0 (JState.fresh ⟨"", .fixed, none, none, none⟩ 0)), realActs.map (·.arow)) (List.replicate 48 ⟨"", 0, 0, 0⟩)
    (by simp) (by simp) (by simp)
  obtain ⟨n, r, as, hr, he⟩ := first_cycle (big := 1000) (m := false) hg turnsIn_mannered.tame
  have hrow : Row.gripper "r_gripper_trans" "r_gripper_motor" "r_gripper_joint" ["r_gripper_l_finger_joint", "r_gripper_r_finger_joint", "r_gripper_r_finger_tip_joint", "r_gripper_l_finger_tip_joint", "r_gripper_r_parallel_root_joint", "r_gripper_l_parallel_root_joint"] ∈ pr2Rows := by
    simp [pr2Rows]
  obtain ⟨a, a', h1, h2, h3⟩ := C111_pr2_gripper real_decimals real_urdf real_motors hl hg .start (idles_reach turnsIn_mannered n) hr hrow
  have ha : a.position = 200 * Real.pi := by
    have : a ∈ r.entry.acts := by obtain ⟨pre, post, e, _⟩ := h1; rw [e]; simp
    rw [he] at this
    obtain ⟨b, _, rfl⟩ := List.mem_map.1 this
    rfl
  have hpi := Real.pi_pos
  have e : 200 * Real.pi / (2 * Real.pi) = 100 := by field_simp; norm_num
  rw [ha, e] at h3
  exact ⟨_, _, r, a', hg, idles_reach turnsIn_mannered n, hr, h2, h3 (by norm_num) (by norm_num)⟩

end real

section rounded

/-- The numbers of the description of C98's example, in an arithmetic with NaN. -/
def boundsNumber (s : String) : NRat := ⟨some (if s = "1" then 1 else if s = "2" then 2 else if s = "3" then 3 else if s = "-3" then -3 else 0)⟩
@[reducible] def boundsParse : Parse NRat := ⟨boundsNumber, fun s => some (boundsNumber s), fun s => some (boundsNumber s)⟩
attribute [local instance] boundsParse

def boundsUJoint (n : String) : UJoint NRat := ⟨n, .revolute, some ⟨⟨some 0⟩, ⟨some 2⟩, ⟨some 30⟩, ⟨some 3⟩⟩, some ⟨⟨some 0⟩, ⟨some 2⟩, ⟨some 20⟩, ⟨some 4⟩⟩, none⟩
def boundsJoint (n : String) : Option (UJoint NRat) := some (boundsUJoint n)
def boundsSimple : SimpleT NRat := ⟨0, 0, false, ⟨false, 0⟩, CalSim.fresh 0 0 0 0 false false⟩
def boundsWrist : WristT NRat := ⟨0, 0, 0, 0, 0, 0, ⟨false, 0⟩, CalSim.fresh 0 0 0 0 false false, CalSim.fresh 0 0 0 0 false false⟩
def boundsTrans : List (Trans NRat) :=
  [⟨"e", ["m"], ["elbow"], .simple { boundsSimple with reduction := boundsNumber "2" }⟩,
   ⟨"w", ["r", "l"], ["flex", "roll"], .wrist { boundsWrist with ar0 := boundsNumber "3", ar1 := boundsNumber "-3", jr0 := boundsNumber "1", jr1 := boundsNumber "2" }⟩]
def boundsActs0 : List (Actuator NRat) := [.fresh "r", .fresh "m", .fresh "l"]
def boundsState0 : RState NRat := (RState.mk' boundsTrans boundsJoint (boundsActs0.map fun a => { a with enable := true }) (fun _ => 0)).getD ⟨[], [], [], []⟩

theorem bounds_loaded : Loaded (armLoader boundsSimple boundsWrist) (fun _ => some boundsJoint) stackRoot boundsJoint boundsActs0 boundsTrans boundsState0 := by
  refine ⟨⟨true, _, fun _ => 0, by rfl, rfl⟩, rfl, ?_, by decide⟩
  intro k x _ ty b hx _ _ _ hb
  have hb : (if ty = "pr2_simple" then some (Body.simple boundsSimple) else if ty = "pr2_wrist" then some (.wrist boundsWrist) else none) = some b := hb
  split at hb
  · cases hb
    refine ⟨rfl, ?_⟩
    have hx : x ∈ stackRoot.childrenTagged "transmission" := List.mem_of_getElem? hx
    change x ∈ [_, _] at hx
    simp only [List.mem_cons, List.not_mem_nil, or_false] at hx
    rcases hx with rfl | rfl <;> exact Nat.zero_le _
  · split at hb
    · cases hb; exact ⟨⟨rfl, rfl⟩, trivial⟩
    · cases hb

/-- The motors spin at 1000: the limiter brakes with all it has. -/
def boundsIn : PlantIn NRat := ⟨fun as => as.map fun a => { a with velocity := ⟨some 1000⟩ }, id, 0, 2000000, 0, false, 0, false⟩
def boundsRt : RtData NRat :=
  ⟨boundsState0, fun _ => CStat.fresh, ⟨0, 10, (boundsState0.joints.map (·.srow 0), boundsState0.acts.map (·.arow))⟩, ⟨0, 10, boundsState0.joints.map (·.jrow)⟩⟩
theorem boundsIn_mannered : boundsIn.Mannered := by
  refine ⟨?_, Mannered.id⟩
  intro as
  change List.Forall₂ _ as (as.map _)
  rw [List.forall₂_map_right_iff]
  exact List.forall₂_same.2 fun _ _ => rfl

theorem boundsGood : boundsRt.Good := by
  refine ⟨⟨⟨?_, ?_, ?_⟩, ?_, ?_⟩, ?_, rfl, rfl, rfl, by decide, by decide⟩
  all_goals first | decide +kernel | skip
  intro c hc
  have hc : c ∈ [_, _] := hc
  simp only [List.mem_cons, List.not_mem_nil, or_false] at hc
  rcases hc with rfl | rfl
  · exact ⟨rfl, by decide⟩
  · exact ⟨rfl, rfl⟩

def boundsRun : Plant NRat := (Plant.init false boundsRt).idles ⟨some 1000⟩ boundsIn 12
theorem bounds_limit (jn : String) : EffortLimit boundsJoint jn 30 := ⟨_, _, _, rfl, rfl, rfl, (NRat.isVal_iff _ _).2 ⟨30, rfl, by norm_num⟩, by norm_num⟩

/-- C111: the hypotheses are met by the elbow, whose motor is sent at most 15; -/
example (r : CycleRec NRat) (hr : r ∈ boundsRun.cycles) : ∃ a, r.sent.Motor "m" a ∧ a.enable = true ∧ ∀ y, IsVal a.effort y → |y| ≤ 15 := by
  have e1 : stackRoot.kids[0].FirstChild "joint" (stackRoot.kids[0].kids[0]) := ⟨[], _, rfl, rfl, by simp⟩
  have e2 : (stackRoot.kids[0].kids[0]).Says "name" "elbow" := ⟨[], _, rfl, by simp⟩
  have e3 : stackRoot.kids[0].FirstChild "actuator" (stackRoot.kids[0].kids[1]) := ⟨[_], _, rfl, rfl, by intro z hz; simp at hz; subst hz; decide⟩
  have e4 : (stackRoot.kids[0].kids[1]).Says "name" "m" := ⟨[], _, rfl, by simp⟩
  have e5 : ReductionElement stackRoot.kids[0] (stackRoot.kids[0].kids[1]) ((stackRoot.kids[0].kids[1]).kids[0]) := Or.inl ⟨[], _, rfl, rfl, by simp⟩
  have hd : Described (.simple boundsSimple) stackRoot.kids[0] boundsJoint boundsActs0 boundsTrans[0] :=
    ⟨_, _, _, _, _, _, [], _, e1, e2, ⟨_, rfl⟩, e3, e4, ⟨.fresh "m", by simp [boundsActs0], rfl⟩, e5, rfl, .nil, Or.inl ⟨[("type", "pr2_simple")], _, rfl, by simp⟩,
      rfl, rfl, rfl, rfl, rfl, rfl, rfl, rfl⟩
  obtain ⟨a, h1, h2, h3⟩ := C111_simple bounds_loaded (by decide) boundsGood .start (idles_reach boundsIn_mannered 12) hr (t := boundsTrans[0]) (List.mem_cons_self ..) hd e1 e2 e3 e4 e5 rfl
    (bounds_limit "elbow") (k := 2) ((NRat.isVal_iff _ _).2 ⟨2, rfl, by norm_num⟩)
  refine ⟨a, h1, h2, fun y hy => (h3 y hy).trans ?_⟩
  change (1 + 0) * (30 / |(2 : ℝ)|) + 0 ≤ 15
  rw [abs_of_pos (by norm_num)]; norm_num

/-- and by the wrist, whose motors are sent at most 7.5; -/
example (r : CycleRec NRat) (hr : r ∈ boundsRun.cycles) : ∃ ar al, r.sent.Motor "r" ar ∧ r.sent.Motor "l" al ∧ (∀ y, IsVal ar.effort y → |y| ≤ 15 / 2) ∧ ∀ y, IsVal al.effort y → |y| ≤ 15 / 2 := by
  have w1 : WristMotor stackRoot.kids[1] "rightActuator" boundsActs0 "r" (boundsNumber "3") :=
    ⟨_, "3", ⟨[], _, rfl, rfl, by simp⟩, ⟨[], _, rfl, by simp⟩, ⟨.fresh "r", by simp [boundsActs0], rfl⟩, ⟨[("name", "r")], _, rfl, by simp⟩, rfl⟩
  have w2 : WristMotor stackRoot.kids[1] "leftActuator" boundsActs0 "l" (boundsNumber "-3") :=
    ⟨_, "-3", ⟨[_], _, rfl, rfl, by intro z hz; simp at hz; subst hz; decide⟩, ⟨[], _, rfl, by simp⟩, ⟨.fresh "l", by simp [boundsActs0], rfl⟩, ⟨[("name", "l")], _, rfl, by simp⟩, rfl⟩
  have w3 : WristAxis stackRoot.kids[1] "flexJoint" boundsJoint "flex" (boundsNumber "1") 0 :=
    ⟨_, "1", ⟨[_, _], _, rfl, rfl, by intro z hz; simp at hz; rcases hz with rfl | rfl <;> decide⟩, ⟨[], _, rfl, by simp⟩, ⟨_, rfl⟩, ⟨[("name", "flex")], _, rfl, by simp⟩, rfl,
      Or.inl ⟨by intro p hp; simp [Xml.attrs] at hp; rcases hp with rfl | rfl <;> decide, rfl⟩⟩
  have w4 : WristAxis stackRoot.kids[1] "rollJoint" boundsJoint "roll" (boundsNumber "2") 0 :=
    ⟨_, "2", ⟨[_, _, _], _, rfl, rfl, by intro z hz; simp at hz; rcases hz with rfl | rfl | rfl <;> decide⟩, ⟨[], _, rfl, by simp⟩, ⟨_, rfl⟩, ⟨[("name", "roll")], _, rfl, by simp⟩,
      rfl, Or.inl ⟨by intro p hp; simp [Xml.attrs] at hp; rcases hp with rfl | rfl <;> decide, rfl⟩⟩
  have hd : Described (.wrist boundsWrist) stackRoot.kids[1] boundsJoint boundsActs0 boundsTrans[1] :=
    ⟨"r", "l", "flex", "roll", _, w1, w2, w3, w4, Or.inl ⟨[("type", "pr2_wrist")], _, rfl, by simp⟩, rfl, rfl, rfl, rfl, rfl, rfl⟩
  have val : ∀ (s : String) (q : ℚ), (boundsNumber s).v = some q → IsVal (boundsNumber s) (q : ℝ) := fun s q h => (NRat.isVal_iff _ _).2 ⟨q, h, rfl⟩
  obtain ⟨ar, al, h1, h2, _, _, h3, h4⟩ := C111_wrist bounds_loaded (by decide) boundsGood .start (idles_reach boundsIn_mannered 12) hr (t := boundsTrans[1])
    (List.mem_cons_of_mem _ (List.mem_cons_self ..)) hd w1 w2 w3 w4 (bounds_limit "flex") (bounds_limit "roll") (val "1" 1 (by decide +kernel)) (val "2" 2 (by decide +kernel))
    (val "3" 3 (by decide +kernel)) (val "-3" (-3) (by decide +kernel)) ⟨((6 : ℚ) : ℝ), (NRat.isVal_iff _ _).2 ⟨6, by decide +kernel, rfl⟩⟩ ⟨((-6 : ℚ) : ℝ), (NRat.isVal_iff _ _).2 ⟨-6, by decide +kernel, rfl⟩⟩
  have eu : IeeeArith.u NRat = 0 := rfl
  have eη : IeeeArith.η NRat = 0 := rfl
  rw [eu, eη] at h3 h4
  refine ⟨ar, al, h1, h2, fun y hy => (h3 y hy).trans ?_, fun y hy => (h4 y hy).trans ?_⟩ <;> norm_num

/-- and there are two cycles, in which the elbow's bound is attained. -/
example : boundsRun.cycles.map (fun r => r.sent.acts.map fun a => (a.name, a.effort.v)) =
    List.replicate 2 [("r", some (-5)), ("m", some (-15)), ("l", some (-5 : ℚ))] := by decide +kernel

end rounded

end Pr2
