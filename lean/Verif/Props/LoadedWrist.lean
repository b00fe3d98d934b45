import Verif.Props.LoadedLoop

/-!
# C117: the safety limits of a wrist under load and with reading errors

The joints of a wrist share two motors.  A load at one motor, or an error of its encoder, acts on both joints.
-/

namespace Pr2
open FLit
set_option linter.unusedSectionVars false
set_option linter.unusedVariables false

section exact
variable {F : Type} [Field F] [LinearOrder F] [IsStrictOrderedRing F]
attribute [local instance] exactCmp

/-! ## Specification -/

/-- Errors of at most `A` and `B` at the motors of a wrist with reductions `kr` and `kl` are one of at most this at the joint with reduction `k`. -/
def shared (kr kl k A B : F) : F := (A / |kr| + B / |kl|) / (2 * |k|)

/-- Loads of at most `A` and `B` at the motors are one of at most this at the joint. -/
def sharedLoad (kr kl k A B : F) : F := |k| * (A * |kr| + B * |kl|)

/-! ## Proof -/

theorem mix_sub {kr kl k a b A B : F} (ha : |a| ≤ A) (hb : |b| ≤ B) : |(a / kr - b / kl) / (2 * k)| ≤ shared kr kl k A B := by
  unfold shared
  rw [abs_div, abs_mul, abs_of_pos (by norm_num : (0 : F) < 2)]
  refine div_le_div_of_nonneg_right ((abs_sub _ _).trans ?_) (by positivity)
  rw [abs_div, abs_div]
  exact add_le_add (div_le_div_of_nonneg_right ha (abs_nonneg _)) (div_le_div_of_nonneg_right hb (abs_nonneg _))

theorem mix_add {kr kl k a b A B : F} (ha : |a| ≤ A) (hb : |b| ≤ B) : |(-a / kr - b / kl) / (2 * k)| ≤ shared kr kl k A B :=
  mix_sub (by rwa [abs_neg]) hb

theorem shared_load {kr kl k Gr Gl Ir Il J t : F} (h1 : kr ≠ 0) (h2 : kl ≠ 0) (h3 : k ≠ 0) (hJ : J ≠ 0) (e1 : Ir * kr ^ 2 = J) (e2 : Il * kl ^ 2 = J) :
    shared kr kl k (Gr / Ir * t) (Gl / Il * t) = sharedLoad kr kl k Gr Gl / (2 * k ^ 2 * J) * t := by
  have a1 : |kr| ≠ 0 := abs_ne_zero.2 h1
  have a2 : |kl| ≠ 0 := abs_ne_zero.2 h2
  have a3 : |k| ≠ 0 := abs_ne_zero.2 h3
  have q1 : Ir = J / |kr| ^ 2 := by rw [sq_abs]; field_simp; exact e1
  have q2 : Il = J / |kl| ^ 2 := by rw [sq_abs]; field_simp; exact e2
  have q3 : k ^ 2 = |k| ^ 2 := (sq_abs k).symm
  unfold shared sharedLoad
  rw [q1, q2, q3]
  field_simp

variable [FLit F] [iTrig : FTrig F]
variable [Parse F]

theorem flex_carried {Ir Il J kr kl kf ko τ cf co qr ql vr vl qr' ql' vr' vl' ρ o Gr Gl : F} (hr : kr ≠ 0) (hl : kl ≠ 0) (hf : kf ≠ 0) (ho : ko ≠ 0) (hJ : J ≠ 0) (h1 : Ir * kr ^ 2 = J) (h2 : Il * kl ^ 2 = J)
    (c1 : Carried Ir τ Gr ((cf / kf - co / ko) / (2 * kr)) qr vr qr' vr') (c2 : Carried Il τ Gl ((-cf / kf - co / ko) / (2 * kl)) ql vl ql' vl') :
    Carried (2 * kf ^ 2 * J) τ (sharedLoad kr kl kf Gr Gl) cf ((qr / kr - ql / kl) / (2 * kf) + ρ + o) ((vr / kr - vl / kl) / (2 * kf)) ((qr' / kr - ql' / kl) / (2 * kf) + ρ + o)
      ((vr' / kr - vl' / kl) / (2 * kf)) := by
  constructor
  · rw [← flex_pos (co := co) hr hl hf ho hJ h1 h2]
    rw [show ∀ a b c d : F, (a / kr - b / kl) / (2 * kf) + ρ + o - ((c / kr - d / kl) / (2 * kf) + ρ + o) = ((a - c) / kr - (b - d) / kl) / (2 * kf) from fun a b c d => by ring]
    refine (mix_sub c1.pos c2.pos).trans (le_of_eq ?_)
    rw [mul_div_assoc, mul_div_assoc, shared_load hr hl hf hJ h1 h2, mul_div_assoc]
  · rw [← flex_vel (co := co) hr hl hf ho hJ h1 h2]
    rw [show ∀ a b c d : F, (a / kr - b / kl) / (2 * kf) - (c / kr - d / kl) / (2 * kf) = ((a - c) / kr - (b - d) / kl) / (2 * kf) from fun a b c d => by ring]
    refine (mix_sub c1.vel c2.vel).trans (le_of_eq ?_)
    rw [shared_load hr hl hf hJ h1 h2]

theorem roll_carried {Ir Il J kr kl kf ko τ cf co qr ql vr vl qr' ql' vr' vl' ρ o Gr Gl : F} (hr : kr ≠ 0) (hl : kl ≠ 0) (hf : kf ≠ 0) (ho : ko ≠ 0) (hJ : J ≠ 0) (h1 : Ir * kr ^ 2 = J) (h2 : Il * kl ^ 2 = J)
    (c1 : Carried Ir τ Gr ((cf / kf - co / ko) / (2 * kr)) qr vr qr' vr') (c2 : Carried Il τ Gl ((-cf / kf - co / ko) / (2 * kl)) ql vl ql' vl') :
    Carried (2 * ko ^ 2 * J) τ (sharedLoad kr kl ko Gr Gl) co ((-qr / kr - ql / kl) / (2 * ko) + ρ + o) ((-vr / kr - vl / kl) / (2 * ko)) ((-qr' / kr - ql' / kl) / (2 * ko) + ρ + o)
      ((-vr' / kr - vl' / kl) / (2 * ko)) := by
  constructor
  · rw [← roll_pos (cf := cf) hr hl hf ho hJ h1 h2]
    rw [show ∀ a b c d : F, (-a / kr - b / kl) / (2 * ko) + ρ + o - ((-c / kr - d / kl) / (2 * ko) + ρ + o) = (-(a - c) / kr - (b - d) / kl) / (2 * ko) from fun a b c d => by ring]
    refine (mix_add c1.pos c2.pos).trans (le_of_eq ?_)
    rw [mul_div_assoc, mul_div_assoc, shared_load hr hl ho hJ h1 h2, mul_div_assoc]
  · rw [← roll_vel (cf := cf) hr hl hf ho hJ h1 h2]
    rw [show ∀ a b c d : F, (-a / kr - b / kl) / (2 * ko) - (-c / kr - d / kl) / (2 * ko) = (-(a - c) / kr - (b - d) / kl) / (2 * ko) from fun a b c d => by ring]
    refine (mix_add c1.vel c2.vel).trans (le_of_eq ?_)
    rw [shared_load hr hl ho hJ h1 h2]

variable {l : TransLoader F} {urdf : Xml → Option (String → Option (UJoint F))} {root : Xml} {joint : String → Option (UJoint F)} {acts : List (Actuator F)}
  {ts : List (Trans F)} {s0 : RState F} {t : Trans F} {x : Xml}

/-- What holds for the flex joint of a wrist whose motors are read with errors and loaded. -/
theorem flex_jointCarried (h : Loaded l urdf root joint acts ts s0) (hm : (ts.flatMap (·.actNames)).Nodup) {big : F} {sim : Bool} {d : RtData F} (hs : Later s0 d.robot)
    {p : Plant F} (hp : Plant.Reach big sim d PlantIn.Mannered p) (ht : t ∈ ts) {t0 : WristT F} (hd : Described (.wrist t0) x joint acts t)
    {rn ln fn on : String} {kr kl kf ko of oo : F} (h1 : WristMotor x "rightActuator" acts rn kr) (h2 : WristMotor x "leftActuator" acts ln kl)
    (h3 : WristAxis x "flexJoint" joint fn kf of) (h4 : WristAxis x "rollJoint" joint on ko oo) (h2' : (lit 2 : F) = 2) (hk : kr ≠ 0 ∧ kl ≠ 0 ∧ kf ≠ 0 ∧ ko ≠ 0)
    {n0 : Nat} {ρ ρ0 R : F} (hc : p.CalibratedFrom n0 fn ρ) (hρ : |ρ - ρ0| ≤ R)
    {Ir Il J dt Qr Wr Ql Wl : Nat → F} {Dr Nr Gr Dl Nl Gl : F} (hb : Balanced kr kl Ir Il J) (hmr : p.MotorCarried n0 rn Dr Nr Gr Qr Wr Ir dt) (hml : p.MotorCarried n0 ln Dl Nl Gl Ql Wl Il dt) :
    p.JointCarried n0 fn (shared kr kl kf Dr Dl + R) (shared kr kl kf Nr Nl) (sharedLoad kr kl kf Gr Gl) (fun n => (Qr n / kr - Ql n / kl) / (2 * kf) + ρ0 + of)
      (fun n => (Wr n / kr - Wl n / kl) / (2 * kf)) (fun n => 2 * kf ^ 2 * J n) dt := by
  have cyc := fun r (hr : r ∈ p.cycles) => C98_wrist_cycle h hm hs hp hr ht hd h1 h2 h3 h4
  rw [h2'] at cyc
  obtain ⟨k1, k2, k3, k4⟩ := hk
  constructor
  · intro n r y hn hr hj
    obtain ⟨ar0, al0, i, io, br, bl, j, jo, a1, a2, a3, ao1, a4, a4l, a5, ao2, a6, ao3, a7, ao4, a8, ao5, ⟨a9, a10, _, a11⟩, ⟨a12, a13, _, a14⟩⟩ := cyc r (List.mem_of_getElem? hr)
    cases hj.unique a5
    obtain ⟨e1, e2⟩ := hmr.read n r ar0 hn hr a1
    obtain ⟨e3, e4⟩ := hml.read n r al0 hn hr a2
    rw [a7, a8, (hc n r hn hr).1 i a3]
    constructor
    · rw [show (ar0.position / kr - al0.position / kl) / (2 * kf) + ρ + of - ((Qr n / kr - Ql n / kl) / (2 * kf) + ρ0 + of) =
        ((ar0.position - Qr n) / kr - (al0.position - Ql n) / kl) / (2 * kf) + (ρ - ρ0) by ring]
      exact (abs_add_le _ _).trans (add_le_add (mix_sub e1 e3) hρ)
    · rw [show (ar0.velocity / kr - al0.velocity / kl) / (2 * kf) - (Wr n / kr - Wl n / kl) / (2 * kf) = ((ar0.velocity - Wr n) / kr - (al0.velocity - Wl n) / kl) / (2 * kf) by ring]
      exact mix_sub e2 e4
  · intro n r y hn hr hlt hj
    obtain ⟨ar0, al0, i, io, br, bl, j, jo, a1, a2, a3, ao1, a4, a4l, a5, ao2, a6, ao3, a7, ao4, a8, ao5, ⟨a9, a10, _, a11⟩, ⟨a12, a13, _, a14⟩⟩ := cyc r (List.mem_of_getElem? hr)
    cases hj.unique a5
    have m1 := hmr.move n r br hn hr hlt a4
    have m2 := hml.move n r bl hn hr hlt a4l
    rw [a11] at m1
    rw [a14] at m2
    exact flex_carried k1 k2 k3 k4 (hb n).1.ne' (hb n).2.1 (hb n).2.2 m1 m2

/-- **C117, flex joint.**  The flex joint of a wrist of a robot loaded from its description, whose motors have the same inertia `J` as seen from the joints.  The motors are read with errors of at most `Dr`, `Nr` and `Dl`, `Nl`, they are
loaded by at most `Gr` and `Gl`, and the calibration is off by at most `R`.  Then the joint stays inside its soft limits, up to load and errors, at all times from cycle `n0` on, whatever the two joints of the wrist are commanded. -/
theorem C117_flex (h : Loaded l urdf root joint acts ts s0) (hm : (ts.flatMap (·.actNames)).Nodup) {big : F} {sim : Bool} {d : RtData F} (hg : d.Good) (hs : Later s0 d.robot)
    {p : Plant F} (hp : Plant.Reach big sim d PlantIn.Mannered p) (ht : t ∈ ts) {t0 : WristT F} (hd : Described (.wrist t0) x joint acts t)
    {rn ln fn on : String} {kr kl kf ko of oo : F} (h1 : WristMotor x "rightActuator" acts rn kr) (h2 : WristMotor x "leftActuator" acts ln kl)
    (h3 : WristAxis x "flexJoint" joint fn kf of) (h4 : WristAxis x "rollJoint" joint on ko oo) (h2' : (lit 2 : F) = 2) (hk : kr ≠ 0 ∧ kl ≠ 0 ∧ kf ≠ 0 ∧ ko ≠ 0) {u : UJoint F} (hu : joint fn = some u)
    {lim : JLimits F} {saf : JSafety F} (g : Guarded u lim saf) (hty : u.type = .revolute ∨ u.type = .prismatic) {n0 : Nat} {ρ ρ0 R : F} (hc : p.CalibratedFrom n0 fn ρ) (hρ : |ρ - ρ0| ≤ R)
    {Ir Il J dt Qr Wr Ql Wl : Nat → F} {Dr Nr Gr Dl Nl Gl : F} (hb : Balanced kr kl Ir Il J) (hmr : p.MotorCarried n0 rn Dr Nr Gr Qr Wr Ir dt) (hml : p.MotorCarried n0 ln Dl Nl Gl Ql Wl Il dt)
    (hsu : ∀ n, Withstands lim saf (2 * kf ^ 2 * J n) (dt n) (shared kr kl kf Dr Dl + R) (shared kr kl kf Nr Nl) (sharedLoad kr kl kf Gr Gl))
    (h0 : SafeUpTo lim saf (shared kr kl kf Dr Dl + R) (shared kr kl kf Nr Nl) (sharedLoad kr kl kf Gr Gl) ((Qr n0 / kr - Ql n0 / kl) / (2 * kf) + ρ0 + of) ((Wr n0 / kr - Wl n0 / kl) / (2 * kf)))
    (n : Nat) (r : CycleRec F) (ar al : Actuator F) (hn : n0 ≤ n) (hr : p.cycles[n]? = some r) (har : r.sent.Motor rn ar) (hal : r.sent.Motor ln al) (τ q w q' w' : F) (hτ0 : 0 ≤ τ) (hτ : τ ≤ dt n)
    (hq : Carried (Ir n) τ Gr ar.effort (Qr n) (Wr n) q w) (hq' : Carried (Il n) τ Gl al.effort (Ql n) (Wl n) q' w') :
    SafeUpTo lim saf (shared kr kl kf Dr Dl + R) (shared kr kl kf Nr Nl) (sharedLoad kr kl kf Gr Gl) ((q / kr - q' / kl) / (2 * kf) + ρ0 + of) ((w / kr - w' / kl) / (2 * kf)) := by
  have cyc := fun r (hr : r ∈ p.cycles) => C98_wrist_cycle h hm hs hp hr ht hd h1 h2 h3 h4
  rw [h2'] at cyc
  obtain ⟨k1, k2, k3, k4⟩ := hk
  have jc := flex_jointCarried h hm hs hp ht hd h1 h2 h3 h4 h2' ⟨k1, k2, k3, k4⟩ hc hρ hb hmr hml
  obtain ⟨ar0, al0, i, io, br, bl, j, jo, a1, a2, a3, ao1, a4, a4l, a5, ao2, a6, ao3, a7, ao4, a8, ao5, ⟨a9, a10, _, a11⟩, ⟨a12, a13, _, a14⟩⟩ := cyc r (List.mem_of_getElem? hr)
  cases har.unique a4
  cases hal.unique a4l
  rw [a11] at hq
  rw [a14] at hq'
  refine C113_robot hg (hp.mono fun i hi => hi.tame) ?_ ?_ (fun n r j hn hr hj => (hc n r hn hr).2 j hj) g hty hsu jc h0 n r j hn hr a5 τ _ _ hτ0 hτ
    (flex_carried k1 k2 k3 k4 (hb n).1.ne' (hb n).2.1 (hb n).2.2 hq hq')
  · intro r hr
    obtain ⟨_, _, _, _, _, _, j, _, _, _, _, _, _, _, a5, _⟩ := cyc r hr
    exact ⟨j, a5⟩
  · intro r hr y hj
    obtain ⟨_, _, _, _, _, _, j, _, _, _, _, _, _, _, a5, _, a6, _⟩ := cyc r hr
    cases hj.unique a5
    rw [hu] at a6; exact (Option.some.inj a6).symm

/-- What holds for the roll joint of a wrist whose motors are read with errors and loaded. -/
theorem roll_jointCarried (h : Loaded l urdf root joint acts ts s0) (hm : (ts.flatMap (·.actNames)).Nodup) {big : F} {sim : Bool} {d : RtData F} (hs : Later s0 d.robot)
    {p : Plant F} (hp : Plant.Reach big sim d PlantIn.Mannered p) (ht : t ∈ ts) {t0 : WristT F} (hd : Described (.wrist t0) x joint acts t)
    {rn ln fn on : String} {kr kl kf ko of oo : F} (h1 : WristMotor x "rightActuator" acts rn kr) (h2 : WristMotor x "leftActuator" acts ln kl)
    (h3 : WristAxis x "flexJoint" joint fn kf of) (h4 : WristAxis x "rollJoint" joint on ko oo) (h2' : (lit 2 : F) = 2) (hk : kr ≠ 0 ∧ kl ≠ 0 ∧ kf ≠ 0 ∧ ko ≠ 0)
    {n0 : Nat} {ρ ρ0 R : F} (hc : p.CalibratedFrom n0 on ρ) (hρ : |ρ - ρ0| ≤ R)
    {Ir Il J dt Qr Wr Ql Wl : Nat → F} {Dr Nr Gr Dl Nl Gl : F} (hb : Balanced kr kl Ir Il J) (hmr : p.MotorCarried n0 rn Dr Nr Gr Qr Wr Ir dt) (hml : p.MotorCarried n0 ln Dl Nl Gl Ql Wl Il dt) :
    p.JointCarried n0 on (shared kr kl ko Dr Dl + R) (shared kr kl ko Nr Nl) (sharedLoad kr kl ko Gr Gl) (fun n => (-Qr n / kr - Ql n / kl) / (2 * ko) + ρ0 + oo)
      (fun n => (-Wr n / kr - Wl n / kl) / (2 * ko)) (fun n => 2 * ko ^ 2 * J n) dt := by
  have cyc := fun r (hr : r ∈ p.cycles) => C98_wrist_cycle h hm hs hp hr ht hd h1 h2 h3 h4
  rw [h2'] at cyc
  obtain ⟨k1, k2, k3, k4⟩ := hk
  constructor
  · intro n r y hn hr hj
    obtain ⟨ar0, al0, i, io, br, bl, j, jo, a1, a2, a3, ao1, a4, a4l, a5, ao2, a6, ao3, a7, ao4, a8, ao5, ⟨a9, a10, _, a11⟩, ⟨a12, a13, _, a14⟩⟩ := cyc r (List.mem_of_getElem? hr)
    cases hj.unique ao2
    obtain ⟨e1, e2⟩ := hmr.read n r ar0 hn hr a1
    obtain ⟨e3, e4⟩ := hml.read n r al0 hn hr a2
    rw [ao4, ao5, (hc n r hn hr).1 io ao1]
    constructor
    · rw [show (-ar0.position / kr - al0.position / kl) / (2 * ko) + ρ + oo - ((-Qr n / kr - Ql n / kl) / (2 * ko) + ρ0 + oo) =
        (-(ar0.position - Qr n) / kr - (al0.position - Ql n) / kl) / (2 * ko) + (ρ - ρ0) by ring]
      exact (abs_add_le _ _).trans (add_le_add (mix_add e1 e3) hρ)
    · rw [show (-ar0.velocity / kr - al0.velocity / kl) / (2 * ko) - (-Wr n / kr - Wl n / kl) / (2 * ko) = (-(ar0.velocity - Wr n) / kr - (al0.velocity - Wl n) / kl) / (2 * ko) by ring]
      exact mix_add e2 e4
  · intro n r y hn hr hlt hj
    obtain ⟨ar0, al0, i, io, br, bl, j, jo, a1, a2, a3, ao1, a4, a4l, a5, ao2, a6, ao3, a7, ao4, a8, ao5, ⟨a9, a10, _, a11⟩, ⟨a12, a13, _, a14⟩⟩ := cyc r (List.mem_of_getElem? hr)
    cases hj.unique ao2
    have m1 := hmr.move n r br hn hr hlt a4
    have m2 := hml.move n r bl hn hr hlt a4l
    rw [a11] at m1
    rw [a14] at m2
    exact roll_carried k1 k2 k3 k4 (hb n).1.ne' (hb n).2.1 (hb n).2.2 m1 m2

/-- **C117, roll joint.** -/
theorem C117_roll (h : Loaded l urdf root joint acts ts s0) (hm : (ts.flatMap (·.actNames)).Nodup) {big : F} {sim : Bool} {d : RtData F} (hg : d.Good) (hs : Later s0 d.robot)
    {p : Plant F} (hp : Plant.Reach big sim d PlantIn.Mannered p) (ht : t ∈ ts) {t0 : WristT F} (hd : Described (.wrist t0) x joint acts t)
    {rn ln fn on : String} {kr kl kf ko of oo : F} (h1 : WristMotor x "rightActuator" acts rn kr) (h2 : WristMotor x "leftActuator" acts ln kl)
    (h3 : WristAxis x "flexJoint" joint fn kf of) (h4 : WristAxis x "rollJoint" joint on ko oo) (h2' : (lit 2 : F) = 2) (hk : kr ≠ 0 ∧ kl ≠ 0 ∧ kf ≠ 0 ∧ ko ≠ 0) {u : UJoint F} (hu : joint on = some u)
    {lim : JLimits F} {saf : JSafety F} (g : Guarded u lim saf) (hty : u.type = .revolute ∨ u.type = .prismatic) {n0 : Nat} {ρ ρ0 R : F} (hc : p.CalibratedFrom n0 on ρ) (hρ : |ρ - ρ0| ≤ R)
    {Ir Il J dt Qr Wr Ql Wl : Nat → F} {Dr Nr Gr Dl Nl Gl : F} (hb : Balanced kr kl Ir Il J) (hmr : p.MotorCarried n0 rn Dr Nr Gr Qr Wr Ir dt) (hml : p.MotorCarried n0 ln Dl Nl Gl Ql Wl Il dt)
    (hsu : ∀ n, Withstands lim saf (2 * ko ^ 2 * J n) (dt n) (shared kr kl ko Dr Dl + R) (shared kr kl ko Nr Nl) (sharedLoad kr kl ko Gr Gl))
    (h0 : SafeUpTo lim saf (shared kr kl ko Dr Dl + R) (shared kr kl ko Nr Nl) (sharedLoad kr kl ko Gr Gl) ((-Qr n0 / kr - Ql n0 / kl) / (2 * ko) + ρ0 + oo) ((-Wr n0 / kr - Wl n0 / kl) / (2 * ko)))
    (n : Nat) (r : CycleRec F) (ar al : Actuator F) (hn : n0 ≤ n) (hr : p.cycles[n]? = some r) (har : r.sent.Motor rn ar) (hal : r.sent.Motor ln al) (τ q w q' w' : F) (hτ0 : 0 ≤ τ) (hτ : τ ≤ dt n)
    (hq : Carried (Ir n) τ Gr ar.effort (Qr n) (Wr n) q w) (hq' : Carried (Il n) τ Gl al.effort (Ql n) (Wl n) q' w') :
    SafeUpTo lim saf (shared kr kl ko Dr Dl + R) (shared kr kl ko Nr Nl) (sharedLoad kr kl ko Gr Gl) ((-q / kr - q' / kl) / (2 * ko) + ρ0 + oo) ((-w / kr - w' / kl) / (2 * ko)) := by
  have cyc := fun r (hr : r ∈ p.cycles) => C98_wrist_cycle h hm hs hp hr ht hd h1 h2 h3 h4
  rw [h2'] at cyc
  obtain ⟨k1, k2, k3, k4⟩ := hk
  have jc := roll_jointCarried h hm hs hp ht hd h1 h2 h3 h4 h2' ⟨k1, k2, k3, k4⟩ hc hρ hb hmr hml
  obtain ⟨ar0, al0, i, io, br, bl, j, jo, a1, a2, a3, ao1, a4, a4l, a5, ao2, a6, ao3, a7, ao4, a8, ao5, ⟨a9, a10, _, a11⟩, ⟨a12, a13, _, a14⟩⟩ := cyc r (List.mem_of_getElem? hr)
  cases har.unique a4
  cases hal.unique a4l
  rw [a11] at hq
  rw [a14] at hq'
  refine C113_robot hg (hp.mono fun i hi => hi.tame) ?_ ?_ (fun n r j hn hr hj => (hc n r hn hr).2 j hj) g hty hsu jc h0 n r jo hn hr ao2 τ _ _ hτ0 hτ
    (roll_carried k1 k2 k3 k4 (hb n).1.ne' (hb n).2.1 (hb n).2.2 hq hq')
  · intro r hr
    obtain ⟨_, _, _, _, _, _, _, jo, _, _, _, _, _, _, _, ao2, _⟩ := cyc r hr
    exact ⟨jo, ao2⟩
  · intro r hr y hj
    obtain ⟨_, _, _, _, _, _, _, jo, _, _, _, _, _, _, _, ao2, _, ao3, _⟩ := cyc r hr
    cases hj.unique ao2
    rw [hu] at ao3; exact (Option.some.inj ao3).symm

end exact

section examples
attribute [local instance] exactCmp demoTrig demoLit stackParse

/-- What has been read of a motor of `stackRun`, and a hundredth: where it is in truth. -/
def stackQ (an : String) (n : Nat) : ℚ := ((((stackRun.cycles[n]?).bind (·.entry.acts.find? (·.name == an))).map (·.position)).getD 0) + 1/100
def stackW (an : String) (n : Nat) : ℚ := (((stackRun.cycles[n]?).bind (·.entry.acts.find? (·.name == an))).map (·.velocity)).getD 0

theorem stackQ_eq {an : String} {n : Nat} {r : CycleRec ℚ} {a : Actuator ℚ} (hr : stackRun.cycles[n]? = some r) (ha : r.entry.Motor an a) : stackQ an n = a.position + 1/100 ∧ stackW an n = a.velocity := by
  unfold stackQ stackW
  rw [hr, Option.bind_some, motor_find ha]
  exact ⟨rfl, rfl⟩

theorem stack_carried {an : String} {I : ℚ} (hI : 0 < I) (hmv : stackRun.MotorMoves 0 an (fun _ => I) (fun _ => 1/100))
    (same : ∀ r ∈ stackRun.cycles, ∃ a a', r.entry.Motor an a ∧ r.sent.Motor an a' ∧ a'.position = a.position ∧ a'.velocity = a.velocity) :
    stackRun.MotorCarried 0 an (1/100) 0 (1/10) (stackQ an) (stackW an) (fun _ => I) (fun _ => 1/100) := by
  constructor
  · intro n r a _ hr ha
    obtain ⟨e1, e2⟩ := stackQ_eq hr ha
    rw [e1, e2]
    norm_num [abs_le]
  · intro n r a _ hr hl ha
    obtain ⟨a0, a', s1, s2, s3, s4⟩ := same r (List.mem_of_getElem? hr)
    cases ha.unique s2
    have hr' := List.getElem?_eq_getElem hl
    obtain ⟨b0, b', t1, t2, t3, t4⟩ := same _ (List.mem_of_getElem? hr')
    obtain ⟨m1, m2⟩ := hmv n r _ (Nat.zero_le _) hr hr' a b0 ha t1
    obtain ⟨e1, e2⟩ := stackQ_eq hr s1
    obtain ⟨e3, e4⟩ := stackQ_eq hr' t1
    rw [e1, e2, e3, e4, m1, m2, s3, s4]
    constructor
    · rw [show ∀ f x v : ℚ, posAfter I (1/100) f x v + 1/100 - posAfter I (1/100) f (x + 1/100) v = 0 from fun f x v => by unfold posAfter; ring, abs_zero]
      positivity
    · rw [sub_self, abs_zero]; positivity

/-- C117: the wrist of C98's example, with errors of a hundredth at both encoders and loads of a tenth at both motors: both joints stay below 1.93. -/
example (n : Nat) (r : CycleRec ℚ) (ar al : Actuator ℚ) (hr : stackRun.cycles[n]? = some r) (har : r.sent.Motor "r" ar) (hal : r.sent.Motor "l" al) (τ q w q' w' : ℚ) (h0 : 0 ≤ τ) (h1 : τ ≤ 1/100)
    (hq : Carried (1/360) τ (1/10) ar.effort (stackQ "r" n) (stackW "r" n) q w) (hq' : Carried (1/360) τ (1/10) al.effort (stackQ "l" n) (stackW "l" n) q' w') :
    (q / 3 - q' / -3) / (2 * 1) + 0 + 0 ≤ 193/100 ∧ (-q / 3 - q' / -3) / (2 * 2) + 0 + 0 ≤ 2 := by
  obtain ⟨w1, w2, w3, w4, hd⟩ := stack_wrist
  have hT : stackTrans[1] ∈ stackTrans := List.getElem_mem _
  have cyc := fun r (hr : r ∈ stackRun.cycles) => C98_wrist_cycle stack_loaded (by decide) stack_later stackReach hr hT hd w1 w2 w3 w4
  have cr := stack_carried (an := "r") (I := 1/360) (by norm_num) (stack_moves "r" fun k hk => (stackSteps k hk).2.1) (fun r hr => by
    obtain ⟨ar0, al0, i, io, br, bl, j, jo, a1, a2, a3, ao1, a4, a4l, a5, ao2, a6, ao3, a7, ao4, a8, ao5, ⟨a9, a10, _, a11⟩, ⟨a12, a13, _, a14⟩⟩ := cyc r hr
    exact ⟨_, _, a1, a4, a9, a10⟩)
  have cl := stack_carried (an := "l") (I := 1/360) (by norm_num) (stack_moves "l" fun k hk => (stackSteps k hk).2.2) (fun r hr => by
    obtain ⟨ar0, al0, i, io, br, bl, j, jo, a1, a2, a3, ao1, a4, a4l, a5, ao2, a6, ao3, a7, ao4, a8, ao5, ⟨a9, a10, _, a11⟩, ⟨a12, a13, _, a14⟩⟩ := cyc r hr
    exact ⟨_, _, a2, a4l, a12, a13⟩)
  have e1 : stackQ "r" 0 = -298/100 := by decide +kernel
  have e2 : stackQ "l" 0 = 902/100 := by decide +kernel
  have e3 : stackW "r" 0 = 1 := by decide +kernel
  have e4 : stackW "l" 0 = 1 := by decide +kernel
  constructor
  · have := (C117_flex stack_loaded (by decide) stackGood stack_later stackReach (t := stackTrans[1]) (by simp [stackTrans]) hd w1 w2 w3 w4 (by decide +kernel) (by norm_num) rfl
      (lim := ⟨0, 2, 30, 3⟩) (saf := ⟨1/10, 19/10, 20, 4⟩) (by refine ⟨rfl, rfl, ?_, ?_, ?_, ?_, ?_⟩ <;> norm_num) (Or.inl rfl) (stack_calibrated _) (ρ0 := 0) (R := 0) (by norm_num) stack_balanced cr cl
      (fun _ => by refine ⟨?_, ?_, ?_, ?_, ?_, ?_, ?_, ?_, ?_, ?_, ?_⟩ <;> norm_num [shared, sharedLoad, abs_of_pos])
      (by rw [e1, e2, e3, e4]; unfold SafeUpTo overshoot overspeed; refine ⟨?_, ?_, ?_, ?_, ?_⟩ <;> norm_num [shared, sharedLoad, JLimits.faster, JSafety.wider, abs_of_pos]) n r ar al (Nat.zero_le _) hr har hal
      τ q w q' w' h0 h1 hq hq').upper
    refine this.trans ?_
    norm_num [shared, sharedLoad, overshoot, overspeed, JSafety.wider, abs_of_pos]
  · have := (C117_roll stack_loaded (by decide) stackGood stack_later stackReach (t := stackTrans[1]) (by simp [stackTrans]) hd w1 w2 w3 w4 (by decide +kernel) (by norm_num) rfl
      (lim := ⟨0, 2, 30, 3⟩) (saf := ⟨1/10, 19/10, 5, 4⟩) (by refine ⟨rfl, rfl, ?_, ?_, ?_, ?_, ?_⟩ <;> norm_num) (Or.inl rfl) (stack_calibrated _) (ρ0 := 0) (R := 0) (by norm_num) stack_balanced cr cl
      (fun _ => by refine ⟨?_, ?_, ?_, ?_, ?_, ?_, ?_, ?_, ?_, ?_, ?_⟩ <;> norm_num [shared, sharedLoad, abs_of_pos])
      (by rw [e1, e2, e3, e4]; unfold SafeUpTo overshoot overspeed; refine ⟨?_, ?_, ?_, ?_, ?_⟩ <;> norm_num [shared, sharedLoad, JLimits.faster, JSafety.wider, abs_of_pos]) n r ar al (Nat.zero_le _) hr har hal
      τ q w q' w' h0 h1 hq hq').upper
    refine this.trans ?_
    norm_num [shared, sharedLoad, overshoot, overspeed, JSafety.wider, abs_of_pos]

end examples
end Pr2
