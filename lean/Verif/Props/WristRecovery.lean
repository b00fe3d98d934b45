import Verif.Props.LoadedWrist
import Verif.Props.LoadedRecovery

/-!
# C118: the safety limits bring a loaded wrist back

C114 for the joints of a wrist: whatever the *other* joint of the wrist is commanded meanwhile.
-/

namespace Pr2
open FLit
set_option linter.unusedSectionVars false
set_option linter.unusedVariables false

section exact
variable {F : Type} [Field F] [LinearOrder F] [IsStrictOrderedRing F] [Archimedean F]
attribute [local instance] exactCmp
variable [FLit F] [iTrig : FTrig F]
variable [Parse F]

/-- **C118, flex joint.**  The flex joint of a wrist of any robot loaded from its description; motor loads, encoder errors and calibration error as in C117.  In cycle `n0` the joint is anywhere (`x0`) and has any velocity (`v0`).
There is a number of cycles, independent of all commands (also to the roll joint), loads and errors, after which it is within its limits up to the distance of C117 and `ε`. -/
theorem C118_flex {lim : JLimits F} {saf : JSafety F} {kr kl kf Dr Nr Gr Dl Nl Gl R : F} (hroom : saf.kVelocity * shared kr kl kf Nr Nl + sharedLoad kr kl kf Gr Gl < saf.kVelocity * lim.velocity) {M δ : F} (hδ : 0 < δ)
    (x0 v0 ε : F) (hε : 0 < ε) :
    ∃ K : Nat, ∀ {l : TransLoader F} {urdf : Xml → Option (String → Option (UJoint F))} {root : Xml} {joint : String → Option (UJoint F)} {acts : List (Actuator F)} {ts : List (Trans F)} {s0 : RState F} {t : Trans F}
      {x : Xml}, Loaded l urdf root joint acts ts s0 → (ts.flatMap (·.actNames)).Nodup → ∀ {big : F} {sim : Bool} {d : RtData F}, d.Good → Later s0 d.robot →
      ∀ {p : Plant F}, Plant.Reach big sim d PlantIn.Mannered p → t ∈ ts → ∀ {t0 : WristT F}, Described (.wrist t0) x joint acts t →
      ∀ {rn ln fn on : String} {ko of oo : F}, WristMotor x "rightActuator" acts rn kr → WristMotor x "leftActuator" acts ln kl → WristAxis x "flexJoint" joint fn kf of → WristAxis x "rollJoint" joint on ko oo →
      (lit 2 : F) = 2 → kr ≠ 0 ∧ kl ≠ 0 ∧ kf ≠ 0 ∧ ko ≠ 0 → ∀ {u : UJoint F}, joint fn = some u → Guarded u lim saf → u.type = .revolute ∨ u.type = .prismatic →
      ∀ {n0 : Nat} {ρ ρ0 : F}, p.CalibratedFrom n0 fn ρ → |ρ - ρ0| ≤ R → ∀ {Ir Il J dt Qr Wr Ql Wl : Nat → F}, Balanced kr kl Ir Il J → p.MotorCarried n0 rn Dr Nr Gr Qr Wr Ir dt → p.MotorCarried n0 ln Dl Nl Gl Ql Wl Il dt →
      (∀ n, 2 * kf ^ 2 * J n ≤ M) → (∀ n, δ ≤ dt n) → (∀ n, Withstands lim saf (2 * kf ^ 2 * J n) (dt n) (shared kr kl kf Dr Dl + R) (shared kr kl kf Nr Nl) (sharedLoad kr kl kf Gr Gl)) →
      (Qr n0 / kr - Ql n0 / kl) / (2 * kf) + ρ0 + of = x0 → (Wr n0 / kr - Wl n0 / kl) / (2 * kf) = v0 →
      ∀ (n : Nat) (r : CycleRec F) (ar al : Actuator F), n0 + K ≤ n → p.cycles[n]? = some r → r.sent.Motor rn ar → r.sent.Motor ln al → ∀ τ q w q' w' : F, 0 ≤ τ → τ ≤ dt n →
      Carried (Ir n) τ Gr ar.effort (Qr n) (Wr n) q w → Carried (Il n) τ Gl al.effort (Ql n) (Wl n) q' w' →
      SafeUpTo lim saf (shared kr kl kf Dr Dl + R + ε) (shared kr kl kf Nr Nl) (sharedLoad kr kl kf Gr Gl) ((q / kr - q' / kl) / (2 * kf) + ρ0 + of) ((w / kr - w' / kl) / (2 * kf)) ∧
        |(w / kr - w' / kl) / (2 * kf)| ≤ lim.velocity + overspeed saf (shared kr kl kf Nr Nl) (sharedLoad kr kl kf Gr Gl) + ε := by
  obtain ⟨K, hK⟩ := C114_robot (lim := lim) (saf := saf) (D := shared kr kl kf Dr Dl + R) (N := shared kr kl kf Nr Nl) (G := sharedLoad kr kl kf Gr Gl) hroom (M := M) hδ x0 v0 ε hε
  refine ⟨K, ?_⟩
  intro l urdf root joint acts ts s0 t x h hm big sim d hg hs p hp ht t0 hd rn ln fn on ko of oo h1 h2 h3 h4 h2' hk u hu g hty n0 ρ ρ0 hc hρ Ir Il J dt Qr Wr Ql Wl hb hmr hml hM hdt hsu e1 e2 n r ar al hn hr har hal
    τ q w q' w' hτ0 hτ hq hq'
  have jc := flex_jointCarried h hm hs hp ht hd h1 h2 h3 h4 h2' hk hc hρ hb hmr hml
  have cyc := fun r (hr : r ∈ p.cycles) => C98_wrist_cycle h hm hs hp hr ht hd h1 h2 h3 h4
  rw [h2'] at cyc
  obtain ⟨k1, k2, k3, k4⟩ := hk
  obtain ⟨ar0, al0, i, io, br, bl, j, jo, a1, a2, a3, ao1, a4, a4l, a5, ao2, a6, ao3, a7, ao4, a8, ao5, ⟨a9, a10, _, a11⟩, ⟨a12, a13, _, a14⟩⟩ := cyc r (List.mem_of_getElem? hr)
  cases har.unique a4
  cases hal.unique a4l
  rw [a11] at hq
  rw [a14] at hq'
  refine hK big sim d hg p (hp.mono fun i hi => hi.tame) n0 fn u ?_ ?_ (fun n r j hn hr hj => (hc n r hn hr).2 j hj) g hty _ _ _ _ hsu hdt hM jc e1 e2 n r j hn hr a5 τ _ _ hτ0 hτ
    (flex_carried k1 k2 k3 k4 (hb n).1.ne' (hb n).2.1 (hb n).2.2 hq hq')
  · intro r hr
    obtain ⟨_, _, _, _, _, _, j, jo, _, _, _, _, _, _, a5, ao2, _⟩ := cyc r hr
    exact ⟨j, a5⟩
  · intro r hr y hj
    obtain ⟨_, _, _, _, _, _, j, jo, _, _, _, _, _, _, a5, ao2, a6, ao3, _⟩ := cyc r hr
    cases hj.unique a5
    rw [hu] at a6; exact (Option.some.inj a6).symm

/-- **C118, roll joint.** -/
theorem C118_roll {lim : JLimits F} {saf : JSafety F} {kr kl ko Dr Nr Gr Dl Nl Gl R : F} (hroom : saf.kVelocity * shared kr kl ko Nr Nl + sharedLoad kr kl ko Gr Gl < saf.kVelocity * lim.velocity) {M δ : F} (hδ : 0 < δ)
    (x0 v0 ε : F) (hε : 0 < ε) :
    ∃ K : Nat, ∀ {l : TransLoader F} {urdf : Xml → Option (String → Option (UJoint F))} {root : Xml} {joint : String → Option (UJoint F)} {acts : List (Actuator F)} {ts : List (Trans F)} {s0 : RState F} {t : Trans F}
      {x : Xml}, Loaded l urdf root joint acts ts s0 → (ts.flatMap (·.actNames)).Nodup → ∀ {big : F} {sim : Bool} {d : RtData F}, d.Good → Later s0 d.robot →
      ∀ {p : Plant F}, Plant.Reach big sim d PlantIn.Mannered p → t ∈ ts → ∀ {t0 : WristT F}, Described (.wrist t0) x joint acts t →
      ∀ {rn ln fn on : String} {kf of oo : F}, WristMotor x "rightActuator" acts rn kr → WristMotor x "leftActuator" acts ln kl → WristAxis x "flexJoint" joint fn kf of → WristAxis x "rollJoint" joint on ko oo →
      (lit 2 : F) = 2 → kr ≠ 0 ∧ kl ≠ 0 ∧ kf ≠ 0 ∧ ko ≠ 0 → ∀ {u : UJoint F}, joint on = some u → Guarded u lim saf → u.type = .revolute ∨ u.type = .prismatic →
      ∀ {n0 : Nat} {ρ ρ0 : F}, p.CalibratedFrom n0 on ρ → |ρ - ρ0| ≤ R → ∀ {Ir Il J dt Qr Wr Ql Wl : Nat → F}, Balanced kr kl Ir Il J → p.MotorCarried n0 rn Dr Nr Gr Qr Wr Ir dt → p.MotorCarried n0 ln Dl Nl Gl Ql Wl Il dt →
      (∀ n, 2 * ko ^ 2 * J n ≤ M) → (∀ n, δ ≤ dt n) → (∀ n, Withstands lim saf (2 * ko ^ 2 * J n) (dt n) (shared kr kl ko Dr Dl + R) (shared kr kl ko Nr Nl) (sharedLoad kr kl ko Gr Gl)) →
      (-Qr n0 / kr - Ql n0 / kl) / (2 * ko) + ρ0 + oo = x0 → (-Wr n0 / kr - Wl n0 / kl) / (2 * ko) = v0 →
      ∀ (n : Nat) (r : CycleRec F) (ar al : Actuator F), n0 + K ≤ n → p.cycles[n]? = some r → r.sent.Motor rn ar → r.sent.Motor ln al → ∀ τ q w q' w' : F, 0 ≤ τ → τ ≤ dt n →
      Carried (Ir n) τ Gr ar.effort (Qr n) (Wr n) q w → Carried (Il n) τ Gl al.effort (Ql n) (Wl n) q' w' →
      SafeUpTo lim saf (shared kr kl ko Dr Dl + R + ε) (shared kr kl ko Nr Nl) (sharedLoad kr kl ko Gr Gl) ((-q / kr - q' / kl) / (2 * ko) + ρ0 + oo) ((-w / kr - w' / kl) / (2 * ko)) ∧
        |(-w / kr - w' / kl) / (2 * ko)| ≤ lim.velocity + overspeed saf (shared kr kl ko Nr Nl) (sharedLoad kr kl ko Gr Gl) + ε := by
  obtain ⟨K, hK⟩ := C114_robot (lim := lim) (saf := saf) (D := shared kr kl ko Dr Dl + R) (N := shared kr kl ko Nr Nl) (G := sharedLoad kr kl ko Gr Gl) hroom (M := M) hδ x0 v0 ε hε
  refine ⟨K, ?_⟩
  intro l urdf root joint acts ts s0 t x h hm big sim d hg hs p hp ht t0 hd rn ln fn on kf of oo h1 h2 h3 h4 h2' hk u hu g hty n0 ρ ρ0 hc hρ Ir Il J dt Qr Wr Ql Wl hb hmr hml hM hdt hsu e1 e2 n r ar al hn hr har hal
    τ q w q' w' hτ0 hτ hq hq'
  have jc := roll_jointCarried h hm hs hp ht hd h1 h2 h3 h4 h2' hk hc hρ hb hmr hml
  have cyc := fun r (hr : r ∈ p.cycles) => C98_wrist_cycle h hm hs hp hr ht hd h1 h2 h3 h4
  rw [h2'] at cyc
  obtain ⟨k1, k2, k3, k4⟩ := hk
  obtain ⟨ar0, al0, i, io, br, bl, j, jo, a1, a2, a3, ao1, a4, a4l, a5, ao2, a6, ao3, a7, ao4, a8, ao5, ⟨a9, a10, _, a11⟩, ⟨a12, a13, _, a14⟩⟩ := cyc r (List.mem_of_getElem? hr)
  cases har.unique a4
  cases hal.unique a4l
  rw [a11] at hq
  rw [a14] at hq'
  refine hK big sim d hg p (hp.mono fun i hi => hi.tame) n0 on u ?_ ?_ (fun n r j hn hr hj => (hc n r hn hr).2 j hj) g hty _ _ _ _ hsu hdt hM jc e1 e2 n r jo hn hr ao2 τ _ _ hτ0 hτ
    (roll_carried k1 k2 k3 k4 (hb n).1.ne' (hb n).2.1 (hb n).2.2 hq hq')
  · intro r hr
    obtain ⟨_, _, _, _, _, _, j, jo, _, _, _, _, _, _, a5, ao2, _⟩ := cyc r hr
    exact ⟨jo, ao2⟩
  · intro r hr y hj
    obtain ⟨_, _, _, _, _, _, j, jo, _, _, _, _, _, _, a5, ao2, a6, ao3, _⟩ := cyc r hr
    cases hj.unique ao2
    rw [hu] at ao3; exact (Option.some.inj ao3).symm

end exact

section examples
attribute [local instance] exactCmp demoTrig demoLit stackParse

/-- C118: for the wrist of C98's example with errors and loads as in C117's, starting anywhere: from some cycle on the flex joint is below 1.94. -/
example : ∃ K, ∀ (n : Nat) (r : CycleRec ℚ) (ar al : Actuator ℚ), K ≤ n → stackRun.cycles[n]? = some r → r.sent.Motor "r" ar → r.sent.Motor "l" al → ∀ τ q w q' w' : ℚ, 0 ≤ τ → τ ≤ 1/100 →
    Carried (1/360) τ (1/10) ar.effort (stackQ "r" n) (stackW "r" n) q w → Carried (1/360) τ (1/10) al.effort (stackQ "l" n) (stackW "l" n) q' w' → (q / 3 - q' / -3) / (2 * 1) + 0 + 0 ≤ 194/100 := by
  obtain ⟨w1, w2, w3, w4, hd⟩ := stack_wrist
  have hT : stackTrans[1] ∈ stackTrans := List.getElem_mem _
  have cyc := fun r (hr : r ∈ stackRun.cycles) => C98_wrist_cycle stack_loaded (by decide) stack_later stackReach hr hT hd w1 w2 w3 w4
  have cr := stack_carried (an := "r") (I := 1/360) (by norm_num) (stack_moves "r" fun k hk => (stackSteps k hk).2.1) (fun r hr => by
    obtain ⟨ar0, al0, i, io, br, bl, j, jo, a1, a2, a3, ao1, a4, a4l, a5, ao2, a6, ao3, a7, ao4, a8, ao5, ⟨a9, a10, _, a11⟩, ⟨a12, a13, _, a14⟩⟩ := cyc r hr
    exact ⟨_, _, a1, a4, a9, a10⟩)
  have cl := stack_carried (an := "l") (I := 1/360) (by norm_num) (stack_moves "l" fun k hk => (stackSteps k hk).2.2) (fun r hr => by
    obtain ⟨ar0, al0, i, io, br, bl, j, jo, a1, a2, a3, ao1, a4, a4l, a5, ao2, a6, ao3, a7, ao4, a8, ao5, ⟨a9, a10, _, a11⟩, ⟨a12, a13, _, a14⟩⟩ := cyc r hr
    exact ⟨_, _, a2, a4l, a12, a13⟩)
  obtain ⟨K, hK⟩ := C118_flex (lim := ⟨0, 2, 30, 3⟩) (saf := ⟨1/10, 19/10, 20, 4⟩) (kr := (3 : ℚ)) (kl := -3) (kf := 1) (Dr := 1/100) (Nr := 0) (Gr := 1/10) (Dl := 1/100) (Nl := 0) (Gl := 1/10) (R := 0)
    (by norm_num [shared, sharedLoad, abs_of_pos]) (M := 1/20) (δ := 1/100) (by norm_num) (((-298/100) / 3 - (902/100) / -3) / (2 * 1) + 0 + 0) ((1 / 3 - 1 / -3) / (2 * 1)) (1/100) (by norm_num)
  refine ⟨K, fun n r ar al hn hr har hal τ q w q' w' h0 h1 hq hq' => ?_⟩
  have e1 : stackQ "r" 0 = -298/100 := by decide +kernel
  have e2 : stackQ "l" 0 = 902/100 := by decide +kernel
  have e3 : stackW "r" 0 = 1 := by decide +kernel
  have e4 : stackW "l" 0 = 1 := by decide +kernel
  have := (hK stack_loaded (by decide) stackGood stack_later stackReach (t := stackTrans[1]) (by simp [stackTrans]) hd w1 w2 w3 w4 (by decide +kernel) (by norm_num) rfl
      (by refine ⟨rfl, rfl, ?_, ?_, ?_, ?_, ?_⟩ <;> norm_num) (Or.inl rfl) (stack_calibrated _) (ρ0 := 0) (by norm_num) stack_balanced cr cl (fun _ => by norm_num) (fun _ => le_refl _)
      (fun _ => by refine ⟨?_, ?_, ?_, ?_, ?_, ?_, ?_, ?_, ?_, ?_, ?_⟩ <;> norm_num [shared, sharedLoad, abs_of_pos])
      (by rw [e1, e2]) (by rw [e3, e4]) n r ar al (by omega) hr har hal τ q w q' w' h0 h1 hq hq').1.upper
  refine this.trans ?_
  norm_num [shared, sharedLoad, overshoot, overspeed, JSafety.wider, abs_of_pos]

end examples
end Pr2
