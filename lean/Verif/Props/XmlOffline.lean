import Verif.Model.XmlOffline
import Verif.Props.Robot

/-! # C70: the two ways of initialising a transmission agree

`initXml(elt, robot)` succeeds with a transmission exactly when `initXml(elt)` does and the robot has the actuators and joints it names, except
where the description is read differently (`Body.Portable`). -/

namespace Pr2
open Init

section
variable {F : Type} [FCmp F] [Zero F] [Add F] [Sub F] [Mul F] [iDiv : Div F] [Neg F] [FLit F] [iTrig : FTrig F] [Parse F]
variable {α β γ : Type}

/-- `m`, started with actuators `s`, returns true with result `r`. -/
def Runs (m : Init F α) (s : List (Actuator F)) (r : α) : Prop := (m s).2 = .ok r

omit [FCmp F] [Zero F] [Add F] [Sub F] [Mul F] iDiv [Neg F] [FLit F] iTrig [Parse F] in
theorem runs_bind {m : Init F α} {f : α → Init F β} (hm : Tame m) (hf : ∀ a, Tame (f a)) (s : List (Actuator F)) (r : β) :
    Runs (m >>= f) s r ↔ ∃ a, Runs m s a ∧ Runs (f a) s r := by
  unfold Runs
  rw [bind_def]
  have hn := (hm.frame s).names
  rcases hms : m s with ⟨t, _ | _ | a⟩
  · simp
  · simp
  · rw [hms] at hn
    dsimp only at hn ⊢
    have e := (hf a).indep t s hn
    rw [e]
    simp

omit [FCmp F] [Zero F] [Add F] [Sub F] [Mul F] iDiv [Neg F] [FLit F] iTrig [Parse F] in
theorem runs_pure (a r : α) (s : List (Actuator F)) : Runs (pure a : Init F α) s r ↔ a = r := by
  change (InitR.ok a = _) ↔ _
  simp

omit [FCmp F] [Zero F] [Add F] [Sub F] [Mul F] iDiv [Neg F] [FLit F] iTrig [Parse F] in
theorem runs_need (o : Option α) (r : α) (s : List (Actuator F)) : Runs (need o) s r ↔ o = some r := by
  cases o <;> simp [Runs, need]

omit [FCmp F] [Zero F] [Add F] [Sub F] [Mul F] iDiv [Neg F] [FLit F] iTrig [Parse F] in
theorem runs_deref (o : Option α) (r : α) (s : List (Actuator F)) : Runs (deref o) s r ↔ o = some r := by
  cases o <;> simp [Runs, deref]

omit [FCmp F] [Zero F] [Add F] [Sub F] [Mul F] iDiv [Neg F] [FLit F] iTrig [Parse F] in
theorem runs_enable (n : String) (u : Unit) (s : List (Actuator F)) : Runs (enable n) s u ↔ ∃ a ∈ s, a.name = n := by
  unfold Runs
  have e : enable n s = match s.findIdx? (fun a => a.name == n) with
    | some i => (s.modify i (fun a => { a with enable := true }), .ok ())
    | none => (s, .fail) := rfl
  rw [e]
  rcases h : s.findIdx? (fun a => a.name == n) with _ | i
  · rw [h]
    refine ⟨fun h => by simp at h, ?_⟩
    rw [List.findIdx?_eq_none_iff] at h
    rintro ⟨a, ha, hn⟩
    have := h a ha
    simp [hn] at this
  · rw [h]
    refine ⟨fun _ => ?_, fun _ => rfl⟩
    obtain ⟨h1, h2, _⟩ := List.findIdx?_eq_some_iff_getElem.1 h
    exact ⟨s[i], List.getElem_mem h1, by simpa using h2⟩

omit [FCmp F] [Zero F] [Add F] [Sub F] [Mul F] iDiv [Neg F] [FLit F] iTrig [Parse F] in
theorem runs_foldlM_congr {f g : β → γ → Init F β} (hf : ∀ b c, Tame (f b c)) (hg : ∀ b c, Tame (g b c)) (l : List γ)
    (h : ∀ c ∈ l, ∀ b, f b c = g b c) (b : β) (s : List (Actuator F)) (r : β) :
    Runs (l.foldlM f b) s r ↔ Runs (l.foldlM g b) s r := by
  induction l generalizing b with
  | nil => exact Iff.rfl
  | cons c l ih =>
    rw [List.foldlM_cons, List.foldlM_cons, h c (by simp)]
    rw [runs_bind (hg b c) (fun a => tame_foldlM _ hf _ _), runs_bind (hg b c) (fun a => tame_foldlM _ hg _ _)]
    simp only [ih (fun c hc => h c (List.mem_cons_of_mem _ hc))]

omit [FCmp F] [Zero F] [Add F] [Sub F] [Mul F] iDiv [Neg F] [FLit F] iTrig [Parse F] in
theorem runs_forM_need (joint : String → Option α) (l : List String) (s : List (Actuator F)) (u : Unit) :
    Runs (l.forM (fun n => do let _ ← need (joint n); pure ())) s u ↔ ∀ n ∈ l, ∃ j, joint n = some j := by
  have hT : ∀ n, Tame (do let _ ← need (joint n); pure () : Init F Unit) := fun n => by tame
  induction l with
  | nil => simp [runs_pure]
  | cons c l ih =>
    change Runs ((do let _ ← need (joint c); pure () : Init F Unit) >>= fun _ => l.forM _) s u ↔ _
    rw [runs_bind (hT c) (fun _ => tame_forM _ hT _)]
    have : ∀ a, Runs (do let _ ← need (joint c); pure () : Init F Unit) s a ↔ ∃ j, joint c = some j := by
      intro a
      rw [runs_bind (tame_need _) (fun _ => tame_pure _)]
      simp [runs_need, runs_pure]
    constructor
    · rintro ⟨a, h1, h2⟩ n hn
      rcases List.mem_cons.1 hn with rfl | hn
      · exact (this a).1 h1
      · exact ih.1 h2 n hn
    · intro h
      exact ⟨(), (this ()).2 (h c (by simp)), ih.2 (fun n hn => h n (List.mem_cons_of_mem _ hn))⟩

/-- The robot knows every actuator and joint the transmission names. -/
def Trans.Present (t : Trans F) (joint : String → Option (UJoint F)) (s : List (Actuator F)) : Prop :=
  (∀ n ∈ t.actNames, ∃ a ∈ s, a.name = n) ∧ ∀ n ∈ t.jointNames, ∃ j, joint n = some j

/-- Descriptions that both overloads read the same way: no reduction inside the actuator and no simulated joint the robot does not know (simple
transmission), the same offset text for both joints (wrist). -/
def Body.Portable : Body F → (String → Option (UJoint F)) → Xml → Prop
  | .simple _, joint, x => (∀ ael, x.first "actuator" = some ael → ael.first "mechanicalReduction" = none) ∧
      ∀ j ∈ x.all "simulated_actuated_joint", ∀ n, j.attr "name" = some n → ∃ u, joint n = some u
  | .wrist _, _, x => ∀ jf jr, x.first "flexJoint" = some jf → x.first "rollJoint" = some jr → jr.attr "offset" = jf.attr "offset"
  | _, _, _ => True

macro "tameWith" a:ident b:ident c:ident : tactic => `(tactic| repeat' first
  | exact $a _ | exact $b _ | exact $c _ | exact tame_pure _ | exact tame_need _ | exact tame_deref _ | exact tame_enable _
  | (refine Tame.bind ?_ (fun _ => ?_)) | split)

theorem belt_portable (t : BeltT F) (x : Xml) (joint : String → Option (UJoint F)) (s : List (Actuator F)) (r : Trans F) :
    Runs (t.initXml x joint) s r ↔ Runs (t.initXmlOff x) s r ∧ r.Present joint s := by
  unfold BeltT.initXml BeltT.initXmlOff
  simp (discharger := (intros; tame)) only [runs_bind, runs_need, runs_deref, runs_pure, runs_enable]
  constructor
  · rintro ⟨jn, h1, uj, h2, ael, h3, an, h4, _, h5, m, h6, red, h7, c, h8, k, h9, mass, h10, kd, h11, lm, h12, lj, h13, lc, h14, rfl⟩
    refine ⟨⟨jn, h1, an, by rw [h3]; exact h4, m, h6, red, h7, c, h8, k, h9, mass, h10, kd, h11, lm, h12, lj, h13, lc, h14, rfl⟩, ?_, ?_⟩
    · intro n hn; rw [List.mem_singleton.1 hn]; exact h5
    · intro n hn; rw [List.mem_singleton.1 hn]; exact ⟨uj, h2⟩
  · rintro ⟨⟨jn, h1, an, h4, m, h6, red, h7, c, h8, k, h9, mass, h10, kd, h11, lm, h12, lj, h13, lc, h14, rfl⟩, h5, h2⟩
    obtain ⟨uj, h2⟩ := h2 jn (List.mem_singleton.2 rfl)
    obtain ⟨ael, h3, h4⟩ := Option.bind_eq_some_iff.1 h4
    exact ⟨jn, h1, uj, h2, ael, h3, an, h4, (), h5 an (List.mem_singleton.2 rfl), m, h6, red, h7, c, h8, k, h9, mass, h10, kd, h11, lm, h12,
      lj, h13, lc, h14, rfl⟩

theorem gripper_parse_tame (t : GripperT F) (x : Xml) : Tame (t.initXml1 x) := by
  unfold GripperT.initXml1 GripperT.gapJoint GripperT.passiveJoint GripperT.simJoint gripperCoeff; tame

theorem gripper_portable (t : GripperT F) (x : Xml) (joint : String → Option (UJoint F)) (s : List (Actuator F)) (r : Trans F) :
    Runs (t.initXml x joint) s r ↔ Runs (t.initXmlOff x) s r ∧ r.Present joint s := by
  unfold GripperT.initXml GripperT.initXmlOff
  have hT := gripper_parse_tame t x
  simp (discharger := (intros; tame)) only [runs_bind, runs_pure, runs_enable, runs_forM_need]
  constructor
  · rintro ⟨g, h1, _, h2, _, h3, rfl⟩
    exact ⟨⟨g, h1, rfl⟩, fun n hn => by rw [List.mem_singleton.1 hn]; exact h2, h3⟩
  · rintro ⟨⟨g, h1, rfl⟩, h2, h3⟩
    exact ⟨g, h1, (), h2 _ (List.mem_singleton.2 rfl), (), h3, rfl⟩

theorem wrist_portable (t : WristT F) (x : Xml) (joint : String → Option (UJoint F)) (s : List (Actuator F)) (r : Trans F)
    (hp : (Body.wrist t).Portable joint x) : Runs (t.initXml x joint) s r ↔ Runs (t.initXmlOff x) s r ∧ r.Present joint s := by
  unfold WristT.initXml WristT.initXmlOff wristActuator wristActuatorOff wristJoint wristJointOff wristOffset
  simp (discharger := (intros; tame)) only [runs_bind, runs_need, runs_deref, runs_pure, runs_enable]
  constructor
  · rintro ⟨_, ⟨ra, h1, rn, h2, _, h3, rr, h4, rfl⟩, _, ⟨la, h5, ln, h6, _, h7, lr, h8, rfl⟩, _, ⟨jf, h9, fn, h10, uf, h11, fr, h12, fo, h13, rfl⟩,
      _, ⟨jr, h14, on, h15, uo, h16, orr, h17, oo, h18, rfl⟩, rfl⟩
    refine ⟨⟨_, ⟨ra, h1, rn, h2, rr, h4, rfl⟩, _, ⟨la, h5, ln, h6, lr, h8, rfl⟩, jf, h9, _, ⟨fn, h10, fr, h12, fo, h13, rfl⟩, jr, h14, _,
      ⟨on, h15, orr, h17, oo, ?_, rfl⟩, rfl⟩, ?_, ?_⟩
    · rw [hp jf jr h9 h14] at h18; exact h18
    · intro n hn
      simp only [List.mem_cons, List.not_mem_nil, or_false] at hn
      rcases hn with rfl | rfl
      · exact h3
      · exact h7
    · intro n hn
      simp only [List.mem_cons, List.not_mem_nil, or_false] at hn
      rcases hn with rfl | rfl
      · exact ⟨uf, h11⟩
      · exact ⟨uo, h16⟩
  · rintro ⟨⟨_, ⟨ra, h1, rn, h2, rr, h4, rfl⟩, _, ⟨la, h5, ln, h6, lr, h8, rfl⟩, jf, h9, _, ⟨fn, h10, fr, h12, fo, h13, rfl⟩, jr, h14, _,
      ⟨on, h15, orr, h17, oo, h18, rfl⟩, rfl⟩, ha, hj⟩
    obtain ⟨uf, h11⟩ := hj fn (by simp)
    obtain ⟨uo, h16⟩ := hj on (by simp)
    refine ⟨_, ⟨ra, h1, rn, h2, (), ha rn (by simp), rr, h4, rfl⟩, _, ⟨la, h5, ln, h6, (), ha ln (by simp), lr, h8, rfl⟩, _,
      ⟨jf, h9, fn, h10, uf, h11, fr, h12, fo, h13, rfl⟩, _, ⟨jr, h14, on, h15, uo, h16, orr, h17, oo, ?_, rfl⟩, rfl⟩
    rw [hp jf jr h9 h14]; exact h18

theorem simple_portable (t : SimpleT F) (x : Xml) (joint : String → Option (UJoint F)) (s : List (Actuator F)) (r : Trans F)
    (hp : (Body.simple t).Portable joint x) : Runs (t.initXml x joint) s r ↔ Runs (t.initXmlOff x) s r ∧ r.Present joint s := by
  have hT1 : ∀ b c, Tame (SimpleT.simJoint joint b c : Init F (SimpleT F × List String)) := fun b c => by unfold SimpleT.simJoint; tame
  have hT2 : ∀ b c, Tame (SimpleT.simJointOff b c : Init F (SimpleT F × List String)) := fun b c => by unfold SimpleT.simJointOff; tame
  have hT3 : ∀ ael, Tame (simpleReduction x ael : Init F String) := fun ael => by unfold simpleReduction; tame
  have hfold : ∀ b r, Runs ((x.all "simulated_actuated_joint").foldlM (SimpleT.simJoint joint) b : Init F (SimpleT F × List String)) s r ↔
      Runs ((x.all "simulated_actuated_joint").foldlM SimpleT.simJointOff b) s r := by
    intro b r
    refine runs_foldlM_congr hT1 hT2 _ ?_ b s r
    intro j hj b
    unfold SimpleT.simJoint SimpleT.simJointOff
    rcases hn : j.attr "name" with _ | n
    · rfl
    · obtain ⟨u, hu⟩ := hp.2 j hj n hn
      dsimp only
      rw [hu]
  -- joints named by the result are the joint and the simulated joints
  have hknown : ∀ (t' : SimpleT F) jn st, (∃ u, joint jn = some u) →
      Runs ((x.all "simulated_actuated_joint").foldlM (SimpleT.simJoint joint) (t', [jn]) : Init F (SimpleT F × List String)) s st →
      ∀ n ∈ st.2, ∃ u, joint n = some u := by
    intro t' jn st hjn hr
    refine foldlM_ok (F := F) (SimpleT.simJoint joint) (fun _ st => ∀ n ∈ st.2, ∃ u, joint n = some u) ?_ _ [] (t', [jn]) st s
      ((x.all "simulated_actuated_joint").foldlM (SimpleT.simJoint joint) (t', [jn]) s).1 ?_ (Prod.ext rfl hr)
    · rintro done c b b' s s' hI h
      unfold SimpleT.simJoint at h
      rcases hn : c.attr "name" with _ | n
      · rw [hn] at h
        obtain ⟨_, rfl⟩ := pure_ok.1 h
        exact hI
      · rw [hn] at h
        dsimp only at h
        rcases hu : joint n with _ | u
        · rw [hu] at h
          obtain ⟨_, rfl⟩ := pure_ok.1 h
          exact hI
        · rw [hu] at h
          simp only [bind_ok, need_ok, pure_ok] at h
          obtain ⟨_, _, _, _, _, _, _, rfl⟩ := h
          intro m hm
          rcases List.mem_append.1 hm with hm | hm
          · exact hI m hm
          · rw [List.mem_singleton.1 hm]; exact ⟨u, hu⟩
    · intro n hn; rw [List.mem_singleton.1 hn]; exact hjn
  unfold SimpleT.initXml SimpleT.initXmlOff
  have hF1 := fun b => tame_foldlM (F := F) _ hT1 (x.all "simulated_actuated_joint") b
  have hF2 := fun b => tame_foldlM (F := F) _ hT2 (x.all "simulated_actuated_joint") b
  simp (discharger := (intros; tameWith hT3 hF1 hF2)) only [runs_bind, runs_need, runs_deref, runs_pure, runs_enable, hfold]
  have hred : ∀ ael red, x.first "actuator" = some ael → (Runs (simpleReduction x ael : Init F String) s red ↔
      ∃ m, x.first "mechanicalReduction" = some m ∧ m.text = some red) := by
    intro ael red h
    unfold simpleReduction
    rw [hp.1 ael h]
    simp (discharger := (intros; tame)) only [runs_bind, runs_deref]
  constructor
  · rintro ⟨jn, h1, uj, h2, ael, h3, an, h4, _, h5, red, h6, st, h7, rfl⟩
    obtain ⟨m, h8, h9⟩ := (hred ael red h3).1 h6
    refine ⟨⟨jn, h1, an, by rw [h3]; exact h4, m, h8, red, h9, st, h7, rfl⟩, ?_, ?_⟩
    · intro n hn; rw [List.mem_singleton.1 hn]; exact h5
    · exact hknown _ jn st ⟨uj, h2⟩ ((hfold _ _).2 h7)
  · rintro ⟨⟨jn, h1, an, h4, m, h8, red, h9, st, h7, rfl⟩, h5, hj⟩
    obtain ⟨ael, h3, h4⟩ := Option.bind_eq_some_iff.1 h4
    have hmem : jn ∈ st.2 := by
      refine foldlM_ok (F := F) SimpleT.simJointOff (fun _ st => jn ∈ st.2) ?_ _ [] _ st s
        ((x.all "simulated_actuated_joint").foldlM SimpleT.simJointOff ({ t with reduction := Parse.atof red }, [jn]) s).1 ?_
        (Prod.ext rfl h7)
      · rintro done c b b' s s' hI h
        unfold SimpleT.simJointOff at h
        rcases hn : c.attr "name" with _ | n
        · rw [hn] at h
          obtain ⟨_, rfl⟩ := pure_ok.1 h
          exact hI
        · rw [hn] at h
          simp only [bind_ok, need_ok, pure_ok] at h
          obtain ⟨_, _, _, _, _, _, _, rfl⟩ := h
          exact List.mem_append_left _ hI
      · exact List.mem_singleton.2 rfl
    obtain ⟨uj, h2⟩ := hj jn hmem
    exact ⟨jn, h1, uj, h2, ael, h3, an, h4, (), h5 an (List.mem_singleton.2 rfl), red, (hred ael red h3).2 ⟨m, h8, h9⟩, st, h7, rfl⟩

/-- **C70.**  For every description that both overloads read the same way, initialising a transmission against a robot succeeds with result `r`
exactly when initialising it without a robot does and the robot has all actuators and joints that `r` names. -/
theorem C70_same_transmission (b : Body F) (x : Xml) (joint : String → Option (UJoint F)) (acts : List (Actuator F)) (r : Trans F)
    (h : b.Portable joint x) :
    (b.initXml x joint acts).2 = .ok r ↔
      (b.initXmlOff x acts).2 = .ok r ∧ (∀ n ∈ r.actNames, ∃ a ∈ acts, a.name = n) ∧ ∀ n ∈ r.jointNames, ∃ j, joint n = some j := by
  cases b with
  | simple t => exact simple_portable t x joint acts r h
  | wrist t => exact wrist_portable t x joint acts r h
  | gripper t => exact gripper_portable t x joint acts r
  | belt t => exact belt_portable t x joint acts r

/-! ## Where the two overloads differ -/

/-- A wrist whose joints have different offsets. -/
def offsetWrist : Xml := .node "transmission" [("name", "wrist")] none
  [.node "rightActuator" [("name", "r"), ("mechanicalReduction", "60")] none [],
   .node "leftActuator" [("name", "l"), ("mechanicalReduction", "60")] none [],
   .node "flexJoint" [("name", "flex"), ("mechanicalReduction", "1"), ("offset", "0.1")] none [],
   .node "rollJoint" [("name", "roll"), ("mechanicalReduction", "1"), ("offset", "0.2")] none []]

/-- C70: without a robot the roll joint of a wrist gets the flex joint's offset. -/
theorem C70_wrist_offset_counterexample (t : WristT F) (acts : List (Actuator F)) (v : F) (hv : Parse.convert "0.1" = some v) :
    ∃ w : WristT F, (t.initXmlOff offsetWrist acts).2 = .ok ⟨"wrist", ["r", "l"], ["flex", "roll"], .wrist w⟩ ∧ w.off0 = v ∧ w.off1 = v := by
  refine ⟨{ t with ar0 := Parse.atof "60", ar1 := Parse.atof "60", jr0 := Parse.atof "1", jr1 := Parse.atof "1", off0 := v, off1 := v }, ?_, rfl, rfl⟩
  change Runs _ _ _
  unfold WristT.initXmlOff wristActuatorOff wristJointOff
  simp (discharger := (intros; tame)) only [runs_bind, runs_need, runs_deref, runs_pure]
  exact ⟨_, ⟨_, rfl, _, rfl, _, rfl, rfl⟩, _, ⟨_, rfl, _, rfl, _, rfl, rfl⟩, _, rfl, _,
    ⟨_, rfl, _, rfl, v, (runs_need _ _ _).2 hv, rfl⟩, _, rfl, _, ⟨_, rfl, _, rfl, v, (runs_need _ _ _).2 hv, rfl⟩, rfl⟩

/-- C70: against a robot that has everything, the same description gives the roll joint its own offset. -/
theorem C70_wrist_offset_online (t : WristT F) (u : UJoint F) (a b : Actuator F) (ha : a.name = "r") (hb : b.name = "l") (v w : F)
    (hv : Parse.convert "0.1" = some v) (hw : Parse.convert "0.2" = some w) :
    ∃ q : WristT F, (t.initXml offsetWrist (fun _ => some u) [a, b]).2 = .ok ⟨"wrist", ["r", "l"], ["flex", "roll"], .wrist q⟩ ∧
      q.off0 = v ∧ q.off1 = w := by
  refine ⟨{ t with ar0 := Parse.atof "60", ar1 := Parse.atof "60", jr0 := Parse.atof "1", jr1 := Parse.atof "1", off0 := v, off1 := w }, ?_, rfl, rfl⟩
  change Runs _ _ _
  unfold WristT.initXml wristActuator wristJoint wristOffset
  simp (discharger := (intros; tame)) only [runs_bind, runs_need, runs_deref, runs_pure, runs_enable]
  exact ⟨_, ⟨_, rfl, _, rfl, (), ⟨a, by simp, ha⟩, _, rfl, rfl⟩, _, ⟨_, rfl, _, rfl, (), ⟨b, by simp, hb⟩, _, rfl, rfl⟩, _,
    ⟨_, rfl, _, rfl, u, rfl, _, rfl, v, (runs_need _ _ _).2 hv, rfl⟩, _, ⟨_, rfl, _, rfl, u, rfl, _, rfl, w, (runs_need _ _ _).2 hw, rfl⟩, rfl⟩

/-- A simple transmission in the new style: the reduction is inside the actuator. -/
def newStyle : Xml := .node "transmission" [("name", "t")] none
  [.node "joint" [("name", "elbow")] none [],
   .node "actuator" [("name", "m")] none [.node "mechanicalReduction" [] (some "2") []]]

/-- C70: the new style of simple transmissions is accepted against a robot but dereferences NULL without one. -/
theorem C70_new_style_counterexample (t : SimpleT F) (u : UJoint F) (a : Actuator F) (ha : a.name = "m") :
    (∃ r, (t.initXml newStyle (fun _ => some u) [a]).2 = .ok r) ∧ (t.initXmlOff newStyle [a]).2 = .crash := by
  constructor
  · refine ⟨⟨"t", ["m"], ["elbow"], .simple { t with reduction := Parse.atof "2" }⟩, ?_⟩
    change Runs _ _ _
    unfold SimpleT.initXml simpleReduction
    have hF1 := fun b => tame_foldlM (F := F) (SimpleT.simJoint (fun _ => some u)) (fun b c => by unfold SimpleT.simJoint; tame)
      (newStyle.all "simulated_actuated_joint") b
    simp (discharger := (intros; tameWith hF1 hF1 hF1)) only [runs_bind, runs_need, runs_deref, runs_pure, runs_enable]
    exact ⟨_, rfl, u, rfl, _, rfl, _, rfl, (), ⟨a, by simp, ha⟩, _, (runs_deref _ _ _).2 rfl, _, rfl, rfl⟩
  · rfl

/-- C70: a belt transmission without an actuator name makes a `std::string` from NULL without a robot, and is refused against a robot. -/
theorem C70_belt_counterexample (t : BeltT F) (u : UJoint F) (acts : List (Actuator F)) :
    (t.initXmlOff (.node "transmission" [] none [.node "joint" [("name", "elbow")] none []]) acts).2 = .crash ∧
    (t.initXml (.node "transmission" [] none [.node "joint" [("name", "elbow")] none []]) (fun _ => some u) acts).2 = .fail := ⟨rfl, rfl⟩

/-- C70: hypotheses met by a belt, a gripper, and by a simple transmission with the reduction at the old place. -/
example (t : SimpleT F) (joint : String → Option (UJoint F)) :
    (Body.simple t).Portable joint (demoElement "pr2_simple" "elbow" [.node "mechanicalReduction" [] (some "2") []]) := by
  refine ⟨?_, ?_⟩
  · intro ael h; cases h; rfl
  · intro j hj; cases hj

/-- C65: a wrist description without a `flexJoint` crashes the loader, with and without a robot. -/
theorem C65_wrist_crash_counterexample (t : WristT F) (u : UJoint F) (a b : Actuator F) (ha : a.name = "r") (hb : b.name = "l") :
    (t.initXml (.node "transmission" [] none
      [.node "rightActuator" [("name", "r"), ("mechanicalReduction", "60")] none [],
       .node "leftActuator" [("name", "l"), ("mechanicalReduction", "60")] none []]) (fun _ => some u) [a, b]).2 = .crash ∧
    (t.initXmlOff (.node "transmission" [] none
      [.node "rightActuator" [("name", "r"), ("mechanicalReduction", "60")] none [],
       .node "leftActuator" [("name", "l"), ("mechanicalReduction", "60")] none []]) [a, b]).2 = .crash := by
  refine ⟨?_, rfl⟩
  obtain ⟨an, _⟩ := a
  obtain ⟨bn, _⟩ := b
  dsimp only at ha hb
  subst ha hb
  rfl

end
end Pr2
