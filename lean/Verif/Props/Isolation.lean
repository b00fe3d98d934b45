import Verif.Props.Commute

/-!
# C126: controllers of other joints do not matter

Two executions that differ in which controllers of some joints are loaded and running - none, one or many, started and stopped at any time - and in what these
joints' motors report: all other motors are sent the same.
-/

namespace Pr2
set_option linter.unusedVariables false
set_option linter.unusedSectionVars false

section
variable {F : Type}

/-- Specification: a plugin call that does nothing but to the joints `J` (and motors `A`), whatever it reads, on a robot whose joints have the numbers `jm`. -/
def OnlyTouches (jm : List (String × Nat)) (A J : Nat → Prop) (f : RState F → RState F) : Prop :=
  ∀ s, s.jmap = jm → (f s).conns = s.conns ∧ (f s).jmap = s.jmap ∧ SameOff A s.acts (f s).acts ∧ SameOff J s.joints (f s).joints

/-- Specification: what happens in two executions is the same, but for the readings of the motors `A` and for calls that do nothing but to the joints `J`, of which
there may be any on either side, anywhere.  `jm`: the numbers of the robot's joints. -/
inductive Alongside (jm : List (String × Nat)) (A J : Nat → Prop) : List (CtlEv F) → List (CtlEv F) → Prop
  | nil : Alongside jm A J [] []
  | begin {hw hw' : List (Actuator F) → List (Actuator F)} {es es' : List (CtlEv F)} (h : ∀ as as', SameOff A as as' → SameOff A (hw as) (hw' as'))
      (r : Alongside jm A J es es') : Alongside jm A J (.begin hw :: es) (.begin hw' :: es')
  | call {f f' : RState F → RState F} {es es' : List (CtlEv F)} (h : ∀ s s', s.jmap = jm → AgreeOff A J s s' → AgreeOff A J (f s) (f' s') ∧ (f s).jmap = jm) (r : Alongside jm A J es es') :
      Alongside jm A J (.call f :: es) (.call f' :: es')
  | left {f : RState F → RState F} {es es' : List (CtlEv F)} (h : OnlyTouches jm A J f) (r : Alongside jm A J es es') : Alongside jm A J (.call f :: es) es'
  | right {f : RState F → RState F} {es es' : List (CtlEv F)} (h : OnlyTouches jm A J f) (r : Alongside jm A J es es') : Alongside jm A J es (.call f :: es')
  | send {es es' : List (CtlEv F)} (r : Alongside jm A J es es') : Alongside jm A J (.send :: es) (.send :: es')

variable {jm : List (String × Nat)} {A J : Nat → Prop}

theorem SameOff.symm {α : Type} {X : Nat → Prop} {l l' : List α} (h : SameOff X l l') : SameOff X l' l := ⟨h.1.symm, fun i hi => (h.2 i hi).symm⟩
theorem SameOff.trans {α : Type} {X : Nat → Prop} {l l' l'' : List α} (h : SameOff X l l') (h' : SameOff X l' l'') : SameOff X l l'' :=
  ⟨h.1.trans h'.1, fun i hi => (h.2 i hi).trans (h'.2 i hi)⟩

theorem AgreeOff.left {s s' : RState F} (h : AgreeOff A J s s') {f : RState F → RState F} (hf : OnlyTouches jm A J f) (hj : s.jmap = jm) : AgreeOff A J (f s) s' := by
  obtain ⟨h1, h2, h3, h4⟩ := hf s hj
  exact ⟨h3.symm.trans h.acts, h4.symm.trans h.joints, by rw [h1]; exact h.conns, h2.trans h.jmap⟩

theorem AgreeOff.right {s s' : RState F} (h : AgreeOff A J s s') {f : RState F → RState F} (hf : OnlyTouches jm A J f) (hj : s'.jmap = jm) : AgreeOff A J s (f s') := by
  obtain ⟨h1, h2, h3, h4⟩ := hf s' hj
  exact ⟨h.acts.trans h3, h.joints.trans h4, by rw [h1]; exact h.conns, h.jmap.trans h2.symm⟩

end

section
variable {F : Type} [FCmp F] [Zero F] [Add F] [Sub F] [Mul F] [iDiv : Div F] [Neg F] [FLit F] [iTrig : FTrig F]
variable {jm : List (String × Nat)} {A J : Nat → Prop}

theorem agree_snoc {α β : Type} {R : α → β → Prop} {l : List α} {l' : List β} {a : α} {b : β} (h : List.Forall₂ R l l') (h' : R a b) :
    List.Forall₂ R (l ++ [a]) (l' ++ [b]) := by
  induction h with
  | nil => exact .cons h' .nil
  | cons h _ ih => exact .cons h ih

theorem control_cons {big : F} {x y : RState F × List (RState F)} {e : CtlEv F} {es : List (CtlEv F)} (h : controlLoop big x (e :: es) = some y) :
    ∃ z, e.apply big x = some z ∧ controlLoop big z es = some y := by
  unfold controlLoop at h
  rw [List.foldlM_cons] at h
  rcases hz : e.apply big x with _ | z
  · rw [hz] at h; cases h
  · rw [hz] at h; exact ⟨z, rfl, h⟩

/-- **C126.**  The plain control loop. -/
theorem C126_loop {big : F} {es es' : List (CtlEv F)} (h : Alongside jm A J es es') {s s' t t' : RState F} {o o' u u' : List (RState F)}
    (hj : s.jmap = jm) (hs : AgreeOff A J s s') (ho : List.Forall₂ (AgreeOff A J) o o') (h1 : controlLoop big (s, o) es = some (t, u))
    (h2 : controlLoop big (s', o') es' = some (t', u')) : AgreeOff A J t t' ∧ List.Forall₂ (AgreeOff A J) u u' := by
  induction h generalizing s s' o o' with
  | nil => cases h1; cases h2; exact ⟨hs, ho⟩
  | begin hr _ ih =>
    obtain ⟨z, e, h1⟩ := control_cons h1
    obtain ⟨z', e', h2⟩ := control_cons h2
    obtain ⟨v, hv, rfl⟩ := Option.map_eq_some_iff.1 e
    obtain ⟨v', hv', rfl⟩ := Option.map_eq_some_iff.1 e'
    unfold RState.propagatePosition at hv hv'
    obtain ⟨w, hw, e⟩ := Option.bind_eq_some_iff.1 hv
    cases e
    obtain ⟨w', hw', e⟩ := Option.bind_eq_some_iff.1 hv'
    cases e
    have ha : AgreeOff A J { s with acts := _ } { s' with acts := _ } := ⟨hr _ _ hs.acts, hs.joints, hs.conns, hs.jmap⟩
    have hk := ((ha.sweep _ hw hw').mapJoints (fun j => { j with stats := j.stats.update j.sample })).mapJoints (fun j => { j with commanded := 0 })
    exact ih (by exact (sweep_jmap hw).trans hj) hk ho h1 h2
  | call hf _ ih =>
    obtain ⟨z, e, h1⟩ := control_cons h1
    obtain ⟨z', e', h2⟩ := control_cons h2
    cases e; cases e'
    exact ih (hf _ _ hj hs).2 (hf _ _ hj hs).1 ho h1 h2
  | left hf _ ih =>
    obtain ⟨z, e, h1⟩ := control_cons h1
    cases e
    exact ih ((hf _ hj).2.1.trans hj) (hs.left hf hj) ho h1 h2
  | right hf _ ih =>
    obtain ⟨z, e, h2⟩ := control_cons h2
    cases e
    exact ih hj (hs.right hf (hs.jmap.symm.trans hj)) ho h1 h2
  | send _ ih =>
    obtain ⟨z, e, h1⟩ := control_cons h1
    obtain ⟨z', e', h2⟩ := control_cons h2
    obtain ⟨v, hv, rfl⟩ := Option.map_eq_some_iff.1 e
    obtain ⟨v', hv', rfl⟩ := Option.map_eq_some_iff.1 e'
    unfold RState.propagateEffort at hv hv'
    have hk := (hs.mapJoints (·.enforceLimits big)).sweep _ hv hv'
    exact ih ((sweep_jmap hv).trans hj) hk (agree_snoc ho hk) h1 h2

/-- **C126.**  Two executions of the whole machine, with the same robot at first, no transmission of which reaches from the motors `A` and joints `J` to others; the
readings of other motors are the same, and so are the plugin calls but for those that do nothing but to the joints `J` (from controllers loaded, started, stopped at any
time, in either execution).  In every cycle, every other motor is sent the same, and every other joint has the same command, position, velocity, effort. -/
theorem C126_isolated {big : F} {m m' : Bool} {d d' : RtData F} {l l' : List (Plant F × PAct F)} {p p' : Plant F}
    (h : Plant.Trace big m d (fun i => Blind i.plug) l p) (h' : Plant.Trace big m' d' (fun i => Blind i.plug) l' p') (hp : p.dead = false) (hp' : p'.dead = false)
    (hd : d'.robot = d.robot) (hap : ∀ c ∈ d.robot.conns, c.Apart A J) (he : Alongside d.robot.jmap A J (ctlOf big l) (ctlOf big l')) :
    List.Forall₂ (fun (r r' : CycleRec F) => (∀ k, ¬A k → r.sent.acts[k]? = r'.sent.acts[k]?) ∧
      ∀ k, ¬J k → r.sent.joints[k]?.map JState.forgetStats = r'.sent.joints[k]?.map JState.forgetStats) p.cycles p'.cycles := by
  obtain ⟨s, o, h1, _, h2⟩ := C124_loop h hp
  obtain ⟨s', o', h1', _, h2'⟩ := C124_loop h' hp'
  rw [hd] at h1'
  have ho := (C126_loop he rfl (AgreeOff.refl hap) .nil h1 h1').2
  clear h1 h1' he
  generalize p.cycles = cs at h2 ⊢
  generalize p'.cycles = cs' at h2' ⊢
  induction ho generalizing cs cs' with
  | nil => cases h2; cases h2'; exact .nil
  | @cons x x' _ _ hx _ ih =>
    cases h2 with | @cons r _ _ _ hr h2 =>
    cases h2' with | @cons r' _ _ _ hr' h2' =>
    refine .cons ⟨fun k hk => ?_, fun k hk => ?_⟩ (ih _ h2 _ h2')
    · rw [(sameButStats_iff.1 hr).2.2.2, (sameButStats_iff.1 hr').2.2.2, hx.acts.2 k hk]
    · rw [← List.getElem?_map, ← List.getElem?_map, (sameButStats_iff.1 hr).2.1, (sameButStats_iff.1 hr').2.1, List.getElem?_map, List.getElem?_map,
        hx.joints.2 k hk]

/-- **C126, controllers.**  A controller that finds its joints by name, reads some and writes another, does the same to the rest of the robot in both executions if
none of the joints it reads is one of `J`. -/
theorem C126_controller (reads : List String) (n : String) (law : List (Option (JState F)) → JState F → JState F)
    (hr : ∀ x ∈ reads, ∀ k, mapFind jm x = some k → ¬J k) (s s' : RState F) (hj : s.jmap = jm) (h : AgreeOff A J s s') :
    AgreeOff A J (s.onJoint n (law (reads.map s.lookup))) (s'.onJoint n (law (reads.map s'.lookup))) ∧ (s.onJoint n (law (reads.map s.lookup))).jmap = jm := by
  have e : reads.map s.lookup = reads.map s'.lookup := by
    refine List.map_congr_left fun x hx => ?_
    unfold RState.lookup RState.getJointState
    rw [← h.jmap, hj]
    rcases hk : mapFind jm x with _ | k
    · rfl
    · exact h.joints.2 k (hr x hx k hk)
  have g : s'.getJointState n = s.getJointState n := by unfold RState.getJointState; rw [h.jmap]
  rw [e]
  unfold RState.onJoint
  rw [g]
  split
  · refine ⟨⟨h.acts, ⟨by simp [h.joints.1], fun k hk => ?_⟩, h.conns, h.jmap⟩, hj⟩
    dsimp only
    rw [List.getElem?_modify, List.getElem?_modify, h.joints.2 k hk]
  · exact ⟨h, hj⟩

/-- **C126, controllers.**  A controller that writes a joint of `J`, found by name, does nothing but to the joints `J`, whatever it reads. -/
theorem C126_outsider (n : String) (law : RState F → JState F → JState F) (hn : ∀ k, mapFind jm n = some k → J k) :
    OnlyTouches jm A J (fun s => s.onJoint n (law s)) := by
  intro s hj
  dsimp only
  unfold RState.onJoint
  split
  · rename_i k hk
    refine ⟨rfl, rfl, .refl _ _, ⟨by simp, fun i hi => ?_⟩⟩
    dsimp only
    have : ¬k = i := by
      rintro rfl
      unfold RState.getJointState at hk
      rw [hj] at hk
      exact hi (hn k hk)
    rw [List.getElem?_modify]
    simp [this]
  · exact ⟨rfl, rfl, .refl _ _, .refl _ _⟩

/-- **C126, controllers.**  One thing after another: calls with the same effect on the rest of the robot, and calls that do nothing but to the joints `J`. -/
theorem C126_several {f f' g g' : RState F → RState F} :
    ((∀ s s', s.jmap = jm → AgreeOff A J s s' → AgreeOff A J (f s) (f' s') ∧ (f s).jmap = jm) →
      (∀ s s', s.jmap = jm → AgreeOff A J s s' → AgreeOff A J (g s) (g' s') ∧ (g s).jmap = jm) →
      ∀ s s', s.jmap = jm → AgreeOff A J s s' → AgreeOff A J (g (f s)) (g' (f' s')) ∧ (g (f s)).jmap = jm) ∧
    (OnlyTouches jm A J f → OnlyTouches jm A J g → OnlyTouches jm A J (g ∘ f)) := by
  refine ⟨fun hf hg s s' hj h => hg _ _ (hf s s' hj h).2 (hf s s' hj h).1, fun hf hg s hj => ?_⟩
  obtain ⟨f1, f2, f3, f4⟩ := hf s hj
  obtain ⟨g1, g2, g3, g4⟩ := hg (f s) (f2.trans hj)
  exact ⟨g1.trans f1, g2.trans f2, f3.trans g3, f4.trans g4⟩

end

/-! ## A spring on one joint, with and without a second spring on the other -/

section demo
attribute [local instance] exactCmp demoTrig demoLit

/-- Steps of both threads in turn; what is called on object 1 is the spring on the second joint. -/
def drive2 : Nat → Plant ℚ → List Tag
  | 0, _ => []
  | n + 1, p =>
    let t := if ((p.step 1000 (.rt (twoIn 0))).mgr.log.drop p.mgr.log.length).any (fun e => e.target == some 1) then Tag.b else .a
    let q := p.step 1000 t.act
    t :: .nrt :: drive2 n (q.step 1000 .nrt)

/-- Service calls, and what happens for a number of steps until the next. -/
def session2 : List (Op × Nat) → Plant ℚ → List Tag
  | [], _ => []
  | (op, n) :: ops, p =>
    let ts := .call op :: drive2 n (p.step 1000 (.call op))
    ts ++ session2 ops (p.runs 1000 (ts.map Tag.act))

def isoTags (ops : List (Op × Nat)) : List Tag := [.a, .a, .a] ++ session2 ops (twoInit.runs 1000 [.rt (twoIn 0), .rt (twoIn 0), .rt (twoIn 0)])
/-- The second spring is loaded, but not started. -/
def aloneTags : List Tag := isoTags [(.load demoReq, 30), (.load { demoReq with name := "early" }, 30), (.switch ["spring"] [] 2, 30), (.list, 50)]
/-- It is started, and stopped again. -/
def bothTags : List Tag := isoTags [(.load demoReq, 30), (.load { demoReq with name := "early" }, 30), (.switch ["spring"] [] 2, 30), (.switch ["early"] [] 2, 24), (.switch [] ["early"] 2, 34)]

theorem springAt_only (n : Nat) {jm : List (String × Nat)} : OnlyTouches jm (· = n) (· = n) (springAt n) := fun s hj =>
  ⟨rfl, rfl, .refl _ _, (springAt_uses n jm).rest s hj |>.2.2.2.symm, fun k hk => ((springAt_uses n jm).writes s k hj hk).symm⟩

theorem springAt_agree (n : Nat) {jm : List (String × Nat)} {A J : Nat → Prop} (s s' : RState ℚ) (hj : s.jmap = jm) (h : AgreeOff A J s s') :
    AgreeOff A J (springAt n s) (springAt n s') ∧ (springAt n s).jmap = jm := by
  refine ⟨⟨h.acts, ⟨by simp [springAt, h.joints.1], fun k hk => ?_⟩, h.conns, h.jmap⟩, hj⟩
  unfold springAt
  dsimp only
  rw [List.getElem?_modify, List.getElem?_modify, h.joints.2 k hk]

/-- Without the second spring's calls, the same happens. -/
theorem kinds_alongside {jm : List (String × Nat)} (ks ks' : List Nat) (h : ks.filter (· ≤ 2) = ks'.filter (· ≤ 2)) :
    Alongside jm (· = 1) (· = 1) (ks.map ofTagKind) (ks'.map ofTagKind) := by
  have big : ∀ k, ¬k ≤ 2 → ofTagKind k = .call (springAt 1) := by
    intro k hk
    match k, hk with
    | k + 3, _ => rfl
  induction ks generalizing ks' with
  | nil =>
    induction ks' with
    | nil => exact .nil
    | cons k ks' ih =>
      by_cases hk : k ≤ 2
      · rw [List.filter_cons_of_pos (by simpa using hk)] at h; cases h
      · rw [List.filter_cons_of_neg (by simpa using hk)] at h
        rw [List.map_cons, big k hk]
        exact .right (springAt_only 1) (ih h)
  | cons k ks ih =>
    by_cases hk : k ≤ 2
    · induction ks' with
      | nil => rw [List.filter_cons_of_pos (by simpa using hk)] at h; cases h
      | cons k' ks' ih' =>
        by_cases hk' : k' ≤ 2
        · rw [List.filter_cons_of_pos (by simpa using hk), List.filter_cons_of_pos (by simpa using hk')] at h
          rw [List.cons.injEq] at h
          obtain ⟨rfl, h⟩ := h
          match k, hk with
          | 0, _ => exact .begin (fun as as' h => h.map _) (ih _ h)
          | 1, _ => exact .call (springAt_agree 0) (ih _ h)
          | 2, _ => exact .send (ih _ h)
        · rw [List.filter_cons_of_neg (a := k') (by simpa using hk')] at h
          rw [List.map_cons (a := k'), big k' hk']
          exact .right (springAt_only 1) (ih' h)
    · rw [List.filter_cons_of_neg (by simpa using hk)] at h
      rw [List.map_cons, big k hk]
      exact .left (springAt_only 1) (ih _ h)

theorem iso_along : usedAlong twoInit aloneTags = true ∧ usedAlong twoInit bothTags = true ∧
    (tagKinds twoInit aloneTags).filter (· ≤ 2) = (tagKinds twoInit bothTags).filter (· ≤ 2) ∧ 3 ∈ tagKinds twoInit bothTags ∧ 3 ∉ tagKinds twoInit aloneTags ∧
    (twoInit.runs 1000 (aloneTags.map Tag.act)).dead = false ∧ (twoInit.runs 1000 (bothTags.map Tag.act)).dead = false := by decide +kernel

/-- All of C126: the first motor is sent the same in every cycle, whether or not the second spring comes and goes. -/
example : List.Forall₂ (fun (r r' : CycleRec ℚ) => r.sent.acts[0]? = r'.sent.acts[0]?) (twoInit.runs 1000 (aloneTags.map Tag.act)).cycles
    (twoInit.runs 1000 (bothTags.map Tag.act)).cycles := by
  obtain ⟨u1, u2, hs, _, _, d1, d2⟩ := iso_along
  have he : Alongside twoRobot.jmap (· = 1) (· = 1) (ctlOf 1000 (twoInit.trace 1000 (aloneTags.map Tag.act))) (ctlOf 1000 (twoInit.trace 1000 (bothTags.map Tag.act))) := by
    rw [tag_kinds, tag_kinds]
    exact kinds_alongside _ _ hs
  exact (C126_isolated (tag_trace _ .init u1) (tag_trace _ .init u2) d1 d2 rfl twoApart he).imp fun _ _ h => h.1 0 (by decide)

/-- C126, controllers: on this robot, a controller of the first joint that reads the first joint only, and one of the second joint that reads both. -/
example : (∀ s s' : RState ℚ, s.jmap = twoRobot.jmap → AgreeOff (· = 1) (· = 1) s s' →
      AgreeOff (· = 1) (· = 1) (s.onJoint "elbow" (ordLaw (["elbow"].map s.lookup))) (s'.onJoint "elbow" (ordLaw (["elbow"].map s'.lookup))) ∧
        (s.onJoint "elbow" (ordLaw (["elbow"].map s.lookup))).jmap = twoRobot.jmap) ∧
    OnlyTouches twoRobot.jmap (· = 1) (· = 1) (fun s : RState ℚ => s.onJoint "elbow2" (ordLaw (["elbow", "elbow2"].map s.lookup))) := by
  refine ⟨C126_controller ["elbow"] "elbow" ordLaw fun x hx k hk => ?_, C126_outsider "elbow2" (fun s => ordLaw (["elbow", "elbow2"].map s.lookup)) fun k hk => ?_⟩
  · rw [List.mem_singleton.1 hx] at hk
    cases (show some 0 = some k from hk)
    decide
  · exact (Option.some.inj (show some 1 = some k from hk)).symm

/-- C122: the condition on the plugins is met by a controller that finds its joints by name and reads none of the faulty motor's. -/
example : Twins twoRobot.jmap (· = 1) (· = 1) { goodIn with plug := fun s : RState ℚ => s.onJoint "elbow" (ordLaw (["elbow"].map s.lookup)) }
    { badIn with plug := fun s : RState ℚ => s.onJoint "elbow" (ordLaw (["elbow"].map s.lookup)) } := by
  refine { twoTwins with
    tame := ⟨twoTame.1.hw, fun s => onJoint_same "elbow" (ordLaw (["elbow"].map s.lookup)) (fun _ => rfl) s⟩
    tame' := ⟨twoTame.2.hw, fun s => onJoint_same "elbow" (ordLaw (["elbow"].map s.lookup)) (fun _ => rfl) s⟩
    plug := fun s s' hj h => (C126_controller ["elbow"] "elbow" ordLaw (fun x hx k hk => ?_) s s' hj h).1 }
  rw [List.mem_singleton.1 hx] at hk
  cases (show some 0 = some k from hk)
  decide

/-- What is called in a cycle, and what is sent. -/
def isoCycle (tags : List Tag) (k : Nat) : Option (List Ev × List ℚ) :=
  ((twoInit.runs 1000 (tags.map Tag.act)).cycles[k]?).map fun r => (r.calls.map (·.ev), r.sent.acts.map (·.effort))

/-- The second motor is sent something else in one of the cycles; the second spring has been called in it. -/
example : isoCycle bothTags 13 = some ([.update 1, .update 0], [-3 / 2, -3 / 2]) ∧ isoCycle aloneTags 13 = some ([.update 0], [-3 / 2, 0]) := by decide +kernel

end demo

end Pr2
