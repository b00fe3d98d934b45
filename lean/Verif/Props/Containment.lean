import Verif.Props.Twin

/-!
# C122: a fault stays where it is

Two executions of the whole machine that differ in what some motors report (and in what controllers make of it for these motors' joints) send all other motors the
same efforts in every cycle, make the same plugin calls in the same order, and give the services the same answers.
-/

namespace Pr2
set_option linter.unusedVariables false
set_option linter.unusedSectionVars false

section
variable {F : Type}

/-- Specification: two lists agree outside a set of positions. -/
def SameOff {α : Type} (X : Nat → Prop) (l l' : List α) : Prop := l.length = l'.length ∧ ∀ i, ¬X i → l[i]? = l'[i]?

/-- Specification: a transmission all of whose motors and joints are in the sets, or none. -/
def Conn.Apart (A J : Nat → Prop) (c : Conn F) : Prop :=
  ((∀ i ∈ c.ins, ¬A i) ∧ ∀ i ∈ c.outs, ¬J i) ∨ ((∀ i ∈ c.ins, A i) ∧ ∀ i ∈ c.outs, J i)

/-- Specification: a transmission of two robots: the same one between others, or two that do not reach out of the sets. -/
def Conn.Twin (A J : Nat → Prop) (c c' : Conn F) : Prop :=
  c.ins = c'.ins ∧ c.outs = c'.outs ∧
    (((∀ i ∈ c.ins, ¬A i) ∧ (∀ i ∈ c.outs, ¬J i) ∧ c = c') ∨ ((∀ i ∈ c.ins, A i) ∧ ∀ i ∈ c.outs, J i))

/-- Specification: two robot states with the same wiring that agree outside the motors `A` and the joints `J`, and in the transmissions between others. -/
structure AgreeOff (A J : Nat → Prop) (s s' : RState F) : Prop where
  acts : SameOff A s.acts s'.acts
  joints : SameOff J s.joints s'.joints
  conns : List.Forall₂ (Conn.Twin A J) s.conns s'.conns
  jmap : s.jmap = s'.jmap

/-- Inputs of one step of two executions: the motors outside `A` report the same, every motor reports the same halt flag, and the plugin called does the same to
whatever is outside `A` and `J` (it may do anything to what is inside), on a robot whose joints have the numbers `jm`. -/
structure Twins (jm : List (String × Nat)) (A J : Nat → Prop) (i i' : PlantIn F) : Prop where
  tame : i.Tame
  tame' : i'.Tame
  hw : ∀ as as', SameOff A as as' → SameOff A (i.hw as) (i'.hw as') ∧ (i.hw as).map (·.halted) = (i'.hw as').map (·.halted)
  plug : ∀ s s', s.jmap = jm → AgreeOff A J s s' → AgreeOff A J (i.plug s) (i'.plug s')
  start : i.start = i'.start
  fin : i.fin = i'.fin
  statNow : i.statNow = i'.statNow
  turn : i.turn = i'.turn
  jointNow : i.jointNow = i'.jointNow
  jointFree : i.jointFree = i'.jointFree

/-! ## Sweeps -/

theorem SameOff.refl {α : Type} (X : Nat → Prop) (l : List α) : SameOff X l l := ⟨rfl, fun _ _ => rfl⟩

theorem SameOff.map {α β : Type} {X : Nat → Prop} {l l' : List α} (h : SameOff X l l') (f : α → β) : SameOff X (l.map f) (l'.map f) :=
  ⟨by simp [h.1], fun i hi => by rw [List.getElem?_map, List.getElem?_map, h.2 i hi]⟩

theorem SameOff.gather {α : Type} {X : Nat → Prop} {l l' : List α} (h : SameOff X l l') {is : List Nat} (hi : ∀ i ∈ is, ¬X i) :
    Pr2.gather l is = Pr2.gather l' is := gather_congr l' l is (fun i hx => h.2 i (hi i hx))

theorem SameOff.scatter {α : Type} {X : Nat → Prop} (is : List Nat) (as : List α) {l l' : List α} (h : SameOff X l l') :
    SameOff X (Pr2.scatter is as l) (Pr2.scatter is as l') := by
  induction is generalizing as l l' with
  | nil => exact h
  | cons i is ih =>
    cases as with
    | nil => exact h
    | cons a as =>
      refine ih as ⟨by simp [h.1], fun n hn => ?_⟩
      rw [List.getElem?_set, List.getElem?_set, h.1, h.2 n hn]

theorem SameOff.inside {α : Type} {X : Nat → Prop} {is : List Nat} (hi : ∀ i ∈ is, X i) (as as' : List α) {l l' : List α} (h : SameOff X l l') :
    SameOff X (Pr2.scatter is as l) (Pr2.scatter is as' l') := by
  refine ⟨by rw [scatter_length, scatter_length]; exact h.1, fun n hn => ?_⟩
  rw [scatter_get_notin _ _ _ _ (fun hx => hn (hi n hx)), scatter_get_notin _ _ _ _ (fun hx => hn (hi n hx))]
  exact h.2 n hn

variable {A J : Nat → Prop}

theorem sweep_agree (f : Prop' F) (cs cs' : List (Conn F)) (as as' : List (Actuator F)) (js js' : List (JState F))
    (hc : List.Forall₂ (Conn.Twin A J) cs cs')
    (ha : SameOff A as as') (hj : SameOff J js js') {r r' : List (Conn F) × List (Actuator F) × List (JState F)}
    (h : sweep f cs as js = some r) (h' : sweep f cs' as' js' = some r') :
    List.Forall₂ (Conn.Twin A J) r.1 r'.1 ∧ SameOff A r.2.1 r'.2.1 ∧ SameOff J r.2.2 r'.2.2 := by
  induction hc generalizing as as' js js' r r' with
  | nil => cases h; cases h'; exact ⟨.nil, ha, hj⟩
  | @cons c c' cs cs' hcc _ ih =>
    obtain ⟨hin, hout, hap⟩ := hcc
    unfold sweep at h h'
    rcases h1 : f c.trans.body (gather as c.ins) (gather js c.outs) with _ | x
    · rw [h1] at h; cases h
    rcases h1' : f c'.trans.body (gather as' c'.ins) (gather js' c'.outs) with _ | x'
    · rw [h1'] at h'; cases h'
    rw [h1] at h
    rw [h1'] at h'
    rcases h2 : sweep f cs (scatter c.ins x.2.1 as) (scatter c.outs x.2.2 js) with _ | y
    · simp only [h2, Option.bind_eq_bind, Option.bind_some, Option.bind_none] at h; cases h
    rcases h2' : sweep f cs' (scatter c'.ins x'.2.1 as') (scatter c'.outs x'.2.2 js') with _ | y'
    · simp only [h2', Option.bind_eq_bind, Option.bind_some, Option.bind_none] at h'; cases h'
    simp only [h2, Option.bind_eq_bind, Option.bind_some, Option.some.injEq] at h
    simp only [h2', Option.bind_eq_bind, Option.bind_some, Option.some.injEq] at h'
    subst h h'
    rcases hap with ⟨g1, g2, e⟩ | ⟨g1, g2⟩
    · subst e
      rw [ha.gather g1, hj.gather g2, h1'] at h1
      cases h1
      obtain ⟨k1, k2, k3⟩ := ih _ _ _ _ (ha.scatter _ _) (hj.scatter _ _) h2 h2'
      exact ⟨.cons ⟨rfl, rfl, Or.inl ⟨g1, g2, rfl⟩⟩ k1, k2, k3⟩
    · rw [← hin, ← hout] at h2'
      obtain ⟨k1, k2, k3⟩ := ih _ _ _ _ (ha.inside g1 _ _) (hj.inside g2 _ _) h2 h2'
      exact ⟨.cons ⟨hin, hout, Or.inr ⟨g1, g2⟩⟩ k1, k2, k3⟩

theorem AgreeOff.sweep {s s' t t' : RState F} (h : AgreeOff A J s s') (f : Prop' F) (hs : s.sweep f = some t) (hs' : s'.sweep f = some t') :
    AgreeOff A J t t' := by
  unfold RState.sweep at hs hs'
  rcases h1 : Pr2.sweep f s.conns s.acts s.joints with _ | r
  · rw [h1] at hs; cases hs
  rcases h2 : Pr2.sweep f s'.conns s'.acts s'.joints with _ | r'
  · rw [h2] at hs'; cases hs'
  rw [h1] at hs
  rw [h2] at hs'
  cases hs; cases hs'
  obtain ⟨k1, k2, k3⟩ := sweep_agree f _ _ _ _ _ _ h.conns h.acts h.joints h1 h2
  exact ⟨k2, k3, k1, h.jmap⟩

theorem AgreeOff.mapJoints {s s' : RState F} (h : AgreeOff A J s s') (f : JState F → JState F) :
    AgreeOff A J { s with joints := s.joints.map f } { s' with joints := s'.joints.map f } := ⟨h.acts, h.joints.map f, h.conns, h.jmap⟩

theorem gather_map' {α β : Type} (f : α → β) (l : List α) (is : List Nat) : (gather l is).map f = gather (l.map f) is := by
  induction is with
  | nil => rfl
  | cons i is ih =>
    unfold gather at ih ⊢
    rw [List.filterMap_cons, List.filterMap_cons, List.getElem?_map]
    cases l[i]? with
    | none => exact ih
    | some x => simp [ih]

theorem halted_agree {s s' : RState F} (h : AgreeOff A J s s') (ha : s.acts.map (·.halted) = s'.acts.map (·.halted)) : s.isHalted = s'.isHalted := by
  have key : ∀ (cs cs' : List (Conn F)), List.Forall₂ (Conn.Twin A J) cs cs' →
      cs.any (fun c => (gather s.acts c.ins).any (·.halted)) = cs'.any (fun c => (gather s'.acts c.ins).any (·.halted)) := by
    intro cs cs' hc
    induction hc with
    | nil => rfl
    | cons hcc _ ih =>
      rw [List.any_cons, List.any_cons, ih, hcc.1]
      congr 1
      have e : ∀ l : List (Actuator F), l.any (·.halted) = (l.map (·.halted)).any id := fun l => by simp [List.any_map]
      rw [e, e, gather_map', gather_map', ha]
  exact key _ _ h.conns

theorem AgreeOff.refl {s : RState F} (h : ∀ c ∈ s.conns, c.Apart A J) : AgreeOff A J s s := by
  refine ⟨.refl _ _, .refl _ _, List.forall₂_same.2 fun c hc => ⟨rfl, rfl, ?_⟩, rfl⟩
  rcases h c hc with ⟨h1, h2⟩ | h1
  · exact Or.inl ⟨h1, h2, rfl⟩
  · exact Or.inr h1

end

section
variable {F : Type} [FCmp F] [Zero F] [Add F] [Sub F] [Mul F] [iDiv : Div F] [Neg F] [FLit F] [iTrig : FTrig F]
variable {A J : Nat → Prop}

variable {big : F} {m : Bool} {d : RtData F}

/-- Specification: a cycle of two executions: it began alike, the same plugin calls were made, and other motors have been sent the same. -/
structure SameCycle (A : Nat → Prop) (r r' : CycleRec F) : Prop where
  begun : r.begun = r'.begun
  calls : r.calls.map (·.ev) = r'.calls.map (·.ev)
  timed : r.timed = r'.timed
  sent : SameOff A r.sent.acts r'.sent.acts

theorem sweep_jmap {s t : RState F} {f : Prop' F} (h : s.sweep f = some t) : t.jmap = s.jmap := by
  unfold RState.sweep at h
  obtain ⟨r, _, e⟩ := Option.bind_eq_some_iff.1 h
  cases e; rfl

variable {jm : List (String × Nat)}

/-- Two robots that agree outside the sets, and whose joints have the numbers `jm`. -/
def AgreeIn (jm : List (String × Nat)) (A J : Nat → Prop) (s s' : RState F) : Prop := AgreeOff A J s s' ∧ s.jmap = jm

theorem agree_relates : Relates big (AgreeIn (F := F) jm A J) where
  pos := by
    intro s s' t t' h _ _ hs hs'
    unfold RState.propagatePosition at hs hs'
    rcases e1 : RState.sweep s Body.propagatePosition with _ | u
    · rw [e1] at hs; cases hs
    rcases e2 : RState.sweep s' Body.propagatePosition with _ | u'
    · rw [e2] at hs'; cases hs'
    rw [e1] at hs
    rw [e2] at hs'
    cases hs; cases hs'
    exact ⟨(h.1.sweep _ e1 e2).mapJoints _, (sweep_jmap e1).trans h.2⟩
  zero := fun s s' h => ⟨h.1.mapJoints _, h.2⟩
  safety := fun s s' h => ⟨h.1.mapJoints _, h.2⟩
  effort := fun s s' t t' h _ _ hs hs' => ⟨h.1.sweep _ hs hs', (sweep_jmap hs).trans h.2⟩
  reset := fun s s' h => ⟨h.1.mapJoints _, h.2⟩

theorem Twins.twin {i i' : PlantIn F} (h : Twins jm A J i i') : TwinIn (AgreeIn jm A J) i i' where
  tame := h.tame
  tame' := h.tame'
  hw := by
    intro s s' hs
    obtain ⟨h1, h2⟩ := h.hw _ _ hs.1.acts
    have k : AgreeOff A J { s with acts := i.hw s.acts } { s' with acts := i'.hw s'.acts } := ⟨h1, hs.1.joints, hs.1.conns, hs.1.jmap⟩
    exact ⟨⟨k, hs.2⟩, halted_agree k h2⟩
  plug := fun s s' hs => ⟨h.plug s s' hs.2 hs.1, (h.tame.plug s).jmap.trans hs.2⟩
  start := h.start
  fin := h.fin
  statNow := h.statNow
  turn := h.turn
  jointNow := h.jointNow
  jointFree := h.jointFree

theorem contained (hd : d.Good) (hap : ∀ c ∈ d.robot.conns, c.Apart A J) {p p' : Plant F} (h : TwinRun big m d d (Twins d.robot.jmap A J) p p') :
    TwinInv (AgreeIn d.robot.jmap A J) p p' :=
  (h.both agree_relates (fun _ _ => Twins.twin) hd hd ⟨rfl, ⟨.refl hap, rfl⟩, rfl, ⟨rfl, rfl⟩, ⟨rfl, rfl⟩, rfl, rfl, rfl, .nil⟩).2.2

/-- **C122.** A fault stays where it is: whatever the motors `A` report instead, the manager's whole history and the services' answers are the same, and in every
cycle the same plugin calls are made and all other motors are sent the same. -/
theorem C122_contained (hd : d.Good) (hap : ∀ c ∈ d.robot.conns, c.Apart A J) {p p' : Plant F} (h : TwinRun big m d d (Twins d.robot.jmap A J) p p') :
    p'.mgr.log = p.mgr.log ∧ p'.mgr.nlog = p.mgr.nlog ∧ List.Forall₂ (SameCycle A) p.cycles p'.cycles := by
  have k := contained hd hap h
  exact ⟨by rw [k.mgr], by rw [k.mgr], k.cycles.imp fun r r' q => ⟨q.begun, q.calls, q.timed, q.sent.1.acts⟩⟩

/-- **C122.** The joints outside are the same at any time: what controllers and publishers read of them. -/
theorem C122_joints (hd : d.Good) (hap : ∀ c ∈ d.robot.conns, c.Apart A J) {p p' : Plant F} (h : TwinRun big m d d (Twins d.robot.jmap A J) p p') (k : Nat) (hk : ¬J k) :
    p'.data.robot.joints[k]? = p.data.robot.joints[k]? := ((contained hd hap h).robot.1.joints.2 k hk).symm


end

/-! ## Two elbows: a spring controller moves the first while the second's encoder reports nonsense -/

section demo
attribute [local instance] exactCmp demoTrig demoLit

def twoJoint : UJoint ℚ := { demoElbow with name := "elbow2" }
def twoRobot : RState ℚ :=
  ⟨[⟨⟨"t", ["m"], ["elbow"], .simple ⟨2, 0, false, ⟨false, 0⟩, CalSim.fresh 0 0 0 0 false false⟩⟩, [0], [0]⟩,
    ⟨⟨"t2", ["m2"], ["elbow2"], .simple ⟨2, 0, false, ⟨false, 0⟩, CalSim.fresh 0 0 0 0 false false⟩⟩, [1], [1]⟩],
   [JState.fresh demoElbow 0, JState.fresh twoJoint 0], [("elbow", 0), ("elbow2", 1)], [demoMotor, { demoMotor with name := "m2" }]⟩
def twoRt : RtData ℚ :=
  ⟨twoRobot, fun _ => CStat.fresh, ⟨0, 10, ([(JState.fresh demoElbow 0).srow 0, (JState.fresh twoJoint 0).srow 0], [demoMotor.arow, demoMotor.arow])⟩,
    ⟨0, 10, [(JState.fresh demoElbow 0).jrow, (JState.fresh twoJoint 0).jrow]⟩⟩

theorem twoGood : twoRt.Good := by
  refine ⟨⟨⟨?_, ?_, ?_⟩, ?_, ?_⟩, ?_, rfl, rfl, rfl, by decide, by decide⟩ <;>
    simp [twoRt, twoRobot, demoMotor, Actuator.fresh, Body.Wants, JState.fresh, demoElbow, twoJoint]
  exact ⟨rfl, rfl⟩

theorem twoApart : ∀ c ∈ twoRt.robot.conns, c.Apart (· = 1) (· = 1) := by
  simp [twoRt, twoRobot, Conn.Apart]

/-- The motors report that they are not halted; the first is at 3, and so is the second. -/
def goodIn : PlantIn ℚ := { demoIn with hw := fun as => as.map fun a => { a with halted := false } }
/-- The same, but the second motor's encoder reports 1000000. -/
def badIn : PlantIn ℚ := { demoIn with hw := fun as => (as.map fun a => { a with halted := false }).modify 1 fun a => { a with position := 1000000 } }

theorem twoTame : goodIn.Tame ∧ badIn.Tame := by
  refine ⟨⟨fun as => ?_, (springController_tame 4).1⟩, ⟨fun as => ?_, (springController_tame 4).1⟩⟩
  · rw [List.forall₂_iff_get]
    exact ⟨by simp [goodIn], fun k h1 h2 => by simp [goodIn]⟩
  · rw [List.forall₂_iff_get]
    refine ⟨by simp [badIn], fun k h1 h2 => ?_⟩
    simp only [badIn, List.get_eq_getElem, List.getElem_modify, List.getElem_map]
    split <;> rfl

/-- The spring moves the first joint by what the first joint's position is. -/
theorem twoTwins : Twins twoRobot.jmap (· = 1) (· = 1) goodIn badIn := by
  refine ⟨twoTame.1, twoTame.2, fun as as' h => ⟨⟨?_, ?_⟩, ?_⟩, fun s s' _ h => ⟨h.acts, ⟨?_, ?_⟩, h.conns, h.jmap⟩, rfl, rfl, rfl, rfl, rfl, rfl⟩
  · simp [goodIn, badIn, h.1]
  · intro i hi
    simp only [goodIn, badIn]
    rw [List.getElem?_modify, List.getElem?_map, List.getElem?_map, h.2 i hi]
    have : ¬1 = i := fun e => hi e.symm
    simp only [this, if_false]
    cases as'[i]? <;> rfl
  · apply List.ext_getElem
    · simp [goodIn, badIn, h.1]
    · intro n h1 h2
      simp only [goodIn, badIn, List.getElem_map, List.getElem_modify]
      split <;> rfl
  · simp [goodIn, badIn, demoIn, springController, h.joints.1]
  · intro i hi
    simp only [goodIn, badIn, demoIn, springController]
    rw [List.getElem?_modify, List.getElem?_modify, h.joints.2 i hi]

def twoBoth : Nat → List (PAct ℚ × PAct ℚ)
  | 0 => []
  | n + 1 => (.nrt, .nrt) :: (.rt goodIn, .rt badIn) :: twoBoth n
def twoActs : List (PAct ℚ × PAct ℚ) :=
  (.call (.load demoReq), .call (.load demoReq)) :: twoBoth 20 ++ (.call (.switch ["spring"] [] 2), .call (.switch ["spring"] [] 2)) :: twoBoth 30
def twoStart (i : PlantIn ℚ) : Plant ℚ := Plant.runs 1000 (Plant.init false twoRt) [.rt i, .rt i, .rt i]

theorem twoRun : TwinRun 1000 false twoRt twoRt (Twins twoRobot.jmap (· = 1) (· = 1)) (Plant.runs 1000 (twoStart goodIn) (twoActs.map (·.1)))
    (Plant.runs 1000 (twoStart badIn) (twoActs.map (·.2))) := by
  have h : TwinRun 1000 false twoRt twoRt (Twins twoRobot.jmap (· = 1) (· = 1)) (twoStart goodIn) (twoStart badIn) :=
    ((TwinRun.init.rt _ _ twoTwins).rt _ _ twoTwins).rt _ _ twoTwins
  have hb : ∀ n x, x ∈ twoBoth n → x = (.nrt, .nrt) ∨ x = (.rt goodIn, .rt badIn) := by
    intro n x hx
    induction n with
    | zero => cases hx
    | succ n ih =>
      simp only [twoBoth, List.mem_cons] at hx
      rcases hx with h | h | h
      · exact Or.inl h
      · exact Or.inr h
      · exact ih h
  refine h.runs _ ?_ (fun pre hpre => ?_)
  · intro x hx
    have hb' : ∀ n, x ∈ twoBoth n → (∃ i i', x = (.rt i, .rt i') ∧ Twins twoRobot.jmap (· = 1) (· = 1) i i') ∨ x = (.nrt, .nrt) ∨ ∃ op, x = (.call op, .call op) := by
      intro n hn
      rcases hb n x hn with e | e
      · exact Or.inr (Or.inl e)
      · exact Or.inl ⟨_, _, e, twoTwins⟩
    simp only [twoActs, List.cons_append, List.mem_cons, List.mem_append] at hx
    rcases hx with e | e | e | e
    · exact Or.inr (Or.inr ⟨_, e⟩)
    · exact hb' _ e
    · exact Or.inr (Or.inr ⟨_, e⟩)
    · exact hb' _ e
  · have : ∀ pre ∈ twoActs.inits, (Plant.runs 1000 (twoStart goodIn) (pre.map (·.1))).mgr.used.isSome = true := by decide +kernel
    exact this pre ((List.mem_inits _ _).2 hpre)

/-- All of C122: the spring has been loaded and started; the first motor is sent the same in both executions (the second joint is uncommanded). -/
example : List.Forall₂ (SameCycle (· = 1)) (Plant.runs 1000 (twoStart goodIn) (twoActs.map (·.1))).cycles
    (Plant.runs 1000 (twoStart badIn) (twoActs.map (·.2))).cycles := (C122_contained twoGood twoApart twoRun).2.2
example : ((Plant.runs 1000 (twoStart badIn) (twoActs.map (·.2))).cycles.getLast?.map
    (fun r => (r.calls.map (·.ev), r.sent.acts.map (·.effort), r.sent.joints.map (·.position)))) = some ([.update 0], [-3 / 2, 0], [3 / 2, 500000]) := by decide +kernel
example : ((Plant.runs 1000 (twoStart goodIn) (twoActs.map (·.1))).cycles.getLast?.map
    (fun r => (r.calls.map (·.ev), r.sent.acts.map (·.effort), r.sent.joints.map (·.position)))) = some ([.update 0], [-3 / 2, 0], [3 / 2, 3 / 2]) := by decide +kernel

/-- One flag does reach everybody: if the second motor reports that it is halted, the whole robot counts as halted, and when it no longer does every running
controller is restarted (`C19`); hence the hypothesis on the halt flags. -/
def haltIn : PlantIn ℚ := { goodIn with hw := fun as => (as.map fun a => { a with halted := false }).modify 1 fun a => { a with halted := true } }
example : ((Plant.runs 1000 (twoStart goodIn) (twoActs.map (·.1) ++ List.replicate 24 (.rt haltIn) ++ List.replicate 40 (.rt goodIn))).cycles.any
    (fun r => r.calls.map (·.ev) == [.stopping 0, .starting 0, .update 0])) = true := by decide +kernel

end demo

end Pr2
