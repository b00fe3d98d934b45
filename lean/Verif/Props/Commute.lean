import Verif.Props.PublishControl
import Verif.Props.Containment
import Verif.Props.Order

/-!
# C125: the order of controllers that do not touch each other's joints does not matter

Controllers without `before` and `after` requests are put in an order of the manager's choosing.  Here is why a user need not care, as long as no controller writes
to a joint that another one reads or writes.
-/

namespace Pr2
set_option linter.unusedVariables false
set_option linter.unusedSectionVars false

section
variable {F : Type}

/-- Specification: a plugin call that, on a robot whose joints have the numbers `jm`, reads joints in `R` (and actuators) and writes to joints in `W` only. -/
structure Uses (jm : List (String × Nat)) (R W : Nat → Prop) (f : RState F → RState F) : Prop where
  rest : ∀ s, s.jmap = jm → (f s).conns = s.conns ∧ (f s).jmap = s.jmap ∧ (f s).acts = s.acts ∧ (f s).joints.length = s.joints.length
  writes : ∀ s k, s.jmap = jm → ¬W k → (f s).joints[k]? = s.joints[k]?
  reads : ∀ s s', s.jmap = jm → s.conns = s'.conns → s.jmap = s'.jmap → s.acts = s'.acts → s.joints.length = s'.joints.length → (∀ k, R k → s.joints[k]? = s'.joints[k]?) →
    ∀ k, W k → (f s).joints[k]? = (f s').joints[k]?

/-- Specification: neither writes what the other reads or writes. -/
def Independent (jm : List (String × Nat)) (f g : RState F → RState F) : Prop :=
  ∃ R W R' W' : Nat → Prop, Uses jm R W f ∧ Uses jm R' W' g ∧ (∀ k, W k → ¬R' k ∧ ¬W' k) ∧ ∀ k, W' k → ¬R k

/-- Specification: a plugin call that leaves the numbers of the joints alone. -/
def CtlEv.KeepsMap : CtlEv F → Prop
  | .call f => ∀ s, (f s).jmap = s.jmap
  | _ => True

/-- Specification: the same events, but calls of independent plugins maybe in another order.  `jm`: the numbers of the robot's joints. -/
inductive Shuffled (jm : List (String × Nat)) : List (CtlEv F) → List (CtlEv F) → Prop
  | refl (es : List (CtlEv F)) : Shuffled jm es es
  | swap (pre post : List (CtlEv F)) (f g : RState F → RState F) (h : Independent jm f g) (hk : ∀ e ∈ pre, e.KeepsMap) :
      Shuffled jm (pre ++ .call f :: .call g :: post) (pre ++ .call g :: .call f :: post)
  | trans {a b c : List (CtlEv F)} (h : Shuffled jm a b) (h' : Shuffled jm b c) : Shuffled jm a c

variable {jm : List (String × Nat)}

theorem independent_commute {f g : RState F → RState F} (h : Independent jm f g) (s : RState F) (hs : s.jmap = jm) : g (f s) = f (g s) := by
  obtain ⟨R, W, R', W', hf, hg, h1, h2⟩ := h
  obtain ⟨f1, f2, f3, f4⟩ := hf.rest s hs
  obtain ⟨g1, g2, g3, g4⟩ := hg.rest s hs
  have hfs : (f s).jmap = jm := f2.trans hs
  have hgs : (g s).jmap = jm := g2.trans hs
  obtain ⟨fg1, fg2, fg3, fg4⟩ := hf.rest (g s) hgs
  obtain ⟨gf1, gf2, gf3, gf4⟩ := hg.rest (f s) hfs
  have hj : (g (f s)).joints = (f (g s)).joints := by
    apply List.ext_getElem?
    intro k
    by_cases hk : W k
    · rw [hg.writes _ k hfs (h1 k hk).2]
      refine hf.reads s (g s) hs g1.symm g2.symm g3.symm g4.symm (fun n hn => ?_) k hk
      exact (hg.writes s n hs fun hw => h2 n hw hn).symm
    · rw [hf.writes _ k hgs hk]
      by_cases hk' : W' k
      · refine hg.reads (f s) s hfs f1 f2 f3 f4 (fun n hn => ?_) k hk'
        exact hf.writes s n hs fun hw => (h1 n hw).1 hn
      · rw [hg.writes _ k hfs hk', hg.writes _ k hs hk', hf.writes _ k hs hk]
  generalize hA : g (f s) = A at gf1 gf2 gf3 gf4 hj ⊢
  generalize hB : f (g s) = B at fg1 fg2 fg3 fg4 hj ⊢
  cases A; cases B
  dsimp only at *
  subst hj
  rw [RState.mk.injEq]
  exact ⟨by rw [gf1, f1, fg1, g1], rfl, by rw [gf2, f2, fg2, g2], by rw [gf3, f3, fg3, g3]⟩

end

section
variable {F : Type} [FCmp F] [Zero F] [Add F] [Sub F] [Mul F] [iDiv : Div F] [Neg F] [FLit F] [iTrig : FTrig F]

theorem control_jmap {big : F} {es : List (CtlEv F)} (hk : ∀ e ∈ es, e.KeepsMap) {x y : RState F × List (RState F)} (h : es.foldlM (CtlEv.apply big) x = some y) :
    y.1.jmap = x.1.jmap := by
  induction es generalizing x with
  | nil => cases h; rfl
  | cons e es ih =>
    rw [List.foldlM_cons] at h
    rcases hz : e.apply big x with _ | z
    · rw [hz] at h; cases h
    · rw [hz] at h
      refine (ih (fun e he => hk e (List.mem_cons_of_mem _ he)) h).trans ?_
      cases e with
      | call f => cases hz; exact hk _ List.mem_cons_self x.1
      | begin hw =>
        obtain ⟨v, hv, rfl⟩ := Option.map_eq_some_iff.1 hz
        unfold RState.propagatePosition at hv
        obtain ⟨w, hw', e⟩ := Option.bind_eq_some_iff.1 hv
        cases e
        exact sweep_jmap (s := { x.1 with acts := hw x.1.acts }) (t := w) hw'
      | send =>
        obtain ⟨v, hv, rfl⟩ := Option.map_eq_some_iff.1 hz
        exact sweep_jmap (s := x.1.enforceSafety big) (t := v) hv

/-- **C125.**  The plain control loop ends the same, and sends the same. -/
theorem C125_loop {big : F} {x : RState F × List (RState F)} {es es' : List (CtlEv F)} (h : Shuffled x.1.jmap es es') : controlLoop big x es = controlLoop big x es' := by
  induction h with
  | refl es => rfl
  | trans _ _ ih ih' => exact ih.trans ih'
  | swap pre post f g hi hk =>
    unfold controlLoop
    rw [List.foldlM_append, List.foldlM_append]
    rcases hy : pre.foldlM (CtlEv.apply big) x with _ | y
    · rfl
    · simp only [List.foldlM_cons, CtlEv.apply, Option.bind_eq_bind, Option.bind_some]
      rw [independent_commute hi _ (control_jmap hk hy)]

/-- **C125.**  Two executions of the whole machine - with controllers loaded, scheduled and switched in any way, and whatever is published - with the same readings
and the same plugin calls but for the order of calls of plugins that do not touch each other's joints: every motor is sent the same in every cycle, and the joints
have the same commands, positions, velocities and efforts. -/
theorem C125_machine {big : F} {m m' : Bool} {d d' : RtData F} {l l' : List (Plant F × PAct F)} {p p' : Plant F}
    (h : Plant.Trace big m d (fun i => Blind i.plug) l p) (h' : Plant.Trace big m' d' (fun i => Blind i.plug) l' p') (hp : p.dead = false) (hp' : p'.dead = false)
    (hd : d'.robot = d.robot) (he : Shuffled d.robot.jmap (ctlOf big l) (ctlOf big l')) :
    List.Forall₂ (fun (r r' : CycleRec F) => r.sent.acts = r'.sent.acts ∧
      List.Forall₂ (fun j j' => j.joint = j'.joint ∧ j.position = j'.position ∧ j.velocity = j'.velocity ∧ j.measured = j'.measured ∧ j.commanded = j'.commanded ∧
        j.calibrated = j'.calibrated ∧ j.reference = j'.reference) r.sent.joints r'.sent.joints) p.cycles p'.cycles := by
  obtain ⟨s, o, h1, _, h2⟩ := C124_loop h hp
  obtain ⟨s', o', h1', _, h2'⟩ := C124_loop h' hp'
  rw [hd, ← C125_loop (x := (d.robot, [])) he, h1] at h1'
  cases h1'
  exact same_sent h2 h2'

/-- **C125, controllers.**  What a controller uses that finds its joints by name, reads some and writes another, possibly depending on what it was. -/
theorem C125_controller (reads : List String) (n : String) (law : List (Option (JState F)) → JState F → JState F) (jm : List (String × Nat)) :
    Uses jm (fun k => ∃ x ∈ n :: reads, mapFind jm x = some k) (fun k => mapFind jm n = some k) (fun s => s.onJoint n (law (reads.map s.lookup))) := by
  refine ⟨fun s _ => ?_, fun s k hj hk => ?_, fun s s' hj h1 h2 h3 h4 hr k hk => ?_⟩
  · unfold RState.onJoint
    split
    · exact ⟨rfl, rfl, rfl, by simp⟩
    · exact ⟨rfl, rfl, rfl, rfl⟩
  · unfold RState.onJoint
    split
    · rename_i i hi
      have : ¬i = k := by rintro rfl; unfold RState.getJointState at hi; rw [hj] at hi; exact hk hi
      dsimp only
      rw [List.getElem?_modify]
      simp [this]
    · rfl
  · have e : reads.map s.lookup = reads.map s'.lookup := by
      refine List.map_congr_left fun x hx => ?_
      unfold RState.lookup RState.getJointState
      rw [← h2, hj]
      rcases hx' : mapFind jm x with _ | i
      · rfl
      · exact hr i ⟨x, List.mem_cons_of_mem _ hx, hx'⟩
    have g : s'.getJointState n = s.getJointState n := by unfold RState.getJointState; rw [h2]
    have hn := hr k ⟨n, List.mem_cons_self, hk⟩
    rw [e]
    unfold RState.onJoint
    rw [g]
    split
    · dsimp only
      rw [List.getElem?_modify, List.getElem?_modify, hn]
    · exact hn

/-- **C125, controllers.**  Two controllers that find their joints by name are independent if neither writes the joint that the other reads or writes. -/
theorem C125_apart (reads reads' : List String) (n n' : String) (law law' : List (Option (JState F)) → JState F → JState F) (jm : List (String × Nat))
    (h : ∀ x ∈ n' :: reads', ∀ k, mapFind jm n = some k → mapFind jm x ≠ some k) (h' : ∀ x ∈ n :: reads, ∀ k, mapFind jm n' = some k → mapFind jm x ≠ some k) :
    Independent jm (fun s => s.onJoint n (law (reads.map s.lookup))) (fun s => s.onJoint n' (law' (reads'.map s.lookup))) :=
  ⟨_, _, _, _, C125_controller reads n law jm, C125_controller reads' n' law' jm,
    fun k hk => ⟨fun ⟨x, hx, e⟩ => h x hx k hk e, h n' List.mem_cons_self k hk⟩, fun k hk ⟨x, hx, e⟩ => h' x hx k hk e⟩

/-- **C125, controllers.**  A controller that does one thing after another (writes several joints, say) uses what the parts use. -/
theorem C125_several {jm : List (String × Nat)} {R W R' W' : Nat → Prop} {f g : RState F → RState F} (hf : Uses jm R W f) (hg : Uses jm R' W' g) :
    Uses jm (fun k => R k ∨ R' k) (fun k => W k ∨ W' k) (g ∘ f) := by
  have hj : ∀ {s : RState F}, s.jmap = jm → (f s).jmap = jm := fun {s} h => (hf.rest s h).2.1.trans h
  refine ⟨fun s h => ?_, fun s k h hk => ?_, fun s s' h h1 h2 h3 h4 hr k hk => ?_⟩
  · obtain ⟨f1, f2, f3, f4⟩ := hf.rest s h
    obtain ⟨g1, g2, g3, g4⟩ := hg.rest (f s) (hj h)
    exact ⟨g1.trans f1, g2.trans f2, g3.trans f3, g4.trans f4⟩
  · exact (hg.writes (f s) k (hj h) fun e => hk (Or.inr e)).trans (hf.writes s k h fun e => hk (Or.inl e))
  · have h' : s'.jmap = jm := h2.symm.trans h
    have hfr := hf.reads s s' h h1 h2 h3 h4 fun n hn => hr n (Or.inl hn)
    obtain ⟨f1, f2, f3, f4⟩ := hf.rest s h
    obtain ⟨g1, g2, g3, g4⟩ := hf.rest s' h'
    by_cases hk' : W' k
    · refine hg.reads (f s) (f s') (hj h) (by rw [f1, g1, h1]) (by rw [f2, g2, h2]) (by rw [f3, g3, h3]) (by rw [f4, g4, h4]) (fun n hn => ?_) k hk'
      by_cases hw : W n
      · exact hfr n hw
      · rw [hf.writes s n h hw, hf.writes s' n h' hw]
        exact hr n (Or.inr hn)
    · dsimp only [Function.comp]
      rw [hg.writes (f s) k (hj h) hk', hg.writes (f s') k (hj h') hk']
      exact hfr k (hk.resolve_right hk')

/-- **C124, controllers.**  A controller that finds its joints by name, reads some and writes another does not look at joint statistics if its law does not. -/
theorem C124_controller (reads : List String) (n : String) (law : List (Option (JState F)) → JState F → JState F)
    (hl : ∀ xs j, (law xs j).forgetStats = (law (xs.map (·.map JState.forgetStats)) j.forgetStats).forgetStats) :
    Blind (fun s => s.onJoint n (law (reads.map s.lookup))) := by
  intro s s' h
  obtain ⟨h1, h2, h3, h4⟩ := sameButStats_iff.1 h
  have hx : ∀ t : RState F, (reads.map t.lookup).map (·.map JState.forgetStats) = reads.map fun x => (mapFind t.jmap x).bind fun k => (t.joints.map JState.forgetStats)[k]? := by
    intro t
    rw [List.map_map]
    refine List.map_congr_left fun x _ => ?_
    dsimp only [Function.comp]
    unfold RState.lookup RState.getJointState
    cases mapFind t.jmap x with
    | none => rfl
    | some k => exact List.getElem?_map.symm
  have key : ∀ (t : RState F) k, (t.joints.modify k (law (reads.map t.lookup))).map JState.forgetStats =
      (t.joints.map JState.forgetStats).modify k fun j => (law ((reads.map t.lookup).map (·.map JState.forgetStats)) j).forgetStats := by
    intro t k
    apply List.ext_getElem?
    intro i
    rw [List.getElem?_map, List.getElem?_modify, List.getElem?_modify, List.getElem?_map]
    cases t.joints[i]? with
    | none => rfl
    | some j =>
      by_cases e : k = i
      · simp only [e, if_true, Option.map_some]
        exact congrArg some (hl _ j)
      · simp [e]
  have g : s'.getJointState n = s.getJointState n := by unfold RState.getJointState; rw [h3]
  dsimp only
  unfold RState.onJoint
  rw [g]
  split
  · refine sameButStats_iff.2 ⟨h1, ?_, h3, h4⟩
    dsimp only
    rw [key, key, hx, hx, h2, h3]
  · exact h

/-- A controller that does one thing after another. -/
theorem Blind.several {f g : RState F → RState F} (hf : Blind f) (hg : Blind g) : Blind (g ∘ f) := fun s s' h => hg _ _ (hf s s' h)

end

/-! ## Two springs on two joints, updated in either order -/

section demo
attribute [local instance] exactCmp demoTrig demoLit

/-- A spring on joint `n`. -/
def springAt (n : Nat) (s : RState ℚ) : RState ℚ := { s with joints := s.joints.modify n (fun j => { j with commanded := -(4 * j.position) }) }

theorem springAt_uses (n : Nat) (jm : List (String × Nat)) : Uses jm (· = n) (· = n) (springAt n) := by
  refine ⟨fun s _ => ⟨rfl, rfl, rfl, by simp [springAt]⟩, fun s k _ hk => ?_, fun s s' _ _ _ _ _ h k hk => ?_⟩
  · unfold springAt
    dsimp only
    rw [List.getElem?_modify]
    have : ¬n = k := fun e => hk e.symm
    simp [this]
  · unfold springAt
    dsimp only
    rw [List.getElem?_modify, List.getElem?_modify, h k hk]

theorem springs_independent (jm : List (String × Nat)) : Independent jm (springAt 0) (springAt 1) :=
  ⟨_, _, _, _, springAt_uses 0 jm, springAt_uses 1 jm, fun k hk => by subst hk; decide, fun k hk => by subst hk; decide⟩

theorem springAt_blind (n : Nat) : Blind (springAt n) := by
  intro s s' h
  obtain ⟨h1, h2, h3, h4⟩ := sameButStats_iff.1 h
  refine sameButStats_iff.2 ⟨h1, ?_, h3, h4⟩
  have key : ∀ l : List (JState ℚ), (l.modify n (fun j => { j with commanded := -(4 * j.position) })).map JState.forgetStats =
      (l.map JState.forgetStats).modify n (fun j => { j with commanded := -(4 * j.position) }) := by
    intro l
    apply List.ext_getElem?
    intro k
    rw [List.getElem?_map, List.getElem?_modify, List.getElem?_modify, List.getElem?_map]
    cases l[k]? with
    | none => rfl
    | some j => by_cases e : n = k <;> simp [e, JState.forgetStats]
  unfold springAt
  dsimp only
  rw [key, key, h2]

/-- C125, controllers: on this robot, two controllers that find their joints by name. -/
example : Independent twoRobot.jmap (fun s : RState ℚ => s.onJoint "elbow" (ordLaw (["elbow"].map s.lookup))) (fun s => s.onJoint "elbow2" (ordLaw (["elbow2"].map s.lookup))) := by
  refine C125_apart ["elbow"] ["elbow2"] "elbow" "elbow2" ordLaw ordLaw _ (fun x hx k hk => ?_) (fun x hx k hk => ?_)
  · cases (show some 0 = some k from hk)
    have : x = "elbow2" := by simpa using hx
    subst this
    decide
  · cases (show some 1 = some k from hk)
    have : x = "elbow" := by simpa using hx
    subst this
    decide

/-- C124, controllers: this law does not look at statistics. -/
example : Blind (fun s : RState ℚ => s.onJoint "elbow" (ordLaw (["elbow2"].map s.lookup))) := by
  refine C124_controller ["elbow2"] "elbow" ordLaw fun xs j => ?_
  rcases xs with _ | ⟨_ | _, _⟩ <;> rfl

/-- A step of either thread; a realtime step calls the first spring or the second, if it calls any. -/
inductive Tag
  | a | b | nrt
  | call (op : Op)

def twoIn (n : Nat) : PlantIn ℚ := { goodIn with plug := springAt n }

def Tag.act : Tag → PAct ℚ
  | .a => .rt (twoIn 0)
  | .b => .rt (twoIn 1)
  | .nrt => .nrt
  | .call op => .call op

/-- Steps of both threads in turn; object 1 is the spring on the second joint. -/
def drive : Nat → Plant ℚ → List Tag
  | 0, _ => []
  | n + 1, p =>
    let t := match p.mgr.rt with
      | .sweep k => if p.updated k == some 1 then Tag.b else .a
      | _ => .a
    let q := p.step 1000 t.act
    t :: .nrt :: drive n (q.step 1000 .nrt)

/-- Service calls, and what happens until the next. -/
def session : List Op → Plant ℚ → List Tag
  | [], _ => []
  | op :: ops, p =>
    let ts := .call op :: drive 36 (p.step 1000 (.call op))
    ts ++ session ops (p.runs 1000 (ts.map Tag.act))

/-- The second spring comes after the first in the execution order, or before it, depending on its name. -/
def twoOps (second : String) : List Op := [.load demoReq, .load { demoReq with name := second }, .switch ["spring", second] [] 2]
def twoInit : Plant ℚ := Plant.init false twoRt
def twoTags (second : String) : List Tag := [.a, .a, .a] ++ session (twoOps second) (twoInit.runs 1000 [.rt (twoIn 0), .rt (twoIn 0), .rt (twoIn 0)])

/-- What happens, with the calls of the second spring told from those of the first. -/
def Tag.kind (t : Tag) (e : CtlEv ℚ) : Nat :=
  match e, t with
  | .begin _, _ => 0
  | .call _, .b => 3
  | .call _, _ => 1
  | .send, _ => 2
def tagKinds (p : Plant ℚ) : List Tag → List Nat
  | [] => []
  | t :: ts => (p.ctl 1000 t.act).map t.kind ++ tagKinds (p.step 1000 t.act) ts
def ofTagKind : Nat → CtlEv ℚ
  | 0 => .begin goodIn.hw
  | 1 => .call (springAt 0)
  | 2 => .send
  | _ => .call (springAt 1)

theorem send_kind (t : Tag) (c : Prop) [Decidable c] :
    (if c then [CtlEv.send] else []) = List.map ofTagKind (List.map t.kind (if c then [CtlEv.send] else [])) := by
  split <;> cases t <;> rfl

theorem tag_kinds (ts : List Tag) (p : Plant ℚ) : ctlOf 1000 (p.trace 1000 (ts.map Tag.act)) = (tagKinds p ts).map ofTagKind := by
  induction ts generalizing p with
  | nil => rfl
  | cons t ts ih =>
    have e : ctlOf 1000 (p.trace 1000 ((t :: ts).map Tag.act)) = p.ctl 1000 t.act ++ ctlOf 1000 ((p.step 1000 t.act).trace 1000 (ts.map Tag.act)) := rfl
    rw [e, ih, tagKinds, List.map_append]
    congr 1
    unfold Plant.ctl
    split
    · rfl
    · cases t with
      | nrt => rfl
      | call op => rfl
      | a =>
        dsimp only [Tag.act]
        split
        · rfl
        · rfl
        · rw [List.map_append, List.map_append, List.map_map, List.map_map]
          congr 1
          exact send_kind .a _
      | b =>
        dsimp only [Tag.act]
        split
        · rfl
        · rfl
        · rw [List.map_append, List.map_append, List.map_map, List.map_map]
          congr 1
          exact send_kind .b _

/-- Put the second spring's call behind the first's. -/
def sortKinds : List Nat → List Nat
  | 3 :: 1 :: r => 1 :: 3 :: sortKinds r
  | k :: r => k :: sortKinds r
  | [] => []

theorem Shuffled.cons {jm : List (String × Nat)} {es es' : List (CtlEv ℚ)} (e : CtlEv ℚ) (he : e.KeepsMap) (h : Shuffled jm es es') : Shuffled jm (e :: es) (e :: es') := by
  induction h with
  | refl es => exact .refl _
  | swap pre post f g hi hk => exact .swap (e :: pre) post f g hi (by simpa using ⟨he, hk⟩)
  | trans _ _ ih ih' => exact .trans ih ih'

theorem kinds_keep (k : Nat) : (ofTagKind k).KeepsMap := by
  match k with
  | 0 => trivial
  | 1 => exact fun _ => rfl
  | 2 => trivial
  | _ + 3 => exact fun _ => rfl

theorem sort_shuffles (jm : List (String × Nat)) (ks : List Nat) : Shuffled jm ((sortKinds ks).map ofTagKind) (ks.map ofTagKind) := by
  induction ks using sortKinds.induct with
  | case1 r ih =>
    rw [sortKinds]
    refine .trans (.cons _ (kinds_keep 1) (.cons _ (kinds_keep 3) ih)) ?_
    exact .swap [] _ _ _ (springs_independent jm) (by simp)
  | case2 k r h ih =>
    rw [sortKinds]
    · exact .cons _ (kinds_keep k) ih
    · exact h
  | case3 => exact .refl _

def Tag.isRt : Tag → Bool
  | .a | .b => true
  | _ => false

/-- Service steps only once the realtime loop has begun. -/
def usedAlong (p : Plant ℚ) : List Tag → Bool
  | [] => true
  | t :: ts => (t.isRt || p.mgr.used.isSome) && usedAlong (p.step 1000 t.act) ts

theorem tag_trace (ts : List Tag) {l : List (Plant ℚ × PAct ℚ)} {p : Plant ℚ} (h : Plant.Trace 1000 false twoRt (fun i => Blind i.plug) l p)
    (hu : usedAlong p ts = true) :
    Plant.Trace 1000 false twoRt (fun i => Blind i.plug) (l ++ p.trace 1000 (ts.map Tag.act)) (p.runs 1000 (ts.map Tag.act)) := by
  induction ts generalizing l p with
  | nil => rw [List.map_nil, Plant.trace, List.append_nil]; exact h
  | cons t ts ih =>
    rw [usedAlong, Bool.and_eq_true] at hu
    have hne : p.mgr.used.isSome = true → p.mgr.used ≠ none := fun h e => by rw [e] at h; cases h
    have ha : t.act.Allowed (fun i => Blind i.plug) p := by
      cases t with
      | a => exact springAt_blind 0
      | b => exact springAt_blind 1
      | nrt => exact hne (by simpa [Tag.isRt] using hu.1)
      | call op => exact hne (by simpa [Tag.isRt] using hu.1)
    have := ih (h.step t.act ha) hu.2
    rw [List.append_assoc] at this
    exact this

theorem two_along : usedAlong twoInit (twoTags "spring2") = true ∧ usedAlong twoInit (twoTags "early") = true ∧
    sortKinds (tagKinds twoInit (twoTags "early")) = tagKinds twoInit (twoTags "spring2") ∧ tagKinds twoInit (twoTags "early") ≠ tagKinds twoInit (twoTags "spring2") ∧
    (twoInit.runs 1000 ((twoTags "early").map Tag.act)).dead = false ∧ (twoInit.runs 1000 ((twoTags "spring2").map Tag.act)).dead = false := by decide +kernel

/-- All of C125: the springs are updated in different orders, and the motors are sent the same. -/
example : (twoInit.runs 1000 ((twoTags "spring2").map Tag.act)).cycles.map (·.sent.acts) = (twoInit.runs 1000 ((twoTags "early").map Tag.act)).cycles.map (·.sent.acts) := by
  obtain ⟨u1, u2, hs, _, d2, d1⟩ := two_along
  have he : Shuffled twoRobot.jmap (ctlOf 1000 (twoInit.trace 1000 ((twoTags "spring2").map Tag.act))) (ctlOf 1000 (twoInit.trace 1000 ((twoTags "early").map Tag.act))) := by
    rw [tag_kinds, tag_kinds, ← hs]
    exact sort_shuffles _ _
  have h := C125_machine (tag_trace _ .init u1) (tag_trace _ .init u2) d1 d2 rfl he
  have key : ∀ {a b : List (CycleRec ℚ)}, List.Forall₂ (fun r r' => r.sent.acts = r'.sent.acts) a b → a.map (·.sent.acts) = b.map (·.sent.acts) := by
    intro a b h
    induction h with
    | nil => rfl
    | cons e _ ih => rw [List.map_cons, List.map_cons, e, ih]
  exact key (h.imp fun _ _ h => h.1)

example : (twoInit.runs 1000 ((twoTags "early").map Tag.act)).cycles.getLast?.map (fun r => (r.calls.map (·.ev), r.sent.acts.map (·.effort))) =
      some ([.update 1, .update 0], [-3 / 2, -3 / 2]) ∧
    (twoInit.runs 1000 ((twoTags "spring2").map Tag.act)).cycles.getLast?.map (fun r => (r.calls.map (·.ev), r.sent.acts.map (·.effort))) =
      some ([.update 0, .update 1], [-3 / 2, -3 / 2]) := by decide +kernel

/-- For controllers of the same joint the order does matter: the last one wins. -/
example : (controlLoop 1000 (twoRobot, []) [.begin id, .call (springAt 0), .call (fun s => { s with joints := s.joints.modify 0 fun j => { j with commanded := 0 } }), .send]).map
      (fun x => x.1.acts.map (·.effort)) = some [0, 0] ∧
    (controlLoop 1000 (twoRobot, []) [.begin id, .call (fun s => { s with joints := s.joints.modify 0 fun j => { j with commanded := 0 } }), .call (springAt 0), .send]).map
      (fun x => x.1.acts.map (·.effort)) = some [-3 / 2, 0] := by decide +kernel

end demo

end Pr2
