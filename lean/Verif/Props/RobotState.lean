import Verif.Props.Robot
import Verif.Lemmas.Sweep

/-! # Properties of `RobotState`: wiring (C50), halting (C51), enabling (C48), independence (C66), assertions (C67) -/

namespace Pr2

section
variable {F : Type} [FCmp F] [Zero F] [Add F] [Sub F] [Mul F] [iDiv : Div F] [Neg F] [FLit F] [iTrig : FTrig F]

/-! ## What the propagation functions touch -/

/-- The joint keeps its description, its command and its statistics. -/
def JMoved (j j' : JState F) : Prop := j'.joint = j.joint ∧ j'.commanded = j.commanded ∧ j'.stats = j.stats
/-- Only the command of the joint changes. -/
def JCommanded (j j' : JState F) : Prop := ∃ c, j' = { j with commanded := c }
/-- Only the command of the actuator changes, and it is not disabled. -/
def ACommanded (a a' : Actuator F) : Prop := ∃ e b, a' = { a with effort := e, enable := b } ∧ (a.enable = true → b = true)
/-- The actuator keeps its name, its command and whether it is halted. -/
def AMoved (a a' : Actuator F) : Prop := a'.name = a.name ∧ a'.effort = a.effort ∧ a'.enable = a.enable ∧ a'.halted = a.halted

theorem simulate_moved (c : CalSim F) (j : JState F) (a : Actuator F) : AMoved a (c.simulate j a).2 := by
  unfold CalSim.simulate
  generalize (if c.gotInfo = true then c else c.getInfo j.joint) = c'
  dsimp only
  split
  · split
    · split <;> exact ⟨rfl, rfl, rfl, rfl⟩
    · split <;> exact ⟨rfl, rfl, rfl, rfl⟩
  · exact ⟨rfl, rfl, rfl, rfl⟩

theorem position_frame {b : Body F} {as : List (Actuator F)} {js : List (JState F)} {r : Body F × List (Actuator F) × List (JState F)}
    (h : b.propagatePosition as js = some r) : r.2.1 = as ∧ List.Forall₂ JMoved js r.2.2 ∧ b.Wants as.length js.length ∧
      ∀ na nj, r.1.Wants na nj ↔ b.Wants na nj := by
  cases b with
  | simple t =>
    obtain ⟨js', hj, rfl⟩ := Option.map_eq_some_iff.1 h
    unfold SimpleT.propagatePosition at hj
    split at hj
    · cases hj; simp_all [JMoved, SimpleT.forward, Body.Wants]
    · cases hj; simp_all [JMoved, SimpleT.forward, Body.Wants, JState.passive]
    · cases hj
  | wrist t =>
    obtain ⟨js', hj, rfl⟩ := Option.map_eq_some_iff.1 h
    unfold WristT.propagatePosition at hj
    split at hj
    · cases hj; simp_all [JMoved, Body.Wants]
    · cases hj
  | gripper t =>
    obtain ⟨js', hj, rfl⟩ := Option.map_eq_some_iff.1 h
    unfold GripperT.propagatePosition at hj
    split at hj
    · rename_i a j rest
      by_cases hl : rest.length = t.passive.length + (if t.hasPassive then 2 else 1)
      · rw [if_pos hl] at hj
        cases hj
        refine ⟨rfl, .cons ⟨rfl, rfl, rfl⟩ ?_, ⟨rfl, by simp only [List.length_cons]; omega⟩, fun _ _ => Iff.rfl⟩
        conv => lhs; rw [← List.take_append_drop t.passive.length rest]
        refine List.rel_append ?_ ?_
        · rw [List.forall₂_map_right_iff]; exact List.forall₂_same.2 (fun k _ => ⟨rfl, rfl, rfl⟩)
        · rw [List.forall₂_map_right_iff]; exact List.forall₂_same.2 (fun k _ => ⟨rfl, rfl, rfl⟩)
      · rw [if_neg hl] at hj; cases hj
    · cases hj
  | belt t =>
    obtain ⟨js', hj, rfl⟩ := Option.map_eq_some_iff.1 h
    unfold BeltT.propagatePosition at hj
    split at hj
    · cases hj; simp_all [JMoved, Body.Wants]
    · cases hj

theorem effort_frame {b : Body F} {as : List (Actuator F)} {js : List (JState F)} {r : Body F × List (Actuator F) × List (JState F)}
    (h : b.propagateEffort as js = some r) : r.2.2 = js ∧ List.Forall₂ ACommanded as r.2.1 ∧ b.Wants as.length js.length ∧
      (∀ na nj, r.1.Wants na nj ↔ b.Wants na nj) ∧ ((∀ t, b ≠ .belt t) → ∀ a ∈ r.2.1, a.enable = true) := by
  cases b with
  | simple t =>
    obtain ⟨js', hj, rfl⟩ := Option.map_eq_some_iff.1 h
    unfold SimpleT.propagateEffort at hj
    split at hj
    · cases hj
      refine ⟨rfl, .cons ⟨_, _, rfl, fun _ => rfl⟩ .nil, ?_, fun _ _ => Iff.rfl, by simp⟩
      simp_all [Body.Wants]
    · cases hj
      refine ⟨rfl, .cons ⟨_, _, rfl, fun _ => rfl⟩ .nil, ?_, fun _ _ => Iff.rfl, by simp⟩
      simp_all [Body.Wants]
    · cases hj
  | wrist t =>
    obtain ⟨js', hj, rfl⟩ := Option.map_eq_some_iff.1 h
    unfold WristT.propagateEffort at hj
    split at hj
    · cases hj
      exact ⟨rfl, .cons ⟨_, _, rfl, fun _ => rfl⟩ (.cons ⟨_, _, rfl, fun _ => rfl⟩ .nil), ⟨rfl, rfl⟩, fun _ _ => Iff.rfl, by simp⟩
    · cases hj
  | gripper t =>
    obtain ⟨js', hj, rfl⟩ := Option.map_eq_some_iff.1 h
    unfold GripperT.propagateEffort at hj
    split at hj
    · rename_i a j rest
      by_cases hl : rest.length = t.passive.length + (if t.hasPassive then 2 else 1)
      · rw [if_pos hl] at hj
        cases hj
        exact ⟨rfl, .cons ⟨_, _, rfl, fun _ => rfl⟩ .nil, ⟨rfl, by simp only [List.length_cons]; omega⟩, fun _ _ => Iff.rfl, by simp⟩
      · rw [if_neg hl] at hj; cases hj
    · cases hj
  | belt t =>
    obtain ⟨js', hj, rfl⟩ := Option.map_eq_some_iff.1 h
    unfold BeltT.propagateEffort at hj
    split at hj
    · cases hj
      exact ⟨rfl, .cons ⟨_, _, rfl, id⟩ .nil, ⟨rfl, rfl⟩, fun _ _ => Iff.rfl, fun h => (h t rfl).elim⟩
    · cases hj

theorem positionBackwards_frame {e : SimEnv} {b : Body F} {as : List (Actuator F)} {js : List (JState F)}
    {r : Body F × List (Actuator F) × List (JState F)} (h : b.propagatePositionBackwards e as js = some r) :
    r.2.2 = js ∧ List.Forall₂ AMoved as r.2.1 ∧ ∀ na nj, r.1.Wants na nj ↔ b.Wants na nj := by
  cases b with
  | simple t =>
    obtain ⟨js', hj, rfl⟩ := Option.map_eq_some_iff.1 h
    unfold SimpleT.propagatePositionBackwards at hj
    split at hj
    · cases hj
      exact ⟨rfl, .cons (simulate_moved _ _ _) .nil, fun _ _ => Iff.rfl⟩
    · cases hj
      exact ⟨rfl, .cons (simulate_moved _ _ _) .nil, fun _ _ => Iff.rfl⟩
    · cases hj
  | wrist t =>
    obtain ⟨js', hj, rfl⟩ := Option.map_eq_some_iff.1 h
    unfold WristT.propagatePositionBackwards at hj
    split at hj
    · cases hj
      exact ⟨rfl, .cons (simulate_moved _ _ _) (.cons (simulate_moved _ _ _) .nil), fun _ _ => Iff.rfl⟩
    · cases hj
  | gripper t =>
    obtain ⟨js', hj, rfl⟩ := Option.map_eq_some_iff.1 h
    unfold GripperT.propagatePositionBackwards at hj
    split at hj
    · rename_i a j rest
      by_cases hl : rest.length = (if t.hasPassive then t.passive.length + 2 else 0)
      · rw [if_pos hl] at hj
        cases hj
        exact ⟨rfl, .cons (simulate_moved _ _ _) .nil, fun _ _ => Iff.rfl⟩
      · rw [if_neg hl] at hj; cases hj
    · cases hj
  | belt t =>
    obtain ⟨js', hj, rfl⟩ := Option.map_eq_some_iff.1 h
    unfold BeltT.propagatePositionBackwards at hj
    split at hj
    · cases hj
      exact ⟨rfl, .cons (simulate_moved _ _ _) .nil, fun _ _ => Iff.rfl⟩
    · cases hj

theorem effortBackwards_frame {b : Body F} {as : List (Actuator F)} {js : List (JState F)} {r : Body F × List (Actuator F) × List (JState F)}
    (h : b.propagateEffortBackwards as js = some r) : r.2.1 = as ∧ List.Forall₂ JCommanded js r.2.2 ∧
      ∀ na nj, r.1.Wants na nj ↔ b.Wants na nj := by
  have same : ∀ js : List (JState F), List.Forall₂ JCommanded js js := fun js => List.forall₂_same.2 (fun j _ => ⟨j.commanded, rfl⟩)
  cases b with
  | simple t =>
    obtain ⟨js', hj, rfl⟩ := Option.map_eq_some_iff.1 h
    unfold SimpleT.propagateEffortBackwards at hj
    split at hj
    · cases hj; exact ⟨rfl, .cons ⟨_, rfl⟩ .nil, fun _ _ => Iff.rfl⟩
    · cases hj; exact ⟨rfl, .cons ⟨_, rfl⟩ (.cons ⟨_, rfl⟩ .nil), fun _ _ => Iff.rfl⟩
    · cases hj
  | wrist t =>
    obtain ⟨js', hj, rfl⟩ := Option.map_eq_some_iff.1 h
    unfold WristT.propagateEffortBackwards at hj
    split at hj
    · cases hj; exact ⟨rfl, .cons ⟨_, rfl⟩ (.cons ⟨_, rfl⟩ .nil), fun _ _ => Iff.rfl⟩
    · cases hj
  | gripper t =>
    obtain ⟨js', hj, rfl⟩ := Option.map_eq_some_iff.1 h
    unfold GripperT.propagateEffortBackwards at hj
    split at hj
    · rename_i a j rest
      split at hj
      · cases hj
        refine ⟨rfl, .cons ⟨_, rfl⟩ ?_, fun _ _ => Iff.rfl⟩
        have : ∀ (l : List (JState F)) (n : Nat) (g : JState F → JState F), (∀ k, JCommanded k (g k)) → List.Forall₂ JCommanded l (l.modify n g) := by
          intro l
          induction l with
          | nil => intro n g _; cases n <;> exact .nil
          | cons k l ih =>
            intro n g hg
            cases n with
            | zero => exact .cons (hg k) (same l)
            | succ n => simp only [List.modify_succ_cons]; exact .cons ⟨_, rfl⟩ (ih n g hg)
        exact this _ _ _ (fun k => ⟨_, rfl⟩)
      · cases hj
    · cases hj
  | belt t =>
    obtain ⟨js', hj, rfl⟩ := Option.map_eq_some_iff.1 h
    unfold BeltT.propagateEffortBackwards at hj
    split at hj
    · cases hj; exact ⟨rfl, .cons ⟨_, rfl⟩ .nil, fun _ _ => Iff.rfl⟩
    · cases hj

theorem position_wants {b : Body F} {as : List (Actuator F)} {js : List (JState F)} (h : b.Wants as.length js.length) :
    (b.propagatePosition as js).isSome := by
  cases b with
  | simple t =>
    obtain ⟨h1, h2⟩ := h
    obtain ⟨a, rfl⟩ := List.length_eq_one_iff.1 h1
    unfold Body.propagatePosition SimpleT.propagatePosition
    dsimp only
    cases hu : t.useSim
    · rw [hu] at h2
      obtain ⟨j, rfl⟩ := List.length_eq_one_iff.1 h2
      rfl
    · rw [hu] at h2
      obtain ⟨j, k, rfl⟩ := List.length_eq_two.1 h2
      rfl
  | wrist t =>
    obtain ⟨h1, h2⟩ := h
    obtain ⟨a, a', rfl⟩ := List.length_eq_two.1 h1
    obtain ⟨j, k, rfl⟩ := List.length_eq_two.1 h2
    rfl
  | gripper t =>
    obtain ⟨h1, h2⟩ := h
    obtain ⟨a, rfl⟩ := List.length_eq_one_iff.1 h1
    cases js with
    | nil => simp at h2; omega
    | cons j rest =>
      simp only [List.length_cons] at h2
      have hl : rest.length = t.passive.length + (if t.hasPassive then 2 else 1) := by omega
      unfold Body.propagatePosition GripperT.propagatePosition
      dsimp only
      rw [if_pos hl]; rfl
  | belt t =>
    obtain ⟨h1, h2⟩ := h
    obtain ⟨a, rfl⟩ := List.length_eq_one_iff.1 h1
    obtain ⟨j, rfl⟩ := List.length_eq_one_iff.1 h2
    rfl

theorem effort_wants {b : Body F} {as : List (Actuator F)} {js : List (JState F)} (h : b.Wants as.length js.length) :
    (b.propagateEffort as js).isSome := by
  cases b with
  | simple t =>
    obtain ⟨h1, h2⟩ := h
    obtain ⟨a, rfl⟩ := List.length_eq_one_iff.1 h1
    unfold Body.propagateEffort SimpleT.propagateEffort
    dsimp only
    cases hu : t.useSim
    · rw [hu] at h2
      obtain ⟨j, rfl⟩ := List.length_eq_one_iff.1 h2
      rfl
    · rw [hu] at h2
      obtain ⟨j, k, rfl⟩ := List.length_eq_two.1 h2
      rfl
  | wrist t =>
    obtain ⟨h1, h2⟩ := h
    obtain ⟨a, a', rfl⟩ := List.length_eq_two.1 h1
    obtain ⟨j, k, rfl⟩ := List.length_eq_two.1 h2
    rfl
  | gripper t =>
    obtain ⟨h1, h2⟩ := h
    obtain ⟨a, rfl⟩ := List.length_eq_one_iff.1 h1
    cases js with
    | nil => simp at h2; omega
    | cons j rest =>
      simp only [List.length_cons] at h2
      have hl : rest.length = t.passive.length + (if t.hasPassive then 2 else 1) := by omega
      unfold Body.propagateEffort GripperT.propagateEffort
      dsimp only
      rw [if_pos hl]; rfl
  | belt t =>
    obtain ⟨h1, h2⟩ := h
    obtain ⟨a, rfl⟩ := List.length_eq_one_iff.1 h1
    obtain ⟨j, rfl⟩ := List.length_eq_one_iff.1 h2
    rfl

/-! ## Wiring -/

/-- The robot state is connected by name: transmission's `i`-th actuator is the first actuator of that name, its `i`-th joint state is the
joint state with that position among all joint names.  Every transmission gets as many actuators and joints as its assertions ask for. -/
structure RState.Ready (s : RState F) : Prop where
  wired : Wired s.conns s.acts.length s.joints.length
  named : ∀ c ∈ s.conns, List.Forall₂ (fun n i => s.acts.findIdx? (fun a => a.name == n) = some i) c.trans.actNames c.ins
  wants : ∀ c ∈ s.conns, c.trans.body.Wants c.ins.length c.outs.length

end

section
variable {F : Type}

theorem wireIns_spec {acts : List (Actuator F)} {t : Trans F} {ins : List Nat} (h : wireIns acts t = some ins) :
    List.Forall₂ (fun n i => acts.findIdx? (fun a => a.name == n) = some i) t.actNames ins := by
  unfold wireIns at h
  generalize t.actNames = ns at h
  induction ns generalizing ins with
  | nil => simp at h; subst h; exact .nil
  | cons n ns ih =>
    rw [List.mapM_cons] at h
    rcases hn : acts.findIdx? (fun a => a.name == n) with _ | i
    · rw [hn] at h; cases h
    · rcases hr : ns.mapM (fun n => acts.findIdx? (fun a => a.name == n)) with _ | is
      · rw [hn, hr] at h; cases h
      · rw [hn, hr] at h; cases h
        exact .cons hn (ih hr)

theorem wireIns_some {acts : List (Actuator F)} {t : Trans F} (h : ∀ n ∈ t.actNames, EnabledAct acts n) : (wireIns acts t).isSome := by
  unfold wireIns
  generalize t.actNames = ns at h
  induction ns with
  | nil => simp
  | cons n ns ih =>
    rw [List.mapM_cons]
    obtain ⟨a, ha, _⟩ := h n (by simp)
    have h1 : (acts.findIdx? (fun a => a.name == n)).isSome := by
      rw [List.findIdx?_isSome]
      have := List.find?_some ha
      exact List.any_eq_true.2 ⟨a, List.mem_of_find?_eq_some ha, this⟩
    obtain ⟨i, hi⟩ := Option.isSome_iff_exists.1 h1
    obtain ⟨is, his⟩ := Option.isSome_iff_exists.1 (ih (fun m hm => h m (by simp [hm])))
    rw [hi, his]; rfl

theorem wire_spec {acts : List (Actuator F)} {ts : List (Trans F)} {id : Nat} {conns : List (Conn F)} (h : wire acts id ts = some conns) :
    conns.map (·.trans) = ts ∧ (∀ c ∈ conns, wireIns acts c.trans = some c.ins) ∧
    conns.flatMap (·.outs) = List.range' id (allJointNames ts).length ∧
    ∀ k c, conns[k]? = some c → c.outs = List.range' (id + (allJointNames (ts.take k)).length) c.trans.jointNames.length := by
  induction ts generalizing id conns with
  | nil => cases h; exact ⟨rfl, by simp, by simp [allJointNames], by simp⟩
  | cons t ts ih =>
    unfold wire at h
    rcases hi : wireIns acts t with _ | ins
    · rw [hi] at h; cases h
    rcases hr : wire acts (id + t.jointNames.length) ts with _ | rest
    · rw [hi, hr] at h; cases h
    rw [hi, hr] at h; cases h
    obtain ⟨h1, h2, h3, h4⟩ := ih hr
    refine ⟨by simp [h1], ?_, ?_, ?_⟩
    · intro c hc
      rcases List.mem_cons.1 hc with rfl | hc
      · exact hi
      · exact h2 c hc
    · simp only [List.flatMap_cons, h3, allJointNames, List.length_append]
      rw [← List.range'_append_1]
    · intro k c hc
      cases k with
      | zero => simp at hc; subst hc; simp [allJointNames]
      | succ k =>
        have := h4 k c (by simpa using hc)
        rw [this]
        simp [allJointNames, Nat.add_assoc]

theorem wire_some {acts : List (Actuator F)} {ts : List (Trans F)} (id : Nat) (h : ∀ t ∈ ts, ∀ n ∈ t.actNames, EnabledAct acts n) :
    (wire acts id ts).isSome := by
  induction ts generalizing id with
  | nil => rfl
  | cons t ts ih =>
    unfold wire
    obtain ⟨i, hi⟩ := Option.isSome_iff_exists.1 (wireIns_some (h t (by simp)))
    obtain ⟨r, hr⟩ := Option.isSome_iff_exists.1 (ih (id + t.jointNames.length) (fun t ht => h t (by simp [ht])))
    rw [hi, hr]; rfl

theorem mapM_spec {α β : Type} (f : α → Option β) (l : List α) (r : List β) (h : l.mapM f = some r) :
    List.Forall₂ (fun a b => f a = some b) l r := by
  induction l generalizing r with
  | nil => simp at h; subst h; exact .nil
  | cons a l ih =>
    rw [List.mapM_cons] at h
    rcases ha : f a with _ | b
    · rw [ha] at h; cases h
    · rcases hl : l.mapM f with _ | bs
      · rw [ha, hl] at h; cases h
      · rw [ha, hl] at h; cases h
        exact .cons ha (ih bs hl)

theorem mapM_some {α β : Type} (f : α → Option β) (l : List α) (h : ∀ a ∈ l, ∃ b, f a = some b) : (l.mapM f).isSome := by
  induction l with
  | nil => simp
  | cons a l ih =>
    rw [List.mapM_cons]
    obtain ⟨b, hb⟩ := h a (by simp)
    obtain ⟨bs, hbs⟩ := Option.isSome_iff_exists.1 (ih (fun c hc => h c (by simp [hc])))
    rw [hb, hbs]; rfl

theorem mk'_inv [Zero F] {ts : List (Trans F)} {joint : String → Option (UJoint F)} {acts : List (Actuator F)} {old : Nat → F} {s : RState F}
    (h : RState.mk' ts joint acts old = some s) : ∃ js, wire acts 0 ts = some s.conns ∧ List.Forall₂ (fun n u => joint n = some u) (allJointNames ts) js ∧
      s.joints = js.mapIdx (fun i j => JState.fresh j (old i)) ∧ s.jmap = wireMap 0 (allJointNames ts) [] ∧ s.acts = acts := by
  unfold RState.mk' at h
  rcases hw : wire acts 0 ts with _ | conns
  · rw [hw] at h; cases h
  rcases hj : (allJointNames ts).mapM joint with _ | js
  · rw [hw, hj] at h; cases h
  rw [hw, hj] at h; cases h
  exact ⟨js, rfl, mapM_spec _ _ _ hj, rfl, rfl, rfl⟩

theorem mapFind_set (m : List (String × Nat)) (n n' : String) (i : Nat) :
    mapFind (mapSet m n i) n' = if n' = n then some i else mapFind m n' := by
  unfold mapFind mapSet
  by_cases h : n' = n
  · subst h; simp
  · have h1 : (n == n') = false := by simpa using Ne.symm h
    rw [if_neg h, List.find?_cons, h1]
    dsimp only
    congr 1
    induction m with
    | nil => rfl
    | cons p m ih =>
      rw [List.filter_cons]
      by_cases hp : p.1 = n
      · have : (p.1 == n') = false := by rw [hp]; exact h1
        simp [hp, List.find?_cons, h1, ih]
      · have : (p.1 != n) = true := by simpa using hp
        rw [if_pos this, List.find?_cons, List.find?_cons, ih]

theorem wireMap_spec (ns : List String) (id : Nat) (m : List (String × Nat)) (n : String) (i : Nat) :
    mapFind (wireMap id ns m) n = some i ↔
      (∃ k, i = id + k ∧ ns[k]? = some n ∧ ∀ k', k < k' → ns[k']? ≠ some n) ∨ (n ∉ ns ∧ mapFind m n = some i) := by
  induction ns generalizing id m with
  | nil => simp [wireMap]
  | cons a ns ih =>
    rw [wireMap, ih, mapFind_set]
    constructor
    · rintro (⟨k, rfl, hk, hl⟩ | ⟨hn, h⟩)
      · refine Or.inl ⟨k + 1, by omega, by simpa using hk, ?_⟩
        intro k' hk'
        cases k' with
        | zero => omega
        | succ k' => simpa using hl k' (by omega)
      · by_cases hna : n = a
        · subst hna
          rw [if_pos rfl] at h
          cases h
          refine Or.inl ⟨0, rfl, rfl, ?_⟩
          intro k' hk'
          cases k' with
          | zero => omega
          | succ k' => intro hc; exact hn (List.mem_of_getElem? (by simpa using hc))
        · rw [if_neg hna] at h
          exact Or.inr ⟨by simp [hna, hn], h⟩
    · rintro (⟨k, rfl, hk, hl⟩ | ⟨hn, h⟩)
      · cases k with
        | zero =>
          have hna : a = n := by simpa using hk
          refine Or.inr ⟨?_, by simp [hna]⟩
          intro hm
          obtain ⟨k', hk'⟩ := List.mem_iff_getElem?.1 hm
          exact hl (k' + 1) (by omega) (by simpa using hk')
        | succ k =>
          refine Or.inl ⟨k, by omega, by simpa using hk, ?_⟩
          intro k' hk'
          simpa using hl (k' + 1) (by omega)
      · simp only [List.mem_cons, not_or] at hn
        exact Or.inr ⟨hn.2, by rw [if_neg hn.1]; exact h⟩

/-- **C50.**  One joint state per joint name of each transmission, in order, each describing the joint of that name. -/
theorem C50_joint_states [Zero F] {ts : List (Trans F)} {joint : String → Option (UJoint F)} {acts : List (Actuator F)} {old : Nat → F} {s : RState F}
    (h : RState.mk' ts joint acts old = some s) :
    List.Forall₂ (fun n (j : JState F) => joint n = some j.joint ∧ j.position = 0 ∧ j.velocity = 0 ∧ j.measured = 0 ∧ j.commanded = 0 ∧ j.calibrated = false)
      (ts.flatMap (·.jointNames)) s.joints := by
  obtain ⟨js, _, hj, hs, _, _⟩ := mk'_inv h
  rw [hs]
  unfold allJointNames at hj
  rw [List.forall₂_iff_get] at hj ⊢
  obtain ⟨hl, hj⟩ := hj
  refine ⟨by rw [List.length_mapIdx]; exact hl, fun i h1 h2 => ?_⟩
  have := hj i h1 (by rw [List.length_mapIdx] at h2; exact h2)
  simp only [List.get_eq_getElem, List.getElem_mapIdx] at this ⊢
  exact ⟨this, rfl, rfl, rfl, rfl, rfl⟩

/-- **C50.**  Looking up a joint by name finds the last joint state of that name; unknown names give NULL. -/
theorem C50_lookup [Zero F] {ts : List (Trans F)} {joint : String → Option (UJoint F)} {acts : List (Actuator F)} {old : Nat → F} {s : RState F}
    (h : RState.mk' ts joint acts old = some s) (n : String) (i : Nat) :
    s.getJointState n = some i ↔ (ts.flatMap (·.jointNames))[i]? = some n ∧ ∀ k, i < k → (ts.flatMap (·.jointNames))[k]? ≠ some n := by
  obtain ⟨js, _, _, _, hm, _⟩ := mk'_inv h
  unfold RState.getJointState
  rw [hm, wireMap_spec]
  unfold allJointNames
  simp [mapFind]

theorem C50_lookup_null [Zero F] {ts : List (Trans F)} {joint : String → Option (UJoint F)} {acts : List (Actuator F)} {old : Nat → F} {s : RState F}
    (h : RState.mk' ts joint acts old = some s) (n : String) : s.getJointState n = none ↔ ∀ t ∈ ts, n ∉ t.jointNames := by
  have key : s.getJointState n = none ↔ n ∉ ts.flatMap (·.jointNames) := by
    constructor
    · intro hn hm
      -- the last occurrence
      obtain ⟨k0, hk0⟩ := List.mem_iff_getElem?.1 hm
      have hex : ∃ k : Nat, (ts.flatMap (·.jointNames))[k]? = some n ∧ ∀ k' : Nat, k < k' → (ts.flatMap (·.jointNames))[k']? ≠ some n := by
        generalize ts.flatMap (·.jointNames) = l at hk0 hm
        clear hk0
        induction l with
        | nil => simp at hm
        | cons a l ih =>
          by_cases hl : n ∈ l
          · obtain ⟨k, h1, h2⟩ := ih hl
            refine ⟨k + 1, by simpa using h1, fun k' hk' => ?_⟩
            cases k' with
            | zero => omega
            | succ k' => simpa using h2 k' (by omega)
          · rcases List.mem_cons.1 hm with rfl | hm
            · refine ⟨0, rfl, fun k' hk' => ?_⟩
              cases k' with
              | zero => omega
              | succ k' => intro hc; exact hl (List.mem_of_getElem? (by simpa using hc))
            · exact (hl hm).elim
      obtain ⟨k, hk⟩ := hex
      rw [(C50_lookup h n k).2 hk] at hn
      cases hn
    · intro hn
      rcases hs : s.getJointState n with _ | i
      · rfl
      · exact (hn (List.mem_of_getElem? ((C50_lookup h n i).1 hs).1)).elim
  rw [key, List.mem_flatMap]
  simp

/-- **C50.**  Transmission `k` is connected to the actuators it names and to its own joint states: those that follow the joint states
of the transmissions before it. -/
theorem C50_wiring [Zero F] {ts : List (Trans F)} {joint : String → Option (UJoint F)} {acts : List (Actuator F)} {old : Nat → F} {s : RState F}
    (h : RState.mk' ts joint acts old = some s) (k : Nat) (t : Trans F) (ht : ts[k]? = some t) :
    ∃ c, s.conns[k]? = some c ∧ c.trans = t ∧
      (gather s.acts c.ins).map (·.name) = t.actNames ∧
      c.outs = List.range' ((ts.take k).flatMap (·.jointNames)).length t.jointNames.length ∧
      (gather s.joints c.outs).map (fun j => some j.joint) = t.jointNames.map joint := by
  obtain ⟨js, hw, hj, hs, _, ha⟩ := mk'_inv h
  obtain ⟨w1, w2, w3, w4⟩ := wire_spec hw
  have hk : (s.conns.map (·.trans))[k]? = some t := by rw [w1]; exact ht
  rw [List.getElem?_map] at hk
  rcases hc : s.conns[k]? with _ | c
  · rw [hc] at hk; cases hk
  rw [hc] at hk
  have hct : c.trans = t := by simpa using hk
  refine ⟨c, rfl, hct, ?_, ?_, ?_⟩
  · have := wireIns_spec (w2 c (List.mem_of_getElem? hc))
    rw [hct] at this
    rw [ha]
    unfold gather
    generalize t.actNames = ns at this
    generalize c.ins = is at this
    induction this with
    | nil => rfl
    | @cons n i _ _ hn _ ih =>
      obtain ⟨hlt, hp, _⟩ := List.findIdx?_eq_some_iff_getElem.1 hn
      rw [List.filterMap_cons, List.getElem?_eq_getElem hlt]
      simp only [List.map_cons, ih]
      simpa using hp
  · have := w4 k c hc
    rw [this, hct, Nat.zero_add]; rfl
  · have := w4 k c hc
    rw [this, hct, Nat.zero_add]
    have hsplit : allJointNames ts = allJointNames (ts.take k) ++ t.jointNames ++ allJointNames (ts.drop (k + 1)) := by
      obtain ⟨hlt, hget⟩ := List.getElem?_eq_some_iff.1 ht
      have : ts = ts.take k ++ t :: ts.drop (k + 1) := by
        conv => lhs; rw [← List.take_append_drop k ts, List.drop_eq_getElem_cons hlt, hget]
      conv => lhs; rw [this]
      simp [allJointNames]
    have hjs := C50_joint_states h
    change List.Forall₂ _ (allJointNames ts) s.joints at hjs
    rw [hsplit] at hjs
    generalize allJointNames (ts.take k) = pre at hjs
    generalize allJointNames (ts.drop (k + 1)) = post at hjs
    generalize t.jointNames = ns at hjs
    rw [List.append_assoc] at hjs
    obtain ⟨p, q, hp, hq, e⟩ := forall2_append_left hjs
    obtain ⟨q1, q2, hq1, _, e2⟩ := forall2_append_left hq
    have hpl := List.Forall₂.length_eq hp
    rw [e, e2]
    clear hjs hq e e2 hw hj hs w1 w2 w3 w4 hk ht
    have hgather : gather (p ++ (q1 ++ q2)) (List.range' pre.length ns.length) = q1 := by
      rw [hpl, List.Forall₂.length_eq hq1]
      clear hp hq1 hpl
      induction q1 generalizing p with
      | nil => rfl
      | cons x q1 ih =>
        rw [List.length_cons, List.range'_succ]
        have := gather_cons (p ++ (x :: q1 ++ q2)) p.length (List.range' (p.length + 1) q1.length) (by simp)
        rw [this]
        have h2 := ih (p ++ [x])
        simp only [List.length_append, List.length_singleton, List.append_assoc, List.singleton_append] at h2
        simp only [List.cons_append] at h2 ⊢
        rw [h2]
        simp
    rw [hgather]
    clear hp hpl hgather
    induction hq1 with
    | nil => rfl
    | cons h _ ih => simp [ih, h.1]
where
  forall2_append_left {α β : Type} {R : α → β → Prop} {l₁ l₂ : List α} {r : List β} (h : List.Forall₂ R (l₁ ++ l₂) r) :
      ∃ r₁ r₂, List.Forall₂ R l₁ r₁ ∧ List.Forall₂ R l₂ r₂ ∧ r = r₁ ++ r₂ := by
    induction l₁ generalizing r with
    | nil => exact ⟨[], r, .nil, h, rfl⟩
    | cons a l ih =>
      cases h with
      | cons h t =>
        obtain ⟨r₁, r₂, h1, h2, e⟩ := ih t
        exact ⟨_ :: r₁, r₂, .cons h h1, h2, by simp [e]⟩

/-- **C50.**  No joint state belongs to two transmissions, and each belongs to one. -/
theorem C50_partition [Zero F] {ts : List (Trans F)} {joint : String → Option (UJoint F)} {acts : List (Actuator F)} {old : Nat → F} {s : RState F}
    (h : RState.mk' ts joint acts old = some s) : s.conns.flatMap (·.outs) = List.range s.joints.length := by
  obtain ⟨js, hw, hj, hs, _, _⟩ := mk'_inv h
  obtain ⟨_, _, w3, _⟩ := wire_spec hw
  rw [w3, List.Forall₂.length_eq hj, hs, List.length_mapIdx, List.range_eq_range']

end

section
variable {F : Type} [FCmp F] [Zero F] [Add F] [Sub F] [Mul F] [iDiv : Div F] [Neg F] [FLit F] [iTrig : FTrig F]

theorem named_lengths {s : RState F} (h : s.Ready) {c : Conn F} (hc : c ∈ s.conns) : c.ins.length = c.trans.actNames.length :=
  (List.Forall₂.length_eq (h.named c hc)).symm

/-! ## C67: assertions -/

/-- **C67.**  The robot state can be constructed for every robot that `Robot::initXml` accepted, whatever its description. -/
theorem C67_constructs [Parse F] (l : TransLoader F) (urdf : Xml → Option (String → Option (UJoint F))) (root : Xml) (acts acts' : List (Actuator F))
    (hw : Bool) (ts : List (Trans F)) (h : Robot.initXml hw urdf l root acts = (acts', .ok ts)) (old : Nat → F) :
    ∃ joint s, urdf root = some joint ∧ RState.mk' ts joint acts' old = some s := by
  obtain ⟨joint, hu, h⟩ := init_run h
  have hok := loop_ok l joint _ 0 acts acts' ts h
  obtain ⟨conns, hc⟩ := Option.isSome_iff_exists.1 (wire_some (acts := acts') (ts := ts) 0 (fun t ht => (hok t ht).1.enabled))
  have hj : ((allJointNames ts).mapM joint).isSome := mapM_some _ _ (fun n hn => by
    obtain ⟨t, ht, hnt⟩ := List.mem_flatMap.1 hn
    exact (hok t ht).1.joints n hnt)
  obtain ⟨js, hjs⟩ := Option.isSome_iff_exists.1 hj
  have : (RState.mk' ts joint acts' old).isSome := by unfold RState.mk'; rw [hc, hjs]; rfl
  obtain ⟨s, hs⟩ := Option.isSome_iff_exists.1 this
  exact ⟨joint, s, hu, hs⟩

/-- **C67.**  If each simple transmission has at most one simulated joint and each gripper has one gap joint and one simulated joint, the robot
state is ready: every transmission has as many actuators and joints as its assertions ask for. -/
theorem C67_ready [Parse F] (l : TransLoader F) (urdf : Xml → Option (String → Option (UJoint F))) (root : Xml) (acts acts' : List (Actuator F))
    (hw : Bool) (ts : List (Trans F)) (h : Robot.initXml hw urdf l root acts = (acts', .ok ts)) (old : Nat → F)
    (hl : l.WellDescribed (root.all "transmission")) (joint : String → Option (UJoint F)) (s : RState F) (hu : urdf root = some joint)
    (hs : RState.mk' ts joint acts' old = some s) : s.Ready := by
  obtain ⟨joint', hu', h⟩ := init_run h
  rw [hu] at hu'; cases hu'
  have hok := loop_ok l joint _ 0 acts acts' ts h
  obtain ⟨js, hwire, hj, hjs, _, ha⟩ := mk'_inv hs
  obtain ⟨w1, w2, w3, w4⟩ := wire_spec hwire
  have hjl : s.joints.length = (allJointNames ts).length := by rw [hjs, List.length_mapIdx]; exact (List.Forall₂.length_eq hj).symm
  have hnamed : ∀ c ∈ s.conns, List.Forall₂ (fun n i => s.acts.findIdx? (fun a => a.name == n) = some i) c.trans.actNames c.ins := by
    intro c hc; rw [ha]; exact wireIns_spec (w2 c hc)
  refine ⟨⟨?_, ?_, ?_⟩, hnamed, ?_⟩
  · intro c hc i hi
    have hn := hnamed c hc
    rw [List.forall₂_iff_get] at hn
    obtain ⟨e, hn⟩ := hn
    obtain ⟨p, hp, rfl⟩ := List.getElem_of_mem hi
    have := hn p (by rw [e]; exact hp) hp
    exact (List.findIdx?_eq_some_iff_getElem.1 this).1
  · intro c hc i hi
    have : i ∈ s.conns.flatMap (·.outs) := List.mem_flatMap.2 ⟨c, hc, hi⟩
    rw [w3] at this
    rw [hjl]; simpa using this
  · rw [w3]; exact List.nodup_range'
  · intro c hc
    obtain ⟨k, hk⟩ := List.mem_iff_getElem?.1 hc
    have ho := w4 k c hk
    have hct : c.trans ∈ ts := by rw [← w1]; exact List.mem_map.2 ⟨c, hc, rfl⟩
    have := (hok c.trans hct).2 (fun i x ty cls b hi ht hp hc hb => hl i x ty cls b hi ht hp hc (by simpa using hb))
    rw [← (List.Forall₂.length_eq (hnamed c hc)), ho, List.length_range']
    exact this

theorem Ready.sweep {s s' : RState F} (h : s.Ready) (f : Prop' F) (hw : ∀ b as js r, f b as js = some r → ∀ na nj, r.1.Wants na nj ↔ b.Wants na nj)
    (hn : ∀ b as js r, f b as js = some r → List.Forall₂ (fun a a' => a'.name = a.name) as r.2.1)
    (hs : s.sweep f = some s') : s'.Ready := by
  unfold RState.sweep at hs
  rcases hr : Pr2.sweep f s.conns s.acts s.joints with _ | ⟨conns', as', js'⟩
  · rw [hr] at hs; cases hs
  rw [hr] at hs; cases hs
  obtain ⟨c1, c2, c3⟩ := sweep_conns f _ _ _ hr
  have names := sweep_rel_acts f (fun a a' => a'.name = a.name) (fun _ => rfl) (fun _ _ _ h k => k.trans h) hn s.conns s.acts s.joints h.wired.ins hr
  have hnames : as'.map (·.name) = s.acts.map (·.name) := by
    clear hr c1 c2 c3
    generalize s.acts = l at names
    induction names with
    | nil => rfl
    | cons e _ ih => simp [e, ih]
  refine ⟨?_, ?_, ?_⟩
  · have := h.wired.of_conns c1
    rw [← c2, ← c3] at this; exact this
  · intro c' hc'
    obtain ⟨c, hc, b, rfl⟩ := forall2_right c1 hc'
    have := h.named c hc
    refine this.imp (fun n i hi => ?_)
    rw [← hi]
    exact findIdx_names _ _ _ hnames
  · intro c' hc'
    obtain ⟨c, hc, as1, js1, r, hfr, rfl⟩ := forall2_right (sweep_bodies f _ _ _ hr) hc'
    exact (hw _ _ _ _ hfr _ _).2 (h.wants c hc)
where
  forall2_right {α β : Type} {R : α → β → Prop} {l : List α} {l' : List β} (h : List.Forall₂ R l l') {b : β} (hb : b ∈ l') : ∃ a ∈ l, R a b := by
    induction h with
    | nil => simp at hb
    | cons h _ ih =>
      rcases List.mem_cons.1 hb with rfl | hb
      · exact ⟨_, by simp, h⟩
      · obtain ⟨a, ha, r⟩ := ih hb
        exact ⟨a, by simp [ha], r⟩

theorem same_names_of_frame {R : Actuator F → Actuator F → Prop} (hR : ∀ a a', R a a' → a'.name = a.name) {l l' : List (Actuator F)}
    (h : List.Forall₂ R l l') : List.Forall₂ (fun a a' => a'.name = a.name) l l' := h.imp (fun a a' h => hR a a' h)

theorem RState.Ready.joints_congr {s : RState F} (h : s.Ready) (js : List (JState F)) (hl : js.length = s.joints.length) : ({ s with joints := js } : RState F).Ready :=
  ⟨by have := h.wired; rw [← hl] at this; exact this, h.named, h.wants⟩

/-- **C67.**  No assertion fails in the propagation of a ready robot state's positions, and it stays ready. -/
theorem C67_position_never_aborts (s : RState F) (h : s.Ready) : ∃ s', s.propagatePosition = some s' ∧ s'.Ready := by
  obtain ⟨r, hr⟩ := Option.isSome_iff_exists.1
    (sweep_some Body.propagatePosition (fun b as js hw => position_wants hw) s.conns s.acts s.joints h.wired.ins h.wired.outs h.wants)
  obtain ⟨c, a, j⟩ := r
  have hs : s.sweep Body.propagatePosition = some { s with conns := c, acts := a, joints := j } := by unfold RState.sweep; rw [hr]; rfl
  have hready := Ready.sweep h Body.propagatePosition (fun b as js r hr => (position_frame hr).2.2.2)
    (fun b as js r hr => by rw [(position_frame hr).1]; exact List.forall₂_same.2 (fun _ _ => rfl)) hs
  unfold RState.propagatePosition
  rw [hs]
  exact ⟨_, rfl, hready.joints_congr _ (by simp)⟩

/-- **C67.**  Nor in the propagation of efforts. -/
theorem C67_effort_never_aborts (s : RState F) (h : s.Ready) : ∃ s', s.propagateEffort = some s' ∧ s'.Ready := by
  obtain ⟨r, hr⟩ := Option.isSome_iff_exists.1
    (sweep_some Body.propagateEffort (fun b as js hw => effort_wants hw) s.conns s.acts s.joints h.wired.ins h.wired.outs h.wants)
  obtain ⟨c, a, j⟩ := r
  have hs : s.sweep Body.propagateEffort = some { s with conns := c, acts := a, joints := j } := by unfold RState.sweep; rw [hr]; rfl
  exact ⟨_, hs, Ready.sweep h Body.propagateEffort (fun b as js r hr => (effort_frame hr).2.2.2.1)
    (fun b as js r hr => same_names_of_frame (fun a a' h => by obtain ⟨e, b, rfl, _⟩ := h; rfl) (effort_frame hr).2.1) hs⟩

/-- Limiting and zeroing commands keep the state ready. -/
theorem ready_enforceSafety (s : RState F) (big : F) (h : s.Ready) : (s.enforceSafety big).Ready := h.joints_congr _ (by simp)
theorem ready_zeroCommands (s : RState F) (h : s.Ready) : s.zeroCommands.Ready := h.joints_congr _ (by simp)

/-! ## C48: enabling -/

/-- **C48.**  Propagating efforts changes nothing of the actuators but their commands, and never disables one. -/
theorem C48_effort_only_commands (s s' : RState F) (h : s.Ready) (hs : s.propagateEffort = some s') :
    List.Forall₂ ACommanded s.acts s'.acts ∧ s'.joints = s.joints := by
  unfold RState.propagateEffort RState.sweep at hs
  rcases hr : Pr2.sweep Body.propagateEffort s.conns s.acts s.joints with _ | ⟨c, a, j⟩
  · rw [hr] at hs; cases hs
  rw [hr] at hs; cases hs
  refine ⟨sweep_rel_acts Body.propagateEffort ACommanded (fun a => ⟨a.effort, a.enable, rfl, id⟩) ?_ (fun b as js r hr => (effort_frame hr).2.1)
    _ _ _ h.wired.ins hr, sweep_joints Body.propagateEffort (fun b as js r hr => (effort_frame hr).1) _ _ _ h.wired.outs hr⟩
  rintro a b c ⟨e, x, rfl, h1⟩ ⟨e', x', rfl, h2⟩
  exact ⟨e', x', rfl, fun h => h2 (h1 h)⟩

/-- **C48.**  Every actuator connected to a simple, wrist or gripper transmission is enabled after efforts were propagated, even if it was not before. -/
theorem C48_effort_enables (s s' : RState F) (h : s.Ready) (hs : s.propagateEffort = some s') (c : Conn F) (hc : c ∈ s.conns)
    (hb : ∀ t, c.trans.body ≠ .belt t) : ∀ i ∈ c.ins, ∀ a, s'.acts[i]? = some a → a.enable = true := by
  unfold RState.propagateEffort RState.sweep at hs
  rcases hr : Pr2.sweep Body.propagateEffort s.conns s.acts s.joints with _ | ⟨cs, as, js⟩
  · rw [hr] at hs; cases hs
  rw [hr] at hs; cases hs
  exact sweep_established Body.propagateEffort (fun a => a.enable = true) (fun b => ∀ t, b ≠ .belt t)
    (fun b as js r hr => (effort_frame hr).2.1.imp (fun a a' h => by obtain ⟨e, x, rfl, hx⟩ := h; exact hx))
    (fun b as js r hq hr => (effort_frame hr).2.2.2.2 hq) _ _ _ h.wired.ins hr c hc hb

/-- Any number of effort propagations, with arbitrary changes of the joint states (by controllers and position propagation) in between. -/
inductive EffortRuns : RState F → RState F → Prop
  | refl (s) : EffortRuns s s
  | joints {s s'} (js : List (JState F)) : EffortRuns s s' → js.length = s'.joints.length → EffortRuns s { s' with joints := js }
  | position {s s' s''} : EffortRuns s s' → s'.propagatePosition = some s'' → EffortRuns s s''
  | effort {s s' s''} : EffortRuns s s' → s'.propagateEffort = some s'' → EffortRuns s s''

theorem position_acts (s s' : RState F) (h : s.Ready) (hs : s.propagatePosition = some s') : s'.acts = s.acts := by
  unfold RState.propagatePosition RState.sweep at hs
  rcases hr : Pr2.sweep Body.propagatePosition s.conns s.acts s.joints with _ | ⟨c, a, j⟩
  · rw [hr] at hs; cases hs
  rw [hr] at hs; cases hs
  exact sweep_acts Body.propagatePosition (fun b as js r hr => (position_frame hr).1) _ _ _ h.wired.ins hr

theorem EffortRuns.ready {s s' : RState F} (h : s.Ready) (r : EffortRuns s s') : s'.Ready ∧ List.Forall₂ ACommanded s.acts s'.acts := by
  induction r with
  | refl => exact ⟨h, List.forall₂_same.2 (fun a _ => ⟨a.effort, a.enable, rfl, id⟩)⟩
  | joints js _ hl ih => exact ⟨ih.1.joints_congr js hl, ih.2⟩
  | @position s' s'' _ hp ih =>
    obtain ⟨t, ht, htr⟩ := C67_position_never_aborts s' ih.1
    rw [hp] at ht; cases ht
    exact ⟨htr, by rw [position_acts s' s'' ih.1 hp]; exact ih.2⟩
  | @effort s' s'' _ hp ih =>
    obtain ⟨t, ht, htr⟩ := C67_effort_never_aborts s' ih.1
    rw [hp] at ht; cases ht
    refine ⟨htr, ?_⟩
    have h2 := (C48_effort_only_commands s' s'' ih.1 hp).1
    exact trans' ih.2 h2
where
  trans' {l l' l'' : List (Actuator F)} (h : List.Forall₂ ACommanded l l') (k : List.Forall₂ ACommanded l' l'') : List.Forall₂ ACommanded l l'' := by
    induction h generalizing l'' with
    | nil => cases k; exact .nil
    | cons h _ ih => cases k with
      | cons k ks =>
        obtain ⟨e, x, rfl, h1⟩ := h
        obtain ⟨e', x', rfl, h2⟩ := k
        exact .cons ⟨e', x', rfl, fun h => h2 (h1 h)⟩ (ih ks)

/-- **C48.**  From initialisation on, through any number of cycles, every actuator connected to a transmission is enabled. -/
theorem C48_always_enabled [Parse F] (l : TransLoader F) (urdf : Xml → Option (String → Option (UJoint F))) (root : Xml) (acts acts' : List (Actuator F))
    (hw : Bool) (ts : List (Trans F)) (h : Robot.initXml hw urdf l root acts = (acts', .ok ts)) (old : Nat → F)
    (hl : l.WellDescribed (root.all "transmission")) (joint : String → Option (UJoint F)) (s : RState F) (hu : urdf root = some joint)
    (hs : RState.mk' ts joint acts' old = some s) (s' : RState F) (hr : EffortRuns s s') :
    ∀ c ∈ s'.conns, ∀ n ∈ c.trans.actNames, EnabledAct s'.acts n := by
  have hready := C67_ready l urdf root acts acts' hw ts h old hl joint s hu hs
  obtain ⟨hready', hfr⟩ := hr.ready hready
  have hnames : ∀ c ∈ s'.conns, c.trans.actNames ∈ s.conns.map (fun c => c.trans.actNames) := by
    clear hfr hready' hready hs
    induction hr with
    | refl => exact fun c hc => List.mem_map.2 ⟨c, hc, rfl⟩
    | joints js _ _ ih => exact ih
    | @position s' s'' hrr hp ih =>
      unfold RState.propagatePosition RState.sweep at hp
      rcases hr : Pr2.sweep Body.propagatePosition s'.conns s'.acts s'.joints with _ | ⟨c, a, j⟩
      · rw [hr] at hp; cases hp
      rw [hr] at hp; cases hp
      intro d hd
      obtain ⟨d', hd', b, rfl⟩ := Ready.sweep.forall2_right (sweep_conns _ _ _ _ hr).1 hd
      exact ih d' hd'
    | @effort s' s'' hrr hp ih =>
      unfold RState.propagateEffort RState.sweep at hp
      rcases hr : Pr2.sweep Body.propagateEffort s'.conns s'.acts s'.joints with _ | ⟨c, a, j⟩
      · rw [hr] at hp; cases hp
      rw [hr] at hp; cases hp
      intro d hd
      obtain ⟨d', hd', b, rfl⟩ := Ready.sweep.forall2_right (sweep_conns _ _ _ _ hr).1 hd
      exact ih d' hd'
  obtain ⟨js, hwire, _, _, _, ha⟩ := mk'_inv hs
  obtain ⟨w1, _, _, _⟩ := wire_spec hwire
  intro c hc n hn
  obtain ⟨c0, hc0, e⟩ := List.mem_map.1 (hnames c hc)
  have ht : c0.trans ∈ ts := by rw [← w1]; exact List.mem_map.2 ⟨c0, hc0, rfl⟩
  have he : EnabledAct s.acts n := by
    rw [ha]
    exact (C48_initially_enabled l urdf root acts acts' hw ts h).2 c0.trans ht n (by rw [e]; exact hn)
  obtain ⟨a, ha1, ha2⟩ := he
  clear hnames ha hready hready'
  generalize s.acts = l1 at hfr ha1
  generalize s'.acts = l2 at hfr
  induction hfr with
  | nil => simp at ha1
  | @cons x y _ _ hxy _ ih =>
    obtain ⟨e', x', rfl, h1⟩ := hxy
    rw [List.find?_cons] at ha1
    by_cases hx : (x.name == n) = true
    · rw [hx] at ha1
      have hxa : x = a := by simpa using ha1
      subst hxa
      exact ⟨{ x with effort := e', enable := x' }, by rw [List.find?_cons]; simp [hx], h1 ha2⟩
    · simp only [Bool.not_eq_true] at hx
      rw [hx] at ha1
      obtain ⟨b, hb1, hb2⟩ := ih ha1
      exact ⟨b, by rw [List.find?_cons]; dsimp only; rw [hx]; exact hb1, hb2⟩

/-- **C48, counterexample to more.**  A disabled actuator of a belt transmission stays disabled when efforts are propagated. -/
theorem C48_belt_counterexample (t : BeltT F) (a : Actuator F) (j : JState F) (ha : a.enable = false) :
    ∃ a' t', (Body.belt t).propagateEffort [a] [j] = some (.belt t', [a'], [j]) ∧ a'.enable = false :=
  ⟨_, _, rfl, ha⟩

/-! ## C51: halting -/

/-- **C51.**  The robot is halted exactly if one of the actuators named by a transmission is. -/
theorem C51_halted (s : RState F) (h : s.Ready) : s.isHalted = true ↔
    ∃ c ∈ s.conns, ∃ n ∈ c.trans.actNames, ∃ a, s.acts.find? (fun a => a.name == n) = some a ∧ a.halted = true := by
  unfold RState.isHalted
  simp only [List.any_eq_true]
  constructor
  · rintro ⟨c, hc, a, ha, hh⟩
    unfold gather at ha
    obtain ⟨i, hi, hia⟩ := List.mem_filterMap.1 ha
    obtain ⟨n, hn, hni⟩ := Ready.sweep.forall2_right (h.named c hc) hi
    refine ⟨c, hc, n, hn, a, ?_, hh⟩
    exact find_of_findIdx hni hia
  · rintro ⟨c, hc, n, hn, a, ha, hh⟩
    refine ⟨c, hc, a, ?_, hh⟩
    obtain ⟨i, hi, hni⟩ := forall2_left (h.named c hc) hn
    have hlt := (List.findIdx?_eq_some_iff_getElem.1 hni).1
    have := find_of_findIdx hni (List.getElem?_eq_getElem hlt)
    rw [ha] at this; cases this
    exact List.mem_filterMap.2 ⟨i, hi, List.getElem?_eq_getElem hlt⟩
where
  find_of_findIdx {l : List (Actuator F)} {n : String} {i : Nat} {a : Actuator F} (h : l.findIdx? (fun a => a.name == n) = some i)
      (ha : l[i]? = some a) : l.find? (fun a => a.name == n) = some a := by
    induction l generalizing i with
    | nil => simp at h
    | cons x l ih =>
      rw [List.findIdx?_cons] at h
      rw [List.find?_cons]
      by_cases hx : (x.name == n) = true
      · rw [if_pos hx] at h; cases h
        rw [hx]; simpa using ha
      · rw [if_neg hx] at h
        simp only [Bool.not_eq_true] at hx
        rw [hx]
        rcases hj : l.findIdx? (fun a => a.name == n) with _ | k
        · rw [hj] at h; cases h
        · rw [hj] at h; cases h
          exact ih hj (by simpa using ha)
  forall2_left {α β : Type} {R : α → β → Prop} {l : List α} {l' : List β} (h : List.Forall₂ R l l') {a : α} (ha : a ∈ l) : ∃ b ∈ l', R a b := by
    induction h with
    | nil => simp at ha
    | cons h _ ih =>
      rcases List.mem_cons.1 ha with rfl | ha
      · exact ⟨_, by simp, h⟩
      · obtain ⟨a, ha, r⟩ := ih ha
        exact ⟨a, by simp [ha], r⟩

/-! ## C66: transmissions do not interfere -/

/-- **C66.**  After propagating positions, the joints of each transmission are what that transmission alone computes from its own actuators and
its own joints; the actuators are unchanged. -/
theorem C66_position_local (s s' : RState F) (h : s.Ready) (hs : s.propagatePosition = some s') (k : Nat) (c : Conn F) (hc : s.conns[k]? = some c) :
    s'.acts = s.acts ∧ ∃ r, c.trans.body.propagatePosition (gather s.acts c.ins) (gather s.joints c.outs) = some r ∧
      gather s'.joints c.outs = r.2.2.map (fun j => { j with stats := j.stats.update j.sample }) := by
  refine ⟨position_acts s s' h hs, ?_⟩
  unfold RState.propagatePosition RState.sweep at hs
  rcases hr : Pr2.sweep Body.propagatePosition s.conns s.acts s.joints with _ | ⟨cs, as, js⟩
  · rw [hr] at hs; cases hs
  rw [hr] at hs; cases hs
  obtain ⟨_, _, _, _, h5⟩ := sweep_local Body.propagatePosition
    (fun b as js r hr => ⟨by rw [(position_frame hr).1], (List.Forall₂.length_eq (position_frame hr).2.1).symm⟩)
    s.conns s.acts s.joints h.wired (Or.inl (fun b as js r hr => (position_frame hr).1)) hr
  obtain ⟨c', _, r, h1, _, _, h4⟩ := C51_halted.forall2_left h5 (List.mem_of_getElem? hc)
  refine ⟨r, h1, ?_⟩
  rw [← h4]
  exact gather_map _ _ _
where
  gather_map {α β : Type} (f : α → β) (l : List α) (is : List Nat) : gather (l.map f) is = (gather l is).map f := by
    unfold gather
    induction is with
    | nil => rfl
    | cons i is ih =>
      rw [List.filterMap_cons, List.filterMap_cons, List.getElem?_map, ih]
      cases l[i]? <;> rfl

/-- **C66.**  After propagating efforts, if no actuator is shared, the commands of each transmission's actuators are what that transmission
alone computes from its own joints. -/
theorem C66_effort_local (s s' : RState F) (h : s.Ready) (hu : Unshared s.conns) (hs : s.propagateEffort = some s') (k : Nat) (c : Conn F)
    (hc : s.conns[k]? = some c) :
    s'.joints = s.joints ∧ ∃ r, c.trans.body.propagateEffort (gather s.acts c.ins) (gather s.joints c.outs) = some r ∧
      gather s'.acts c.ins = r.2.1 := by
  refine ⟨(C48_effort_only_commands s s' h hs).2, ?_⟩
  unfold RState.propagateEffort RState.sweep at hs
  rcases hr : Pr2.sweep Body.propagateEffort s.conns s.acts s.joints with _ | ⟨cs, as, js⟩
  · rw [hr] at hs; cases hs
  rw [hr] at hs; cases hs
  obtain ⟨_, _, _, _, h5⟩ := sweep_local Body.propagateEffort
    (fun b as js r hr => ⟨(List.Forall₂.length_eq (effort_frame hr).2.1).symm, by rw [(effort_frame hr).1]⟩)
    s.conns s.acts s.joints h.wired (Or.inr hu) hr
  obtain ⟨c', _, r, h1, _, h3, _⟩ := C51_halted.forall2_left h5 (List.mem_of_getElem? hc)
  exact ⟨r, h1, h3⟩

/-! ## C67: descriptions which do make assertions fail -/

/-- **C67, counterexample.**  A gripper described without simulated joint initialises, but every propagation of positions or efforts aborts. -/
theorem C67_gripper_without_simulated_joint [Parse F] (t : GripperT F) (x : Xml) (s s' : List (Actuator F)) (r : String × GripperT F × List String)
    (h : t.initXml1 x s = (s', .ok r)) (hp : t.hasPassive = false) (hq : t.passive = []) (hg : (x.all "gap_joint").length = 1)
    (hs : x.all "simulated_actuated_joint" = []) (as : List (Actuator F)) (js : List (JState F)) (hj : js.length = r.2.2.length) :
    r.2.1.propagatePosition as js = none ∧ r.2.1.propagateEffort js as = none := by
  obtain ⟨c1, c2, c3⟩ := gripper_counts t x s s' r h hp hq
  rw [hs, hg] at c3
  rw [hs] at c2
  have c2 : r.2.1.hasPassive = false := by
    rw [← Bool.not_eq_true, c2]; simp
  rw [c3] at hj
  simp only [List.length_nil, List.filter_nil, Nat.add_zero] at hj
  constructor
  · unfold GripperT.propagatePosition
    split
    · rw [if_neg]
      rw [List.length_cons] at hj
      rw [c1, c2]
      simp only [Bool.false_eq_true, if_false]
      omega
    · rfl
  · unfold GripperT.propagateEffort
    split
    · rw [if_neg]
      rw [List.length_cons] at hj
      rw [c1, c2]
      simp only [Bool.false_eq_true, if_false]
      omega
    · rfl

/-- **C67, counterexample.**  For a gripper without passive actuated joint the assertions of the forward and the backward (simulation) direction
contradict each other: whatever its joints, one of them aborts. -/
theorem C67_gripper_contradiction (t : GripperT F) (hp : t.hasPassive = false) (e : SimEnv) (as : List (Actuator F)) (js : List (JState F)) :
    t.propagatePosition as js = none ∨ t.propagatePositionBackwards e js as = none := by
  unfold GripperT.propagatePosition GripperT.propagatePositionBackwards
  split
  · rename_i a j rest
    rw [hp]
    simp only [Bool.false_eq_true, if_false]
    by_cases h : rest.length = 0
    · left; rw [if_neg (by omega)]
    · right; rw [if_neg h]
  · exact Or.inl rfl

/-- C48, C50, C51, C66, C67: a concrete robot meets the hypotheses. -/
example [Parse F] (t : SimpleT F) (ht : t.useSim = false) (u : UJoint F) (old : Nat → F) :
    ∃ acts' ts joint s, Robot.initXml true (demoUrdf u) (demoLoader t) demoRoot [Actuator.fresh "m"] = (acts', .ok ts) ∧ demoUrdf u demoRoot = some joint ∧
      RState.mk' ts joint acts' old = some s ∧ s.Ready ∧ Unshared s.conns ∧ s.conns.length = 1 := by
  have hi : Robot.initXml true (demoUrdf u) (demoLoader t) demoRoot [Actuator.fresh "m"] =
      ([{ Actuator.fresh "m" with enable := true }], .ok [⟨"t", ["m"], ["elbow"], .simple { t with reduction := Parse.atof "2" }⟩]) := rfl
  refine ⟨_, _, _, _, hi, rfl, rfl, C67_ready _ _ _ _ _ _ _ hi old ?_ _ _ rfl rfl, by simp [Unshared, Actuator.fresh], rfl⟩
  intro k x _ ty b hk _ _ _ hb
  unfold demoLoader at hb
  dsimp only at hb
  split at hb
  · cases hb
    refine ⟨ht, ?_⟩
    change (x.all "simulated_actuated_joint").length ≤ 1
    have hall : ∀ y ∈ demoRoot.all "transmission", (y.all "simulated_actuated_joint").length ≤ 1 := by decide +kernel
    exact hall x (List.mem_of_getElem? hk)
  · cases hb

/-- A gripper without a simulated joint, with a passive finger. -/
def bareGripper : Xml := .node "transmission" [("name", "g")] none
  [.node "actuator" [("name", "m")] none [], .node "gap_joint" [("name", "gap"), ("mechanical_reduction", "1.0")] none [],
   .node "passive_joint" [("name", "finger")] none []]

/-- `C67_gripper_without_simulated_joint`, `C67_gripper_contradiction`: this gripper is accepted and aborts in the first cycle. -/
example (t : GripperT F) (hp : t.hasPassive = false) (hq : t.passive = []) (v : F) (a : Actuator F) (as : List (Actuator F)) (j k : JState F) :
    letI : Parse F := ⟨fun _ => v, fun _ => some v, fun _ => some v⟩
    ∃ g, t.initXml1 bareGripper [a] = ([a], .ok ("m", g, ["gap", "finger"])) ∧ g.propagatePosition as [j, k] = none := by
  letI : Parse F := ⟨fun _ => v, fun _ => some v, fun _ => some v⟩
  have h : ∃ g, t.initXml1 bareGripper [a] = ([a], .ok ("m", g, ["gap", "finger"])) := ⟨_, rfl⟩
  obtain ⟨g, hg⟩ := h
  exact ⟨g, hg, (C67_gripper_without_simulated_joint t bareGripper [a] [a] _ hg hp hq rfl rfl as [j, k] rfl).1⟩

/-- `C51_halted`: a robot with a halted motor. -/
example (t : SimpleT F) (u : UJoint F) (x : F) :
    RState.isHalted ⟨[⟨⟨"t", ["m"], ["elbow"], .simple t⟩, [0], [0]⟩], [JState.fresh u x], [("elbow", 0)], [{ Actuator.fresh "m" with halted := true }]⟩ = true := rfl

end
end Pr2
