import Verif.Model.Chain
import Verif.Props.RobotState
import Mathlib.Data.List.Sort

/-! # C52: chains and trees -/

namespace Pr2

variable {F : Type}

theorem pull_eq (s : RState F) (gs : List KSeg) :
    Chain.pull s gs = ((gs.filter (fun g => !g.fixed)).mapM (fun g => s.getJointState g.joint)) := by
  induction gs with
  | nil => rfl
  | cons g gs ih =>
    rw [Chain.pull, ih]
    cases hg : g.fixed
    · rw [if_neg (by simp), List.filter_cons, if_pos (by simp [hg]), List.mapM_cons]; rfl
    · rw [if_pos rfl, List.filter_cons, if_neg (by simp [hg])]

/-- **C52.**  A chain initialises exactly if KDL finds it and every movable joint on it has a joint state; then its joints are the joint states of
the movable joints from root to tip. -/
theorem C52_chain_init (s : RState F) (kdl : Option (List KSeg)) (js : List Nat) :
    Chain.init s kdl = some js ↔ ∃ segs, kdl = some segs ∧
      List.Forall₂ (fun g j => s.getJointState g.joint = some j) (segs.filter (fun g => !g.fixed)) js := by
  unfold Chain.init
  rcases kdl with _ | segs
  · simp
  · simp only [Option.bind_some, pull_eq, Option.some.injEq, exists_eq_left']
    constructor
    · exact mapM_spec _ _ _
    · intro h
      generalize segs.filter (fun g => !g.fixed) = l at h
      induction h with
      | nil => rfl
      | cons h _ ih => rw [List.mapM_cons, h, ih]; rfl

theorem C52_chain_init_fails (s : RState F) (segs : List KSeg) :
    Chain.init s (some segs) = none ↔ ∃ g ∈ segs, g.fixed = false ∧ s.getJointState g.joint = none := by
  unfold Chain.init
  simp only [Option.bind_some, pull_eq]
  constructor
  · intro h
    by_contra hc
    push Not at hc
    have : ((segs.filter (fun g => !g.fixed)).mapM (fun g => s.getJointState g.joint)).isSome := mapM_some _ _ (fun g hg => by
      obtain ⟨h1, h2⟩ := List.mem_filter.1 hg
      exact Option.ne_none_iff_exists'.1 (hc g h1 (by simpa using h2)))
    rw [h] at this; simp at this
  · rintro ⟨g, hg, hf, hn⟩
    rcases h : (segs.filter (fun g => !g.fixed)).mapM (fun g => s.getJointState g.joint) with _ | js
    · exact h
    · obtain ⟨j, _, hj⟩ := C51_halted.forall2_left (mapM_spec _ _ _ h) (List.mem_filter.2 ⟨hg, by simp [hf]⟩)
      rw [hn] at hj; cases hj

/-! ## Trees -/

theorem qmapSet_mem (l : List (Nat × String)) (q : Nat) (n : String) (hs : (l.map (·.1)).Pairwise (· < ·)) (p : Nat × String) :
    p ∈ qmapSet l q n ↔ p = (q, n) ∨ (p ∈ l ∧ p.1 ≠ q) := by
  induction l with
  | nil => simp [qmapSet]
  | cons a l ih =>
    obtain ⟨a1, a2⟩ := a
    simp only [List.map_cons, List.pairwise_cons] at hs
    unfold qmapSet
    have hlt : ∀ p ∈ l, a1 < p.1 := fun p hp => hs.1 p.1 (List.mem_map.2 ⟨p, hp, rfl⟩)
    split
    · rename_i h
      simp only [List.mem_cons]
      constructor
      · rintro (rfl | rfl | hp)
        · exact Or.inl rfl
        · exact Or.inr ⟨Or.inl rfl, by simp; omega⟩
        · exact Or.inr ⟨Or.inr hp, by have := hlt p hp; omega⟩
      · rintro (rfl | ⟨rfl | hp, _⟩)
        · exact Or.inl rfl
        · exact Or.inr (Or.inl rfl)
        · exact Or.inr (Or.inr hp)
    · split
      · rename_i h1 h2
        subst h2
        simp only [List.mem_cons]
        constructor
        · rintro (rfl | hp)
          · exact Or.inl rfl
          · exact Or.inr ⟨Or.inr hp, by have := hlt p hp; omega⟩
        · rintro (rfl | ⟨rfl | hp, hne⟩)
          · exact Or.inl rfl
          · exact (hne rfl).elim
          · exact Or.inr hp
      · rename_i h1 h2
        simp only [List.mem_cons, ih hs.2]
        constructor
        · rintro (rfl | rfl | ⟨hp, hne⟩)
          · exact Or.inr ⟨Or.inl rfl, by simp; omega⟩
          · exact Or.inl rfl
          · exact Or.inr ⟨Or.inr hp, hne⟩
        · rintro (rfl | ⟨rfl | hp, hne⟩)
          · exact Or.inr (Or.inl rfl)
          · exact Or.inl rfl
          · exact Or.inr (Or.inr ⟨hp, hne⟩)

theorem qmapSet_sorted (l : List (Nat × String)) (q : Nat) (n : String) (hs : (l.map (·.1)).Pairwise (· < ·)) :
    ((qmapSet l q n).map (·.1)).Pairwise (· < ·) := by
  induction l with
  | nil => simp [qmapSet]
  | cons a l ih =>
    obtain ⟨a1, a2⟩ := a
    have hs0 := hs
    simp only [List.map_cons, List.pairwise_cons] at hs
    unfold qmapSet
    split
    · rename_i h
      rw [List.map_cons, List.pairwise_cons]
      refine ⟨?_, hs0⟩
      intro b hb
      rw [List.map_cons, List.mem_cons] at hb
      rcases hb with rfl | hb
      · exact h
      · exact h.trans (hs.1 b hb)
    · split
      · rename_i h1 h2
        rw [List.map_cons, List.pairwise_cons]
        dsimp only
        rw [h2]; exact hs
      · rename_i h1 h2
        rw [List.map_cons, List.pairwise_cons]
        refine ⟨?_, ih hs.2⟩
        intro b hb
        obtain ⟨p, hp, rfl⟩ := List.mem_map.1 hb
        rcases (qmapSet_mem l q n hs.2 p).1 hp with rfl | ⟨hp, _⟩
        · dsimp only; omega
        · exact hs.1 p.1 (List.mem_map.2 ⟨p, hp, rfl⟩)

/-- The joint map of a tree whose movable joints have distinct numbers: all of them, in the order of their numbers. -/
theorem jointMap_spec (segs : List TSeg) (hq : ((segs.filter (fun g => !g.fixed)).map (·.qnr)).Nodup) :
    let m := segs.foldl (fun m g => if g.fixed then m else qmapSet m g.qnr g.joint) []
    (m.map (·.1)).Pairwise (· < ·) ∧ ∀ p, p ∈ m ↔ ∃ g ∈ segs, g.fixed = false ∧ p = (g.qnr, g.joint) := by
  have gen : ∀ (segs : List TSeg) (m : List (Nat × String)), (m.map (·.1)).Pairwise (· < ·) →
      ((segs.filter (fun g => !g.fixed)).map (·.qnr)).Nodup → (∀ g ∈ segs, g.fixed = false → ∀ p ∈ m, p.1 ≠ g.qnr) →
      ((segs.foldl (fun m g => if g.fixed then m else qmapSet m g.qnr g.joint) m).map (·.1)).Pairwise (· < ·) ∧
      ∀ p, p ∈ segs.foldl (fun m g => if g.fixed then m else qmapSet m g.qnr g.joint) m ↔
        p ∈ m ∨ ∃ g ∈ segs, g.fixed = false ∧ p = (g.qnr, g.joint) := by
    intro segs
    induction segs with
    | nil => intro m hm _ _; exact ⟨hm, by simp⟩
    | cons g gs ih =>
      intro m hm hq hd
      rw [List.foldl_cons]
      cases hg : g.fixed
      · rw [List.filter_cons, if_pos (by simp [hg]), List.map_cons, List.nodup_cons] at hq
        simp only [Bool.false_eq_true, if_false]
        obtain ⟨i1, i2⟩ := ih (qmapSet m g.qnr g.joint) (qmapSet_sorted _ _ _ hm) hq.2 (by
          intro g' hg' hf p hp
          rcases (qmapSet_mem _ _ _ hm p).1 hp with rfl | ⟨hp, _⟩
          · intro he
            exact hq.1 (List.mem_map.2 ⟨g', List.mem_filter.2 ⟨hg', by simp [hf]⟩, he.symm⟩)
          · exact hd g' (by simp [hg']) hf p hp)
        refine ⟨i1, fun p => ?_⟩
        rw [i2, qmapSet_mem _ _ _ hm]
        constructor
        · rintro ((rfl | ⟨hp, _⟩) | ⟨g', hg', hf, rfl⟩)
          · exact Or.inr ⟨g, by simp, hg, rfl⟩
          · exact Or.inl hp
          · exact Or.inr ⟨g', by simp [hg'], hf, rfl⟩
        · rintro (hp | ⟨g', hg', hf, rfl⟩)
          · exact Or.inl (Or.inr ⟨hp, hd g (by simp) hg p hp⟩)
          · rcases List.mem_cons.1 hg' with rfl | hg'
            · exact Or.inl (Or.inl rfl)
            · exact Or.inr ⟨g', hg', hf, rfl⟩
      · rw [List.filter_cons, if_neg (by simp [hg])] at hq
        simp only [if_true]
        obtain ⟨i1, i2⟩ := ih m hm hq (fun g' hg' => hd g' (by simp [hg']))
        refine ⟨i1, fun p => ?_⟩
        rw [i2]
        constructor
        · rintro (hp | ⟨g', hg', hf, rfl⟩)
          · exact Or.inl hp
          · exact Or.inr ⟨g', by simp [hg'], hf, rfl⟩
        · rintro (hp | ⟨g', hg', hf, rfl⟩)
          · exact Or.inl hp
          · rcases List.mem_cons.1 hg' with rfl | hg'
            · rw [hg] at hf; cases hf
            · exact Or.inr ⟨g', hg', hf, rfl⟩
  have := gen segs [] (by simp) hq (by simp)
  simpa using this

/-- **C52.**  A tree initialises exactly if every movable joint has a joint state; its joints are then ordered by their KDL number. -/
theorem C52_tree_init (s : RState F) (segs : List TSeg) (hq : ((segs.filter (fun g => !g.fixed)).map (·.qnr)).Nodup) (js : List Nat) :
    Tree.init s (some segs) = some js ↔ ∃ order : List (Nat × String), (order.map (·.1)).Pairwise (· < ·) ∧
      (∀ p, p ∈ order ↔ ∃ g ∈ segs, g.fixed = false ∧ p = (g.qnr, g.joint)) ∧
      List.Forall₂ (fun p j => s.getJointState p.2 = some j) order js := by
  obtain ⟨m1, m2⟩ := jointMap_spec segs hq
  unfold Tree.init
  simp only [Option.getD_some]
  generalize segs.foldl (fun m g => if g.fixed then m else qmapSet m g.qnr g.joint) [] = m at m1 m2
  constructor
  · intro h; exact ⟨m, m1, m2, mapM_spec _ _ _ h⟩
  · rintro ⟨order, o1, o2, h⟩
    have : order = m := by
      have ho : order.Pairwise (fun a b => a.1 < b.1) := List.pairwise_map.1 o1
      have hm : m.Pairwise (fun a b => a.1 < b.1) := List.pairwise_map.1 m1
      have hmem : ∀ p, p ∈ order ↔ p ∈ m := fun p => by rw [o2, m2]
      exact sorted_ext ho hm hmem
    subst this
    clear m1 m2 o1 o2
    induction h with
    | nil => rfl
    | cons h _ ih => rw [List.mapM_cons, h, ih]; rfl
where
  sorted_ext {l m : List (Nat × String)} (hl : l.Pairwise (fun a b => a.1 < b.1)) (hm : m.Pairwise (fun a b => a.1 < b.1))
      (h : ∀ p, p ∈ l ↔ p ∈ m) : l = m := by
    induction l generalizing m with
    | nil =>
      cases m with
      | nil => rfl
      | cons a m => have := (h a).2 (by simp); simp at this
    | cons a l ih =>
      cases m with
      | nil => have := (h a).1 (by simp); simp at this
      | cons b m =>
        rw [List.pairwise_cons] at hl hm
        have hab : a = b := by
          rcases List.mem_cons.1 ((h a).1 (by simp)) with e | ha
          · exact e
          rcases List.mem_cons.1 ((h b).2 (by simp)) with e | hb
          · exact e.symm
          have h1 := hm.1 a ha
          have h2 := hl.1 b hb
          omega
        subst hab
        congr 1
        refine ih hl.2 hm.2 (fun p => ?_)
        constructor
        · intro hp
          rcases List.mem_cons.1 ((h p).1 (by simp [hp])) with e | hp'
          · subst e; have := hl.1 p hp; omega
          · exact hp'
        · intro hp
          rcases List.mem_cons.1 ((h p).2 (by simp [hp])) with e | hp'
          · subst e; have := hm.1 p hp; omega
          · exact hp'

/-- **C52, counterexample.**  If the KDL tree cannot be built, `Tree::init` still returns true, with no joints. -/
theorem C52_tree_init_counterexample (s : RState F) : Tree.init s none = some [] := rfl

/-! ## Reading and writing -/

theorem write_length (f : JState F → F → F) (is : List Nat) (as : List F) (l : List (JState F)) : (ChainLike.write f is as l).length = l.length := by
  induction is generalizing as l with
  | nil => rfl
  | cons i is ih =>
    cases as with
    | nil => rfl
    | cons a as => rw [ChainLike.write, ih, List.length_modify]

theorem write_notin (f : JState F → F → F) (is : List Nat) (as : List F) (l : List (JState F)) (k : Nat) (h : k ∉ is) :
    (ChainLike.write f is as l)[k]? = l[k]? := by
  induction is generalizing as l with
  | nil => rfl
  | cons i is ih =>
    cases as with
    | nil => rfl
    | cons a as =>
      simp only [List.mem_cons, not_or] at h
      rw [ChainLike.write, ih _ _ h.2, List.getElem?_modify]
      simp [Ne.symm h.1]

theorem write_at (f : JState F → F → F) (is : List Nat) (as : List F) (l : List (JState F)) (hn : is.Nodup) (p : Nat) (i : Nat) (a : F)
    (hi : is[p]? = some i) (ha : as[p]? = some a) :
    (ChainLike.write f is as l)[i]? = l[i]?.map (fun j : JState F => { j with commanded := f j a }) := by
  induction is generalizing as l p with
  | nil => simp at hi
  | cons i' is ih =>
    cases as with
    | nil => simp at ha
    | cons a' as =>
      rw [List.nodup_cons] at hn
      rw [ChainLike.write]
      cases p with
      | zero =>
        simp at hi ha
        subst hi; subst ha
        rw [write_notin _ _ _ _ _ hn.1, List.getElem?_modify]
        simp
      | succ p =>
        have hi' : is[p]? = some i := by simpa using hi
        have hne : i' ≠ i := fun e => hn.1 (e ▸ List.mem_of_getElem? hi')
        rw [ih as _ hn.2 p hi' (by simpa using ha), List.getElem?_modify]
        simp [hne]

/-- Distinct names are distinct joint states. -/
theorem lookup_injective [Zero F] {ts : List (Trans F)} {joint : String → Option (UJoint F)} {acts : List (Actuator F)} {old : Nat → F} {s : RState F}
    (h : RState.mk' ts joint acts old = some s) {n m : String} {i : Nat} (hn : s.getJointState n = some i) (hm : s.getJointState m = some i) : n = m := by
  have h1 := ((C50_lookup h n i).1 hn).1
  have h2 := ((C50_lookup h m i).1 hm).1
  rw [h1] at h2
  exact Option.some.inj h2

/-- **C52.**  The joints of a chain are distinct, since the movable joints of a chain have distinct names. -/
theorem C52_chain_distinct [Zero F] {ts : List (Trans F)} {joint : String → Option (UJoint F)} {acts : List (Actuator F)} {old : Nat → F} {s : RState F}
    (h : RState.mk' ts joint acts old = some s) (segs : List KSeg) (hd : ((segs.filter (fun g => !g.fixed)).map (·.joint)).Nodup) (js : List Nat)
    (hi : Chain.init s (some segs) = some js) : js.Nodup := by
  obtain ⟨segs', he, hf⟩ := (C52_chain_init s _ js).1 hi
  cases he
  clear hi
  generalize segs.filter (fun g => !g.fixed) = l at hd hf
  induction hf with
  | nil => simp
  | @cons g j l js hg hf ih =>
    rw [List.map_cons, List.nodup_cons] at hd
    rw [List.nodup_cons]
    refine ⟨?_, ih hd.2⟩
    intro hj
    obtain ⟨g', hg', hgj⟩ := Ready.sweep.forall2_right hf hj
    exact hd.1 (List.mem_map.2 ⟨g', hg', lookup_injective h hgj hg⟩)

/-- **C52.**  Reads return the values of the chain's joints in kinematic order. -/
theorem C52_reads (js : List Nat) (s : RState F) (hr : ∀ i ∈ js, i < s.joints.length) (p : Nat) (i : Nat) (hi : js[p]? = some i) (j : JState F)
    (hj : s.joints[i]? = some j) :
    (ChainLike.getPositions js s)[p]? = some j.position ∧ (ChainLike.getVelocities js s)[p]? = some j.velocity ∧
    (ChainLike.getEfforts js s)[p]? = some j.measured ∧ ChainLike.getJoint js p = some i ∧
    (ChainLike.getPositions js s).length = js.length := by
  obtain ⟨hp, e⟩ := List.getElem?_eq_some_iff.1 hi
  have hg := gather_get s.joints js hr p hp
  have hj' : (gather s.joints js)[p]? = some j := by
    rw [hg]
    obtain ⟨h1, h2⟩ := List.getElem?_eq_some_iff.1 hj
    congr 1
    rw [← h2]
    congr 1
  unfold ChainLike.getPositions ChainLike.getVelocities ChainLike.getEfforts ChainLike.getJoint
  simp only [List.getElem?_map, hj', Option.map_some, List.length_map]
  exact ⟨trivial, trivial, trivial, hi, gather_length _ _ hr⟩

/-- **C52.**  A chain is calibrated exactly if all its joints are. -/
theorem C52_calibrated (js : List Nat) (s : RState F) : ChainLike.allCalibrated js s = true ↔ ∀ i ∈ js, ∀ j, s.joints[i]? = some j → j.calibrated = true := by
  unfold ChainLike.allCalibrated gather
  simp only [List.all_eq_true, List.mem_filterMap]
  constructor
  · intro h i hi j hj; exact h j ⟨i, hi, hj⟩
  · rintro h j ⟨i, hi, hj⟩; exact h i hi j hj

/-- **C52.**  Writing efforts changes exactly the commands of the chain's joints, to the value for that joint. -/
theorem C52_setEfforts (js : List Nat) (hn : js.Nodup) (a : List F) (s s' : RState F) (h : ChainLike.setEfforts js a s = some s') :
    s'.conns = s.conns ∧ s'.acts = s.acts ∧ s'.jmap = s.jmap ∧
    (∀ k, k ∉ js → s'.joints[k]? = s.joints[k]?) ∧
    ∀ (p i : Nat) (x : F), js[p]? = some i → a[p]? = some x → s'.joints[i]? = s.joints[i]?.map (fun j : JState F => { j with commanded := x }) := by
  unfold ChainLike.setEfforts at h
  split at h
  · cases h
    exact ⟨rfl, rfl, rfl, fun k hk => write_notin _ _ _ _ _ hk, fun p i x hi hx => write_at _ _ _ _ hn p i x hi hx⟩
  · cases h

/-- **C52.**  Adding efforts adds to exactly those commands. -/
theorem C52_addEfforts [Add F] (js : List Nat) (hn : js.Nodup) (a : List F) (s s' : RState F) (h : ChainLike.addEfforts js a s = some s') :
    s'.conns = s.conns ∧ s'.acts = s.acts ∧ s'.jmap = s.jmap ∧
    (∀ k, k ∉ js → s'.joints[k]? = s.joints[k]?) ∧
    ∀ (p i : Nat) (x : F), js[p]? = some i → a[p]? = some x → s'.joints[i]? = s.joints[i]?.map (fun j : JState F => { j with commanded := j.commanded + x }) := by
  unfold ChainLike.addEfforts at h
  split at h
  · cases h
    exact ⟨rfl, rfl, rfl, fun k hk => write_notin _ _ _ _ _ hk, fun p i x hi hx => write_at _ _ _ _ hn p i x hi hx⟩
  · cases h

/-- **C52.**  Arrays of the right size never abort. -/
theorem C52_writes_never_abort [Add F] (js : List Nat) (a : List F) (s : RState F) (h : a.length = js.length) :
    (ChainLike.setEfforts js a s).isSome ∧ (ChainLike.addEfforts js a s).isSome := by
  unfold ChainLike.setEfforts ChainLike.addEfforts
  rw [if_pos h, if_pos h]; exact ⟨rfl, rfl⟩

/-- Two chains add up: efforts of the second are added to those set by the first. -/
theorem C52_chains_compose [Add F] (js js' : List Nat) (hn : js.Nodup) (hn' : js'.Nodup) (a a' : List F) (s s1 s2 : RState F)
    (h1 : ChainLike.addEfforts js a s = some s1) (h2 : ChainLike.addEfforts js' a' s1 = some s2) (p q i : Nat) (x y : F)
    (hp : js[p]? = some i) (hq : js'[q]? = some i) (hx : a[p]? = some x) (hy : a'[q]? = some y) :
    s2.joints[i]? = s.joints[i]?.map (fun j : JState F => { j with commanded := j.commanded + x + y }) := by
  rw [(C52_addEfforts js' hn' a' s1 s2 h2).2.2.2.2 q i y hq hy, (C52_addEfforts js hn a s s1 h1).2.2.2.2 p i x hp hx]
  cases s.joints[i]? <;> rfl

/-- A chain with a fixed segment in the middle, and one whose joint is missing. -/
example (js : List (JState F)) : Chain.init ⟨[], js, [("b", 1), ("a", 0)], []⟩ (some [⟨false, "a"⟩, ⟨true, "f"⟩, ⟨false, "b"⟩]) = some [0, 1] ∧
    Chain.init ⟨[], js, [("a", 0)], []⟩ (some [⟨false, "a"⟩, ⟨false, "b"⟩]) = none := ⟨rfl, rfl⟩

/-- A tree: segments in the order of their names, joints in the order of their numbers. -/
example (js : List (JState F)) : Tree.init ⟨[], js, [("b", 1), ("a", 0), ("c", 2)], []⟩ (some [⟨⟨false, "a"⟩, 2⟩, ⟨⟨true, "f"⟩, 0⟩, ⟨⟨false, "b"⟩, 0⟩, ⟨⟨false, "c"⟩, 1⟩]) = some [1, 2, 0] := rfl

/-! ## Concrete cases meeting the hypotheses: two chains over three joints, the second joint shared -/

/-- Three joints `a`, `b`, `c` with commands 1, 2, 3. -/
def demoChainState : RState ℚ :=
  ⟨[], [⟨⟨"a", .revolute, none, none, none⟩, 10, 20, 30, .fresh 0, 1, true, 0⟩, ⟨⟨"b", .revolute, none, none, none⟩, 11, 21, 31, .fresh 0, 2, false, 0⟩,
    ⟨⟨"c", .revolute, none, none, none⟩, 12, 22, 32, .fresh 0, 3, true, 0⟩], [("a", 0), ("b", 1), ("c", 2)], []⟩

/-- `C52_chain_init`, `C52_chain_init_fails`, `C52_tree_init` (with distinct joint numbers). -/
example : Chain.init demoChainState (some [⟨false, "a"⟩, ⟨true, "f"⟩, ⟨false, "b"⟩]) = some [0, 1] := rfl
example : ∃ g ∈ [(⟨false, "a"⟩ : KSeg), ⟨false, "z"⟩], g.fixed = false ∧ demoChainState.getJointState g.joint = none := ⟨⟨false, "z"⟩, by simp, rfl, rfl⟩
example : (([(⟨⟨false, "a"⟩, 2⟩ : TSeg), ⟨⟨true, "f"⟩, 0⟩, ⟨⟨false, "b"⟩, 0⟩].filter (fun g => !g.fixed)).map (·.qnr)).Nodup := by decide
/-- `C52_reads`, `C52_calibrated`. -/
example : (∀ i ∈ [0, 1], i < demoChainState.joints.length) ∧ ChainLike.getPositions [0, 1] demoChainState = [10, 11] ∧
    ChainLike.allCalibrated [0, 1] demoChainState = false ∧ ChainLike.allCalibrated [2, 0] demoChainState = true := ⟨by decide, rfl, rfl, rfl⟩
/-- `C52_setEfforts`, `C52_addEfforts`, `C52_writes_never_abort`. -/
example : ∃ s', ChainLike.setEfforts [0, 1] [5, 6] demoChainState = some s' ∧ s'.joints.map (·.commanded) = [5, 6, 3] := ⟨_, rfl, by decide +kernel⟩
example : ∃ s', ChainLike.addEfforts [0, 1] [5, 6] demoChainState = some s' ∧ s'.joints.map (·.commanded) = [6, 8, 3] := ⟨_, rfl, by decide +kernel⟩
/-- `C52_chains_compose`: both chains contain joint 1. -/
example : ∃ s1 s2, ChainLike.addEfforts [0, 1] [5, 6] demoChainState = some s1 ∧ ChainLike.addEfforts [2, 1] [7, 8] s1 = some s2 ∧
    s2.joints.map (·.commanded) = [6, 16, 10] := ⟨_, _, rfl, rfl, by decide +kernel⟩
/-- `C52_chain_distinct`: the distinctness hypothesis of the segments. -/
example : (([(⟨false, "a"⟩ : KSeg), ⟨true, "f"⟩, ⟨true, "f"⟩, ⟨false, "b"⟩].filter (fun g => !g.fixed)).map (·.joint)).Nodup := by decide

end Pr2
