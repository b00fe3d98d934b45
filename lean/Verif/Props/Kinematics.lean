import Verif.Lemmas.Kinematics
import Verif.Props.Chain
import Verif.Props.Shipped

/-! # C101: chains follow the kinematic tree of the robot description -/

namespace Pr2

/-! ## Specification -/

/-- The joint element `e` attaches link `c` to link `p`. -/
def Xml.Attaches (e : Xml) (p c : String) : Prop :=
  (∃ y, e.first "parent" = some y ∧ y.attr "link" = some p) ∧ (∃ z, e.first "child" = some z ∧ z.attr "link" = some c)

/-- The joint moves. -/
def Xml.moves (e : Xml) : Bool := e.attr "type" == some "revolute" || e.attr "type" == some "continuous" || e.attr "type" == some "prismatic"

/-- `a` is a link of the robot. -/
def Xml.IsLink (x : Xml) (a : String) : Prop := ∃ l ∈ x.childrenTagged "link", l.attr "name" = some a

/-- The description is a kinematic tree with root link `r`, as the urdf parser demands. -/
structure Xml.IsTree (x : Xml) (r : String) : Prop where
  complete : ∀ e ∈ x.childrenTagged "joint", (∃ n, e.attr "name" = some n) ∧ (∃ ty, e.attr "type" = some ty) ∧ ∃ p c, e.Attaches p c ∧ x.IsLink p ∧ x.IsLink c
  names : ∀ e ∈ x.childrenTagged "joint", ∀ e' ∈ x.childrenTagged "joint", e.attr "name" = e'.attr "name" → e = e'
  single : ∀ e ∈ x.childrenTagged "joint", ∀ e' ∈ x.childrenTagged "joint", ∀ p p' c, e.Attaches p c → e'.Attaches p' c → e = e'
  root : x.IsLink r ∧ ∀ a, x.IsLink a → (a = r ↔ ∀ e ∈ x.childrenTagged "joint", ∀ p, ¬ e.Attaches p a)
  acyclic : ∃ depth : String → Nat, ∀ e ∈ x.childrenTagged "joint", ∀ p c, e.Attaches p c → depth p < depth c

/-- A walk from link `a` to link `b` along the joints `es`, each towards the child or towards the parent. -/
inductive Xml.Walk (x : Xml) : String → List Xml → String → Prop
  | stay (a : String) : x.Walk a [] a
  | up {e : Xml} {p a b : String} {es : List Xml} : e ∈ x.childrenTagged "joint" → e.Attaches p a → x.Walk p es b → x.Walk a (e :: es) b
  | down {e : Xml} {a c b : String} {es : List Xml} : e ∈ x.childrenTagged "joint" → e.Attaches a c → x.Walk c es b → x.Walk a (e :: es) b

/-- The path from `a` to `b`: a walk that uses no joint twice. -/
def Xml.Path (x : Xml) (a : String) (es : List Xml) (b : String) : Prop := x.Walk a es b ∧ es.Nodup

/-- A `Chain` object after a history of `init` calls, on any robot states and descriptions, the last of which returned `ok`. -/
inductive ChainObj.History {F : Type} : ChainObj → Bool → Prop
  | init {c : ChainObj} {ok : Bool} (s : RState F) (x : Xml) (root tip : String) : ChainObj.History c ok →
      ChainObj.History (F := F) (c.init s x root tip).1 (c.init s x root tip).2
  | new : ChainObj.History ⟨[], []⟩ true

/-! ## The tree of a description -/

section
variable {F : Type}

theorem kdlLink_spec {e : Xml} {k : KLink} (h : e.kdlLink = some k) :
    e.attr "name" = some k.seg.joint ∧ k.seg.fixed = !e.moves ∧ e.Attaches k.parent k.link := by
  unfold Xml.kdlLink at h
  simp only [bind, Option.bind_eq_some_iff, Option.some.injEq] at h
  obtain ⟨n, hn, ty, ht, p, ⟨y, hy, hp⟩, c, ⟨z, hz, hc⟩, rfl⟩ := h
  refine ⟨hn, ?_, ⟨y, hy, hp⟩, z, hz, hc⟩
  unfold Xml.moves
  rw [ht]
  rfl

theorem attaches_unique {e : Xml} {p p' c c' : String} (h : e.Attaches p c) (h' : e.Attaches p' c') : p = p' ∧ c = c' := by
  obtain ⟨⟨y, h1, h2⟩, z, h3, h4⟩ := h
  obtain ⟨⟨y', h1', h2'⟩, z', h3', h4'⟩ := h'
  rw [h1] at h1'; cases h1'; rw [h2] at h2'; cases h2'
  rw [h3] at h3'; cases h3'; rw [h4] at h4'; cases h4'
  exact ⟨rfl, rfl⟩

theorem kdlTree_spec {x : Xml} {r : String} (ht : x.IsTree r) :
    ∃ ks, x.kdlTree = some ⟨r, ks⟩ ∧ (KTree.mk r ks).WF ∧ List.Forall₂ (fun e k => Xml.kdlLink e = some k) (x.childrenTagged "joint") ks := by
  have hsome : ∀ e ∈ x.childrenTagged "joint", ∃ k, e.kdlLink = some k := by
    intro e he
    obtain ⟨⟨n, hn⟩, ⟨ty, hty⟩, p, c, ⟨⟨y, hy, hp⟩, z, hz, hc⟩, _⟩ := ht.complete e he
    unfold Xml.kdlLink
    rw [hn, hty, hy, hz]
    simp only [Option.bind_some, bind]
    rw [hp, hc]
    exact ⟨_, rfl⟩
  have hm : ((x.childrenTagged "joint").mapM Xml.kdlLink).isSome := mapM_some _ _ hsome
  obtain ⟨ks, hks⟩ := Option.isSome_iff_exists.1 hm
  have hf := mapM_spec _ _ _ hks
  have hof : ∀ k ∈ ks, ∃ e ∈ x.childrenTagged "joint", e.kdlLink = some k := fun k hk => mem_forall2_left hf.flip hk
  have hto : ∀ e ∈ x.childrenTagged "joint", ∃ k ∈ ks, e.kdlLink = some k := fun e he => mem_forall2_left hf he
  have hlink : ∀ a, x.IsLink a → (a ∈ ks.map (·.link) ↔ a ≠ r) := by
    intro a ha
    rw [Ne, ht.root.2 a ha]
    push Not
    constructor
    · intro h
      obtain ⟨k, hk, rfl⟩ := List.mem_map.1 h
      obtain ⟨e, he, hek⟩ := hof k hk
      exact ⟨e, he, _, (kdlLink_spec hek).2.2⟩
    · rintro ⟨e, he, p, hp⟩
      obtain ⟨k, hk, hek⟩ := hto e he
      exact List.mem_map.2 ⟨k, hk, (attaches_unique (kdlLink_spec hek).2.2 hp).2⟩
  refine ⟨ks, ?_, ?_, hf⟩
  · unfold Xml.kdlTree
    rw [all_eq, all_eq, hks, Option.bind_eq_bind, Option.bind_some]
    have hr : ((x.childrenTagged "link").filterMap (·.attr "name")).find? (fun n => !(ks.map (·.link)).contains n) = some r := by
      cases hfind : ((x.childrenTagged "link").filterMap (·.attr "name")).find? (fun n => !(ks.map (·.link)).contains n) with
      | none =>
        have := List.find?_eq_none.1 hfind r (by
          obtain ⟨l, hl, hla⟩ := ht.root.1
          exact List.mem_filterMap.2 ⟨l, hl, hla⟩)
        simp only [Bool.not_eq_true', Bool.not_eq_false, List.contains_iff_mem] at this
        exact ((hlink r ht.root.1).1 this rfl).elim
      | some a =>
        have h1 := List.find?_some hfind
        obtain ⟨l, hl, hla⟩ := List.mem_filterMap.1 (List.mem_of_find?_eq_some hfind)
        have hla' : x.IsLink a := ⟨l, hl, hla⟩
        rw [Bool.not_eq_true', ← Bool.not_eq_true, List.contains_iff_mem, hlink a hla'] at h1
        rw [not_not.1 h1]
    rw [hr]; rfl
  · constructor
    · intro k hk k' hk' h
      obtain ⟨e, he, hek⟩ := hof k hk
      obtain ⟨e', he', hek'⟩ := hof k' hk'
      have h1 := (kdlLink_spec hek).2.2
      have h2 := (kdlLink_spec hek').2.2
      rw [← h] at h2
      obtain rfl := ht.single e he e' he' _ _ _ h1 h2
      rw [hek] at hek'; cases hek'; rfl
    · intro k hk
      obtain ⟨e, he, hek⟩ := hof k hk
      obtain ⟨_, _, p, c, hpc, _, hc⟩ := ht.complete e he
      have := attaches_unique hpc (kdlLink_spec hek).2.2
      rw [← this.2]
      exact (hlink c hc).1 (this.2 ▸ List.mem_map.2 ⟨k, hk, rfl⟩)
    · intro k hk
      obtain ⟨e, he, hek⟩ := hof k hk
      obtain ⟨_, _, p, c, hpc, hp, _⟩ := ht.complete e he
      have := attaches_unique hpc (kdlLink_spec hek).2.2
      rw [← this.1]
      by_cases hpr : p = r
      · exact .inl hpr
      · obtain ⟨k', hk', h⟩ := List.mem_map.1 ((hlink p hp).2 hpr)
        exact .inr ⟨k', hk', h⟩
    · obtain ⟨depth, hd⟩ := ht.acyclic
      refine ⟨depth, fun k hk => ?_⟩
      obtain ⟨e, he, hek⟩ := hof k hk
      exact hd e he _ _ (kdlLink_spec hek).2.2

theorem isLink_iff {x : Xml} {r : String} (ht : x.IsTree r) {ks : List KLink} (hf : List.Forall₂ (fun e k => Xml.kdlLink e = some k) (x.childrenTagged "joint") ks) (a : String) :
    x.IsLink a ↔ a = r ∨ ∃ k ∈ ks, k.link = a := by
  constructor
  · intro ha
    by_cases har : a = r
    · exact .inl har
    · have := mt (ht.root.2 a ha).2 har
      push Not at this
      obtain ⟨e, he, p, hp⟩ := this
      obtain ⟨k, hk, hek⟩ := mem_forall2_left hf he
      exact .inr ⟨k, hk, (attaches_unique (kdlLink_spec hek).2.2 hp).2⟩
  · rintro (rfl | ⟨k, hk, rfl⟩)
    · exact ht.root.1
    · obtain ⟨e, he, hek⟩ := mem_forall2_left hf.flip hk
      obtain ⟨_, _, p, c, hpc, _, hc⟩ := ht.complete e he
      rw [(attaches_unique (kdlLink_spec hek).2.2 hpc).2]
      exact hc

theorem walk_iff {x : Xml} {r : String} {ks : List KLink} (hf : List.Forall₂ (fun e k => Xml.kdlLink e = some k) (x.childrenTagged "joint") ks) (a b : String) :
    (∀ es, x.Walk a es b → ∃ ls, (KTree.mk r ks).Walk a ls b ∧ List.Forall₂ (fun e k => e ∈ x.childrenTagged "joint" ∧ k ∈ ks ∧ Xml.kdlLink e = some k) es ls) ∧
    (∀ ls, (KTree.mk r ks).Walk a ls b → ∃ es, x.Walk a es b ∧ List.Forall₂ (fun e k => e ∈ x.childrenTagged "joint" ∧ k ∈ ks ∧ Xml.kdlLink e = some k) es ls) := by
  constructor
  · intro es h
    induction h with
    | stay a => exact ⟨[], .nil a, .nil⟩
    | @up e p a b es he hat _ ih =>
      obtain ⟨ls, h1, h2⟩ := ih
      obtain ⟨k, hk, hek⟩ := mem_forall2_left hf he
      obtain ⟨rfl, rfl⟩ := attaches_unique hat (kdlLink_spec hek).2.2
      exact ⟨k :: ls, .up hk h1, .cons ⟨he, hk, hek⟩ h2⟩
    | @down e a c b es he hat _ ih =>
      obtain ⟨ls, h1, h2⟩ := ih
      obtain ⟨k, hk, hek⟩ := mem_forall2_left hf he
      obtain ⟨rfl, rfl⟩ := attaches_unique hat (kdlLink_spec hek).2.2
      exact ⟨k :: ls, .down hk h1, .cons ⟨he, hk, hek⟩ h2⟩
  · intro ls h
    induction h with
    | nil a => exact ⟨[], .stay a, .nil⟩
    | @up k ls b hk _ ih =>
      obtain ⟨es, h1, h2⟩ := ih
      obtain ⟨e, he, hek⟩ := mem_forall2_left hf.flip hk
      exact ⟨e :: es, .up he (kdlLink_spec hek).2.2 h1, .cons ⟨he, hk, hek⟩ h2⟩
    | @down k ls b hk _ ih =>
      obtain ⟨es, h1, h2⟩ := ih
      obtain ⟨e, he, hek⟩ := mem_forall2_left hf.flip hk
      exact ⟨e :: es, .down he (kdlLink_spec hek).2.2 h1, .cons ⟨he, hk, hek⟩ h2⟩

theorem nodup_iff {x : Xml} {r : String} (ht : x.IsTree r) {ks : List KLink} {es : List Xml} {ls : List KLink} (w : (KTree.mk r ks).WF)
    (h : List.Forall₂ (fun e k => e ∈ x.childrenTagged "joint" ∧ k ∈ ks ∧ Xml.kdlLink e = some k) es ls) : es.Nodup ↔ ls.Nodup := by
  induction h with
  | nil => simp
  | @cons e k es ls hek h ih =>
    rw [List.nodup_cons, List.nodup_cons, ih]
    refine and_congr_left fun _ => not_congr ?_
    constructor
    · intro he
      obtain ⟨k', hk', h1, h2, h3⟩ := mem_forall2_left h he
      rw [hek.2.2] at h3; cases h3; exact hk'
    · intro hk
      obtain ⟨e', he', h1, h2, h3⟩ := mem_forall2_left h.flip hk
      have := ht.single e hek.1 e' h1 _ _ _ (kdlLink_spec hek.2.2).2.2 (kdlLink_spec h3).2.2
      rw [this]; exact he'

/-- The chain KDL finds. -/
theorem getChain_iff {x : Xml} {r : String} (ht : x.IsTree r) : ∃ t, x.kdlTree = some t ∧ ∀ a b segs,
    t.getChain a b = some segs ↔ x.IsLink a ∧ x.IsLink b ∧ ∃ es, x.Path a es b ∧
      List.Forall₂ (fun (e : Xml) (g : KSeg) => e.attr "name" = some g.joint ∧ g.fixed = !e.moves) es segs := by
  obtain ⟨ks, h1, w, hf⟩ := kdlTree_spec ht
  refine ⟨_, h1, fun a b segs => ?_⟩
  rw [KTree.getChain_eq, Option.map_eq_some_iff, isLink_iff ht hf, isLink_iff ht hf]
  constructor
  · rintro ⟨ls, hc, rfl⟩
    by_cases ha : a = r ∨ ∃ k ∈ ks, k.link = a
    · by_cases hb : b = r ∨ ∃ k ∈ ks, k.link = b
      · obtain ⟨hw, hn⟩ := (KTree.chainL_iff w a b ha ls).1 hc
        obtain ⟨es, he, hel⟩ := (walk_iff hf a b).2 ls hw
        refine ⟨ha, hb, es, ⟨he, (nodup_iff ht w hel).2 hn⟩, ?_⟩
        rw [List.forall₂_map_right_iff]
        exact hel.imp fun e k h => ⟨(kdlLink_spec h.2.2).1, (kdlLink_spec h.2.2).2.1⟩
      · rw [KTree.chainL_none (.inr hb)] at hc; cases hc
    · rw [KTree.chainL_none (.inl ha)] at hc; cases hc
  · rintro ⟨ha, hb, es, ⟨he, hn⟩, hes⟩
    obtain ⟨ls, hl, hel⟩ := (walk_iff (r := r) hf a b).1 es he
    refine ⟨ls, (KTree.chainL_iff w a b ha ls).2 ⟨hl, (nodup_iff ht w hel).1 hn⟩, ?_⟩
    clear he hn hl
    induction hel generalizing segs with
    | nil => cases hes; rfl
    | @cons e k es ls hek _ ih =>
      cases hes with
      | @cons _ g _ segs hg hgs =>
        rw [List.map_cons, ih segs hgs]
        congr 1
        have h3 := kdlLink_spec hek.2.2
        rw [h3.1] at hg
        cases hk : k.seg with | mk f j =>
        cases g with | mk f' j' =>
        rw [hk] at hg h3
        simp only [Option.some.injEq] at hg h3
        rw [hg.1, hg.2, h3.2.1]

/-! ## Objects -/

theorem pull_obj (s : RState F) (gs : List KSeg) (js : List Nat) :
    (ChainObj.pull s gs js).2 = true ↔ ∃ ls, Chain.pull s gs = some ls := by
  induction gs generalizing js with
  | nil => simp [ChainObj.pull, Chain.pull]
  | cons g gs ih =>
    unfold ChainObj.pull Chain.pull
    split
    · exact ih js
    · cases hj : s.getJointState g.joint with
      | none => simp
      | some j => 
        rw [ih]
        cases Chain.pull s gs <;> simp

theorem pull_obj_joints (s : RState F) (gs : List KSeg) (js ls : List Nat) (h : Chain.pull s gs = some ls) : ChainObj.pull s gs js = (js ++ ls, true) := by
  induction gs generalizing js ls with
  | nil => simp [Chain.pull] at h; subst h; simp [ChainObj.pull]
  | cons g gs ih =>
    unfold Chain.pull at h
    unfold ChainObj.pull
    split
    · rename_i hg; rw [if_pos hg] at h; exact ih js ls h
    · rename_i hg
      rw [if_neg hg] at h
      simp only [bind, Option.bind_eq_some_iff, Option.some.injEq] at h
      obtain ⟨j, hj, ls', hl, rfl⟩ := h
      rw [hj]
      dsimp only
      rw [ih _ _ hl]; simp

/-- `init` on an object that may be in use succeeds exactly if `init` on a new one would, and then the object is the same. -/
theorem init_obj (c : ChainObj) (s : RState F) (x : Xml) (a b : String) (c' : ChainObj) :
    c.init s x a b = (c', true) ↔ x.kdlTree.bind (fun t => t.getChain a b) = some c'.kdl ∧ Chain.init s (some c'.kdl) = some c'.joints := by
  unfold ChainObj.init
  cases x.kdlTree with
  | none => simp
  | some t =>
    simp only [Option.bind_some]
    cases t.getChain a b with
    | none => simp
    | some segs =>
      dsimp only
      unfold Chain.init
      constructor
      · intro h
        simp only [Prod.mk.injEq] at h
        obtain ⟨rfl, h2⟩ := h
        obtain ⟨ls, hl⟩ := (pull_obj s segs []).1 h2
        rw [pull_obj_joints s segs [] ls hl]
        exact ⟨rfl, hl⟩
      · rintro ⟨h1, h2⟩
        cases h1
        rw [Option.bind_some] at h2
        rw [pull_obj_joints s _ [] _ h2]
        rfl

theorem forall2_filter {s : RState F} {es : List Xml} {segs : List KSeg}
    (h : List.Forall₂ (fun (e : Xml) (g : KSeg) => e.attr "name" = some g.joint ∧ g.fixed = !e.moves) es segs) (js : List Nat) :
    List.Forall₂ (fun (g : KSeg) j => s.getJointState g.joint = some j) (segs.filter (fun g => !g.fixed)) js ↔
      List.Forall₂ (fun (e : Xml) j => ∃ n, e.attr "name" = some n ∧ s.getJointState n = some j) (es.filter Xml.moves) js := by
  induction h generalizing js with
  | nil => simp
  | @cons e g es segs heg _ ih =>
    have hfix : (!g.fixed) = e.moves := by rw [heg.2, Bool.not_not]
    rw [List.filter_cons, List.filter_cons, hfix]
    split
    · cases js with
      | nil => simp
      | cons j js =>
        rw [List.forall₂_cons, List.forall₂_cons, ih]
        refine and_congr_left fun _ => ?_
        rw [heg.1]
        simp
    · exact ih js

/-- **C101.**  `Chain::init(root, tip)`, on a new object or one already in use, returns true exactly if both are links of the robot and every movable joint on the path between
them has a joint state; the chain's joints are then the joint states of the movable joints in the order of the path from root to tip, and its KDL chain has the joints of the path. -/
theorem C101_init {x : Xml} {r : String} (ht : x.IsTree r) (c : ChainObj) (s : RState F) (a b : String) (c' : ChainObj) :
    c.init s x a b = (c', true) ↔ x.IsLink a ∧ x.IsLink b ∧ ∃ es, x.Path a es b ∧
      List.Forall₂ (fun (e : Xml) (g : KSeg) => e.attr "name" = some g.joint ∧ g.fixed = !e.moves) es c'.kdl ∧
      List.Forall₂ (fun (e : Xml) j => ∃ n, e.attr "name" = some n ∧ s.getJointState n = some j) (es.filter Xml.moves) c'.joints := by
  obtain ⟨t, h1, h2⟩ := getChain_iff ht
  rw [init_obj, h1, Option.bind_some, h2, C52_chain_init]
  constructor
  · rintro ⟨⟨ha, hb, es, hp, hes⟩, _, hk, hj⟩
    cases hk
    exact ⟨ha, hb, es, hp, hes, (forall2_filter hes _).1 hj⟩
  · rintro ⟨ha, hb, es, hp, hes, hj⟩
    exact ⟨⟨ha, hb, es, hp, hes⟩, _, rfl, (forall2_filter hes _).2 hj⟩

/-- **C101.**  Between any two links there is exactly one path. -/
theorem C101_path {x : Xml} {r : String} (ht : x.IsTree r) {a b : String} (ha : x.IsLink a) (hb : x.IsLink b) : ∃! es, x.Path a es b := by
  obtain ⟨ks, h1, w, hf⟩ := kdlTree_spec ht
  have ha' := (isLink_iff ht hf a).1 ha
  obtain ⟨ls, hl⟩ := KTree.chainL_exists w ha' ((isLink_iff ht hf b).1 hb)
  obtain ⟨hw, hn⟩ := (KTree.chainL_iff w a b ha' ls).1 hl
  obtain ⟨es, he, hel⟩ := (walk_iff hf a b).2 ls hw
  refine ⟨es, ⟨he, (nodup_iff ht w hel).2 hn⟩, ?_⟩
  rintro es' ⟨he', hn'⟩
  obtain ⟨ls', hl', hel'⟩ := (walk_iff (r := r) hf a b).1 es' he'
  have := (KTree.chainL_iff w a b ha' ls').2 ⟨hl', (nodup_iff ht w hel').1 hn'⟩
  rw [hl] at this
  cases this
  clear hl hw hn hl' he he' hn'
  induction hel generalizing es' with
  | nil => cases hel'; rfl
  | @cons e k es ls hek _ ih =>
    cases hel' with
    | @cons e' _ es' _ hek' h =>
      rw [ht.single e hek.1 e' hek'.1 _ _ _ (kdlLink_spec hek.2.2).2.2 (kdlLink_spec hek'.2.2).2.2, ih es' h]

theorem Xml.Walk.trans {x : Xml} {a b c : String} {es fs : List Xml} (h : x.Walk a es b) (h' : x.Walk b fs c) : x.Walk a (es ++ fs) c := by
  induction h with
  | stay => exact h'
  | up he hat _ ih => exact .up he hat (ih h')
  | down he hat _ ih => exact .down he hat (ih h')

theorem Xml.Walk.reverse {x : Xml} {a b : String} {es : List Xml} (h : x.Walk a es b) : x.Walk b es.reverse a := by
  induction h with
  | stay a => exact .stay a
  | up he hat _ ih => rw [List.reverse_cons]; exact ih.trans (.down he hat (.stay _))
  | down he hat _ ih => rw [List.reverse_cons]; exact ih.trans (.up he hat (.stay _))

/-- **C101.**  Exchanging root and tip reverses the chain. -/
theorem C101_reverse {x : Xml} {r : String} (ht : x.IsTree r) (c : ChainObj) (s : RState F) (a b : String) (segs : List KSeg) (js : List Nat) :
    c.init s x a b = (⟨segs, js⟩, true) ↔ c.init s x b a = (⟨segs.reverse, js.reverse⟩, true) := by
  have key : ∀ a b segs js, c.init s x a b = (⟨segs, js⟩, true) → c.init s x b a = (⟨segs.reverse, js.reverse⟩, true) := by
    intro a b segs js h
    obtain ⟨ha, hb, es, ⟨hw, hn⟩, h1, h2⟩ := (C101_init ht c s a b ⟨segs, js⟩).1 h
    refine (C101_init ht c s b a ⟨segs.reverse, js.reverse⟩).2 ⟨hb, ha, es.reverse, ⟨hw.reverse, List.nodup_reverse.2 hn⟩, List.rel_reverse h1, ?_⟩
    rw [List.filter_reverse]
    exact List.rel_reverse h2
  refine ⟨key a b segs js, fun h => ?_⟩
  have := key _ _ _ _ h
  simpa using this

/-- A chain can be initialised exactly if the movable joints on the path have states. -/
theorem chain_ok {x : Xml} {r : String} (ht : x.IsTree r) (s : RState F) (c : ChainObj) (a b : String) :
    (c.init s x a b).2 = true ↔ x.IsLink a ∧ x.IsLink b ∧
      ∀ es, x.Path a es b → ∀ e ∈ es, e.moves = true → ∀ n, e.attr "name" = some n → ∃ j, s.getJointState n = some j := by
  constructor
  · intro hi
    obtain ⟨ha, hb, es, hp, _, hj⟩ := (C101_init ht c s a b (c.init s x a b).1).1 (by rw [← hi])
    refine ⟨ha, hb, fun es' hp' e he hm n hn => ?_⟩
    obtain rfl := (C101_path ht ha hb).unique hp hp'
    obtain ⟨j, _, n', hn', hj'⟩ := mem_forall2_left hj (List.mem_filter.2 ⟨he, hm⟩)
    rw [hn] at hn'; cases hn'
    exact ⟨j, hj'⟩
  · rintro ⟨ha, hb, hall⟩
    obtain ⟨t, h1, h2⟩ := getChain_iff ht
    obtain ⟨es, hp, huniq⟩ := C101_path ht ha hb
    have hmem : ∀ {a b es}, x.Walk a es b → ∀ e ∈ es, e ∈ x.childrenTagged "joint" := by
      intro a b es hw
      induction hw with
      | stay => simp
      | up he _ _ ih => intro e' he'; rcases List.mem_cons.1 he' with rfl | he'; exacts [he, ih e' he']
      | down he _ _ ih => intro e' he'; rcases List.mem_cons.1 he' with rfl | he'; exacts [he, ih e' he']
    have hsegs : ∃ segs, List.Forall₂ (fun (e : Xml) (g : KSeg) => e.attr "name" = some g.joint ∧ g.fixed = !e.moves) es segs := by
      have := fun e he => (ht.complete e (hmem hp.1 e he)).1
      clear hp hmem hall huniq
      induction es with
      | nil => exact ⟨[], .nil⟩
      | cons e es ih =>
        obtain ⟨n, hn⟩ := this e (by simp)
        obtain ⟨segs, h⟩ := ih (fun e he => this e (by simp [he]))
        exact ⟨⟨!e.moves, n⟩ :: segs, .cons ⟨hn, rfl⟩ h⟩
    obtain ⟨segs, hsegs⟩ := hsegs
    have hjs : ∃ js, List.Forall₂ (fun (e : Xml) j => ∃ n, e.attr "name" = some n ∧ s.getJointState n = some j) (es.filter Xml.moves) js := by
      have hthis : ∀ e ∈ es.filter Xml.moves, ∃ j n, e.attr "name" = some n ∧ s.getJointState n = some j := by
        intro e he
        obtain ⟨he, hm⟩ := List.mem_filter.1 he
        obtain ⟨n, hn⟩ := (ht.complete e (hmem hp.1 e he)).1
        obtain ⟨j, hj⟩ := hall es hp e he hm n hn
        exact ⟨j, n, hn, hj⟩
      generalize es.filter Xml.moves = fs at hthis
      induction fs with
      | nil => exact ⟨[], .nil⟩
      | cons e fs ih =>
        obtain ⟨j, hj⟩ := hthis e (by simp)
        obtain ⟨js, h⟩ := ih (fun e he => hthis e (by simp [he]))
        exact ⟨j :: js, .cons hj h⟩
    obtain ⟨js, hjs⟩ := hjs
    have := (C101_init ht c s a b ⟨segs, js⟩).2 ⟨ha, hb, es, hp, hsegs, hjs⟩
    rw [this]

theorem state_iff [Zero F] {ts : List (Trans F)} {joint : String → Option (UJoint F)} {acts : List (Actuator F)} {old : Nat → F} {s0 s : RState F}
    (h : RState.mk' ts joint acts old = some s0) (hjm : s.jmap = s0.jmap) (n : String) : (∃ j, s.getJointState n = some j) ↔ ∃ t ∈ ts, n ∈ t.jointNames := by
  have hg : s.getJointState n = s0.getJointState n := by unfold RState.getJointState; rw [hjm]
  rw [← Option.ne_none_iff_exists', Ne, hg, C50_lookup_null h]
  push Not
  rfl

theorem driven_aux [Zero F] {x : Xml} {r : String} (ht : x.IsTree r) {ts : List (Trans F)} {joint : String → Option (UJoint F)} {acts : List (Actuator F)} {old : Nat → F} {s0 s : RState F}
    (h : RState.mk' ts joint acts old = some s0) (hjm : s.jmap = s0.jmap) (c : ChainObj) (a b : String) :
    (c.init s x a b).2 = true ↔ x.IsLink a ∧ x.IsLink b ∧
      ∀ es, x.Path a es b → ∀ e ∈ es, e.moves = true → ∀ n, e.attr "name" = some n → ∃ t ∈ ts, n ∈ t.jointNames := by
  rw [chain_ok ht]
  simp only [state_iff h hjm]

/-- **C101.**  Whatever was done with the object before: while its last `init` returned true, an array sized by its KDL chain has the size its own functions demand. -/
theorem C101_sizes {c : ChainObj} (h : ChainObj.History (F := F) c true) :
    c.nrJoints = c.joints.length ∧ ∀ s : RState F, c.getPositionsKdl c.nrJoints s = some (ChainLike.getPositions c.joints s) := by
  have key : c.nrJoints = c.joints.length := by
    generalize hok : true = ok at h
    cases h with
    | new => rfl
    | @init c0 ok0 s x a b h0 =>
      have := (init_obj c0 s x a b (c0.init s x a b).1).1 (by rw [hok])
      obtain ⟨_, hj⟩ := (C52_chain_init s _ _).1 this.2
      obtain ⟨h1, h2⟩ := hj
      cases h1
      exact h2.length_eq
  refine ⟨key, fun s => ?_⟩
  unfold ChainObj.getPositionsKdl
  rw [if_pos key]

end

section
variable {F : Type} [FCmp F] [Zero F] [Add F] [Sub F] [Mul F] [iDiv : Div F] [Neg F] [FLit F] [iTrig : FTrig F] [Parse F]

/-- **C101.**  On a loaded robot, at any time, `init` returns true exactly if every movable joint on the path belongs to a transmission the robot kept. -/
theorem C101_driven {x : Xml} {r : String} (ht : x.IsTree r) {l : TransLoader F} {urdf : Xml → Option (String → Option (UJoint F))} {joint : String → Option (UJoint F)}
    {acts : List (Actuator F)} {ts : List (Trans F)} {s0 s : RState F} (h : Loaded l urdf x joint acts ts s0) (hl : Later s0 s) (c : ChainObj) (a b : String) :
    (c.init s x a b).2 = true ↔ x.IsLink a ∧ x.IsLink b ∧
      ∀ es, x.Path a es b → ∀ e ∈ es, e.moves = true → ∀ n, e.attr "name" = some n → ∃ t ∈ ts, n ∈ t.jointNames := by
  obtain ⟨⟨hw, acts', old, hload, hmk⟩, hu, hwell, hnd⟩ := h
  have hr0 : s0.Ready := C67_ready l urdf x acts acts' hw ts hload old (by rw [all_eq]; exact hwell) joint s0 hu hmk
  exact driven_aux ht hmk (hl.same hr0).1.jmap c a b

end

section
variable {F : Type}

/-- **C101.**  A failed `init` does not leave the object as it was: after a link that does not exist the object keeps its joints but its KDL chain is empty, and an array sized by that
chain fails the assertion in `getPositions`. -/
theorem C101_failed_reinit {x : Xml} {r : String} (ht : x.IsTree r) (c : ChainObj) (s : RState F) (a b : String) (hb : ¬ x.IsLink b) :
    ∃ c', c.init s x a b = (c', false) ∧ c'.joints = c.joints ∧ c'.kdl = [] ∧ (c.joints ≠ [] → c'.getPositionsKdl c'.nrJoints s = none) := by
  obtain ⟨t, h1, h2⟩ := getChain_iff ht
  have hn : t.getChain a b = none := by
    cases hg : t.getChain a b with
    | none => rfl
    | some segs => exact (hb ((h2 a b segs).1 hg).2.1).elim
  refine ⟨{ c with kdl := [] }, ?_, rfl, rfl, fun hj => ?_⟩
  · unfold ChainObj.init
    rw [h1]; dsimp only; rw [hn]
  · unfold ChainObj.getPositionsKdl ChainObj.nrJoints
    rw [if_neg]
    intro h
    exact hj (List.length_eq_zero_iff.1 h.symm)

end

/-! ## The shipped description -/

/-- What makes a description a tree, as a computation. -/
theorem isTree_of_check {x : Xml} {r : String} {ks : List KLink} (hm : (x.childrenTagged "joint").mapM Xml.kdlLink = some ks)
    (hn : ((x.childrenTagged "joint").map (·.attr "name")).Nodup) (hl : (ks.map (·.link)).Nodup)
    (hp : ∀ k ∈ ks, k.parent ∈ (x.childrenTagged "link").filterMap (·.attr "name") ∧ k.link ∈ (x.childrenTagged "link").filterMap (·.attr "name"))
    (hr : r ∈ (x.childrenTagged "link").filterMap (·.attr "name") ∧ r ∉ ks.map (·.link))
    (ha : ∀ a ∈ (x.childrenTagged "link").filterMap (·.attr "name"), a = r ∨ a ∈ ks.map (·.link)) (depth : String → Nat) (hd : ∀ k ∈ ks, depth k.parent < depth k.link) : x.IsTree r := by
  have hf := mapM_spec _ _ _ hm
  have hto : ∀ e ∈ x.childrenTagged "joint", ∃ k ∈ ks, e.kdlLink = some k := fun e he => mem_forall2_left hf he
  have hof : ∀ k ∈ ks, ∃ e ∈ x.childrenTagged "joint", e.kdlLink = some k := fun k hk => mem_forall2_left hf.flip hk
  have hlink : ∀ a, a ∈ (x.childrenTagged "link").filterMap (·.attr "name") ↔ x.IsLink a := fun a => List.mem_filterMap
  have hinj : ∀ e ∈ x.childrenTagged "joint", ∀ e' ∈ x.childrenTagged "joint", e.attr "name" = e'.attr "name" → e = e' := fun e he e' he' h => List.inj_on_of_nodup_map hn he he' h
  constructor
  · intro e he
    obtain ⟨k, hk, hek⟩ := hto e he
    have h := kdlLink_spec hek
    refine ⟨⟨_, h.1⟩, ?_, _, _, h.2.2, (hlink _).1 (hp k hk).1, (hlink _).1 (hp k hk).2⟩
    unfold Xml.kdlLink at hek
    simp only [bind, Option.bind_eq_some_iff] at hek
    obtain ⟨_, _, ty, hty, _⟩ := hek
    exact ⟨ty, hty⟩
  · exact hinj
  · intro e he e' he' p p' c h h'
    obtain ⟨k, hk, hek⟩ := hto e he
    obtain ⟨k', hk', hek'⟩ := hto e' he'
    have h1 := (attaches_unique (kdlLink_spec hek).2.2 h).2
    have h2 := (attaches_unique (kdlLink_spec hek').2.2 h').2
    obtain rfl := List.inj_on_of_nodup_map hl hk hk' (h1.trans h2.symm)
    exact hinj e he e' he' ((kdlLink_spec hek).1.trans (kdlLink_spec hek').1.symm)
  · refine ⟨(hlink r).1 hr.1, fun a hal => ⟨?_, ?_⟩⟩
    · rintro rfl e he p hpa
      obtain ⟨k, hk, hek⟩ := hto e he
      exact hr.2 (List.mem_map.2 ⟨k, hk, (attaches_unique (kdlLink_spec hek).2.2 hpa).2⟩)
    · intro h
      rcases ha a ((hlink a).2 hal) with h' | h'
      · exact h'
      · obtain ⟨k, hk, rfl⟩ := List.mem_map.1 h'
        obtain ⟨e, he, hek⟩ := hof k hk
        exact (h e he _ (kdlLink_spec hek).2.2).elim
  · refine ⟨depth, fun e he p c h => ?_⟩
    obtain ⟨k, hk, hek⟩ := hto e he
    obtain ⟨rfl, rfl⟩ := attaches_unique (kdlLink_spec hek).2.2 h
    exact hd k hk

/-- The joints of the complete description, with the distance of their child link from the root. -/
def pr2Links : List (KLink × Nat) := [
  (⟨"base_link", "base_footprint", ⟨true, "base_footprint_joint"⟩⟩, 1),
  (⟨"base_laser_link", "base_link", ⟨true, "base_laser_joint"⟩⟩, 2),
  (⟨"fl_caster_rotation_link", "base_link", ⟨false, "fl_caster_rotation_joint"⟩⟩, 2),
  (⟨"fl_caster_l_wheel_link", "fl_caster_rotation_link", ⟨false, "fl_caster_l_wheel_joint"⟩⟩, 3),
  (⟨"fl_caster_r_wheel_link", "fl_caster_rotation_link", ⟨false, "fl_caster_r_wheel_joint"⟩⟩, 3),
  (⟨"fr_caster_rotation_link", "base_link", ⟨false, "fr_caster_rotation_joint"⟩⟩, 2),
  (⟨"fr_caster_l_wheel_link", "fr_caster_rotation_link", ⟨false, "fr_caster_l_wheel_joint"⟩⟩, 3),
  (⟨"fr_caster_r_wheel_link", "fr_caster_rotation_link", ⟨false, "fr_caster_r_wheel_joint"⟩⟩, 3),
  (⟨"bl_caster_rotation_link", "base_link", ⟨false, "bl_caster_rotation_joint"⟩⟩, 2),
  (⟨"bl_caster_l_wheel_link", "bl_caster_rotation_link", ⟨false, "bl_caster_l_wheel_joint"⟩⟩, 3),
  (⟨"bl_caster_r_wheel_link", "bl_caster_rotation_link", ⟨false, "bl_caster_r_wheel_joint"⟩⟩, 3),
  (⟨"br_caster_rotation_link", "base_link", ⟨false, "br_caster_rotation_joint"⟩⟩, 2),
  (⟨"br_caster_l_wheel_link", "br_caster_rotation_link", ⟨false, "br_caster_l_wheel_joint"⟩⟩, 3),
  (⟨"br_caster_r_wheel_link", "br_caster_rotation_link", ⟨false, "br_caster_r_wheel_joint"⟩⟩, 3),
  (⟨"torso_lift_link", "base_link", ⟨false, "torso_lift_joint"⟩⟩, 2),
  (⟨"imu_link", "torso_lift_link", ⟨true, "imu_joint"⟩⟩, 3),
  (⟨"head_pan_link", "torso_lift_link", ⟨false, "head_pan_joint"⟩⟩, 3),
  (⟨"head_tilt_link", "head_pan_link", ⟨false, "head_tilt_joint"⟩⟩, 4),
  (⟨"head_plate_frame", "head_tilt_link", ⟨true, "head_plate_frame_joint"⟩⟩, 5),
  (⟨"sensor_mount_link", "head_plate_frame", ⟨true, "sensor_mount_frame_joint"⟩⟩, 6),
  (⟨"high_def_frame", "sensor_mount_link", ⟨true, "high_def_frame_joint"⟩⟩, 7),
  (⟨"high_def_optical_frame", "high_def_frame", ⟨true, "high_def_optical_frame_joint"⟩⟩, 8),
  (⟨"double_stereo_link", "sensor_mount_link", ⟨true, "double_stereo_frame_joint"⟩⟩, 7),
  (⟨"wide_stereo_link", "double_stereo_link", ⟨true, "wide_stereo_frame_joint"⟩⟩, 8),
  (⟨"wide_stereo_optical_frame", "wide_stereo_link", ⟨true, "wide_stereo_optical_frame_joint"⟩⟩, 9),
  (⟨"wide_stereo_gazebo_l_stereo_camera_frame", "wide_stereo_link", ⟨true, "wide_stereo_gazebo_l_stereo_camera_frame_joint"⟩⟩, 9),
  (⟨"wide_stereo_gazebo_l_stereo_camera_optical_frame", "wide_stereo_gazebo_l_stereo_camera_frame", ⟨true, "wide_stereo_gazebo_l_stereo_camera_optical_frame_joint"⟩⟩, 10),
  (⟨"wide_stereo_gazebo_r_stereo_camera_frame", "wide_stereo_gazebo_l_stereo_camera_frame", ⟨true, "wide_stereo_gazebo_r_stereo_camera_frame_joint"⟩⟩, 10),
  (⟨"wide_stereo_gazebo_r_stereo_camera_optical_frame", "wide_stereo_gazebo_r_stereo_camera_frame", ⟨true, "wide_stereo_gazebo_r_stereo_camera_optical_frame_joint"⟩⟩, 11),
  (⟨"narrow_stereo_link", "double_stereo_link", ⟨true, "narrow_stereo_frame_joint"⟩⟩, 8),
  (⟨"narrow_stereo_optical_frame", "narrow_stereo_link", ⟨true, "narrow_stereo_optical_frame_joint"⟩⟩, 9),
  (⟨"narrow_stereo_gazebo_l_stereo_camera_frame", "narrow_stereo_link", ⟨true, "narrow_stereo_gazebo_l_stereo_camera_frame_joint"⟩⟩, 9),
  (⟨"narrow_stereo_gazebo_l_stereo_camera_optical_frame", "narrow_stereo_gazebo_l_stereo_camera_frame", ⟨true, "narrow_stereo_gazebo_l_stereo_camera_optical_frame_joint"⟩⟩, 10),
  (⟨"narrow_stereo_gazebo_r_stereo_camera_frame", "narrow_stereo_gazebo_l_stereo_camera_frame", ⟨true, "narrow_stereo_gazebo_r_stereo_camera_frame_joint"⟩⟩, 10),
  (⟨"narrow_stereo_gazebo_r_stereo_camera_optical_frame", "narrow_stereo_gazebo_r_stereo_camera_frame", ⟨true, "narrow_stereo_gazebo_r_stereo_camera_optical_frame_joint"⟩⟩, 11),
  (⟨"laser_tilt_mount_link", "torso_lift_link", ⟨false, "laser_tilt_mount_joint"⟩⟩, 3),
  (⟨"laser_tilt_link", "laser_tilt_mount_link", ⟨true, "laser_tilt_joint"⟩⟩, 4),
  (⟨"r_shoulder_pan_link", "torso_lift_link", ⟨false, "r_shoulder_pan_joint"⟩⟩, 3),
  (⟨"r_shoulder_lift_link", "r_shoulder_pan_link", ⟨false, "r_shoulder_lift_joint"⟩⟩, 4),
  (⟨"r_upper_arm_roll_link", "r_shoulder_lift_link", ⟨false, "r_upper_arm_roll_joint"⟩⟩, 5),
  (⟨"r_upper_arm_link", "r_upper_arm_roll_link", ⟨true, "r_upper_arm_joint"⟩⟩, 6),
  (⟨"r_forearm_roll_link", "r_elbow_flex_link", ⟨false, "r_forearm_roll_joint"⟩⟩, 8),
  (⟨"r_elbow_flex_link", "r_upper_arm_link", ⟨false, "r_elbow_flex_joint"⟩⟩, 7),
  (⟨"r_forearm_link", "r_forearm_roll_link", ⟨true, "r_forearm_joint"⟩⟩, 9),
  (⟨"r_wrist_flex_link", "r_forearm_link", ⟨false, "r_wrist_flex_joint"⟩⟩, 10),
  (⟨"r_wrist_roll_link", "r_wrist_flex_link", ⟨false, "r_wrist_roll_joint"⟩⟩, 11),
  (⟨"r_gripper_palm_link", "r_wrist_roll_link", ⟨true, "r_gripper_palm_joint"⟩⟩, 12),
  (⟨"r_gripper_led_frame", "r_gripper_palm_link", ⟨true, "r_gripper_led_joint"⟩⟩, 13),
  (⟨"r_gripper_motor_accelerometer_link", "r_gripper_palm_link", ⟨true, "r_gripper_motor_accelerometer_joint"⟩⟩, 13),
  (⟨"r_gripper_tool_frame", "r_gripper_palm_link", ⟨true, "r_gripper_tool_joint"⟩⟩, 13),
  (⟨"r_gripper_l_finger_link", "r_gripper_palm_link", ⟨false, "r_gripper_l_finger_joint"⟩⟩, 13),
  (⟨"r_gripper_r_finger_link", "r_gripper_palm_link", ⟨false, "r_gripper_r_finger_joint"⟩⟩, 13),
  (⟨"r_gripper_l_parallel_link", "r_gripper_palm_link", ⟨false, "r_gripper_l_parallel_root_joint"⟩⟩, 13),
  (⟨"r_gripper_r_parallel_link", "r_gripper_palm_link", ⟨false, "r_gripper_r_parallel_root_joint"⟩⟩, 13),
  (⟨"r_gripper_l_finger_tip_link", "r_gripper_l_finger_link", ⟨false, "r_gripper_l_finger_tip_joint"⟩⟩, 14),
  (⟨"r_gripper_r_finger_tip_link", "r_gripper_r_finger_link", ⟨false, "r_gripper_r_finger_tip_joint"⟩⟩, 14),
  (⟨"r_gripper_l_finger_tip_frame", "r_gripper_r_finger_tip_link", ⟨false, "r_gripper_joint"⟩⟩, 15),
  (⟨"l_shoulder_pan_link", "torso_lift_link", ⟨false, "l_shoulder_pan_joint"⟩⟩, 3),
  (⟨"l_shoulder_lift_link", "l_shoulder_pan_link", ⟨false, "l_shoulder_lift_joint"⟩⟩, 4),
  (⟨"l_upper_arm_roll_link", "l_shoulder_lift_link", ⟨false, "l_upper_arm_roll_joint"⟩⟩, 5),
  (⟨"l_upper_arm_link", "l_upper_arm_roll_link", ⟨true, "l_upper_arm_joint"⟩⟩, 6),
  (⟨"l_forearm_roll_link", "l_elbow_flex_link", ⟨false, "l_forearm_roll_joint"⟩⟩, 8),
  (⟨"l_elbow_flex_link", "l_upper_arm_link", ⟨false, "l_elbow_flex_joint"⟩⟩, 7),
  (⟨"l_forearm_link", "l_forearm_roll_link", ⟨true, "l_forearm_joint"⟩⟩, 9),
  (⟨"l_wrist_flex_link", "l_forearm_link", ⟨false, "l_wrist_flex_joint"⟩⟩, 10),
  (⟨"l_wrist_roll_link", "l_wrist_flex_link", ⟨false, "l_wrist_roll_joint"⟩⟩, 11),
  (⟨"l_gripper_palm_link", "l_wrist_roll_link", ⟨true, "l_gripper_palm_joint"⟩⟩, 12),
  (⟨"l_gripper_led_frame", "l_gripper_palm_link", ⟨true, "l_gripper_led_joint"⟩⟩, 13),
  (⟨"l_gripper_motor_accelerometer_link", "l_gripper_palm_link", ⟨true, "l_gripper_motor_accelerometer_joint"⟩⟩, 13),
  (⟨"l_gripper_tool_frame", "l_gripper_palm_link", ⟨true, "l_gripper_tool_joint"⟩⟩, 13),
  (⟨"l_gripper_l_finger_link", "l_gripper_palm_link", ⟨false, "l_gripper_l_finger_joint"⟩⟩, 13),
  (⟨"l_gripper_r_finger_link", "l_gripper_palm_link", ⟨false, "l_gripper_r_finger_joint"⟩⟩, 13),
  (⟨"l_gripper_l_parallel_link", "l_gripper_palm_link", ⟨false, "l_gripper_l_parallel_root_joint"⟩⟩, 13),
  (⟨"l_gripper_r_parallel_link", "l_gripper_palm_link", ⟨false, "l_gripper_r_parallel_root_joint"⟩⟩, 13),
  (⟨"l_gripper_l_finger_tip_link", "l_gripper_l_finger_link", ⟨false, "l_gripper_l_finger_tip_joint"⟩⟩, 14),
  (⟨"l_gripper_r_finger_tip_link", "l_gripper_r_finger_link", ⟨false, "l_gripper_r_finger_tip_joint"⟩⟩, 14),
  (⟨"l_gripper_l_finger_tip_frame", "l_gripper_r_finger_tip_link", ⟨false, "l_gripper_joint"⟩⟩, 15),
  (⟨"l_forearm_cam_frame", "l_forearm_roll_link", ⟨true, "l_forearm_cam_frame_joint"⟩⟩, 9),
  (⟨"l_forearm_cam_optical_frame", "l_forearm_cam_frame", ⟨true, "l_forearm_cam_optical_frame_joint"⟩⟩, 10),
  (⟨"r_forearm_cam_frame", "r_forearm_roll_link", ⟨true, "r_forearm_cam_frame_joint"⟩⟩, 9),
  (⟨"r_forearm_cam_optical_frame", "r_forearm_cam_frame", ⟨true, "r_forearm_cam_optical_frame_joint"⟩⟩, 10),
  (⟨"r_gripper_motor_slider_link", "r_gripper_palm_link", ⟨false, "r_gripper_motor_slider_joint"⟩⟩, 13),
  (⟨"r_gripper_motor_screw_link", "r_gripper_motor_slider_link", ⟨false, "r_gripper_motor_screw_joint"⟩⟩, 14),
  (⟨"l_gripper_motor_slider_link", "l_gripper_palm_link", ⟨false, "l_gripper_motor_slider_joint"⟩⟩, 13),
  (⟨"l_gripper_motor_screw_link", "l_gripper_motor_slider_link", ⟨false, "l_gripper_motor_screw_joint"⟩⟩, 14)]

def pr2Depth (a : String) : Nat := ((pr2Links.find? fun p => p.1.link == a).map (·.2)).getD 0

set_option maxRecDepth 100000 in
theorem pr2Complete_links : (pr2Complete.childrenTagged "joint").mapM Xml.kdlLink = some (pr2Links.map (·.1)) := by rfl

set_option maxRecDepth 100000 in
theorem pr2Urdf_links : (pr2Urdf.childrenTagged "joint").mapM Xml.kdlLink = some ((pr2Links.take 81).map (·.1)) := by rfl

set_option maxRecDepth 100000 in
theorem pr2Complete_tree : pr2Complete.IsTree "base_footprint" :=
  isTree_of_check pr2Complete_links (by decide +kernel) (by decide +kernel) (by decide +kernel) (by decide +kernel) (by decide +kernel) pr2Depth (by decide +kernel)

set_option maxRecDepth 100000 in
theorem pr2Urdf_tree : pr2Urdf.IsTree "base_footprint" :=
  isTree_of_check pr2Urdf_links (by decide +kernel) (by decide +kernel) (by decide +kernel) (by decide +kernel) (by decide +kernel) pr2Depth (by decide +kernel)

section
variable {F : Type} [FCmp F] [Zero F] [Add F] [Sub F] [Mul F] [iDiv : Div F] [Neg F] [FLit F] [iTrig : FTrig F] [Parse F]

theorem pr2_moving : ∀ p ∈ pr2Links, p.1.seg.fixed = false → p.1.seg.joint ∈ pr2Rows.flatMap (Row.joints pr2Screw) := by decide +kernel

theorem Xml.Walk.mem {x : Xml} {a b : String} {es : List Xml} (h : x.Walk a es b) : ∀ e ∈ es, e ∈ x.childrenTagged "joint" := by
  induction h with
  | stay => simp
  | up he _ _ ih => intro e' he'; rcases List.mem_cons.1 he' with rfl | he'; exacts [he, ih e' he']
  | down he _ _ ih => intro e' he'; rcases List.mem_cons.1 he' with rfl | he'; exacts [he, ih e' he']

/-- **C101.**  On the robot of the completed shipped description a chain between any two of its links can be initialised, at any time. -/
theorem C101_pr2 {urdf : Xml → Option (String → Option (UJoint F))} {joint : String → Option (UJoint F)} {new : Nat → NewTrans F} {acts : List (Actuator F)} {s0 s : RState F}
    (h : Loaded (pluginLoader new) urdf pr2Complete joint acts (pr2Trans new) s0) (hl : Later s0 s) (c : ChainObj) (a b : String) (ha : pr2Complete.IsLink a) (hb : pr2Complete.IsLink b) :
    (c.init s pr2Complete a b).2 = true := by
  refine (C101_driven pr2Complete_tree h hl c a b).2 ⟨ha, hb, ?_⟩
  intro es hp e he hm n hn
  have hf := mapM_spec _ _ _ pr2Complete_links
  obtain ⟨k, hk, hek⟩ := mem_forall2_left hf (hp.1.mem e he)
  obtain ⟨p, hp', rfl⟩ := List.mem_map.1 hk
  have h1 := kdlLink_spec hek
  rw [hn] at h1
  have h2 := pr2_moving p hp' (by rw [h1.2.1, hm]; rfl)
  rw [← (complete_ts new).1, List.mem_flatMap] at h2
  obtain ⟨t, ht, hnt⟩ := h2
  rw [Option.some.inj h1.1]
  exact ⟨t, ht, hnt⟩

/-- **C101.**  On the robot of the shipped description as it is (no transmission is loaded, C99), a chain can be initialised only if no joint on it moves. -/
theorem C101_pr2_shipped {joint : String → Option (UJoint F)} {acts : List (Actuator F)} {old : Nat → F} {s : RState F} (h : RState.mk' [] joint acts old = some s) (c : ChainObj)
    (a b : String) : (c.init s pr2Urdf a b).2 = true ↔ pr2Urdf.IsLink a ∧ pr2Urdf.IsLink b ∧ ∀ es, pr2Urdf.Path a es b → ∀ e ∈ es, e.moves = false := by
  rw [driven_aux pr2Urdf_tree h rfl]
  refine and_congr_right fun _ => and_congr_right fun _ => ⟨fun h es hp e he => ?_, fun h es hp e he hm => ?_⟩
  · obtain ⟨n, hn⟩ := (pr2Urdf_tree.complete e (hp.1.mem e he)).1
    cases hm : e.moves with
    | false => rfl
    | true => obtain ⟨t, ht, _⟩ := h es hp e he hm n hn; simp at ht
  · rw [h es hp e he] at hm; cases hm

end

section examples
attribute [local instance] exactCmp demoTrig demoLit decimalParse

/-- The chain that the (disabled) test in `test_chain.cpp` asks for: thirteen segments, ten of which move. -/
example : ((pr2Complete.kdlTree.bind fun t => t.getChain "fl_caster_l_wheel_link" "r_gripper_palm_link").map fun l => l.map fun g => (g.joint, !g.fixed)) =
    some [("fl_caster_l_wheel_joint", true), ("fl_caster_rotation_joint", true), ("torso_lift_joint", true), ("r_shoulder_pan_joint", true), ("r_shoulder_lift_joint", true),
      ("r_upper_arm_roll_joint", true), ("r_upper_arm_joint", false), ("r_elbow_flex_joint", true), ("r_forearm_roll_joint", true), ("r_forearm_joint", false),
      ("r_wrist_flex_joint", true), ("r_wrist_roll_joint", true), ("r_gripper_palm_joint", false)] := by decide +kernel

example : ∃ c, ChainObj.init ⟨[], []⟩ pr2State0 pr2Complete "fl_caster_l_wheel_link" "r_gripper_palm_link" = (c, true) ∧ c.joints.length = 10 ∧ c.nrJoints = 10 ∧
    ChainObj.History (F := ℚ) c true := by
  have h : ChainObj.init ⟨[], []⟩ pr2State0 pr2Complete "fl_caster_l_wheel_link" "r_gripper_palm_link" = (_, true) := rfl
  refine ⟨_, h, by decide +kernel, by decide +kernel, ?_⟩
  have := ChainObj.History.init (F := ℚ) pr2State0 pr2Complete "fl_caster_l_wheel_link" "r_gripper_palm_link" .new
  rw [h] at this
  exact this

/-- A used object that failed to be initialised again. -/
example : ∃ c, ((ChainObj.init ⟨[], []⟩ pr2State0 pr2Complete "torso_lift_link" "r_gripper_palm_link").1.init pr2State0 pr2Complete "torso_lift_link" "tool") = (c, false) ∧
    c.joints.length = 7 ∧ c.getPositionsKdl c.nrJoints pr2State0 = none := ⟨_, rfl, by decide +kernel, by decide +kernel⟩

end examples

end Pr2
