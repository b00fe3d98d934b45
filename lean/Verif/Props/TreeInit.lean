import Verif.Model.KdlTree
import Verif.Props.Kinematics

/-!
# C104: a tree addresses every movable joint of the description once, in kinematic order
-/

namespace Pr2

/-! ## The order in which the segments are added -/

namespace KTree
variable {t : KTree}

theorem mem_children {a : String} {k : KLink} : k ∈ t.children a ↔ k ∈ t.links ∧ k.parent = a := by
  unfold KTree.children
  rw [List.mem_insertionSort, List.mem_filter, beq_iff_eq]

theorem children_nodup (hn : t.links.Nodup) (a : String) : (t.children a).Nodup :=
  ((List.perm_insertionSort _ _).nodup_iff).2 (hn.filter _)

/-- The links below. -/
theorem mem_preorder {n : Nat} {a : String} {k : KLink} : k ∈ t.preorder n a ↔ ∃ us, t.Up k.link (k :: us) a ∧ us.length < n := by
  induction n generalizing a with
  | zero => simp [KTree.preorder]
  | succ n ih =>
    unfold KTree.preorder
    simp only [List.mem_flatMap, List.mem_cons, mem_children, ih]
    constructor
    · rintro ⟨c, ⟨hc, rfl⟩, rfl | ⟨us, hu, hl⟩⟩
      · exact ⟨[], .cons hc (.nil _), by simp⟩
      · refine ⟨us ++ [c], ?_, by simpa using hl⟩
        exact hu.append (.cons hc (.nil _))
    · rintro ⟨us, hu, hl⟩
      rcases List.eq_nil_or_concat us with rfl | ⟨us, c, rfl⟩
      · obtain ⟨h1, -, h2⟩ := hu.cons'
        exact ⟨k, ⟨h1, h2.nil'⟩, .inl rfl⟩
      · rw [List.concat_eq_append, ← List.cons_append] at hu
        obtain ⟨b, h1, h2⟩ := hu.split
        obtain ⟨h3, rfl, h4⟩ := h2.cons'
        refine ⟨c, ⟨h3, h4.nil'⟩, .inr ⟨us, h1, ?_⟩⟩
        simp at hl; omega

theorem preorder_nodup (w : t.WF) (hn : t.links.Nodup) (n : Nat) (a : String) : (t.preorder n a).Nodup := by
  induction n generalizing a with
  | zero => simp [KTree.preorder]
  | succ n ih =>
    unfold KTree.preorder
    rw [List.nodup_flatMap]
    refine ⟨fun c hc => List.nodup_cons.2 ⟨fun h => ?_, ih _⟩, ?_⟩
    · obtain ⟨us, hu, -⟩ := mem_preorder.1 h
      have := Up.unique w hu (.nil _)
      cases this
    · refine (children_nodup hn a).imp_of_mem ?_
      intro c d hc hd hne
      have hc' := mem_children.1 hc
      clear hc
      obtain ⟨hc, rfl⟩ := hc'
      obtain ⟨hd, hp⟩ := mem_children.1 hd
      have key : ∀ c' ∈ t.links, c'.parent = c.parent → ∀ k, k ∈ c' :: t.preorder n c'.link → ∃ us, t.Up k.link (us ++ [c']) c.parent := by
        intro c' hc' hp k hk
        rcases List.mem_cons.1 hk with rfl | hk
        · exact ⟨[], by rw [← hp]; exact .cons hc' (.nil _)⟩
        · obtain ⟨us, hu, -⟩ := mem_preorder.1 hk
          exact ⟨k :: us, by rw [← hp]; exact hu.append (.cons hc' (.nil _))⟩
      intro k h1 h2
      obtain ⟨us, hu⟩ := key c hc rfl k h1
      obtain ⟨us', hu'⟩ := key d hd hp k h2
      have := Up.unique w hu hu'
      exact hne (List.append_inj_right' this rfl |> List.cons.inj |>.1)

/-- The segments from the root down to a link are added in this order. -/
theorem up_sublist {n : Nat} {a b : String} {us : List KLink} (h : t.Up b us a) (hl : us.length ≤ n) : us.reverse.Sublist (t.preorder n a) := by
  induction n generalizing a us with
  | zero =>
    have : us = [] := List.eq_nil_of_length_eq_zero (by omega)
    subst this; simp
  | succ n ih =>
    rcases List.eq_nil_or_concat us with rfl | ⟨us, c, rfl⟩
    · simp
    · rw [List.concat_eq_append] at h hl ⊢
      obtain ⟨b', h1, h2⟩ := h.split
      obtain ⟨h3, rfl, h4⟩ := h2.cons'
      rw [List.reverse_append, List.reverse_singleton, List.singleton_append]
      have := (ih h1 (by simp at hl; omega)).cons_cons c
      unfold KTree.preorder
      refine this.trans ?_
      have hm : c ∈ t.children a := mem_children.2 ⟨h3, h4.nil'⟩
      obtain ⟨l1, l2, hl⟩ := List.append_of_mem hm
      rw [hl, List.flatMap_append, List.flatMap_cons]
      exact (List.sublist_append_left _ _).trans (List.sublist_append_right _ _)

theorem preorder_perm (w : t.WF) (hn : t.links.Nodup) : (t.preorder t.links.length t.root).Perm t.links := by
  refine (List.perm_ext_iff_of_nodup (preorder_nodup w hn _ _) hn).2 fun k => ?_
  rw [mem_preorder]
  constructor
  · rintro ⟨us, hu, -⟩; exact hu.cons'.1
  · intro hk
    obtain ⟨us, hu⟩ := Up.exists w k.link (.inr ⟨k, hk, rfl⟩)
    rcases us with _ | ⟨k', us⟩
    · exact (w.root k hk hu.nil').elim
    · obtain ⟨h1, h2, -⟩ := hu.cons'
      obtain rfl := w.links k' h1 k hk h2
      have := ((hu.nodup w).subperm hu.mem).length_le
      exact ⟨us, hu, by simpa using this⟩

/-! ## Numbers -/

theorem number_map (q : Nat) (l : List KLink) : (KTree.number q l).map (·.1) = l := by
  induction l generalizing q with
  | nil => rfl
  | cons k l ih => unfold KTree.number; split <;> simp [ih]

theorem number_ge (q : Nat) (l : List KLink) : ∀ p ∈ KTree.number q l, p.1.seg.fixed = false → q ≤ p.2 := by
  induction l generalizing q with
  | nil => simp [KTree.number]
  | cons k l ih =>
    intro p hp hf
    unfold KTree.number at hp
    split at hp
    · rename_i hk
      rcases List.mem_cons.1 hp with rfl | hp
      · rw [hk] at hf; cases hf
      · exact ih q p hp hf
    · rcases List.mem_cons.1 hp with rfl | hp
      · exact le_refl _
      · exact (Nat.le_succ q).trans (ih (q + 1) p hp hf)

theorem number_sorted (q : Nat) (l : List KLink) : ((KTree.number q l).filter (fun p => !p.1.seg.fixed)).Pairwise (fun p p' => p.2 < p'.2) := by
  induction l generalizing q with
  | nil => simp [KTree.number]
  | cons k l ih =>
    unfold KTree.number
    split
    · rename_i hk; rw [List.filter_cons, if_neg (by simp [hk])]; exact ih q
    · rename_i hk
      rw [List.filter_cons, if_pos (by simp [hk])]
      refine List.pairwise_cons.2 ⟨fun p hp => ?_, ih _⟩
      obtain ⟨hp, hf⟩ := List.mem_filter.1 hp
      exact number_ge (q + 1) l p hp (by simpa using hf)

end KTree

section
variable {F : Type}

theorem tree_pull (s : RState F) (ps : List (Nat × String)) (js js' : List Nat) :
    TreeObj.pull s ps js = (js ++ js', true) ↔ List.Forall₂ (fun p j => s.getJointState p.2 = some j) ps js' := by
  induction ps generalizing js js' with
  | nil => simp [TreeObj.pull]
  | cons p ps ih =>
    unfold TreeObj.pull
    cases hj : s.getJointState p.2 with
    | none =>
      simp only [Prod.mk.injEq, Bool.false_eq_true, and_false, false_iff]
      intro h
      cases h with
      | cons h _ => rw [hj] at h; cases h
    | some j =>
      dsimp only
      cases js' with
      | nil =>
        simp only [List.append_nil, List.forall₂_nil_right_iff, reduceCtorEq, iff_false]
        intro h
        have : ∀ (ps : List (Nat × String)) (l : List Nat), l.length ≤ (TreeObj.pull s ps l).1.length := by
          intro ps
          induction ps with
          | nil => intro l; exact le_refl _
          | cons p ps ih =>
            intro l
            unfold TreeObj.pull
            split
            · exact le_refl _
            · exact le_trans (by simp) (ih _)
        have := this ps (js ++ [j])
        rw [h] at this
        simp at this
      | cons j' js' =>
        rw [List.forall₂_cons, hj]
        by_cases hjj : j = j'
        · subst hjj
          rw [show js ++ j :: js' = (js ++ [j]) ++ js' by simp, ih]
          simp
        · simp only [Option.some.injEq, hjj, false_and, iff_false]
          intro h
          have pre : ∀ (ps : List (Nat × String)) (l : List Nat), l <+: (TreeObj.pull s ps l).1 := by
            intro ps
            induction ps with
            | nil => intro l; exact List.prefix_refl _
            | cons p ps ih =>
              intro l
              unfold TreeObj.pull
              split
              · exact List.prefix_refl _
              · exact (List.prefix_append _ _).trans (ih _)
          have := pre ps (js ++ [j])
          rw [h] at this
          obtain ⟨l, hl⟩ := this
          rw [List.append_assoc, List.append_right_inj] at hl
          exact hjj (List.cons.inj hl).1

theorem tree_pull_ok (s : RState F) (ps : List (Nat × String)) (js : List Nat) :
    (TreeObj.pull s ps js).2 = true ↔ ∀ p ∈ ps, ∃ j, s.getJointState p.2 = some j := by
  induction ps generalizing js with
  | nil => simp [TreeObj.pull]
  | cons p ps ih =>
    unfold TreeObj.pull
    cases hj : s.getJointState p.2 with
    | none => simp [hj]
    | some j => simp [hj, ih]

/-- The joints in the order of their numbers are those of the segments in the order in which they were added. -/
theorem tree_order (t : KTree) :
    ((t.segmentMap).foldl (fun m g => if g.fixed then m else qmapSet m g.qnr g.joint) []).map (·.2) =
      ((t.preorder t.links.length t.root).filter (fun k => !k.seg.fixed)).map (·.seg.joint) ∧
    (t.segmentMap.filter (fun g => !g.fixed)).length = ((t.preorder t.links.length t.root).filter (fun k => !k.seg.fixed)).length := by
  have hnum := KTree.number_sorted 0 (t.preorder t.links.length t.root)
  have hmap := KTree.number_map 0 (t.preorder t.links.length t.root)
  generalize hN : KTree.number 0 (t.preorder t.links.length t.root) = N at hnum hmap
  have hperm : (t.segmentMap).Perm (N.map (fun p => { p.1.seg with qnr := p.2 })) := by
    unfold KTree.segmentMap
    rw [hN]
    exact (List.perm_insertionSort _ _).map _
  have hq : ((t.segmentMap.filter (fun g => !g.fixed)).map (·.qnr)).Nodup := by
    have h1 := ((hperm.filter (fun g => !g.fixed)).map (·.qnr))
    rw [h1.nodup_iff, List.filter_map, List.map_map]
    have h2 : (N.filter (fun p => !p.1.seg.fixed)).map (·.2) = (N.filter ((fun g : TSeg => !g.fixed) ∘ fun p => { p.1.seg with qnr := p.2 })).map ((·.qnr) ∘ fun p : KLink × Nat => ({ p.1.seg with qnr := p.2 } : TSeg)) := rfl
    rw [← h2]
    exact (List.pairwise_map.2 hnum).imp (fun h => Nat.ne_of_lt h)
  obtain ⟨m1, m2⟩ := jointMap_spec t.segmentMap hq
  have hlist : (t.segmentMap).foldl (fun m g => if g.fixed then m else qmapSet m g.qnr g.joint) [] =
      (N.filter (fun p => !p.1.seg.fixed)).map (fun p => (p.2, p.1.seg.joint)) := by
    refine C52_tree_init.sorted_ext (List.pairwise_map.1 m1) (List.pairwise_map.2 hnum) fun p => ?_
    rw [m2, List.mem_map]
    constructor
    · rintro ⟨g, hg, hf, rfl⟩
      obtain ⟨k, hk, rfl⟩ := List.mem_map.1 (hperm.mem_iff.1 hg)
      exact ⟨k, List.mem_filter.2 ⟨hk, by simpa using hf⟩, rfl⟩
    · rintro ⟨k, hk, rfl⟩
      obtain ⟨hk, hf⟩ := List.mem_filter.1 hk
      exact ⟨_, hperm.mem_iff.2 (List.mem_map.2 ⟨k, hk, rfl⟩), by simpa using hf, rfl⟩
  have hfil : (N.filter (fun p => !p.1.seg.fixed)).map (·.1) = (t.preorder t.links.length t.root).filter (fun k => !k.seg.fixed) := by
    rw [← hmap, List.filter_map]; rfl
  constructor
  · rw [hlist, ← hfil, List.map_map, List.map_map]; rfl
  · rw [← hfil, List.length_map, (hperm.filter _).length_eq, List.filter_map, List.length_map]; rfl

/-- Lists of elements that are read as segments, one by one. -/
theorem joint_elements {x : Xml} {ks ls : List KLink} (hf : List.Forall₂ (fun e k => Xml.kdlLink e = some k) (x.childrenTagged "joint") ks) (hp : ∀ k ∈ ls, k ∈ ks) :
    ∃ es, List.Forall₂ (fun e k => e ∈ x.childrenTagged "joint" ∧ k ∈ ks ∧ Xml.kdlLink e = some k) es ls := by
  induction ls with
  | nil => exact ⟨[], .nil⟩
  | cons k ls ih =>
    obtain ⟨e, he, hek⟩ := mem_forall2_left hf.flip (hp k (by simp))
    obtain ⟨es, h⟩ := ih (fun k hk => hp k (by simp [hk]))
    exact ⟨e :: es, .cons ⟨he, hp k (by simp), hek⟩ h⟩

/-! ## Theorems -/

/-- No two joints of the description have the same name (the urdf parser refuses such descriptions). -/
def Xml.JointsDiffer (x : Xml) : Prop := ((x.childrenTagged "joint").map (·.attr "name")).Nodup

/-- **C104.**  For a description that is a kinematic tree there is an order of its movable joints, each occurring once, in which the joints on the way from the root to any link come in
that order, such that `Tree::init`, on a new object or one in use, returns true exactly if each of them has a joint state, and the tree's joints are then their joint states in this
order; the KDL tree has that many joints. -/
theorem C104_init {x : Xml} {r : String} (ht : x.IsTree r) (hd : x.JointsDiffer) : ∃ order : List Xml,
    order.Perm ((x.childrenTagged "joint").filter Xml.moves) ∧
    (∀ b es, x.Path r es b → (es.filter Xml.moves).Sublist order) ∧
    ∀ (o : TreeObj) (s : RState F),
      ((o.init s x).2 = true ↔ ∀ e ∈ x.childrenTagged "joint", e.moves = true → ∀ n, e.attr "name" = some n → ∃ j, s.getJointState n = some j) ∧
      (o.init s x).1.nr = order.length ∧
      ∀ js, ((o.init s x).1.joints = js ∧ (o.init s x).2 = true) ↔ List.Forall₂ (fun (e : Xml) j => ∃ n, e.attr "name" = some n ∧ s.getJointState n = some j) order js := by
  obtain ⟨ks, h1, w, hf⟩ := kdlTree_spec ht
  have hen : (x.childrenTagged "joint").Nodup := List.Nodup.of_map _ hd
  have hkn : ks.Nodup := by
    have hname : ks.map (fun k => some k.seg.joint) = (x.childrenTagged "joint").map (·.attr "name") := by
      clear h1 w hd hen
      generalize x.childrenTagged "joint" = es at hf
      induction hf with
      | nil => rfl
      | cons h _ ih => rw [List.map_cons, List.map_cons, ih, (kdlLink_spec h).1]
    refine List.Nodup.of_map (fun k : KLink => some k.seg.joint) ?_
    rw [hname]; exact hd
  have hpp := KTree.preorder_perm w hkn
  set pre := (KTree.mk r ks).preorder ks.length r with hpre
  have hpp : pre.Perm ks := hpp
  obtain ⟨es, hes⟩ := joint_elements hf (fun k hk => hpp.mem_iff.1 hk)
  have hesn : es.Nodup := (nodup_iff ht w hes).2 (hpp.nodup_iff.2 hkn)
  have hesp : es.Perm (x.childrenTagged "joint") := by
    refine (List.perm_ext_iff_of_nodup hesn hen).2 fun e => ?_
    constructor
    · intro he; obtain ⟨k, hk, h, -⟩ := mem_forall2_left hes he; exact h
    · intro he
      obtain ⟨k, hk, hek⟩ := mem_forall2_left hf he
      obtain ⟨e', he', -, -, hek'⟩ := mem_forall2_left hes.flip (hpp.mem_iff.2 hk)
      rwa [← ht.single e' (hesp' he' hes) e he _ _ _ (kdlLink_spec hek').2.2 (kdlLink_spec hek).2.2]
  have hnames : ((pre.filter (fun k => !k.seg.fixed)).map (fun k => some k.seg.joint)) = (es.filter Xml.moves).map (·.attr "name") ∧
      (pre.filter (fun k => !k.seg.fixed)).length = (es.filter Xml.moves).length := by
    clear_value pre
    rename_i hpp0
    clear hesn hesp hpp hpre hpp0
    induction hes with
    | nil => exact ⟨rfl, rfl⟩
    | @cons e k es ls h _ ih =>
      have h3 := kdlLink_spec h.2.2
      have hfix : (!k.seg.fixed) = e.moves := by rw [h3.2.1, Bool.not_not]
      rw [List.filter_cons, List.filter_cons, hfix]
      split
      · rw [List.map_cons, List.map_cons, ih.1, h3.1, List.length_cons, List.length_cons, ih.2]; exact ⟨rfl, rfl⟩
      · exact ih
  obtain ⟨o1, o2⟩ := tree_order (KTree.mk r ks)
  have o1 : ((KTree.mk r ks).segmentMap.foldl (fun m g => if g.fixed then m else qmapSet m g.qnr g.joint) []).map (·.2) = (pre.filter (fun k => !k.seg.fixed)).map (·.seg.joint) := o1
  have o2 : ((KTree.mk r ks).segmentMap.filter (fun g => !g.fixed)).length = (pre.filter (fun k => !k.seg.fixed)).length := o2
  refine ⟨es.filter Xml.moves, hesp.filter _, ?_, ?_⟩
  · intro b fs hp
    refine List.Sublist.filter _ ?_
    obtain ⟨ls, hl, hel⟩ := (walk_iff (r := r) hf r b).1 fs hp.1
    have hbl : b = r ∨ ∃ k ∈ ks, k.link = b := by
      clear hel hp
      have key : ∀ a ls b, (KTree.mk r ks).Walk a ls b → (a = r ∨ ∃ k ∈ ks, k.link = a) → (b = r ∨ ∃ k ∈ ks, k.link = b) := by
        intro a ls b hl this
        induction hl with
        | nil a => exact this
        | up hk _ ih => exact ih (w.parents _ hk)
        | down hk _ ih => exact ih (.inr ⟨_, hk, rfl⟩)
      exact key r ls b hl (.inl rfl)
    obtain ⟨us, hu⟩ := KTree.Up.exists w b hbl
    have hu : (KTree.mk r ks).Up b us r := hu
    have hw' : (KTree.mk r ks).Walk r us.reverse b := by
      have := KTree.Walk.reverse (KTree.Walk.ups hu (.nil _))
      simpa using this
    have hls : ls = us.reverse := by
      have e1 := (KTree.chainL_iff w r b (.inl rfl) ls).2 ⟨hl, (nodup_iff ht w hel).1 hp.2⟩
      have e2 := (KTree.chainL_iff w r b (.inl rfl) us.reverse).2 ⟨hw', List.nodup_reverse.2 (hu.nodup w)⟩
      rw [e1] at e2; cases e2; rfl
    have hsub : ls.Sublist pre := by
      rw [hls]
      exact KTree.up_sublist hu ((hu.nodup w).subperm hu.mem).length_le
    exact sublist_elements ht hel hes hsub
  · intro o s
    have hinit : o.init s x = (⟨(es.filter Xml.moves).length, (TreeObj.pull s ((KTree.mk r ks).segmentMap.foldl (fun m g => if g.fixed then m else qmapSet m g.qnr g.joint) []) []).1⟩,
        (TreeObj.pull s ((KTree.mk r ks).segmentMap.foldl (fun m g => if g.fixed then m else qmapSet m g.qnr g.joint) []) []).2) := by
      unfold TreeObj.init
      rw [h1]
      dsimp only [Option.map_some, Option.getD_some]
      rw [o2, hnames.2]
    rw [hinit]
    generalize (KTree.mk r ks).segmentMap.foldl (fun m g => if g.fixed then m else qmapSet m g.qnr g.joint) [] = ps at o1
    have hps : ps.map (fun p => some p.2) = (es.filter Xml.moves).map (·.attr "name") := by
      rw [← hnames.1]
      have := congrArg (List.map some) o1
      simpa only [List.map_map, Function.comp_def] using this
    refine ⟨?_, rfl, fun js => ?_⟩
    · dsimp only
      rw [tree_pull_ok]
      constructor
      · intro h e he hm n hn
        have : some n ∈ ps.map (fun p => some p.2) := by
          rw [hps, ← hn]; exact List.mem_map.2 ⟨e, List.mem_filter.2 ⟨hesp.mem_iff.2 he, hm⟩, rfl⟩
        obtain ⟨p, hp, hpn⟩ := List.mem_map.1 this
        rw [← Option.some.inj hpn]; exact h p hp
      · intro h p hp
        have : some p.2 ∈ (es.filter Xml.moves).map (·.attr "name") := by rw [← hps]; exact List.mem_map.2 ⟨p, hp, rfl⟩
        obtain ⟨e, he, hn⟩ := List.mem_map.1 this
        obtain ⟨he, hm⟩ := List.mem_filter.1 he
        exact h e (hesp.mem_iff.1 he) hm _ hn
    · dsimp only
      have := tree_pull s ps [] js
      rw [List.nil_append] at this
      rw [show ((TreeObj.pull s ps []).1 = js ∧ (TreeObj.pull s ps []).2 = true) ↔ TreeObj.pull s ps [] = (js, true) from by
        constructor
        · rintro ⟨h1, h2⟩; rw [← h1, ← h2]
        · intro h; rw [h]; exact ⟨rfl, rfl⟩, this]
      have hgen : ∀ (ps : List (Nat × String)) (fs : List Xml) (js : List Nat), ps.map (fun p => some p.2) = fs.map (·.attr "name") →
          (List.Forall₂ (fun p j => s.getJointState p.2 = some j) ps js ↔
            List.Forall₂ (fun (e : Xml) j => ∃ n, e.attr "name" = some n ∧ s.getJointState n = some j) fs js) := by
        intro ps
        induction ps with
        | nil =>
          intro fs js h
          have : fs = [] := by simpa using h.symm
          subst this; simp
        | cons p ps ih =>
          intro fs js h
          rcases fs with _ | ⟨e, fs⟩
          · simp at h
          · rw [List.map_cons, List.map_cons] at h
            obtain ⟨h1, h2⟩ := List.cons.inj h
            cases js with
            | nil => simp
            | cons j js => rw [List.forall₂_cons, List.forall₂_cons, ih fs js h2, ← h1]; simp
      exact hgen ps _ js hps
where
  hesp' {x : Xml} {ks ls : List KLink} {es : List Xml} {e : Xml} (he : e ∈ es)
      (h : List.Forall₂ (fun e k => e ∈ x.childrenTagged "joint" ∧ k ∈ ks ∧ Xml.kdlLink e = some k) es ls) : e ∈ x.childrenTagged "joint" := by
    obtain ⟨k, _, h, _⟩ := mem_forall2_left h he; exact h
  sublist_elements {x : Xml} {r : String} (ht : x.IsTree r) {ks ls pre : List KLink} {fs es : List Xml}
      (h : List.Forall₂ (fun e k => e ∈ x.childrenTagged "joint" ∧ k ∈ ks ∧ Xml.kdlLink e = some k) fs ls)
      (h' : List.Forall₂ (fun e k => e ∈ x.childrenTagged "joint" ∧ k ∈ ks ∧ Xml.kdlLink e = some k) es pre) (hs : ls.Sublist pre) : fs.Sublist es := by
    induction hs generalizing fs es with
    | slnil => cases h; exact List.nil_sublist _
    | cons k _ ih =>
      cases h' with
      | cons h1 h2 => exact (ih h h2).cons _
    | cons_cons k _ ih =>
      cases h with
      | cons h1 h2 =>
        cases h' with
        | cons h3 h4 =>
          obtain rfl := ht.single _ h1.1 _ h3.1 _ _ _ (kdlLink_spec h1.2.2).2.2 (kdlLink_spec h3.2.2).2.2
          exact (ih h2 h4).cons_cons _

/-- **C104.**  A successful `init` leaves an object whose joints are as many as those of its KDL tree, so that an array of that size always fits; after a failed one such an array fails
the assertion in `getPositions`. -/
theorem C104_sizes {x : Xml} {r : String} (ht : x.IsTree r) (hd : x.JointsDiffer) (o : TreeObj) (s s' : RState F) :
    ((o.init s x).2 = true → (o.init s x).1.nr = (o.init s x).1.joints.length ∧
      (o.init s x).1.getPositionsKdl (o.init s x).1.nr s' = some (ChainLike.getPositions (o.init s x).1.joints s')) ∧
    ((o.init s x).2 = false → (o.init s x).1.joints.length < (o.init s x).1.nr ∧ (o.init s x).1.getPositionsKdl (o.init s x).1.nr s' = none) := by
  obtain ⟨order, -, -, h⟩ := C104_init (F := F) ht hd
  obtain ⟨h1, h2, h3⟩ := h o s
  constructor
  · intro hi
    have := (h3 (o.init s x).1.joints).1 ⟨rfl, hi⟩
    have hl : (o.init s x).1.nr = (o.init s x).1.joints.length := by rw [h2, this.length_eq]
    refine ⟨hl, ?_⟩
    unfold TreeObj.getPositionsKdl
    rw [if_pos hl]
  · intro hi
    have hl : (o.init s x).1.joints.length < (o.init s x).1.nr := by
      obtain ⟨ks, hk, w, hf⟩ := kdlTree_spec ht
      have hp := tree_pull_short s ((KTree.mk r ks).segmentMap.foldl (fun m g => if g.fixed then m else qmapSet m g.qnr g.joint) []) []
      have ho := tree_order (KTree.mk r ks)
      unfold TreeObj.init at hi ⊢
      rw [hk] at hi ⊢
      dsimp only [Option.map_some, Option.getD_some] at hi ⊢
      have := hp hi
      rw [ho.2, ← List.length_map (fun k : KLink => k.seg.joint), ← ho.1, List.length_map]
      simpa using this
    refine ⟨hl, ?_⟩
    unfold TreeObj.getPositionsKdl
    rw [if_neg (by omega)]
where
  tree_pull_short (s : RState F) (ps : List (Nat × String)) (js : List Nat) (h : (TreeObj.pull s ps js).2 = false) : (TreeObj.pull s ps js).1.length < js.length + ps.length := by
    induction ps generalizing js with
    | nil => simp [TreeObj.pull] at h
    | cons p ps ih =>
      unfold TreeObj.pull at h ⊢
      cases hj : s.getJointState p.2 with
      | none => simp
      | some j =>
        rw [hj] at h
        dsimp only at h ⊢
        have := ih _ h
        simp only [List.length_append, List.length_cons, List.length_nil] at this ⊢
        omega

/-- **C104.**  If the tree can be initialised, so can a chain between any two links; its joints are among those of the tree, and for a chain from the root they come in the tree's order. -/
theorem C104_chain {x : Xml} {r : String} (ht : x.IsTree r) (hd : x.JointsDiffer) (o : TreeObj) (s : RState F) (ho : (o.init s x).2 = true) (c : ChainObj) {a b : String}
    (ha : x.IsLink a) (hb : x.IsLink b) :
    (c.init s x a b).2 = true ∧ (∀ j ∈ (c.init s x a b).1.joints, j ∈ (o.init s x).1.joints) ∧ (a = r → (c.init s x a b).1.joints.Sublist (o.init s x).1.joints) := by
  obtain ⟨order, hperm, hsub, h⟩ := C104_init (F := F) ht hd
  obtain ⟨h1, h2, h3⟩ := h o s
  have hc : (c.init s x a b).2 = true := (chain_ok ht s c a b).2 ⟨ha, hb, fun es hp e he hm n hn => h1.1 ho e (hp.1.mem e he) hm n hn⟩
  have hj := (h3 (o.init s x).1.joints).1 ⟨rfl, ho⟩
  obtain ⟨-, -, es, hp, -, hcj⟩ := (C101_init ht c s a b (c.init s x a b).1).1 (by rw [← hc])
  refine ⟨hc, fun j hjj => ?_, ?_⟩
  · obtain ⟨e, he, n, hn, hs⟩ := mem_forall2_left hcj.flip hjj
    obtain ⟨he, hm⟩ := List.mem_filter.1 he
    have heo : e ∈ order := hperm.mem_iff.2 (List.mem_filter.2 ⟨hp.1.mem e he, hm⟩)
    obtain ⟨j', hj', n', hn', hs'⟩ := mem_forall2_left hj heo
    rw [hn] at hn'; cases hn'
    rw [hs] at hs'; cases hs'
    exact hj'
  · rintro rfl
    exact sub (hsub b es hp) hcj hj
where
  sub {s : RState F} {l l' : List Xml} {js js' : List Nat} (h : l.Sublist l')
      (h1 : List.Forall₂ (fun (e : Xml) j => ∃ n, e.attr "name" = some n ∧ s.getJointState n = some j) l js)
      (h2 : List.Forall₂ (fun (e : Xml) j => ∃ n, e.attr "name" = some n ∧ s.getJointState n = some j) l' js') : js.Sublist js' := by
    induction h generalizing js js' with
    | slnil => cases h1; exact List.nil_sublist _
    | cons e _ ih =>
      cases h2 with
      | cons _ h2 => exact (ih h1 h2).cons _
    | cons_cons e _ ih =>
      cases h1 with
      | cons a1 h1 =>
        cases h2 with
        | cons a2 h2 =>
          obtain ⟨n, hn, hs⟩ := a1
          obtain ⟨n', hn', hs'⟩ := a2
          rw [hn] at hn'; cases hn'
          rw [hs] at hs'; cases hs'
          exact (ih h1 h2).cons_cons _

/-- **C104.**  On any robot state built from transmissions, at any later time, the joints of the tree are distinct: an array written to the tree reaches each joint once. -/
theorem C104_distinct [Zero F] {x : Xml} {r : String} (ht : x.IsTree r) (hd : x.JointsDiffer) {ts : List (Trans F)} {joint : String → Option (UJoint F)} {acts : List (Actuator F)}
    {old : Nat → F} {s0 s : RState F} (h : RState.mk' ts joint acts old = some s0) (hjm : s.jmap = s0.jmap) (o : TreeObj) (ho : (o.init s x).2 = true) :
    (o.init s x).1.joints.Nodup := by
  obtain ⟨order, hperm, -, h'⟩ := C104_init (F := F) ht hd
  obtain ⟨-, -, h3⟩ := h' o s
  have hj := (h3 (o.init s x).1.joints).1 ⟨rfl, ho⟩
  have hn : (order.map (·.attr "name")).Nodup := by
    rw [(hperm.map _).nodup_iff]
    exact hd.sublist (List.filter_sublist.map _)
  generalize (o.init s x).1.joints = js at hj
  clear h3 hperm h' ho
  have hg : ∀ n, s.getJointState n = s0.getJointState n := by intro n; unfold RState.getJointState; rw [hjm]
  induction hj with
  | nil => simp
  | @cons e j l js he hl ih =>
    rw [List.map_cons, List.nodup_cons] at hn
    refine List.nodup_cons.2 ⟨fun hmem => hn.1 ?_, ih hn.2⟩
    obtain ⟨e', he', n', hn', hs'⟩ := mem_forall2_left hl.flip hmem
    obtain ⟨n, hn2, hs⟩ := he
    rw [hg] at hs hs'
    obtain rfl := lookup_injective h hs' hs
    exact List.mem_map.2 ⟨e', he', by rw [hn', hn2]⟩

/-- **C104.**  A description that `kdl_parser` does not accept is not reported: `init` returns true, with a tree that has no joints, whatever the object was before. -/
theorem C104_unparsed {x : Xml} (hx : x.kdlTree = none) (o : TreeObj) (s : RState F) : o.init s x = (⟨o.nr, []⟩, true) := by
  unfold TreeObj.init
  rw [hx]
  rfl

end

section
variable {F : Type} [FCmp F] [Zero F] [Add F] [Sub F] [Mul F] [iDiv : Div F] [Neg F] [FLit F] [iTrig : FTrig F] [Parse F]

/-- **C104.**  On a loaded robot, at any time, the tree can be initialised exactly if every movable joint belongs to a transmission that was kept. -/
theorem C104_driven {x : Xml} {r : String} (ht : x.IsTree r) (hd : x.JointsDiffer) {l : TransLoader F} {urdf : Xml → Option (String → Option (UJoint F))}
    {joint : String → Option (UJoint F)} {acts : List (Actuator F)} {ts : List (Trans F)} {s0 s : RState F} (h : Loaded l urdf x joint acts ts s0) (hl : Later s0 s) (o : TreeObj) :
    (o.init s x).2 = true ↔ ∀ e ∈ x.childrenTagged "joint", e.moves = true → ∀ n, e.attr "name" = some n → ∃ t ∈ ts, n ∈ t.jointNames := by
  obtain ⟨⟨hw, acts', old, hload, hmk⟩, hu, hwell, hnd⟩ := h
  have hr0 : s0.Ready := C67_ready l urdf x acts acts' hw ts hload old (by rw [all_eq]; exact hwell) joint s0 hu hmk
  obtain ⟨order, -, -, h'⟩ := C104_init (F := F) ht hd
  rw [(h' o s).1]
  simp only [state_iff hmk (hl.same hr0).1.jmap]

set_option maxRecDepth 100000 in
theorem pr2Complete_differ : pr2Complete.JointsDiffer := by
  have : (pr2Complete.childrenTagged "joint").map (·.attr "name") = pr2Links.map (fun p => some p.1.seg.joint) := by rfl
  unfold Xml.JointsDiffer
  rw [this]
  decide +kernel

set_option maxRecDepth 100000 in
theorem pr2Urdf_differ : pr2Urdf.JointsDiffer := by
  have : (pr2Urdf.childrenTagged "joint").map (·.attr "name") = (pr2Links.take 81).map (fun p => some p.1.seg.joint) := by rfl
  unfold Xml.JointsDiffer
  rw [this]
  decide +kernel

/-- **C104.**  On the robot of the completed shipped description the tree can be initialised at any time. -/
theorem C104_pr2 {urdf : Xml → Option (String → Option (UJoint F))} {joint : String → Option (UJoint F)} {new : Nat → NewTrans F} {acts : List (Actuator F)} {s0 s : RState F}
    (h : Loaded (pluginLoader new) urdf pr2Complete joint acts (pr2Trans new) s0) (hl : Later s0 s) (o : TreeObj) : (o.init s pr2Complete).2 = true := by
  refine (C104_driven pr2Complete_tree pr2Complete_differ h hl o).2 ?_
  intro e he hm n hn
  have hf := mapM_spec _ _ _ pr2Complete_links
  obtain ⟨k, hk, hek⟩ := mem_forall2_left hf he
  obtain ⟨p, hp', rfl⟩ := List.mem_map.1 hk
  have h1 := kdlLink_spec hek
  rw [hn] at h1
  have h2 := pr2_moving p hp' (by rw [h1.2.1, hm]; rfl)
  rw [← (complete_ts new).1, List.mem_flatMap] at h2
  obtain ⟨t, ht, hnt⟩ := h2
  rw [Option.some.inj h1.1]
  exact ⟨t, ht, hnt⟩

/-- **C104.**  On the robot of the shipped description as it is (no transmission is loaded, C99) it cannot. -/
theorem C104_pr2_shipped {joint : String → Option (UJoint F)} {acts : List (Actuator F)} {old : Nat → F} {s : RState F} (h : RState.mk' [] joint acts old = some s) (o : TreeObj) :
    (o.init s pr2Urdf).2 = false := by
  obtain ⟨order, -, -, h'⟩ := C104_init (F := F) pr2Urdf_tree pr2Urdf_differ
  cases hi : (o.init s pr2Urdf).2 with
  | false => rfl
  | true =>
    exfalso
    have := (h' o s).1.1 hi
    simp only [state_iff h rfl] at this
    have hf := mapM_spec _ _ _ pr2Urdf_links
    obtain ⟨e, he, hek⟩ := mem_forall2_left hf.flip (show (⟨"fl_caster_rotation_link", "base_link", ⟨false, "fl_caster_rotation_joint"⟩⟩ : KLink) ∈ (pr2Links.take 81).map (·.1) from List.mem_of_getElem? (i := 2) rfl)
    have h1 := kdlLink_spec hek
    obtain ⟨t, ht, -⟩ := this e he (by simpa using h1.2.1) _ h1.1
    simp at ht

end

section examples
attribute [local instance] exactCmp demoTrig demoLit decimalParse

/-- The tree of the completed shipped description: the casters come first, the joints of the left arm before those of the right (`l_` < `r_`). -/
example : (TreeObj.init ⟨0, [7]⟩ pr2State0 pr2Complete).2 = true ∧ (TreeObj.init ⟨0, [7]⟩ pr2State0 pr2Complete).1.nr = 48 := by decide +kernel

/-- Fingers are addressed after the arm they belong to. -/
example : ((((pr2Complete.kdlTree.map fun t => ((t.preorder t.links.length t.root).filter (fun k => !k.seg.fixed)).map (·.seg.joint)).getD []).drop 30).take 6) =
    ["l_gripper_r_parallel_root_joint", "laser_tilt_mount_joint", "r_shoulder_pan_joint", "r_shoulder_lift_joint", "r_upper_arm_roll_joint", "r_elbow_flex_joint"] := by decide +kernel

/-- A description without links is not accepted by the parser; nothing is reported. -/
example : (Xml.node "robot" [] none []).kdlTree = none := by decide +kernel

end examples

end Pr2
