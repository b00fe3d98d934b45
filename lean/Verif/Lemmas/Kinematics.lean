import Verif.Model.Kinematics
import Mathlib.Data.List.Nodup
import Mathlib.Data.List.Perm.Subperm

/-! # Paths in a kinematic tree -/

namespace Pr2

/-- A kinematic tree: every link but the root is attached by exactly one joint, and there are no loops. -/
structure KTree.WF (t : KTree) : Prop where
  links : ∀ k ∈ t.links, ∀ k' ∈ t.links, k.link = k'.link → k = k'
  root : ∀ k ∈ t.links, k.link ≠ t.root
  parents : ∀ k ∈ t.links, k.parent = t.root ∨ ∃ k' ∈ t.links, k'.link = k.parent
  acyclic : ∃ depth : String → Nat, ∀ k ∈ t.links, depth k.parent < depth k.link

/-- Upwards from a link to one of its ancestors. -/
inductive KTree.Up (t : KTree) : String → List KLink → String → Prop
  | nil (a : String) : t.Up a [] a
  | cons {k : KLink} {ks : List KLink} {b : String} : k ∈ t.links → t.Up k.parent ks b → t.Up k.link (k :: ks) b

/-- A walk from link to link over the joints, in either direction. -/
inductive KTree.Walk (t : KTree) : String → List KLink → String → Prop
  | nil (a : String) : t.Walk a [] a
  | up {k : KLink} {ks : List KLink} {b : String} : k ∈ t.links → t.Walk k.parent ks b → t.Walk k.link (k :: ks) b
  | down {k : KLink} {ks : List KLink} {b : String} : k ∈ t.links → t.Walk k.link ks b → t.Walk k.parent (k :: ks) b

namespace KTree
variable {t : KTree}

theorem Up.cons' {a b : String} {k : KLink} {ks : List KLink} (h : t.Up a (k :: ks) b) : k ∈ t.links ∧ k.link = a ∧ t.Up k.parent ks b := by
  cases h with
  | cons h1 h2 => exact ⟨h1, rfl, h2⟩

theorem Up.nil' {a b : String} (h : t.Up a [] b) : a = b := by cases h; rfl

theorem Up.mem {a b : String} {ks : List KLink} (h : t.Up a ks b) : ∀ k ∈ ks, k ∈ t.links := by
  induction h with
  | nil => simp
  | cons h _ ih =>
    intro k hk
    rcases List.mem_cons.1 hk with rfl | hk
    · exact h
    · exact ih k hk

theorem Up.append {a b c : String} {ks ls : List KLink} (h : t.Up a ks b) (h' : t.Up b ls c) : t.Up a (ks ++ ls) c := by
  induction h with
  | nil => exact h'
  | cons hk _ ih => exact .cons hk (ih h')

theorem Up.split {a c : String} {ks ls : List KLink} (h : t.Up a (ks ++ ls) c) : ∃ b, t.Up a ks b ∧ t.Up b ls c := by
  induction ks generalizing a with
  | nil => exact ⟨a, .nil a, h⟩
  | cons k ks ih =>
    obtain ⟨h1, rfl, h2⟩ := h.cons'
    obtain ⟨b, h3, h4⟩ := ih h2
    exact ⟨b, .cons h1 h3, h4⟩

theorem Up.depth {depth : String → Nat} (hd : ∀ k ∈ t.links, depth k.parent < depth k.link) {a b : String} {ks : List KLink} (h : t.Up a ks b) :
    depth b ≤ depth a ∧ (ks ≠ [] → depth b < depth a) ∧ ∀ k ∈ ks, depth k.link ≤ depth a := by
  induction h with
  | nil => simp
  | @cons k ks b hk _ ih =>
    have := hd k hk
    refine ⟨by omega, fun _ => by omega, ?_⟩
    intro k' hk'
    rcases List.mem_cons.1 hk' with rfl | hk'
    · exact le_rfl
    · have := ih.2.2 k' hk'; omega

theorem Up.nodup (w : t.WF) {a b : String} {ks : List KLink} (h : t.Up a ks b) : ks.Nodup := by
  obtain ⟨depth, hd⟩ := w.acyclic
  induction h with
  | nil => simp
  | @cons k ks b hk h ih =>
    refine List.nodup_cons.2 ⟨fun hm => ?_, ih⟩
    have := (h.depth hd).2.2 k hm
    have := hd k hk
    omega

theorem Up.prefix (w : t.WF) {a c : String} {ks us : List KLink} (h : t.Up a ks t.root) (h' : t.Up a us c) : ∃ rest, ks = us ++ rest ∧ t.Up c rest t.root := by
  induction h' generalizing ks with
  | nil => exact ⟨ks, rfl, h⟩
  | @cons k us b hk _ ih =>
    rcases ks with _ | ⟨k', ks⟩
    · exact (w.root k hk h.nil').elim
    · obtain ⟨h1, h2, h3⟩ := h.cons'
      obtain rfl := w.links _ h1 _ hk h2
      obtain ⟨rest, rfl, h4⟩ := ih h3
      exact ⟨rest, rfl, h4⟩

theorem Up.exists (w : t.WF) (a : String) (ha : a = t.root ∨ ∃ k ∈ t.links, k.link = a) : ∃ ks, t.Up a ks t.root := by
  obtain ⟨depth, hd⟩ := w.acyclic
  induction hn : depth a using Nat.strong_induction_on generalizing a with
  | _ n ih =>
    rcases ha with rfl | ⟨k, hk, rfl⟩
    · exact ⟨[], .nil _⟩
    · obtain ⟨ks, h⟩ := ih (depth k.parent) (by have := hd k hk; omega) k.parent (w.parents k hk) rfl
      exact ⟨_, .cons hk h⟩

theorem Up.unique (w : t.WF) {a c : String} {us us' : List KLink} (h : t.Up a us c) (h' : t.Up a us' c) : us = us' := by
  obtain ⟨depth, hd⟩ := w.acyclic
  induction h generalizing us' with
  | nil a =>
    rcases us' with _ | ⟨k, us'⟩
    · rfl
    · have := (h'.depth hd).2.1 (by simp); omega
  | @cons k us b hk h ih =>
    rcases us' with _ | ⟨k', us'⟩
    · obtain rfl := h'.nil'
      have := ((Up.cons hk h).depth hd).2.1 (by simp); omega
    · obtain ⟨h1, h2, h3⟩ := h'.cons'
      obtain rfl := w.links _ h1 _ hk h2
      rw [ih h3]

theorem up_of {n : Nat} {a : String} {ks : List KLink} (h : t.up n a = some ks) : t.Up a ks t.root := by
  induction n generalizing a ks with
  | zero =>
    unfold KTree.up at h
    split at h
    · rename_i ha; cases h; subst ha; exact .nil _
    · cases h
  | succ n ih =>
    unfold KTree.up at h
    split at h
    · rename_i ha; cases h; subst ha; exact .nil _
    · obtain ⟨k, hk, h⟩ := Option.bind_eq_some_iff.1 h
      obtain ⟨ks', h', rfl⟩ := Option.map_eq_some_iff.1 h
      have hl := List.find?_some hk
      rw [beq_iff_eq] at hl
      subst hl
      exact .cons (List.mem_of_find?_eq_some hk) (ih h')

theorem of_up (w : t.WF) {n : Nat} {a : String} {ks : List KLink} (h : t.Up a ks t.root) (hn : ks.length ≤ n) : t.up n a = some ks := by
  induction n generalizing a ks with
  | zero =>
    rcases ks with _ | ⟨k, ks⟩
    · obtain rfl := h.nil'
      unfold KTree.up; rw [if_pos rfl]
    · simp at hn
  | succ n ih =>
    rcases ks with _ | ⟨k, ks⟩
    · obtain rfl := h.nil'
      unfold KTree.up; rw [if_pos rfl]
    · obtain ⟨h1, rfl, h2⟩ := h.cons'
      unfold KTree.up
      rw [if_neg (w.root k h1)]
      have hf : t.links.find? (fun k' => k'.link == k.link) = some k := by
        cases hf : t.links.find? (fun k' => k'.link == k.link) with
        | none => exact ((List.find?_eq_none.1 hf) k h1 (by simp)).elim
        | some k' =>
          have hl := List.find?_some hf
          rw [beq_iff_eq] at hl
          rw [w.links _ (List.mem_of_find?_eq_some hf) _ h1 hl]
      rw [hf, Option.bind_some, ih h2 (by simpa using hn)]
      rfl

theorem up_iff (w : t.WF) (a : String) (ks : List KLink) : t.up t.links.length a = some ks ↔ t.Up a ks t.root :=
  ⟨up_of, fun h => of_up w h ((h.nodup w).subperm h.mem).length_le⟩

theorem strip_append (r x y : List KLink) : strip (r ++ x) (r ++ y) = strip x y := by
  induction r with
  | nil => rfl
  | cons k r ih => rw [List.cons_append, List.cons_append, strip, if_pos rfl, ih]

theorem strip_differ {x y : List KLink} (h : ∀ k ∈ x.head?, ∀ l ∈ y.head?, k.link ≠ l.link) : strip x y = (x, y) := by
  rcases x with _ | ⟨k, x⟩
  · unfold strip; rfl
  · rcases y with _ | ⟨l, y⟩
    · unfold strip; rfl
    · rw [strip, if_neg (h k rfl l rfl)]

theorem strip_spec (w : t.WF) (x y : List KLink) (hx : ∀ k ∈ x, k ∈ t.links) (hy : ∀ k ∈ y, k ∈ t.links) :
    ∃ r, x = r ++ (strip x y).1 ∧ y = r ++ (strip x y).2 ∧ ∀ k ∈ (strip x y).1.head?, ∀ l ∈ (strip x y).2.head?, k.link ≠ l.link := by
  induction x generalizing y with
  | nil => exact ⟨[], by unfold strip; simp⟩
  | cons k x ih =>
    rcases y with _ | ⟨l, y⟩
    · exact ⟨[], by unfold strip; simp⟩
    · rw [strip]
      split
      · rename_i h
        obtain rfl := w.links _ (hx k (by simp)) _ (hy l (by simp)) h
        obtain ⟨r, h1, h2, h3⟩ := ih y (fun k hk => hx k (by simp [hk])) (fun k hk => hy k (by simp [hk]))
        exact ⟨k :: r, by rw [List.cons_append, ← h1], by rw [List.cons_append, ← h2], h3⟩
      · rename_i h
        exact ⟨[], rfl, rfl, by simpa using h⟩

theorem Walk.ups {a b c : String} {us ds : List KLink} (h : t.Up a us c) (h' : t.Walk c ds b) : t.Walk a (us ++ ds) b := by
  induction h with
  | nil => exact h'
  | cons hk _ ih => exact .up hk (ih h')

theorem Walk.trans {a b c : String} {us ds : List KLink} (h : t.Walk a us c) (h' : t.Walk c ds b) : t.Walk a (us ++ ds) b := by
  induction h with
  | nil => exact h'
  | up hk _ ih => exact .up hk (ih h')
  | down hk _ ih => exact .down hk (ih h')

theorem Walk.reverse {a b : String} {ks : List KLink} (h : t.Walk a ks b) : t.Walk b ks.reverse a := by
  induction h with
  | nil a => exact .nil a
  | up hk _ ih => rw [List.reverse_cons]; exact ih.trans (.down hk (.nil _))
  | down hk _ ih => rw [List.reverse_cons]; exact ih.trans (.up hk (.nil _))

/-- A walk that uses no joint twice goes up and then down. -/
theorem Walk.shape (w : t.WF) {a b : String} {ks : List KLink} (h : t.Walk a ks b) (hn : ks.Nodup) :
    ∃ c us ds, ks = us ++ ds.reverse ∧ t.Up a us c ∧ t.Up b ds c := by
  induction h with
  | nil a => exact ⟨a, [], [], rfl, .nil a, .nil a⟩
  | @up k ks b hk _ ih =>
    obtain ⟨c, us, ds, rfl, h1, h2⟩ := ih (List.nodup_cons.1 hn).2
    exact ⟨c, k :: us, ds, rfl, .cons hk h1, h2⟩
  | @down k ks b hk _ ih =>
    obtain ⟨hn1, hn2⟩ := List.nodup_cons.1 hn
    obtain ⟨c, us, ds, rfl, h1, h2⟩ := ih hn2
    rcases us with _ | ⟨k', us⟩
    · obtain rfl := h1.nil'
      exact ⟨k.parent, [], ds ++ [k], by simp, .nil _, h2.append (.cons hk (.nil _))⟩
    · obtain ⟨h3, h4, _⟩ := h1.cons'
      obtain rfl := w.links _ h3 _ hk h4
      simp at hn1

theorem Up.last {a c : String} {us : List KLink} (h : t.Up a us c) (k : KLink) (hk : k ∈ us.reverse.head?) : k ∈ t.links ∧ k.parent = c := by
  rw [List.head?_reverse] at hk
  induction h with
  | nil => simp at hk
  | @cons k' us b hk' h ih =>
    rcases us with _ | ⟨k2, us⟩
    · obtain rfl := h.nil'
      simp at hk; subst hk; exact ⟨hk', rfl⟩
    · exact ih (by simpa using hk)

/-- The chain as segments of the tree. -/
def chainL (t : KTree) (a b : String) : Option (List KLink) := do
  let us ← t.up t.links.length a
  let ds ← t.up t.links.length b
  some ((strip us.reverse ds.reverse).1.reverse ++ (strip us.reverse ds.reverse).2)

theorem getChain_eq (a b : String) : t.getChain a b = (t.chainL a b).map (List.map (·.seg)) := by
  unfold getChain chainL
  cases t.up t.links.length a with
  | none => rfl
  | some us =>
    cases t.up t.links.length b with
    | none => rfl
    | some ds => simp

/-- KDL finds exactly the walk that uses no joint twice. -/
theorem chainL_iff (w : t.WF) (a b : String) (ha : a = t.root ∨ ∃ k ∈ t.links, k.link = a) (ks : List KLink) :
    t.chainL a b = some ks ↔ t.Walk a ks b ∧ ks.Nodup := by
  unfold chainL
  simp only [bind, Option.bind_eq_some_iff, up_iff w, Option.some.injEq]
  constructor
  · rintro ⟨us, hu, ds, hd, rfl⟩
    obtain ⟨r, h1, h2, h3⟩ := strip_spec w us.reverse ds.reverse (fun k hk => hu.mem k (List.mem_reverse.1 hk)) (fun k hk => hd.mem k (List.mem_reverse.1 hk))
    generalize (strip us.reverse ds.reverse).1 = x at *
    generalize (strip us.reverse ds.reverse).2 = y at *
    have hu' : us = x.reverse ++ r.reverse := by rw [← List.reverse_append, ← h1, List.reverse_reverse]
    have hd' : ds = y.reverse ++ r.reverse := by rw [← List.reverse_append, ← h2, List.reverse_reverse]
    rw [hu'] at hu
    rw [hd'] at hd
    obtain ⟨c, u1, u2⟩ := hu.split
    obtain ⟨c', d1, d2⟩ := hd.split
    have hc : c = c' := by
      generalize r.reverse = q at u2 d2
      rcases q with _ | ⟨k, q⟩
      · rw [u2.nil', d2.nil']
      · rw [← u2.cons'.2.1, ← d2.cons'.2.1]
    subst hc
    refine ⟨?_, ?_⟩
    · have : t.Walk c y b := by
        have := (Walk.ups d1 (.nil c)).reverse
        simpa using this
      exact Walk.ups u1 this
    · refine List.nodup_append'.2 ⟨u1.nodup w, by simpa using d1.nodup w, ?_⟩
      intro k hk hk'
      rw [List.mem_reverse] at hk
      obtain ⟨x1, x2, rfl⟩ := List.append_of_mem hk
      obtain ⟨y1, y2, rfl⟩ := List.append_of_mem hk'
      rw [List.reverse_append, List.reverse_cons, List.append_assoc] at u1 d1
      obtain ⟨p, _, u1⟩ := u1.split
      obtain ⟨q, _, d1⟩ := d1.split
      have e1 := u1.cons'.2.1
      have e2 := d1.cons'.2.1
      rw [← e1] at u1
      rw [← e2] at d1
      have := u1.unique w d1
      simp at this
      subst this
      rcases x1 with _ | ⟨k', x1⟩
      · exact h3 k (by simp) k (by simp) rfl
      · exact h3 k' (by simp) k' (by simp) rfl
  · rintro ⟨h, hn⟩
    obtain ⟨c, us, ds, rfl, h1, h2⟩ := h.shape w hn
    obtain ⟨full, hf⟩ := Up.exists w a ha
    obtain ⟨rest, rfl, hr⟩ := hf.prefix w h1
    refine ⟨_, hf, _, h2.append hr, ?_⟩
    rw [List.reverse_append, List.reverse_append, strip_append, strip_differ]
    · simp
    · intro k hk l hl e
      obtain ⟨k1, _⟩ := h1.last k hk
      obtain ⟨l1, _⟩ := h2.last l hl
      obtain rfl := w.links _ k1 _ l1 e
      obtain ⟨_, _, hd⟩ := List.nodup_append'.1 hn
      exact hd (a := k) (List.mem_reverse.1 (List.mem_of_mem_head? hk)) (List.mem_of_mem_head? hl)

theorem chainL_none {a b : String} (h : ¬ (a = t.root ∨ ∃ k ∈ t.links, k.link = a) ∨ ¬ (b = t.root ∨ ∃ k ∈ t.links, k.link = b)) : t.chainL a b = none := by
  have key : ∀ a, ¬ (a = t.root ∨ ∃ k ∈ t.links, k.link = a) → t.up t.links.length a = none := by
    intro a ha
    cases hu : t.up t.links.length a with
    | none => rfl
    | some ks =>
      have hu := up_of hu
      exfalso; apply ha
      rcases ks with _ | ⟨k, ks⟩
      · exact .inl hu.nil'
      · exact .inr ⟨k, hu.cons'.1, hu.cons'.2.1⟩
  unfold chainL
  rcases h with h | h
  · rw [key a h]; rfl
  · rw [key b h]; cases t.up t.links.length a <;> rfl

theorem chainL_exists (w : t.WF) {a b : String} (ha : a = t.root ∨ ∃ k ∈ t.links, k.link = a) (hb : b = t.root ∨ ∃ k ∈ t.links, k.link = b) :
    ∃ ks, t.chainL a b = some ks := by
  obtain ⟨us, hu⟩ := Up.exists w a ha
  obtain ⟨ds, hd⟩ := Up.exists w b hb
  unfold chainL
  rw [(up_iff w a us).2 hu, (up_iff w b ds).2 hd]
  exact ⟨_, rfl⟩

end KTree

end Pr2
