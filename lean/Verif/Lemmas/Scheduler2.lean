import Verif.Lemmas.Scheduler
import Mathlib.Data.List.Induction
import Mathlib.Data.Option.Basic

namespace Pr2
set_option linter.unusedSectionVars false
set_option linter.unusedVariables false
variable {N : Type} [LinearOrder N]

def Graph.keys (g : Graph N) : List N := g.map (·.1)

theorem touch_mem (g : Graph N) (k : N) : ∀ x, x ∈ (g.touch k).keys ↔ x ∈ g.keys ∨ x = k := by
  induction g with
  | nil => intro x; simp [Graph.touch, Graph.keys]
  | cons e g ih =>
    obtain ⟨k', ds⟩ := e
    intro x
    simp only [Graph.keys] at ih
    simp only [Graph.touch, Graph.keys]
    split
    · simp; tauto
    · split
      · rename_i h; subst h; simp; tauto
      · simp [ih]; tauto

theorem touch_sorted {g : Graph N} (hs : g.Sorted) (k : N) : (g.touch k).Sorted := by
  induction g with
  | nil => simp [Graph.touch, Graph.Sorted]
  | cons e g ih =>
    obtain ⟨k', ds⟩ := e
    unfold Graph.Sorted at hs ih
    rw [List.pairwise_cons] at hs
    simp only [Graph.touch]
    split
    · rename_i h
      unfold Graph.Sorted
      rw [List.pairwise_cons, List.pairwise_cons]
      refine ⟨?_, hs⟩
      intro e he
      rcases List.mem_cons.1 he with rfl | he
      · exact h
      · exact lt_trans h (hs.1 e he)
    · split
      · unfold Graph.Sorted; rw [List.pairwise_cons]; exact hs
      · rename_i h1 h2
        unfold Graph.Sorted; rw [List.pairwise_cons]
        refine ⟨?_, ih hs.2⟩
        intro e he
        have := (touch_mem g k e.1).1 (List.mem_map.2 ⟨e, he, rfl⟩)
        rcases this with h | h
        · obtain ⟨e', he', h⟩ := List.mem_map.1 h
          rw [← h]; exact hs.1 e' he'
        · rw [h]; exact lt_of_le_of_ne (not_lt.1 h1) (Ne.symm h2)

theorem touch_dep (g : Graph N) (k : N) : ∀ x d, (g.touch k).Dep x d ↔ g.Dep x d := by
  induction g with
  | nil => 
    intro x d; simp [Graph.touch, Graph.Dep]
  | cons e g ih =>
    obtain ⟨k', ds⟩ := e
    intro x d
    simp only [Graph.touch]
    have key : ∀ (g' : Graph N), Graph.Dep ((k', ds) :: g') x d ↔ (x = k' ∧ d ∈ ds) ∨ Graph.Dep g' x d := by
      intro g'
      constructor
      · rintro ⟨ds', hm, hd⟩
        rcases List.mem_cons.1 hm with hm | hm
        · simp only [Prod.mk.injEq] at hm; obtain ⟨rfl, rfl⟩ := hm; exact Or.inl ⟨rfl, hd⟩
        · exact Or.inr ⟨_, hm, hd⟩
      · rintro (⟨rfl, hd⟩ | ⟨ds', hm, hd⟩)
        · exact ⟨ds, by simp, hd⟩
        · exact ⟨ds', by simp [hm], hd⟩
    split
    · constructor
      · rintro ⟨ds', hm, hd⟩
        rcases List.mem_cons.1 hm with hm | hm
        · simp only [Prod.mk.injEq] at hm; obtain ⟨rfl, rfl⟩ := hm; simp at hd
        · exact ⟨ds', hm, hd⟩
      · rintro ⟨ds', hm, hd⟩; exact ⟨ds', by simp [hm], hd⟩
    · split
      · rfl
      · rw [key, key, ih]

theorem push_keys (g : Graph N) (k v : N) : (g.push k v).keys = g.keys := by
  induction g with
  | nil => simp [Graph.push]
  | cons e g ih =>
    obtain ⟨k', ds⟩ := e
    simp only [Graph.keys] at ih
    simp only [Graph.push, Graph.keys]
    split <;> simp [ih]

theorem sorted_iff_keys (g : Graph N) : g.Sorted ↔ g.keys.Pairwise (· < ·) := by
  unfold Graph.Sorted Graph.keys; rw [List.pairwise_map]

theorem dep_cons (k' : N) (ds : List N) (g' : Graph N) (x d : N) :
    Graph.Dep ((k', ds) :: g') x d ↔ (x = k' ∧ d ∈ ds) ∨ Graph.Dep g' x d := by
  constructor
  · rintro ⟨ds', hm, hd⟩
    rcases List.mem_cons.1 hm with hm | hm
    · simp only [Prod.mk.injEq] at hm; obtain ⟨rfl, rfl⟩ := hm; exact Or.inl ⟨rfl, hd⟩
    · exact Or.inr ⟨_, hm, hd⟩
  · rintro (⟨rfl, hd⟩ | ⟨ds', hm, hd⟩)
    · exact ⟨ds, by simp, hd⟩
    · exact ⟨ds', by simp [hm], hd⟩

theorem push_dep {g : Graph N} (k v : N) (hk : k ∈ g.keys) :
    ∀ x d, (g.push k v).Dep x d ↔ g.Dep x d ∨ (x = k ∧ d = v) := by
  induction g with
  | nil => simp [Graph.keys] at hk
  | cons e g ih =>
    obtain ⟨k', ds⟩ := e
    intro x d
    simp only [Graph.push]
    split
    · rename_i h; subst h
      rw [dep_cons, dep_cons]; simp; tauto
    · rename_i h
      have hk' : k ∈ Graph.keys g := by simpa [Graph.keys, h] using hk
      rw [dep_cons, dep_cons, ih hk']; tauto

theorem pushes_before {g : Graph N} (hs : g.Sorted) (k : N) (hk : k ∈ g.keys) (bs : List N) :
    (bs.foldl (fun g b => g.push k b) g).Sorted ∧ (bs.foldl (fun g b => g.push k b) g).keys = g.keys ∧
    ∀ x d, (bs.foldl (fun g b => g.push k b) g).Dep x d ↔ g.Dep x d ∨ (x = k ∧ d ∈ bs) := by
  induction bs generalizing g with
  | nil => simp [hs]
  | cons b bs ih =>
    have hs' : (g.push k b).Sorted := by rw [sorted_iff_keys, push_keys, ← sorted_iff_keys]; exact hs
    obtain ⟨h1, h2, h3⟩ := ih hs' (by rw [push_keys]; exact hk)
    refine ⟨h1, by rw [List.foldl_cons, h2, push_keys], ?_⟩
    intro x d
    rw [List.foldl_cons, h3, push_dep k b hk]
    simp only [List.mem_cons]; tauto

theorem has_iff (g : Graph N) (k : N) : g.has k = true ↔ k ∈ g.keys := by
  simp [Graph.has, Graph.keys]

theorem pushes_after {g : Graph N} (hs : g.Sorted) (n : N) (as : List N) :
    (((∀ a ∈ as, a ∈ g.keys) ↔ ∃ g', as.foldlM (fun g a => if g.has a then some (g.push a n) else none) g = some g')) ∧
    ∀ g', as.foldlM (fun g a => if g.has a then some (g.push a n) else none) g = some g' →
    g'.Sorted ∧ g'.keys = g.keys ∧ ∀ x d, g'.Dep x d ↔ g.Dep x d ∨ (x ∈ as ∧ d = n) := by
  induction as generalizing g with
  | nil => simp [hs]
  | cons a as ih =>
    have hs' : (g.push a n).Sorted := by rw [sorted_iff_keys, push_keys, ← sorted_iff_keys]; exact hs
    obtain ⟨h0, h1⟩ := ih hs'
    rw [push_keys] at h0 h1
    simp only [List.foldlM_cons]
    by_cases h : a ∈ g.keys
    · rw [if_pos ((has_iff g a).2 h)]
      simp only [Option.bind_eq_bind, Option.bind_some]
      refine ⟨?_, ?_⟩
      · rw [← h0]; simp [h]
      · intro g' hg'
        obtain ⟨h2, h3, h4⟩ := h1 g' hg'
        refine ⟨h2, h3, ?_⟩
        intro x d
        rw [h4, push_dep a n h, List.mem_cons]; tauto
    · rw [if_neg (by rw [has_iff]; exact h)]
      simp [h]

theorem addToGraph_facts {g : Graph N} (hs : g.Sorted) (c : SchedSpec N) :
    ((∀ a ∈ c.after, a ∈ g.keys ∨ a = c.name) ↔ ∃ g', addToGraph g c = some g') ∧
    ∀ g', addToGraph g c = some g' → g'.Sorted ∧ (∀ x, x ∈ g'.keys ↔ x ∈ g.keys ∨ x = c.name) ∧
      ∀ x d, g'.Dep x d ↔ g.Dep x d ∨ (x = c.name ∧ d ∈ c.before) ∨ (x ∈ c.after ∧ d = c.name) := by
  unfold addToGraph
  have h1 := touch_sorted hs c.name
  obtain ⟨h2, h3, h4⟩ := pushes_before h1 c.name ((touch_mem g c.name _).2 (Or.inr rfl)) c.before
  obtain ⟨h5, h6⟩ := pushes_after h2 c.name c.after
  refine ⟨?_, ?_⟩
  · rw [← h5]; simp only [h3, touch_mem]
  · intro g' hg'
    obtain ⟨h7, h8, h9⟩ := h6 g' hg'
    refine ⟨h7, ?_, ?_⟩
    · intro x; rw [h8, h3, touch_mem]
    · intro x d; rw [h9, h4, touch_dep]; tauto

theorem afterPresent_snoc (cs : List (SchedSpec N)) (c : SchedSpec N) :
    AfterPresent (cs ++ [c]) ↔ AfterPresent cs ∧ ∀ a ∈ c.after, a ∈ cs.map (·.name) ∨ a = c.name := by
  constructor
  · intro h
    refine ⟨?_, ?_⟩
    · rintro pre c' post rfl a ha
      exact h pre c' (post ++ [c]) (by simp) a ha
    · intro a ha
      have := h cs c [] rfl a ha
      simpa using this
  · rintro ⟨h1, h2⟩ pre c' post he a ha
    rcases List.eq_nil_or_concat post with rfl | ⟨post', x, rfl⟩
    · have := List.append_inj' he (by simp)
      obtain ⟨rfl, h⟩ := this
      simp only [List.cons.injEq, and_true] at h; subst h
      have := h2 a ha
      simpa using this
    · have : cs ++ [c] = (pre ++ c' :: post') ++ [x] := by simpa using he
      have := List.append_inj' this rfl
      exact h1 pre c' post' this.1 a ha

theorem buildGraph_facts (cs : List (SchedSpec N)) :
    (AfterPresent cs ↔ ∃ g, buildGraph cs = some g) ∧
    ∀ g, buildGraph cs = some g → g.Sorted ∧ (∀ x, x ∈ g.keys ↔ x ∈ cs.map (·.name)) ∧
      ∀ x d, g.Dep x d ↔ (∃ c ∈ cs, x = c.name ∧ d ∈ c.before) ∨ (∃ c ∈ cs, x ∈ c.after ∧ d = c.name) := by
  induction cs using List.reverseRecOn with
  | nil =>
    refine ⟨⟨fun _ => ⟨[], rfl⟩, fun _ => ?_⟩, ?_⟩
    · intro pre c post h; simp at h
    · intro g hg
      simp only [buildGraph, List.foldlM_nil, Option.pure_def, Option.some.injEq] at hg
      subst hg
      simp [Graph.Sorted, Graph.keys, Graph.Dep]
  | append_singleton cs c ih =>
    obtain ⟨ih1, ih2⟩ := ih
    have hb : buildGraph (cs ++ [c]) = (buildGraph cs).bind (fun g => addToGraph g c) := by
      simp [buildGraph]
    rw [hb, afterPresent_snoc]
    cases hg : buildGraph cs with
    | none =>
      rw [hg] at ih1
      simp [ih1]
    | some g =>
      obtain ⟨hs, hk, hd⟩ := ih2 g hg
      obtain ⟨h1, h2⟩ := addToGraph_facts hs c
      simp only [Option.bind_some]
      refine ⟨?_, ?_⟩
      · rw [← h1, ih1, hg]
        simp only [hk]
        simp
      · intro g' hg'
        obtain ⟨h3, h4, h5⟩ := h2 g' hg'
        refine ⟨h3, ?_, ?_⟩
        · intro x; rw [h4, hk]; simp
        · intro x d; rw [h5, hd]
          constructor
          · rintro ((⟨c', h, h'⟩ | ⟨c', h, h'⟩) | h | h)
            · exact Or.inl ⟨c', by simp [h], h'⟩
            · exact Or.inr ⟨c', by simp [h], h'⟩
            · exact Or.inl ⟨c, by simp, h⟩
            · exact Or.inr ⟨c, by simp, h⟩
          · rintro (⟨c', h, h'⟩ | ⟨c', h, h'⟩)
            · rcases List.mem_append.1 h with h | h
              · exact Or.inl (Or.inl ⟨c', h, h'⟩)
              · rw [List.mem_singleton] at h; subst h; exact Or.inr (Or.inl h')
            · rcases List.mem_append.1 h with h | h
              · exact Or.inl (Or.inr ⟨c', h, h'⟩)
              · rw [List.mem_singleton] at h; subst h; exact Or.inr (Or.inr h')

/-- graph admissibility is the specification's admissibility -/
theorem gadm_iff {cs : List (SchedSpec N)} (hn : DistinctNames cs) {g : Graph N} (hg : buildGraph cs = some g)
    (l : List N) : GAdm g l ↔ Admissible cs l := by
  obtain ⟨hs, hk, hd⟩ := (buildGraph_facts cs).2 g hg
  have hp : (g.map (·.1)).Perm (cs.map (·.name)) := by
    rw [List.perm_ext_iff_of_nodup hs.keys_nodup hn]
    exact hk
  constructor
  · intro h
    refine ⟨h.perm.trans hp, ?_, ?_⟩
    · intro c hc b hb; exact h.dep _ _ ((hd _ _).2 (Or.inl ⟨c, hc, rfl, hb⟩))
    · intro c hc a ha; exact h.dep _ _ ((hd _ _).2 (Or.inr ⟨c, hc, ha, rfl⟩))
  · intro h
    refine ⟨h.perm.trans hp.symm, ?_⟩
    intro k d hkd
    rcases (hd _ _).1 hkd with ⟨c, hc, rfl, hb⟩ | ⟨c, hc, ha, rfl⟩
    · exact h.before c hc d hb
    · exact h.after c hc k ha

/-! ## Loop -/

theorem writeIds_not_mem (name : N) (nr : Nat) (cs : List (SchedSpec N)) : ∀ i v, name ∉ cs.map (·.name) →
    writeIds name nr i cs v = some v := by
  induction cs with
  | nil => intro i v _; rfl
  | cons c cs ih =>
    intro i v h
    simp only [List.map_cons, List.mem_cons, not_or] at h
    simp only [writeIds]
    rw [if_neg (Ne.symm h.1)]
    exact ih _ _ h.2

theorem writeIds_mem (name : N) (nr : Nat) (cs : List (SchedSpec N)) (hn : (cs.map (·.name)).Nodup) : ∀ i v,
    name ∈ cs.map (·.name) → nr < v.length →
    writeIds name nr i cs v = some (v.set nr (i + (cs.map (·.name)).idxOf name)) := by
  induction cs with
  | nil => intro i v h; simp at h
  | cons c cs ih =>
    intro i v h hv
    simp only [List.map_cons, List.nodup_cons] at hn
    simp only [writeIds, List.map_cons]
    by_cases hc : c.name = name
    · subst hc
      rw [if_pos rfl, if_pos hv, writeIds_not_mem _ _ _ _ _ hn.1]
      simp
    · rw [if_neg hc, ih hn.2 _ _ (by simpa [Ne.symm hc] using h) hv]
      rw [List.idxOf_cons_ne _ hc]
      congr 2; omega

theorem schedLoop_nil (cs : List (SchedSpec N)) (nr v) : schedLoop cs [] nr v = .ret true v := by
  rw [schedLoop]; simp

theorem schedLoop_ne (cs : List (SchedSpec N)) {g : Graph N} (hg : g ≠ []) (nr v) : schedLoop cs g nr v =
    match getNextController g with
    | none => .ret false v
    | some (name, g') =>
      match writeIds name nr 0 cs v with
      | none => .ub
      | some v' => schedLoop cs g' (nr+1) v' := by
  rw [schedLoop, if_neg (by simpa using hg)]
  split
  · rename_i h; rw [h]
  · rename_i n' g' h; rw [h]; cases hw : writeIds n' nr 0 cs v <;> simp [hw]

theorem schedLoop_topo (cs : List (SchedSpec N)) (hn : DistinctNames cs) : ∀ (n : Nat) (g : Graph N) (nr : Nat) (v : List Nat),
    g.length = n → g.Sorted → (∀ x ∈ g.keys, x ∈ cs.map (·.name)) → nr + n = v.length →
    (topo g = none → ∃ v', v'.length = v.length ∧ schedLoop cs g nr v = .ret false v') ∧
    (∀ l, topo g = some l → schedLoop cs g nr v = .ret true (v.take nr ++ l.map (fun x => (cs.map (·.name)).idxOf x))) := by
  intro n
  induction n with
  | zero =>
    intro g nr v hlen hs hk hv
    have : g = [] := List.length_eq_zero_iff.1 hlen
    subst this
    rw [topo_nil, schedLoop_nil]
    refine ⟨by simp, ?_⟩
    intro l hl
    simp only [Option.some.injEq] at hl; subst hl
    rw [List.take_of_length_le (by omega)]; simp
  | succ n ih =>
    intro g nr v hlen hs hk hv
    have hg : g ≠ [] := by rintro rfl; simp at hlen
    rw [topo_ne hg, schedLoop_ne cs hg]
    cases hnext : getNextController g with
    | none => exact ⟨fun _ => ⟨v, rfl, rfl⟩, by simp⟩
    | some cg =>
      obtain ⟨c, g'⟩ := cg
      obtain ⟨hs', hperm, hc, _⟩ := getNext_facts hs hnext
      have hcm : c ∈ cs.map (·.name) := hk c (hperm.mem_iff.2 (by simp))
      have hl' : g'.length = n := by
        have := hperm.length_eq; simp at this; omega
      simp only [writeIds_mem c nr cs hn 0 v hcm (by omega), Nat.zero_add]
      obtain ⟨ih1, ih2⟩ := ih g' (nr+1) (v.set nr ((cs.map (·.name)).idxOf c)) hl' hs'
        (fun x hx => hk x (hperm.mem_iff.2 (List.mem_cons_of_mem _ hx))) (by simp; omega)
      refine ⟨?_, ?_⟩
      · intro ht
        rw [Option.map_eq_none_iff] at ht
        obtain ⟨v', h1, h2⟩ := ih1 ht
        exact ⟨v', by simpa using h1, h2⟩
      · intro l hl
        rw [Option.map_eq_some_iff] at hl
        obtain ⟨l', hl', rfl⟩ := hl
        rw [ih2 l' hl']
        congr 1
        rw [List.take_add_one]
        simp [List.getElem?_set, show nr < v.length by omega, List.take_set_of_le]

theorem resizeVec_length {α} (d : α) (v : List α) (n : Nat) : (resizeVec d v n).length = n := by
  simp [resizeVec]; omega

/-- The complete functional behaviour of `scheduleControllers` for distinct names. -/
theorem scheduleControllers_eq (cs : List (SchedSpec N)) (hn : DistinctNames cs) (v : List Nat) :
    (∃ v', v'.length = cs.length ∧ scheduleControllers cs v = .ret false v' ∧
        ¬ (AfterPresent cs ∧ ∃ l, Admissible cs l)) ∨
    (∃ l, AfterPresent cs ∧ Admissible cs l ∧ (∀ l', Admissible cs l' → l ≤ l') ∧
      scheduleControllers cs v = .ret true (l.map (fun x => (cs.map (·.name)).idxOf x))) := by
  unfold scheduleControllers
  obtain ⟨hb1, hb2⟩ := buildGraph_facts cs
  cases hg : buildGraph cs with
  | none =>
    left
    refine ⟨_, resizeVec_length 0 v cs.length, rfl, ?_⟩
    rintro ⟨h, -⟩
    rw [hb1, hg] at h; simp at h
  | some g =>
    obtain ⟨hs, hk, hd⟩ := hb2 g hg
    have hp : (g.map (·.1)).Perm (cs.map (·.name)) := by
      rw [List.perm_ext_iff_of_nodup hs.keys_nodup hn]
      exact hk
    have hlen : g.length = cs.length := by simpa using hp.length_eq
    obtain ⟨h1, h2⟩ := schedLoop_topo cs hn g.length g 0 (resizeVec 0 v cs.length) rfl hs
      (fun x hx => (hk x).1 hx) (by rw [resizeVec_length]; omega)
    cases ht : topo g with
    | none =>
      left
      obtain ⟨v', hv', h⟩ := h1 ht
      refine ⟨v', by rw [hv', resizeVec_length], by simp [h], ?_⟩
      rintro ⟨-, l, hl⟩
      obtain ⟨l', hl', -⟩ := topo_complete _ g rfl hs l ((gadm_iff hn hg l).2 hl)
      rw [ht] at hl'; simp at hl'
    | some l =>
      right
      have hl := (gadm_iff hn hg l).1 (topo_sound _ g rfl hs l ht)
      refine ⟨l, hb1.2 ⟨g, hg⟩, hl, ?_, ?_⟩
      · intro l' hl'
        obtain ⟨l'', hl'', hle⟩ := topo_complete _ g rfl hs l' ((gadm_iff hn hg l').2 hl')
        rw [ht] at hl''; simp only [Option.some.injEq] at hl''; subst hl''; exact hle
      · simp only [h2 l ht, List.take_zero, List.nil_append]
        rw [if_pos]
        rw [List.all_eq_true]
        intro i hi
        obtain ⟨x, hx, rfl⟩ := List.mem_map.1 hi
        have : x ∈ cs.map (·.name) := hl.perm.mem_iff.1 hx
        simpa using List.idxOf_lt_length_of_mem this

theorem map_idxOf_perm {names l : List N} (hn : names.Nodup) (hp : l.Perm names) :
    (l.map (fun x => names.idxOf x)).Perm (List.range names.length) := by
  refine (hp.map _).trans ?_
  have : names.map (fun x => names.idxOf x) = List.range names.length := by
    apply List.ext_getElem
    · simp
    · intro i h1 h2; simp [hn.idxOf_getElem]
  rw [this]

theorem executes_idxOf {cs : List (SchedSpec N)} {l : List N} (hp : ∀ x ∈ l, x ∈ cs.map (·.name)) :
    Executes cs (l.map (fun x => (cs.map (·.name)).idxOf x)) l := by
  unfold Executes
  rw [List.map_map]
  apply List.map_congr_left
  intro x hx
  have := hp x hx
  have h := List.getElem?_idxOf this
  simpa using h

theorem executes_unique {cs : List (SchedSpec N)} {s : List Nat} {l l' : List N} (h : Executes cs s l) (h' : Executes cs s l') : l = l' := by
  unfold Executes at h h'
  rw [h] at h'
  exact (List.map_injective_iff.2 (Option.some_injective _)) h'

end Pr2
