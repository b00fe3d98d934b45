import Verif.Spec.Scheduler
import Mathlib.Data.List.Basic
import Mathlib.Data.List.Perm.Basic
import Mathlib.Data.List.Lex
import Mathlib.Tactic.Common

namespace Pr2
set_option linter.unusedSectionVars false
set_option linter.unusedVariables false
variable {N : Type} [LinearOrder N]

/-! ## Precedes -/

theorem precedes_not_head {x : N} {l : List N} (hx : (x :: l).Nodup) {a : N} : ¬ Precedes (x :: l) a x := by
  rintro ⟨l₁, l₂, l₃, h⟩
  cases l₁ with
  | nil =>
    simp only [List.nil_append, List.cons_append, List.cons.injEq] at h
    obtain ⟨rfl, rfl⟩ := h; simp at hx
  | cons y l₁ =>
    simp only [List.cons_append, List.cons.injEq] at h
    obtain ⟨rfl, rfl⟩ := h; simp at hx

theorem precedes_cons_of {x a b : N} {l : List N} (h : Precedes l a b) : Precedes (x :: l) a b := by
  obtain ⟨l₁, l₂, l₃, h⟩ := h
  exact ⟨x :: l₁, l₂, l₃, by simp [h]⟩

theorem precedes_head {x b : N} {l : List N} (h : b ∈ l) : Precedes (x :: l) x b := by
  obtain ⟨l₁, l₂, rfl⟩ := List.append_of_mem h
  exact ⟨[], l₁, l₂, by simp⟩

theorem precedes_of_cons {x a b : N} {l : List N} (hne : x ≠ a) (h : Precedes (x :: l) a b) : Precedes l a b := by
  obtain ⟨l₁, l₂, l₃, h⟩ := h
  cases l₁ with
  | nil => simp only [List.nil_append, List.cons_append, List.cons.injEq] at h; exact absurd h.1 hne
  | cons y l₁ =>
    simp only [List.cons_append, List.cons.injEq] at h
    exact ⟨l₁, l₂, l₃, by simp [h.2]⟩

theorem Precedes.mem_left {a b : N} {l : List N} (h : Precedes l a b) : a ∈ l := by
  obtain ⟨l₁, l₂, l₃, rfl⟩ := h; simp

theorem Precedes.mem_right {a b : N} {l : List N} (h : Precedes l a b) : b ∈ l := by
  obtain ⟨l₁, l₂, l₃, rfl⟩ := h; simp

/-- Removing `c` from an order keeps the relative order of the others. -/
theorem Precedes.erase {a b c : N} {l : List N} (hn : l.Nodup) (h : Precedes l a b) (ha : a ≠ c) (hb : b ≠ c) :
    Precedes (l.erase c) a b := by
  obtain ⟨l₁, l₂, l₃, rfl⟩ := h
  rw [hn.erase_eq_filter]
  refine ⟨l₁.filter (· != c), l₂.filter (· != c), l₃.filter (· != c), ?_⟩
  simp [List.filter_cons, ha, hb]

/-! ## Graphs -/

/-- Keys strictly increasing. -/
def Graph.Sorted (g : Graph N) : Prop := g.Pairwise (fun a b => a.1 < b.1)

/-- membership of dependency `d` of key `k`. -/
def Graph.Dep (g : Graph N) (k d : N) : Prop := ∃ ds, (k, ds) ∈ g ∧ d ∈ ds

/-- order respects graph -/
structure GAdm (g : Graph N) (l : List N) : Prop where
  perm : l.Perm (g.map (·.1))
  dep : ∀ k d, g.Dep k d → Precedes l d k

theorem popFree_none : ∀ {g : Graph N}, g.popFree = none → ∀ e ∈ g, e.2 ≠ []
  | [], _, e, he => by simp at he
  | (k, ds) :: g, h, e, he => by
    simp only [Graph.popFree] at h
    split at h
    · simp at h
    · rename_i hds
      split at h
      · rename_i hp
        rcases List.mem_cons.1 he with rfl | he
        · simpa using hds
        · exact popFree_none hp e he
      · simp at h

theorem popFree_some : ∀ {g : Graph N} {c g'}, g.popFree = some (c, g') →
    ∃ g₁ g₂, g = g₁ ++ (c, []) :: g₂ ∧ g' = g₁ ++ g₂ ∧ ∀ e ∈ g₁, e.2 ≠ []
  | [], _, _, h => by simp [Graph.popFree] at h
  | (k, ds) :: g, c, g', h => by
    simp only [Graph.popFree] at h
    split at h
    · rename_i hds
      simp only [Option.some.injEq, Prod.mk.injEq] at h
      obtain ⟨rfl, rfl⟩ := h
      simp only [List.isEmpty_iff] at hds; subst hds
      exact ⟨[], g, by simp⟩
    · rename_i hds
      split at h
      · simp at h
      · rename_i c' g'' hp
        simp only [Option.some.injEq, Prod.mk.injEq] at h
        obtain ⟨rfl, rfl⟩ := h
        obtain ⟨g₁, g₂, rfl, rfl, h₁⟩ := popFree_some hp
        refine ⟨(k, ds) :: g₁, g₂, by simp, by simp, ?_⟩
        intro e he
        rcases List.mem_cons.1 he with rfl | he
        · simpa using hds
        · exact h₁ e he

theorem getNext_some {g : Graph N} {c g'} (h : getNextController g = some (c, g')) :
    ∃ g₁ g₂, g = g₁ ++ (c, []) :: g₂ ∧ (∀ e ∈ g₁, e.2 ≠ []) ∧
      g' = (g₁ ++ g₂).map (fun e => (e.1, e.2.filter (fun d => d != c))) := by
  unfold getNextController at h
  split at h
  · simp at h
  · rename_i c' g'' hp
    simp only [Option.some.injEq, Prod.mk.injEq] at h
    obtain ⟨rfl, rfl⟩ := h
    obtain ⟨g₁, g₂, h1, rfl, h3⟩ := popFree_some hp
    exact ⟨g₁, g₂, h1, h3, rfl⟩

theorem getNext_none {g : Graph N} (h : getNextController g = none) : ∀ e ∈ g, e.2 ≠ [] := by
  unfold getNextController at h
  split at h
  · rename_i hp; exact popFree_none hp
  · simp at h

theorem Graph.Sorted.keys_nodup {g : Graph N} (h : g.Sorted) : (g.map (·.1)).Nodup := by
  unfold Graph.Sorted at h
  rw [List.Nodup, List.pairwise_map]
  exact h.imp (fun h => ne_of_lt h)

/-- what a successful `getNextController` does to a sorted graph -/
theorem getNext_facts {g : Graph N} (hs : g.Sorted) {c g'} (h : getNextController g = some (c, g')) :
    g'.Sorted ∧ (g.map (·.1)).Perm (c :: g'.map (·.1)) ∧ c ∉ g'.map (·.1) ∧
    (∀ k d, g'.Dep k d ↔ g.Dep k d ∧ d ≠ c) ∧ (∀ d, ¬ g.Dep c d) ∧
    (∀ k, k ∈ g.map (·.1) → (∀ d, ¬ g.Dep k d) → c ≤ k) := by
  have hnd := hs.keys_nodup
  obtain ⟨g₁, g₂, rfl, h₁, rfl⟩ := getNext_some h
  have hperm : ((g₁ ++ (c, []) :: g₂).map (·.1)).Perm
      (c :: ((g₁ ++ g₂).map (fun e => (e.1, e.2.filter (fun d => d != c)))).map (·.1)) := by
    have h2 : ((g₁ ++ g₂).map (fun e => (e.1, e.2.filter (fun d => d != c)))).map (·.1) = (g₁ ++ g₂).map (·.1) := by
      rw [List.map_map]; rfl
    rw [h2]
    simp only [List.map_append, List.map_cons]
    exact List.perm_middle
  have hnd' := hperm.nodup_iff.1 hnd
  have hc := (List.nodup_cons.1 hnd').1
  have hdepc : ∀ d, ¬ Graph.Dep (g₁ ++ (c, []) :: g₂) c d := by
    rintro d ⟨ds, hm, hd⟩
    rw [List.mem_append, List.mem_cons] at hm
    have key : (c, ds) ∈ g₁ ++ g₂ → False := by
      intro hm
      apply hc
      rw [List.map_map, List.mem_map]
      exact ⟨(c, ds), hm, rfl⟩
    rcases hm with hm | hm | hm
    · exact key (by simp [hm])
    · simp only [Prod.mk.injEq, true_and] at hm; subst hm; simp at hd
    · exact key (by simp [hm])
  refine ⟨?_, hperm, hc, ?_, hdepc, ?_⟩
  · unfold Graph.Sorted at hs ⊢
    rw [List.pairwise_map]
    refine List.Pairwise.sublist ?_ hs
    simp
  · intro k d
    constructor
    · rintro ⟨ds, hm, hd⟩
      rw [List.mem_map] at hm
      obtain ⟨⟨k', ds'⟩, hm, he⟩ := hm
      simp only [Prod.mk.injEq] at he
      obtain ⟨rfl, rfl⟩ := he
      rw [List.mem_filter] at hd
      refine ⟨⟨ds', ?_, hd.1⟩, by simpa using hd.2⟩
      simp only [List.mem_append, List.mem_cons] at hm ⊢
      tauto
    · rintro ⟨⟨ds, hm, hd⟩, hne⟩
      refine ⟨ds.filter (· != c), ?_, ?_⟩
      · rw [List.mem_map]
        refine ⟨(k, ds), ?_, rfl⟩
        simp only [List.mem_append, List.mem_cons] at hm ⊢
        rcases hm with hm | hm | hm
        · exact Or.inl hm
        · simp only [Prod.mk.injEq] at hm
          obtain ⟨rfl, rfl⟩ := hm
          simp at hd
        · exact Or.inr hm
      · rw [List.mem_filter]; exact ⟨hd, by simpa using hne⟩
  · intro k hk hnodep
    rw [List.mem_map] at hk
    obtain ⟨⟨k', ds⟩, hm, rfl⟩ := hk
    have hds : ds = [] := by
      rcases ds with _ | ⟨d, ds⟩
      · rfl
      · exact absurd ⟨d :: ds, hm, by simp⟩ (hnodep d)
    subst hds
    rw [List.mem_append, List.mem_cons] at hm
    rcases hm with hm | hm | hm
    · exact absurd rfl (h₁ _ hm)
    · simp only [Prod.mk.injEq, and_true] at hm; exact le_of_eq hm.symm
    · have := (List.pairwise_append.1 hs).2.1
      rw [List.pairwise_cons] at this
      exact le_of_lt (this.1 _ hm)

/-- abstract run of the scheduling loop: list of names in order -/
def topo (g : Graph N) : Option (List N) :=
  if g.isEmpty then some []
  else match h : getNextController g with
    | none => none
    | some (c, g') => (topo g').map (c :: ·)
termination_by g.length
decreasing_by exact getNextController_length h

theorem topo_nil : topo ([] : Graph N) = some [] := by rw [topo]; simp

theorem topo_ne {g : Graph N} (hg : g ≠ []) : topo g =
    match getNextController g with
    | none => none
    | some (c, g') => (topo g').map (c :: ·) := by
  rw [topo]
  rw [if_neg (by simpa using hg)]
  split <;> simp_all

theorem topo_sound : ∀ (n : Nat) (g : Graph N), g.length = n → g.Sorted → ∀ l, topo g = some l → GAdm g l := by
  intro n
  induction n using Nat.strong_induction_on with
  | _ n ih =>
    intro g hn hs l hl
    by_cases hg : g = []
    · subst hg
      rw [topo_nil] at hl
      simp only [Option.some.injEq] at hl; subst hl
      exact ⟨by simp, by rintro k d ⟨ds, h, _⟩; simp at h⟩
    · rw [topo_ne hg] at hl
      split at hl
      · simp at hl
      · rename_i c g' hnext
        rw [Option.map_eq_some_iff] at hl
        obtain ⟨l', hl', rfl⟩ := hl
        obtain ⟨hs', hperm, hc, hdep, hdepc, _⟩ := getNext_facts hs hnext
        have hadm := ih _ (hn ▸ getNextController_length hnext) g' rfl hs' l' hl'
        refine ⟨(List.Perm.cons c hadm.perm).trans hperm.symm, ?_⟩
        intro k d hkd
        have hkc : k ≠ c := by rintro rfl; exact hdepc d hkd
        have hk : k ∈ l' := by
          rw [hadm.perm.mem_iff]
          obtain ⟨ds, hm, _⟩ := hkd
          have : k ∈ c :: g'.map (·.1) := hperm.mem_iff.1 (List.mem_map.2 ⟨_, hm, rfl⟩)
          simpa [hkc] using this
        by_cases hdc : d = c
        · subst hdc; exact precedes_head hk
        · exact precedes_cons_of (hadm.dep k d ((hdep k d).2 ⟨hkd, hdc⟩))

theorem topo_complete : ∀ (n : Nat) (g : Graph N), g.length = n → g.Sorted → ∀ l, GAdm g l →
    ∃ l', topo g = some l' ∧ l' ≤ l := by
  intro n
  induction n using Nat.strong_induction_on with
  | _ n ih =>
    intro g hn hs l hadm
    by_cases hg : g = []
    · subst hg
      refine ⟨[], topo_nil, ?_⟩
      rw [← not_lt]; exact List.not_lt_nil l
    · have hlnd : l.Nodup := hadm.perm.nodup_iff.2 hs.keys_nodup
      rcases l with _ | ⟨x, l⟩
      · have := hadm.perm.length_eq
        simp at this; exact absurd (List.length_eq_zero_iff.1 this.symm) hg
      have hxdep : ∀ d, ¬ g.Dep x d := fun d hd => precedes_not_head hlnd (hadm.dep x d hd)
      have hxk : x ∈ g.map (·.1) := hadm.perm.mem_iff.1 (by simp)
      rw [topo_ne hg]
      split
      · rename_i hnone
        exfalso
        obtain ⟨⟨k, ds⟩, hm, rfl⟩ := List.mem_map.1 hxk
        have := getNext_none hnone _ hm
        rcases ds with _ | ⟨d, ds⟩
        · exact this rfl
        · exact hxdep d ⟨_, hm, by simp⟩
      · rename_i c g' hnext
        obtain ⟨hs', hperm, hc, hdep, hdepc, hmin⟩ := getNext_facts hs hnext
        have hcx : c ≤ x := hmin x hxk hxdep
        have hadm' : GAdm g' ((x :: l).erase c) := by
          have hpl := hadm.perm.trans hperm
          refine ⟨?_, ?_⟩
          · have := hpl.erase c
            simpa using this
          · intro k d hkd
            obtain ⟨hkd', hdc⟩ := (hdep k d).1 hkd
            have hkc : k ≠ c := by rintro rfl; exact hdepc d hkd'
            exact (hadm.dep k d hkd').erase hlnd hdc hkc
        obtain ⟨l', hl', hle⟩ := ih _ (hn ▸ getNextController_length hnext) g' rfl hs' _ hadm'
        refine ⟨c :: l', by simp [hl'], ?_⟩
        rcases lt_or_eq_of_le hcx with hlt | rfl
        · exact le_of_lt (List.Lex.rel hlt)
        · rw [List.erase_cons_head] at hle
          rcases lt_or_eq_of_le hle with hlt | rfl
          · exact le_of_lt (List.Lex.cons hlt)
          · exact le_refl _

end Pr2
