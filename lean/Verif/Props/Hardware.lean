import Verif.Model.Hardware
import Mathlib.Data.List.Induction

/-!
# C59: hardware components have unique names and are found by them
-/

namespace Pr2

/-- One call `addX(ptr)` where `ptr->name_` is `name`. -/
structure HwAdd where
  kind : HwKind
  name : String
  ptr : Nat

/-- A history of additions to a new hardware interface. -/
def HwMaps.run (adds : List HwAdd) : HwMaps := adds.foldl (fun h a => (h.add a.kind a.name a.ptr).1) HwMaps.empty

/-- Specification: `ptr` was the first component of kind `k` added under the name `n` in the history. -/
def FirstAdded (adds : List HwAdd) (k : HwKind) (n : String) (ptr : Nat) : Prop :=
  ∃ before after, adds = before ++ ⟨k, n, ptr⟩ :: after ∧ ∀ a ∈ before, ¬ (a.kind = k ∧ a.name = n)

theorem HwMap.get_add (m : HwMap) (n : String) (p : Nat) (n' : String) :
    (m.add n p).1.get n' = (if n' = n ∧ m.get n = none then some p else m.get n') ∧
    ((m.add n p).2 = true ↔ m.get n = none) := by
  unfold HwMap.add HwMap.get
  by_cases h : m.any (fun q => q.1 == n) = true
  · rw [if_pos h]
    have hne : ((m.find? (fun q => q.1 == n)).map (·.2)) ≠ none := by
      intro hc
      rw [Option.map_eq_none_iff, List.find?_eq_none] at hc
      obtain ⟨x, hx, hxe⟩ := List.any_eq_true.1 h
      exact hc x hx hxe
    refine ⟨?_, ?_⟩
    · rw [if_neg (fun hc => hne hc.2)]
    · simp only [hne, iff_false]; exact Bool.false_ne_true
  · rw [if_neg h]
    have hnone : m.find? (fun q => q.1 == n) = none := by
      rw [List.find?_eq_none]
      intro x hx hxe
      exact h (List.any_eq_true.2 ⟨x, hx, hxe⟩)
    refine ⟨?_, by simp [hnone]⟩
    dsimp only
    rw [List.find?_append]
    by_cases hn : n' = n
    · subst hn
      simp [hnone]
    · rw [if_neg (fun hc => hn hc.1)]
      cases hf : m.find? (fun q => q.1 == n') with
      | some v => simp
      | none =>
        have : ¬ n = n' := fun e => hn e.symm
        simp [this]

theorem HwMaps.get_add (h : HwMaps) (k : HwKind) (n : String) (p : Nat) (k' : HwKind) (n' : String) :
    (h.add k n p).1.get k' n' = (if k' = k ∧ n' = n ∧ h.get k n = none then some p else h.get k' n') ∧
    ((h.add k n p).2 = true ↔ h.get k n = none) := by
  cases k <;> cases k' <;>
    
    simp only [HwMaps.add, HwMaps.get, true_and, reduceCtorEq, false_and, if_false, (HwMap.get_add _ _ _ n').1,
      (HwMap.get_add _ _ _ n').2, and_self]

theorem FirstAdded.unique {adds : List HwAdd} {k : HwKind} {n : String} {p q : Nat}
    (hp : FirstAdded adds k n p) (hq : FirstAdded adds k n q) : p = q := by
  obtain ⟨b, a, rfl, hb⟩ := hp
  obtain ⟨b', a', he, hb'⟩ := hq
  induction b generalizing b' with
  | nil =>
    cases b' with
    | nil => simp at he; exact he.1
    | cons x b' =>
      simp only [List.nil_append, List.cons_append, List.cons.injEq] at he
      exact absurd (by rw [← he.1]; exact ⟨rfl, rfl⟩) (hb' x (List.mem_cons_self ..))
  | cons x b ih =>
    cases b' with
    | nil =>
      simp only [List.nil_append, List.cons_append, List.cons.injEq] at he
      exact absurd (by rw [he.1]; exact ⟨rfl, rfl⟩) (hb x (List.mem_cons_self ..))
    | cons y b' =>
      simp only [List.cons_append, List.cons.injEq] at he
      exact ih (fun a ha => hb a (List.mem_cons_of_mem _ ha)) b' he.2
        (fun a ha => hb' a (List.mem_cons_of_mem _ ha))

theorem firstAdded_snoc (adds : List HwAdd) (a : HwAdd) (k : HwKind) (n : String) (p : Nat) :
    FirstAdded (adds ++ [a]) k n p ↔
      FirstAdded adds k n p ∨ ((∀ b ∈ adds, ¬ (b.kind = k ∧ b.name = n)) ∧ a = ⟨k, n, p⟩) := by
  constructor
  · rintro ⟨b, c, he, hb⟩
    rcases List.eq_nil_or_concat c with rfl | ⟨c', z, rfl⟩
    · obtain ⟨h1, h2⟩ := List.append_inj' he rfl
      right
      subst h1
      exact ⟨hb, by simpa using h2⟩
    · left
      have he' : adds ++ [a] = (b ++ ⟨k, n, p⟩ :: c') ++ [z] := by simp [he]
      obtain ⟨h1, _⟩ := List.append_inj' he' rfl
      exact ⟨b, c', h1, hb⟩
  · rintro (⟨b, c, rfl, hb⟩ | ⟨hb, rfl⟩)
    · exact ⟨b, c ++ [a], by simp, hb⟩
    · exact ⟨adds, [], rfl, hb⟩

/-- No component of that kind and name was added. -/
theorem C59_lookup_aux (adds : List HwAdd) (k : HwKind) (n : String) :
    (∀ p, (HwMaps.run adds).get k n = some p ↔ FirstAdded adds k n p) ∧
    ((HwMaps.run adds).get k n = none ↔ ∀ a ∈ adds, ¬ (a.kind = k ∧ a.name = n)) := by
  induction adds using List.reverseRecOn generalizing k n with
  | nil =>
    have hg : (HwMaps.run []).get k n = none := by cases k <;> rfl
    rw [hg]
    refine ⟨fun p => ⟨fun (h : (none : Option Nat) = some p) => (by cases h), ?_⟩, by simp⟩
    rintro ⟨b, c, he, _⟩
    exact absurd he (by simp)
  | append_singleton adds a ih =>
    have hrun : HwMaps.run (adds ++ [a]) = ((HwMaps.run adds).add a.kind a.name a.ptr).1 := by
      simp [HwMaps.run, List.foldl_append]
    rw [hrun, ((HwMaps.run adds).get_add a.kind a.name a.ptr k n).1]
    obtain ⟨ih1, ih2⟩ := ih k n
    by_cases hc : k = a.kind ∧ n = a.name ∧ (HwMaps.run adds).get a.kind a.name = none
    · rw [if_pos hc]
      obtain ⟨hk, hn, h0⟩ := hc
      rw [← hk, ← hn] at h0
      have hnone := ih2.1 h0
      refine ⟨fun p => ?_, ?_⟩
      · rw [firstAdded_snoc, ← ih1 p, h0]
        constructor
        · intro h
          right
          refine ⟨hnone, ?_⟩
          obtain ⟨ak, an, ap⟩ := a
          simp at h hk hn
          simp [hk, hn, h]
        · rintro (h | ⟨_, h⟩)
          · exact nomatch h
          · rw [h]
      · constructor
        · intro h; exact nomatch h
        · intro h
          exact absurd ⟨hk.symm, hn.symm⟩ (h a (by simp))
    · rw [if_neg hc]
      refine ⟨fun p => ?_, ?_⟩
      · rw [firstAdded_snoc, ih1 p]
        constructor
        · exact Or.inl
        · rintro (h | ⟨h, rfl⟩)
          · exact h
          · exact absurd ⟨rfl, rfl, ih2.2 h⟩ hc
      · rw [ih2]
        constructor
        · intro h b hb
          rcases List.mem_append.1 hb with hb | hb
          · exact h b hb
          · rw [List.mem_singleton] at hb
            subst hb
            rintro ⟨e1, e2⟩
            subst e1 e2
            exact hc ⟨rfl, rfl, ih2.2 h⟩
        · intro h b hb
          exact h b (List.mem_append_left _ hb)

/-- **C59** `getX(n)` returns exactly the component first added under that name and kind, and NULL exactly if there was none. -/
theorem C59_lookup (adds : List HwAdd) (k : HwKind) (n : String) :
    (∀ p, (HwMaps.run adds).get k n = some p ↔ FirstAdded adds k n p) ∧
    ((HwMaps.run adds).get k n = none ↔ ∀ a ∈ adds, ¬ (a.kind = k ∧ a.name = n)) :=
  C59_lookup_aux adds k n

/-- **C59** After any history of additions, `addX` reports success exactly if no component of that kind and name was ever added. -/
theorem C59_add_succeeds_iff_new (adds : List HwAdd) (k : HwKind) (n : String) (p : Nat) :
    ((HwMaps.run adds).add k n p).2 = true ↔ ∀ a ∈ adds, ¬ (a.kind = k ∧ a.name = n) := by
  rw [((HwMaps.run adds).get_add k n p k n).2, (C59_lookup adds k n).2]

/-- **C59** What is found once is found for ever: no later additions, successful or not, replace or remove a component. -/
theorem C59_never_replaced (adds later : List HwAdd) (k : HwKind) (n : String) (p : Nat)
    (h : (HwMaps.run adds).get k n = some p) : (HwMaps.run (adds ++ later)).get k n = some p := by
  rw [(C59_lookup _ k n).1] at h ⊢
  obtain ⟨b, c, rfl, hb⟩ := h
  exact ⟨b, c ++ later, by simp, hb⟩

/-- **C59** A successful addition makes exactly that component available; a refused one changes no lookup. -/
theorem C59_add_effect (adds : List HwAdd) (k : HwKind) (n : String) (p : Nat) (k' : HwKind) (n' : String) :
    let r := (HwMaps.run adds).add k n p
    r.1.get k' n' = if r.2 = true ∧ k' = k ∧ n' = n then some p else (HwMaps.run adds).get k' n' := by
  intro r
  obtain ⟨h1, h2⟩ := (HwMaps.run adds).get_add k n p k' n'
  have e : r.1.get k' n' = _ := h1
  rw [e]
  by_cases hc : k' = k ∧ n' = n ∧ (HwMaps.run adds).get k n = none
  · rw [if_pos hc, if_pos ⟨h2.2 hc.2.2, hc.1, hc.2.1⟩]
  · rw [if_neg hc, if_neg (fun hh => hc ⟨hh.2.1, hh.2.2, h2.1 hh.1⟩)]

/-- A history that meets the hypotheses: two actuators of one name, and a sensor of the same name. -/
example :
    let h := [⟨.actuator, "a", 1⟩, ⟨.actuator, "a", 2⟩, ⟨.accelerometer, "a", 3⟩, ⟨.actuator, "b", 4⟩]
    (HwMaps.run h).get .actuator "a" = some 1 ∧ (HwMaps.run h).get .accelerometer "a" = some 3 ∧
    (HwMaps.run h).get .actuator "b" = some 4 ∧ (HwMaps.run h).get .projector "a" = none ∧
    ((HwMaps.run h).add .actuator "b" 5).2 = false ∧ ((HwMaps.run h).add .projector "b" 5).2 = true := by
  refine ⟨rfl, rfl, rfl, rfl, rfl, rfl⟩

end Pr2
