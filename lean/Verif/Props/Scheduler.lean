import Verif.Lemmas.Scheduler2
import Mathlib.Data.String.Basic
import Mathlib.Data.List.Nodup

/-!
# C01–C05: properties of the controller scheduler

Names are strings, as in the C++.  `scheduleControllers cs v` runs the scheduler on the loaded controllers `cs`
with output vector previously holding `v`.
-/

namespace Pr2

/-- Non-trivial case used below: `arm` wants `base` before it and (already loaded) `wrist` after it. -/
def exampleControllers : List (SchedSpec String) :=
  [⟨"wrist", [], []⟩, ⟨"base", [], []⟩, ⟨"arm", ["base"], ["wrist"]⟩]

/-- A cyclic set. -/
def cyclicControllers : List (SchedSpec String) :=
  [⟨"a", [], []⟩, ⟨"b", ["a"], ["a"]⟩]

/-- C01: on success the execution order is a permutation of the controllers' indices. -/
theorem C01_schedule_perm (cs : List (SchedSpec String)) (hn : DistinctNames cs) (v s : List Nat)
    (h : scheduleControllers cs v = .ret true s) : s.Perm (List.range cs.length) := by
  rcases scheduleControllers_eq cs hn v with ⟨v', _, h', _⟩ | ⟨l, _, hl, _, h'⟩
  · rw [h'] at h; simp at h
  · rw [h'] at h; simp only [SchedResult.ret.injEq, true_and] at h; subst h
    simpa using map_idxOf_perm hn hl.perm

example : DistinctNames exampleControllers := by unfold DistinctNames exampleControllers; decide

/-- C02: in the order produced, at positions: a controller requested BEFORE_ME is executed earlier and one
requested AFTER_ME later than the requester. -/
theorem C02_schedule_honours_requests (cs : List (SchedSpec String)) (hn : DistinctNames cs) (v s : List Nat)
    (h : scheduleControllers cs v = .ret true s) (p q : Nat) (i j : Nat) (ci cj : SchedSpec String)
    (hp : s[p]? = some i) (hq : s[q]? = some j) (hi : cs[i]? = some ci) (hj : cs[j]? = some cj) :
    (cj.name ∈ ci.before → q < p) ∧ (cj.name ∈ ci.after → p < q) := by
  rcases scheduleControllers_eq cs hn v with ⟨v', _, h', _⟩ | ⟨l, _, hl, _, h'⟩
  · rw [h'] at h; simp at h
  · rw [h'] at h; simp only [SchedResult.ret.injEq, true_and] at h
    have hnd : l.Nodup := hl.perm.nodup_iff.2 hn
    have hex := executes_idxOf (cs := cs) (l := l) (fun x hx => hl.perm.mem_iff.1 hx)
    rw [h] at hex
    unfold Executes at hex
    have hpos : ∀ (p i : Nat) (c : SchedSpec String), s[p]? = some i → cs[i]? = some c → l[p]? = some c.name := by
      intro p i c hp hc
      have := congrArg (fun x => x[p]?) hex
      simp only [List.getElem?_map, hp, Option.map_some, hc] at this
      cases hlp : l[p]? with
      | none => rw [hlp] at this; simp at this
      | some n => rw [hlp] at this; simpa using this.symm
    have hlp := hpos p i ci hp hi
    have hlq := hpos q j cj hq hj
    have key : ∀ (a b : Nat) (x y : String), l[a]? = some x → l[b]? = some y → Precedes l x y → a < b := by
      rintro a b x y ha hb ⟨l₁, l₂, l₃, hl'⟩
      have hx : l[l₁.length]? = some x := by rw [hl']; simp
      have hy : l[l₁.length + 1 + l₂.length]? = some y := by
        rw [hl']
        rw [List.getElem?_append_right (by simp; omega)]
        simp [show l₁.length + 1 + l₂.length - (l₁.length + (l₂.length + 1)) = 0 by omega]
      have e1 : a = l₁.length := by
        obtain ⟨ha', ha⟩ := List.getElem?_eq_some_iff.1 ha
        obtain ⟨hx', hx⟩ := List.getElem?_eq_some_iff.1 hx
        exact (List.Nodup.getElem_inj_iff hnd).1 (ha.trans hx.symm)
      have e2 : b = l₁.length + 1 + l₂.length := by
        obtain ⟨ha', ha⟩ := List.getElem?_eq_some_iff.1 hb
        obtain ⟨hx', hx⟩ := List.getElem?_eq_some_iff.1 hy
        exact (List.Nodup.getElem_inj_iff hnd).1 (ha.trans hx.symm)
      omega
    have hci : ci ∈ cs := List.mem_of_getElem? hi
    exact ⟨fun hb => key _ _ _ _ hlq hlp (hl.before ci hci _ hb), fun ha => key _ _ _ _ hlp hlq (hl.after ci hci _ ha)⟩

/-- C03: scheduling succeeds if and only if every AFTER_ME name was present when its requester was added and
some order honours all requests. -/
theorem C03_schedule_iff_satisfiable (cs : List (SchedSpec String)) (hn : DistinctNames cs) (v : List Nat) :
    (∃ s, scheduleControllers cs v = .ret true s) ↔ AfterPresent cs ∧ ∃ order, Admissible cs order := by
  rcases scheduleControllers_eq cs hn v with ⟨v', _, h', hno⟩ | ⟨l, hp, hl, _, h'⟩
  · rw [h']; simp only [SchedResult.ret.injEq, Bool.false_eq_true, false_and, exists_false, false_iff]; exact hno
  · exact ⟨fun _ => ⟨hp, l, hl⟩, fun _ => ⟨_, h'⟩⟩

/-- C04: the order produced is admissible and lexicographically least (by name) among all admissible orders. -/
theorem C04_schedule_lex_least (cs : List (SchedSpec String)) (hn : DistinctNames cs) (v s : List Nat)
    (h : scheduleControllers cs v = .ret true s) :
    ∃ order, Executes cs s order ∧ Admissible cs order ∧ ∀ order', Admissible cs order' → order ≤ order' := by
  rcases scheduleControllers_eq cs hn v with ⟨v', _, h', _⟩ | ⟨l, _, hl, hmin, h'⟩
  · rw [h'] at h; simp at h
  · rw [h'] at h; simp only [SchedResult.ret.injEq, true_and] at h; subst h
    exact ⟨l, executes_idxOf (fun x hx => hl.perm.mem_iff.1 hx), hl, hmin⟩

theorem admissible_perm {cs cs' : List (SchedSpec String)} (hp : cs.Perm cs') {l : List String}
    (h : Admissible cs l) : Admissible cs' l :=
  ⟨h.perm.trans (hp.map _), fun c hc => h.before c (hp.mem_iff.2 hc), fun c hc => h.after c (hp.mem_iff.2 hc)⟩

/-- C04: the execution order (of names) does not depend on the order in which the controllers were loaded. -/
theorem C04_schedule_order_independent (cs cs' : List (SchedSpec String)) (hp : cs.Perm cs') (hn : DistinctNames cs)
    (v v' s s' : List Nat) (h : scheduleControllers cs v = .ret true s) (h' : scheduleControllers cs' v' = .ret true s') :
    ∃ order, Executes cs s order ∧ Executes cs' s' order := by
  have hn' : DistinctNames cs' := ((hp.map _).nodup_iff).1 hn
  obtain ⟨o, he, ha, hm⟩ := C04_schedule_lex_least cs hn v s h
  obtain ⟨o', he', ha', hm'⟩ := C04_schedule_lex_least cs' hn' v' s' h'
  have := le_antisymm (hm o' (admissible_perm hp.symm ha')) (hm' o (admissible_perm hp ha))
  subst this
  exact ⟨o, he, he'⟩

/-- C05: scheduling always terminates (it is a total function), never accesses a vector out of bounds, and on
success the result does not depend on the previous contents of the output vector. -/
theorem C05_schedule_in_bounds (cs : List (SchedSpec String)) (hn : DistinctNames cs) (v : List Nat) :
    scheduleControllers cs v ≠ .ub ∧
    (∀ b s, scheduleControllers cs v = .ret b s → s.length = cs.length) ∧
    (∀ s, scheduleControllers cs v = .ret true s → (∀ i ∈ s, i < cs.length) ∧
        ∀ v', scheduleControllers cs v' = .ret true s) := by
  rcases scheduleControllers_eq cs hn v with ⟨v', hv', h', _⟩ | ⟨l, hap, hl, hmin, h'⟩
  · rw [h']; simp [hv']
  · rw [h']
    refine ⟨by simp, ?_, ?_⟩
    · intro b s h
      simp only [SchedResult.ret.injEq] at h
      rw [← h.2]; simpa using hl.perm.length_eq
    · intro s h
      refine ⟨?_, ?_⟩
      · intro i hi
        have := (C01_schedule_perm cs hn v s (h'.trans h)).mem_iff.1 hi
        simpa using this
      · intro v''
        simp only [SchedResult.ret.injEq, true_and] at h
        rcases scheduleControllers_eq cs hn v'' with ⟨_, _, _, hno⟩ | ⟨l', _, hl', hmin', h''⟩
        · exact absurd ⟨hap, l, hl⟩ hno
        · rw [h'', ← h, le_antisymm (hmin l' hl') (hmin' l hl)]

/-- C05: the number of scheduling rounds is the number of controllers at most: each round shrinks the graph. -/
theorem C05_round_removes_one (g : Graph String) (c : String) (g' : Graph String)
    (h : getNextController g = some (c, g')) : g'.length + 1 = g.length := by
  obtain ⟨g₁, g₂, rfl, -, rfl⟩ := getNext_some h
  simp; omega

/-! Concrete cases: the hypotheses are met, both outcomes occur. -/

theorem example_admissible : Admissible exampleControllers ["base", "arm", "wrist"] := by
  refine ⟨by unfold exampleControllers; decide, ?_, ?_⟩
  · intro c hc b hb
    simp only [exampleControllers, List.mem_cons, List.not_mem_nil, or_false] at hc
    rcases hc with rfl | rfl | rfl <;> simp at hb
    subst hb; exact ⟨[], [], ["wrist"], rfl⟩
  · intro c hc b hb
    simp only [exampleControllers, List.mem_cons, List.not_mem_nil, or_false] at hc
    rcases hc with rfl | rfl | rfl <;> simp at hb
    subst hb; exact ⟨["base"], [], [], rfl⟩

theorem example_afterPresent : AfterPresent exampleControllers := by
  have : exampleControllers = ([⟨"wrist", [], []⟩, ⟨"base", [], []⟩] : List (SchedSpec String)) ++ [⟨"arm", ["base"], ["wrist"]⟩] := rfl
  rw [this, afterPresent_snoc]
  have : ([⟨"wrist", [], []⟩, ⟨"base", [], []⟩] : List (SchedSpec String)) = [⟨"wrist", [], []⟩] ++ [⟨"base", [], []⟩] := rfl
  rw [this, afterPresent_snoc]
  have : ([⟨"wrist", [], []⟩] : List (SchedSpec String)) = [] ++ [⟨"wrist", [], []⟩] := rfl
  rw [this, afterPresent_snoc]
  refine ⟨⟨⟨?_, ?_⟩, ?_⟩, ?_⟩
  · intro pre c post h; simp at h
  · simp
  · simp
  · simp

/-- A schedulable set with both kinds of request exists. -/
example (v : List Nat) : ∃ s, scheduleControllers exampleControllers v = .ret true s :=
  (C03_schedule_iff_satisfiable _ (by unfold DistinctNames exampleControllers; decide) v).2
    ⟨example_afterPresent, _, example_admissible⟩

/-- A cyclic set is rejected. -/
example (v : List Nat) : ¬ ∃ s, scheduleControllers cyclicControllers v = .ret true s := by
  rw [C03_schedule_iff_satisfiable _ (by unfold DistinctNames cyclicControllers; decide) v]
  rintro ⟨-, l, hl⟩
  have h1 := hl.before ⟨"b", ["a"], ["a"]⟩ (by simp [cyclicControllers]) "a" (by simp)
  have h2 := hl.after ⟨"b", ["a"], ["a"]⟩ (by simp [cyclicControllers]) "a" (by simp)
  have hlen := hl.perm.length_eq
  obtain ⟨a, b, c, h⟩ := h1
  obtain ⟨a', b', c', h'⟩ := h2
  have hz : a = [] ∧ b = [] ∧ c = [] := by
    rw [h] at hlen; simp [cyclicControllers] at hlen
    refine ⟨?_, ?_, ?_⟩ <;> apply List.length_eq_zero_iff.1 <;> omega
  have hz' : a' = [] ∧ b' = [] ∧ c' = [] := by
    rw [h'] at hlen; simp [cyclicControllers] at hlen
    refine ⟨?_, ?_, ?_⟩ <;> apply List.length_eq_zero_iff.1 <;> omega
  obtain ⟨rfl, rfl, rfl⟩ := hz
  obtain ⟨rfl, rfl, rfl⟩ := hz'
  rw [h] at h'; simp at h'

end Pr2
