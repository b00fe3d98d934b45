import Verif.Model.Concurrent
import Verif.Lemmas.Scheduler2
import Mathlib.Data.List.Nodup

namespace Pr2
set_option linter.unusedVariables false
set_option linter.unusedSimpArgs false

/-- A well-formed list of loaded controllers with its execution order. -/
structure Good (h : Heap) (next : Nat) (l : List Entry) (sc : List Nat) : Prop where
  distinct : (names l).Nodup
  ids : (l.map (·.id)).Nodup
  lt : ∀ e ∈ l, e.id < next
  inited : ∀ e ∈ l, (h e.id).st ≠ .constructed
  after : AfterPresent (specs h l)
  sched : ∃ v, scheduleControllers (specs h l) v = .ret true sc

theorem specs_names (h : Heap) (l : List Entry) : (specs h l).map (·.name) = names l := by
  simp [specs, names, Function.comp_def]

theorem specs_length (h : Heap) (l : List Entry) : (specs h l).length = l.length := by simp [specs]

theorem specs_congr {h h' : Heap} {l : List Entry}
    (hh : ∀ e ∈ l, (h' e.id).before = (h e.id).before ∧ (h' e.id).after = (h e.id).after) : specs h' l = specs h l := by
  unfold specs
  apply List.map_congr_left
  intro e he
  rw [(hh e he).1, (hh e he).2]

theorem Good.congr {h h' : Heap} {n n' : Nat} {l : List Entry} {sc : List Nat} (g : Good h n l sc) (hn : n ≤ n')
    (hh : ∀ e ∈ l, (h' e.id).before = (h e.id).before ∧ (h' e.id).after = (h e.id).after)
    (hi : ∀ e ∈ l, (h' e.id).st ≠ .constructed) : Good h' n' l sc := by
  refine ⟨g.distinct, g.ids, fun e he => lt_of_lt_of_le (g.lt e he) hn, hi, ?_, ?_⟩
  · rw [specs_congr hh]; exact g.after
  · rw [specs_congr hh]; exact g.sched

theorem Good.distinctSpecs {h : Heap} {l : List Entry} (hd : (names l).Nodup) : DistinctNames (specs h l) := by
  unfold DistinctNames; rw [specs_names]; exact hd

theorem good_nil (h : Heap) (n : Nat) : Good h n [] [] := by
  refine ⟨by simp [names], by simp, by simp, by simp, ?_, ⟨[], ?_⟩⟩
  · intro pre c post hh; simp [specs] at hh
  · show scheduleControllers ([] : List (SchedSpec String)) [] = _; decide +kernel

theorem Good.perm {h : Heap} {n : Nat} {l : List Entry} {sc : List Nat} (g : Good h n l sc) :
    sc.Perm (List.range l.length) := by
  obtain ⟨v, hv⟩ := g.sched
  rcases scheduleControllers_eq (specs h l) (Good.distinctSpecs g.distinct) v with ⟨v', _, h', _⟩ | ⟨o, _, ho, _, h'⟩
  · rw [h'] at hv; simp at hv
  · rw [h'] at hv; simp only [SchedResult.ret.injEq, true_and] at hv
    rw [← hv]
    have := map_idxOf_perm (Good.distinctSpecs (h := h) g.distinct) ho.perm
    simpa [specs_length] using this

theorem Good.sched_length {h : Heap} {n : Nat} {l : List Entry} {sc : List Nat} (g : Good h n l sc) : sc.length = l.length := by
  simpa using g.perm.length_eq

theorem Good.entry {h : Heap} {n : Nat} {l : List Entry} {sc : List Nat} (g : Good h n l sc) {k : Nat} (hk : k < l.length) :
    ∃ i e, sc[k]? = some i ∧ l[i]? = some e ∧ e ∈ l := by
  have hk' : k < sc.length := by rw [g.sched_length]; exact hk
  have hi : sc[k] < l.length := by
    have := g.perm.mem_iff.1 (List.getElem_mem hk')
    simpa using this
  exact ⟨sc[k], l[sc[k]], List.getElem?_eq_getElem hk', List.getElem?_eq_getElem hi, List.getElem_mem hi⟩

theorem mem_names {l : List Entry} {n : String} : n ∈ names l ↔ ∃ e ∈ l, e.name = n := by
  simp [names]

theorem findByName_some {l : List Entry} {n : String} {i : Nat} (h : findByName l n = some i) : ∃ e ∈ l, e.name = n ∧ e.id = i := by
  unfold findByName at h
  rw [Option.map_eq_some_iff] at h
  obtain ⟨e, he, rfl⟩ := h
  have := List.find?_some he
  exact ⟨e, List.mem_of_find?_eq_some he, by simpa using this, rfl⟩

theorem findByName_none {l : List Entry} {n : String} : findByName l n = none ↔ n ∉ names l := by
  unfold findByName
  simp [names, List.find?_eq_none]

theorem findByName_mem {l : List Entry} (hd : (names l).Nodup) {e : Entry} (he : e ∈ l) : findByName l e.name = some e.id := by
  cases h : findByName l e.name with
  | none => rw [findByName_none] at h; exact absurd (mem_names.2 ⟨e, he, rfl⟩) h
  | some i =>
    obtain ⟨e', he', hn, rfl⟩ := findByName_some h
    have : e' = e := by
      unfold names at hd
      exact List.inj_on_of_nodup_map hd he' he hn
    rw [this]

theorem loadBody_spec {h : Heap} {id : Nat} {frm : List Entry} {sc0 : List Nat} (g : Good h id frm sc0) (oldSched : List Nat)
    (r : LoadReq) :
    (loadBody h id frm oldSched r).ub = false ∧
    ((loadBody h id frm oldSched r).ok = false → (loadBody h id frm oldSched r).ctrl = none) ∧
    ((loadBody h id frm oldSched r).ok = true ↔
      r.name ∉ names frm ∧ r.nodeOk = true ∧ r.constructed = true ∧
      (Ctrl.fresh.initRequest (names frm) r.init).2.2 = some true ∧
      (let c := (Ctrl.fresh.initRequest (names frm) r.init).1
       let new := specs h frm ++ [⟨r.name, c.before, c.after⟩]
       AfterPresent new ∧ ∃ o, Admissible new o)) ∧
    ((loadBody h id frm oldSched r).ok = true →
      let c := (Ctrl.fresh.initRequest (names frm) r.init).1
      (loadBody h id frm oldSched r).ctrl = some c ∧ c.st = .initialized ∧
      (loadBody h id frm oldSched r).dst = frm ++ [⟨r.name, id⟩] ∧
      Good (fun i => if i = id then c else h i) (id+1) (frm ++ [⟨r.name, id⟩]) (loadBody h id frm oldSched r).sched) := by
  unfold loadBody
  by_cases hdup : frm.any (fun e => e.name == r.name) = true
  · rw [if_pos hdup]
    have : r.name ∈ names frm := by
      rw [List.any_eq_true] at hdup
      obtain ⟨e, he, hn⟩ := hdup
      exact mem_names.2 ⟨e, he, by simpa using hn⟩
    simp [this]
  · rw [if_neg hdup]
    have hnm : r.name ∉ names frm := by
      intro hm
      obtain ⟨e, he, hn⟩ := mem_names.1 hm
      exact hdup (List.any_eq_true.2 ⟨e, he, by simp [hn]⟩)
    by_cases hnode : r.nodeOk = true
    · rw [if_neg (by simp [hnode])]
      by_cases hcon : r.constructed = true
      · rw [if_neg (by simp [hcon])]
        generalize hinit : Ctrl.fresh.initRequest (names frm) r.init = X
        obtain ⟨c, ev, b⟩ := X
        have hcst : b = some true → c.st = .initialized := by
          intro hb
          unfold Ctrl.initRequest at hinit
          simp only [Ctrl.fresh, ne_eq, not_true_eq_false, if_false] at hinit
          split at hinit
          · simp only [Prod.mk.injEq] at hinit; rw [← hinit.2.2] at hb; simp at hb
          · simp only [Prod.mk.injEq] at hinit; rw [← hinit.2.2] at hb; simp at hb
          · simp only [Prod.mk.injEq] at hinit; rw [← hinit.1]
        match b, hcst with
        | none, _ => simp
        | some false, _ => simp
        | some true, hcst =>
          have hst := hcst rfl
          simp only
          have hold : ∀ e ∈ frm, e.id ≠ id := fun e he => ne_of_lt (g.lt e he)
          have hspecs : specs (fun i => if i = id then c else h i) (frm ++ [⟨r.name, id⟩]) =
              specs h frm ++ [⟨r.name, c.before, c.after⟩] := by
            unfold specs
            rw [List.map_append]
            congr 1
            · apply List.map_congr_left
              intro e he; simp [hold e he]
            · simp
          have hdist : (names (frm ++ [⟨r.name, id⟩])).Nodup := by
            unfold names
            rw [List.map_append, List.nodup_append]
            refine ⟨g.distinct, by simp, ?_⟩
            intro a ha b hb
            simp only [List.map_cons, List.map_nil, List.mem_singleton] at hb
            subst hb
            rintro rfl; exact hnm ha
          have hD : DistinctNames (specs (fun i => if i = id then c else h i) (frm ++ [⟨r.name, id⟩])) :=
            Good.distinctSpecs hdist
          rcases scheduleControllers_eq _ hD oldSched with ⟨v', hv', h', hno⟩ | ⟨l, hap, hl, hmin, h'⟩
          · rw [h', ← hspecs]
            simp only [hnm, hnode, hcon]
            refine ⟨trivial, fun _ => trivial, ?_, by simp⟩
            simp only [Bool.false_eq_true, not_false_eq_true, true_and, false_iff]
            exact hno
          · rw [h', ← hspecs]
            simp only [hnm, hnode, hcon]
            refine ⟨trivial, by simp, ?_, ?_⟩
            · simp only [not_false_eq_true, true_and, true_iff]; exact ⟨hap, l, hl⟩
            · intro _
              refine ⟨trivial, hst, trivial, ?_⟩
              refine ⟨hdist, ?_, ?_, ?_, hap, oldSched, h'⟩
              · rw [List.map_append, List.nodup_append]
                refine ⟨g.ids, by simp, ?_⟩
                intro a ha b hb
                simp only [List.map_cons, List.map_nil, List.mem_singleton] at hb
                subst hb
                obtain ⟨e, he, rfl⟩ := List.mem_map.1 ha
                exact hold e he
              · intro e he
                rcases List.mem_append.1 he with he | he
                · exact Nat.lt_succ_of_lt (g.lt e he)
                · rw [List.mem_singleton] at he; subst he; simp
              · intro e he
                rcases List.mem_append.1 he with he | he
                · simp only [hold e he, if_false]; exact g.inited e he
                · rw [List.mem_singleton] at he; subst he; simp [hst]
      · have : r.constructed = false := by simpa using hcon
        simp [this]
    · have : r.nodeOk = false := by simpa using hnode
      simp [this]

theorem precedes_filter {l : List String} {n a b : String} (h : Precedes l a b) (ha : a ≠ n) (hb : b ≠ n) :
    Precedes (l.filter (· != n)) a b := by
  obtain ⟨l₁, l₂, l₃, rfl⟩ := h
  refine ⟨l₁.filter (· != n), l₂.filter (· != n), l₃.filter (· != n), ?_⟩
  simp [ha, hb]

theorem specs_filter (h : Heap) (l : List Entry) (n : String) :
    specs h (l.filter (fun e => e.name != n)) = (specs h l).filter (fun c => c.name != n) := by
  unfold specs
  rw [List.filter_map]; rfl

/-- removing a controller nobody mentions keeps a set schedulable -/
theorem sched_remove {cs : List (SchedSpec String)} {n : String}
    (hm : ∀ c ∈ cs, n ∉ c.before ∧ n ∉ c.after) :
    (AfterPresent cs → AfterPresent (cs.filter (fun c => c.name != n))) ∧
    (∀ o, Admissible cs o → Admissible (cs.filter (fun c => c.name != n)) (o.filter (· != n))) := by
  refine ⟨?_, ?_⟩
  · induction cs using List.reverseRecOn with
    | nil => intro h; simpa using h
    | append_singleton cs c ih =>
      rw [afterPresent_snoc, List.filter_append]
      rintro ⟨h1, h2⟩
      have ih' := ih (fun c hc => hm c (by simp [hc])) h1
      by_cases hc : c.name = n
      · have : List.filter (fun c => c.name != n) [c] = [] := by simp [hc]
        rw [this, List.append_nil]; exact ih'
      · have : List.filter (fun c => c.name != n) [c] = [c] := by simp [hc]
        rw [this, afterPresent_snoc]
        refine ⟨ih', ?_⟩
        intro a ha
        rcases h2 a ha with h | h
        · left
          have hne : a ≠ n := by rintro rfl; exact (hm c (by simp)).2 ha
          obtain ⟨c', hc', rfl⟩ := List.mem_map.1 h
          exact List.mem_map.2 ⟨c', List.mem_filter.2 ⟨hc', by simpa using hne⟩, rfl⟩
        · exact Or.inr h
  · intro o ho
    refine ⟨?_, ?_, ?_⟩
    · have h1 := ho.perm.filter (· != n)
      rw [List.filter_map] at h1
      exact h1
    · intro c hc b hb
      rw [List.mem_filter] at hc
      have hbn : b ≠ n := by rintro rfl; exact (hm c hc.1).1 hb
      exact precedes_filter (ho.before c hc.1 b hb) hbn (by simpa using hc.2)
    · intro c hc a ha
      rw [List.mem_filter] at hc
      have han : a ≠ n := by rintro rfl; exact (hm c hc.1).2 ha
      exact precedes_filter (ho.after c hc.1 a ha) (by simpa using hc.2) han

theorem unloadBody_spec {h : Heap} {next : Nat} {frm : List Entry} {sc0 : List Nat} (g : Good h next frm sc0) (running : Nat → Bool)
    (oldSched : List Nat) (n : String) :
    (unloadBody h running frm oldSched n).ub = false ∧ (unloadBody h running frm oldSched n).ctrl = none ∧
    ((unloadBody h running frm oldSched n).ok = true ↔
      n ∈ names frm ∧ (∀ e ∈ frm, n ∉ (h e.id).before ∧ n ∉ (h e.id).after) ∧ (∀ e ∈ frm, e.name = n → running e.id = false)) ∧
    ((unloadBody h running frm oldSched n).ok = true →
      (unloadBody h running frm oldSched n).dst = frm.filter (fun e => e.name != n) ∧
      Good h next (frm.filter (fun e => e.name != n)) (unloadBody h running frm oldSched n).sched) := by
  unfold unloadBody
  by_cases hdep : frm.any (fun e => (h e.id).before.contains n || (h e.id).after.contains n) = true
  · rw [if_pos hdep]
    refine ⟨rfl, rfl, ?_, by simp⟩
    simp only [Bool.false_eq_true, false_iff]
    rintro ⟨-, hh, -⟩
    rw [List.any_eq_true] at hdep
    obtain ⟨e, he, hn⟩ := hdep
    have := hh e he
    simp [this.1, this.2] at hn
  rw [if_neg hdep]
  have hdep' : ∀ e ∈ frm, n ∉ (h e.id).before ∧ n ∉ (h e.id).after := by
    intro e he
    rw [List.any_eq_true] at hdep
    have : ¬ ((h e.id).before.contains n || (h e.id).after.contains n) = true := fun hc => hdep ⟨e, he, hc⟩
    simp only [List.contains_eq_mem, Bool.or_eq_true, decide_eq_true_eq, not_or] at this
    exact this
  by_cases hrun : frm.any (fun e => e.name == n && running e.id) = true
  · rw [if_pos hrun]
    refine ⟨rfl, rfl, ?_, by simp⟩
    simp only [Bool.false_eq_true, false_iff]
    rintro ⟨-, -, hh⟩
    rw [List.any_eq_true] at hrun
    obtain ⟨e, he, hn⟩ := hrun
    simp only [Bool.and_eq_true, beq_iff_eq] at hn
    rw [hh e he hn.1] at hn
    simp at hn
  rw [if_neg hrun]
  have hrun' : ∀ e ∈ frm, e.name = n → running e.id = false := by
    intro e he hn
    rw [List.any_eq_true] at hrun
    have : ¬ (e.name == n && running e.id) = true := fun hc => hrun ⟨e, he, hc⟩
    simpa [hn] using this
  by_cases hex : frm.any (fun e => e.name == n) = true
  · rw [if_neg (by simpa using hex)]
    have hmem : n ∈ names frm := by
      rw [List.any_eq_true] at hex
      obtain ⟨e, he, hn⟩ := hex
      exact mem_names.2 ⟨e, he, by simpa using hn⟩
    have hmention : ∀ c ∈ specs h frm, n ∉ c.before ∧ n ∉ c.after := by
      intro c hc
      unfold specs at hc
      obtain ⟨e, he, rfl⟩ := List.mem_map.1 hc
      exact hdep' e he
    obtain ⟨hr1, hr2⟩ := sched_remove hmention
    have hdist : (names (frm.filter (fun e => e.name != n))).Nodup := by
      unfold names
      exact (List.filter_sublist.map _).nodup g.distinct
    have hD : DistinctNames (specs h (frm.filter (fun e => e.name != n))) := Good.distinctSpecs hdist
    have hadm : ∃ o, Admissible (specs h frm) o := by
      obtain ⟨v, hv⟩ := g.sched
      rcases scheduleControllers_eq (specs h frm) (Good.distinctSpecs g.distinct) v with ⟨v', _, h', _⟩ | ⟨o, _, ho, _, _⟩
      · rw [h'] at hv; simp at hv
      · exact ⟨o, ho⟩
    obtain ⟨o, ho⟩ := hadm
    have hap' : AfterPresent (specs h (frm.filter (fun e => e.name != n))) := by rw [specs_filter]; exact hr1 g.after
    have ho' : Admissible (specs h (frm.filter (fun e => e.name != n))) (o.filter (· != n)) := by rw [specs_filter]; exact hr2 o ho
    rcases scheduleControllers_eq _ hD oldSched with ⟨v', hv', h', hno⟩ | ⟨l, hap, hl, hmin, h'⟩
    · exact absurd ⟨hap', _, ho'⟩ hno
    · simp only [h']
      refine ⟨trivial, trivial, ?_, ?_⟩
      · simp only [true_iff]; exact ⟨hmem, hdep', hrun'⟩
      · intro _
        refine ⟨trivial, hdist, ?_, ?_, ?_, hap, oldSched, h'⟩
        · exact (List.filter_sublist.map _).nodup g.ids
        · intro e he; exact g.lt e (List.mem_filter.1 he).1
        · intro e he; exact g.inited e (List.mem_filter.1 he).1
  · rw [if_pos (by simpa using hex)]
    refine ⟨rfl, rfl, ?_, by simp⟩
    simp only [Bool.false_eq_true, false_iff]
    rintro ⟨hm, -⟩
    obtain ⟨e, he, hn⟩ := mem_names.1 hm
    exact hex (List.any_eq_true.2 ⟨e, he, by simp [hn]⟩)

theorem resolveNames_spec (l : List Entry) (strict : Bool) : ∀ (ns : List String) (acc : List Nat),
    (resolveNames l strict ns acc = none ↔ strict = true ∧ ∃ n ∈ ns, n ∉ names l) ∧
    ∀ r, resolveNames l strict ns acc = some r → r = acc ++ ns.filterMap (findByName l) := by
  intro ns
  induction ns with
  | nil => intro acc; simp [resolveNames]
  | cons n ns ih =>
    intro acc
    simp only [resolveNames]
    cases hf : findByName l n with
    | some i =>
      have hmem : n ∈ names l := by
        by_contra hc
        rw [← findByName_none] at hc
        rw [hf] at hc; simp at hc
      obtain ⟨h1, h2⟩ := ih (acc ++ [i])
      refine ⟨?_, ?_⟩
      · simp only [h1]; simp [hmem]
      · intro r hr
        rw [h2 r hr]; simp [hf]
    | none =>
      have hmem := findByName_none.1 hf
      cases strict with
      | true => simp; exact Or.inl hmem
      | false =>
        obtain ⟨h1, h2⟩ := ih acc
        refine ⟨by simpa using h1, ?_⟩
        intro r hr
        rw [h2 r hr]; simp [hf]

end Pr2
