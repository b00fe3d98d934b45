import Verif.Model.Clients
import Verif.Props.Manager

namespace Pr2
set_option linter.unusedVariables false
set_option linter.unusedSimpArgs false

/-- Dependencies were loaded before the controllers that asked for them. -/
def View.DepsEarlier (v : View) : Prop :=
  ∀ a c b, v.ctrls = a ++ c :: b → ∀ n, n ∈ c.before ∨ n ∈ c.after → n ∈ a.map (·.name)

/-- What holds of the observable state after any history of service calls. -/
structure View.WF (v : View) : Prop where
  nodup : v.names.Nodup
  deps : v.DepsEarlier
  order : v.ValidOrder

theorem precedes_ne {l : List String} {a b : String} (hn : l.Nodup) (h : Precedes l a b) : a ≠ b := by
  obtain ⟨x, y, z, rfl⟩ := h
  rintro rfl
  rw [List.append_assoc, List.nodup_append] at hn
  have := hn.2.1
  simp at this

theorem depsEarlier_nil (o : List Nat) : (⟨[], o⟩ : View).DepsEarlier := by
  intro a c b h; simp at h

theorem depsEarlier_snoc {l : List CtrlView} {o o' : List Nat} {c : CtrlView} :
    (⟨l ++ [c], o⟩ : View).DepsEarlier ↔ (⟨l, o'⟩ : View).DepsEarlier ∧ ∀ n, n ∈ c.before ∨ n ∈ c.after → n ∈ l.map (·.name) := by
  constructor
  · intro h
    refine ⟨?_, fun n hn => h l c [] rfl n hn⟩
    intro a c' b hab n hn
    exact h a c' (b ++ [c]) (by dsimp only at hab ⊢; rw [hab]; simp) n hn
  · rintro ⟨h1, h2⟩ a c' b hab n hn
    dsimp only at hab
    rcases List.eq_nil_or_concat b with rfl | ⟨b', x, rfl⟩
    · have := List.append_inj' hab rfl
      obtain ⟨rfl, h⟩ := this
      simp only [List.cons.injEq, and_true] at h
      subst h
      exact h2 n hn
    · rw [List.concat_eq_append, ← List.cons_append, ← List.append_assoc] at hab
      obtain ⟨rfl, h⟩ := List.append_inj' hab rfl
      exact h1 a c' b' rfl n hn

theorem depsEarlier_switch {l : List CtrlView} {o : List Nat} (start stop : List String) (h : (⟨l, o⟩ : View).DepsEarlier) :
    (⟨l.map (switchOne start stop), o⟩ : View).DepsEarlier := by
  induction l using List.reverseRecOn with
  | nil => exact depsEarlier_nil _
  | append_singleton l c ih =>
    rw [depsEarlier_snoc (o' := o)] at h
    rw [List.map_append, List.map_singleton, depsEarlier_snoc (o' := o)]
    refine ⟨ih h.1, ?_⟩
    intro n hn
    rw [List.map_map]
    exact h.2 n hn

theorem depsEarlier_filter {l : List CtrlView} {o o' : List Nat} (n : String) (h : (⟨l, o⟩ : View).DepsEarlier)
    (hn : ∀ c ∈ l, n ∉ c.before ∧ n ∉ c.after) :
    (⟨l.filter (fun c => c.name != n), o'⟩ : View).DepsEarlier := by
  induction l using List.reverseRecOn with
  | nil => exact depsEarlier_nil _
  | append_singleton l c ih =>
    rw [depsEarlier_snoc (o' := o)] at h
    have ih' := ih h.1 (fun c hc => hn c (by simp [hc]))
    rw [List.filter_append]
    by_cases hc : c.name = n
    · rw [show List.filter (fun c => c.name != n) [c] = [] by simp [hc], List.append_nil]; exact ih'
    · rw [show List.filter (fun c => c.name != n) [c] = [c] by simp [hc], depsEarlier_snoc (o' := o')]
      refine ⟨ih', ?_⟩
      intro k hk
      obtain ⟨d, hd, hdk⟩ := List.mem_map.1 (h.2 k hk)
      refine List.mem_map.2 ⟨d, List.mem_filter.2 ⟨hd, ?_⟩, hdk⟩
      have : k ≠ n := by
        rintro rfl
        have := hn c (by simp)
        tauto
      simp [hdk, this]

/-- Controllers' dependencies are decided by the names only. -/
theorem specs_switch (v : View) (start stop : List String) :
    View.specs ⟨v.ctrls.map (switchOne start stop), v.order⟩ = v.specs := by
  simp [View.specs, Function.comp_def, switchOne]

theorem validOrder_of_specs {v v' : View} (hs : v'.specs = v.specs) (ho : v'.order = v.order) (h : v.ValidOrder) : v'.ValidOrder := by
  have hl : v'.ctrls.length = v.ctrls.length := by
    have := congrArg List.length hs
    simpa [View.specs] using this
  unfold View.ValidOrder
  rw [hs, ho, hl]; exact h

theorem vspecs_names (v : View) : v.specs.map (·.name) = v.names := by simp [View.specs, View.names, Function.comp_def]

theorem WF.call {r : CallRec} (h : CallOk r) (hw : r.pre.WF) : r.post.WF := by
  obtain ⟨op, res, pre, post, raced⟩ := r
  cases op with
  | load q =>
    rcases h with ⟨_, hok, hv, id, hid, hc⟩ | ⟨_, _, hp⟩
    · dsimp only at hok hv hc hw ⊢
      have hnd : post.names.Nodup := by
        unfold View.names; rw [hc, List.map_append]
        simp only [List.map_cons, List.map_nil]
        rw [List.nodup_append]
        refine ⟨hw.nodup, by simp, ?_⟩
        intro a ha b hb
        simp only [List.mem_singleton] at hb
        subst hb
        rintro rfl
        exact hok.1 ha
      refine ⟨hnd, ?_, hv⟩
      obtain ⟨_, o, _, hadm, _⟩ := hv
      have hod : o.Nodup := hadm.perm.nodup_iff.2 (by rw [vspecs_names]; exact hnd)
      have hpost : post = ⟨pre.ctrls ++ [⟨q.name, id, (q.init.befores pre.names),
          (q.init.afters pre.names), false⟩], post.order⟩ := by
        rw [← hc]
      have hde : (⟨pre.ctrls ++ [⟨q.name, id, (q.init.befores pre.names),
          (q.init.afters pre.names), false⟩], post.order⟩ : View).DepsEarlier := by
        rw [depsEarlier_snoc (o' := pre.order)]
        refine ⟨hw.deps, ?_⟩
        intro n hn
        have hmem : (⟨q.name, (q.init.befores pre.names),
          (q.init.afters pre.names)⟩ : SchedSpec String) ∈ post.specs := by
          unfold View.specs; rw [hc]; simp
        have : n ∈ o ∧ n ≠ q.name := by
          rcases hn with hn | hn
          · have hp := hadm.before _ hmem n hn
            exact ⟨(precedes_mem hp).1, precedes_ne hod hp⟩
          · have hp := hadm.after _ hmem n hn
            exact ⟨(precedes_mem hp).2, (precedes_ne hod hp).symm⟩
        have h2 := hadm.perm.mem_iff.1 this.1
        rw [vspecs_names] at h2
        unfold View.names at h2
        rw [hc, List.map_append, List.mem_append] at h2
        rcases h2 with h2 | h2
        · exact h2
        · simp at h2; exact absurd h2 this.2
      intro a c b hab
      exact hde a c b (hc ▸ hab)
    · dsimp only at hp hw ⊢; rw [hp]; exact hw
  | unload n =>
    rcases h with ⟨_, ⟨hmem, hun⟩, _, hv, hc⟩ | ⟨_, _, hp⟩
    · dsimp only at hun hv hc hw ⊢
      refine ⟨?_, ?_, hv⟩
      · unfold View.names; rw [hc]
        exact hw.nodup.sublist (List.filter_sublist.map _)
      · have := depsEarlier_filter (o' := post.order) n hw.deps hun
        intro a c b hab
        exact this a c b (hc ▸ hab)
    · dsimp only at hp hw ⊢; rw [hp]; exact hw
  | switch start stop k =>
    rcases h with ⟨_, _, _, hp⟩ | ⟨_, _, hp⟩
    · dsimp only at hp hw ⊢; rw [hp]; exact hw
    · dsimp only at hp hw ⊢
      rw [hp]
      refine ⟨?_, depsEarlier_switch start stop hw.deps, validOrder_of_specs (specs_switch pre start stop) rfl hw.order⟩
      have := hw.nodup
      unfold View.names at this ⊢
      simpa [Function.comp_def, switchOne] using this
  | list =>
    obtain ⟨l, _, hp, _⟩ := h
    dsimp only at hp hw ⊢; rw [hp]; exact hw

theorem WF.empty : View.empty.WF := by
  refine ⟨by simp [View.empty, View.names], depsEarlier_nil _, ?_⟩
  refine ⟨by simp [View.empty], [], ?_, ?_, ?_⟩
  · simp [Executes, View.empty]
  · exact ⟨by simp [View.specs, View.empty], by simp [View.specs, View.empty], by simp [View.specs, View.empty]⟩
  · intro o' h; have := h.perm.eq_nil; rw [this]

theorem WF.history {v v' : View} {l : List CallRec} (h : History v l v') (hv : v.WF) : v'.WF := by
  induction h with
  | nil => exact hv
  | snoc r h hpre hok ih => exact WF.call hok (hpre ▸ ih)

/-- The execution order is determined by the controllers. -/
theorem order_unique {v v' : View} (hs : v'.specs = v.specs) (h : v.ValidOrder) (h' : v'.ValidOrder) (hn : v.names.Nodup) : v'.order = v.order := by
  obtain ⟨hp, o, he, ha, hm⟩ := h
  obtain ⟨hp', o', he', ha', hm'⟩ := h'
  rw [hs] at he' ha' hm'
  have : o' = o := le_antisymm (hm' o ha) (hm o' ha')
  subst this
  have hlen : v'.ctrls.length = v.ctrls.length := by
    have := congrArg List.length hs
    simpa [View.specs] using this
  unfold Executes at he he'
  rw [← he] at he'
  have hsl : v.specs.length = v.ctrls.length := by simp [View.specs]
  have hnd : (v.specs.map (·.name)).Nodup := by rw [vspecs_names]; exact hn
  have hin : ∀ i ∈ v'.order, ∀ j ∈ v.order, v.specs[i]?.map (·.name) = v.specs[j]?.map (·.name) → i = j := by
    intro i hi j hj hij
    have hi' : i < v.specs.length := by rw [hsl, ← hlen]; simpa using hp'.mem_iff.1 hi
    have hj' : j < v.specs.length := by rw [hsl]; simpa using hp.mem_iff.1 hj
    rw [List.getElem?_eq_getElem hi', List.getElem?_eq_getElem hj'] at hij
    simp only [Option.map_some, Option.some.injEq] at hij
    have := List.nodup_iff_injective_get.1 hnd
    have h3 := @this ⟨i, by simpa using hi'⟩ ⟨j, by simpa using hj'⟩ (by simpa using hij)
    simpa using h3
  clear hp hp' he
  generalize v.order = a at *
  generalize v'.order = b at *
  induction b generalizing a with
  | nil => simpa using he'.symm
  | cons x xs ih =>
    cases a with
    | nil => simp at he'
    | cons y ys =>
      simp only [List.map_cons, List.cons.injEq] at he'
      rw [hin x (by simp) y (by simp) he'.1, ih ys he'.2 (fun i hi j hj => hin i (by simp [hi]) j (by simp [hj]))]

theorem view_eq_of {v v' : View} (hc : v'.ctrls = v.ctrls) (h : v.ValidOrder) (h' : v'.ValidOrder) (hn : v.names.Nodup) : v' = v := by
  have ho := order_unique (v := v) (v' := v') (by unfold View.specs; rw [hc]) h h' hn
  cases v; cases v'; simp_all

end Pr2
