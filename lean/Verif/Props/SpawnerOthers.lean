import Verif.Props.CommandLine
import Verif.Props.Providers

/-! # C60 continued: the spawner's shutdown when others have used the manager meanwhile -/

namespace Pr2
set_option linter.unusedVariables false

theorem unloadEach_eq (ns : List String) : unloadEach ns = callEach (ns.map Op.unload) := by
  induction ns with
  | nil => rfl
  | cons n ns ih => simp only [unloadEach, List.map_cons, callEach, ih]

/-- stopped or not: each unload removes at most a controller that does not run -/
theorem unloads_keep_running {ns : List String} {v v' : View} (h : callEach (ns.map Op.unload) v () v') :
    ∀ c ∈ v.ctrls, c.running = true → c ∈ v'.ctrls := by
  induction ns generalizing v with
  | nil => obtain ⟨_, rfl⟩ := h; exact fun c hc _ => hc
  | cons n ns ih =>
    obtain ⟨r, v1, h1, h2⟩ := h
    intro c hc hr
    refine ih h2 c ?_ hr
    rcases unload_cases h1 with ⟨_, _, _, k3, _, k4⟩ | ⟨_, k1, _⟩
    · rw [k4]
      refine List.mem_filter.2 ⟨hc, ?_⟩
      have : c.name ≠ n := fun e => by have := k3 c hc e; rw [hr] at this; cases this
      simpa using this
    · rw [k1]; exact hc

theorem unload_all {ns : List String} : ∀ (v v' : View), (∀ c ∈ v.ctrls, c.name ∈ ns → c.running = false) →
      (∀ pre n post, ns = pre ++ n :: post → ∀ c ∈ v.ctrls, c.Needs n → c.name ∈ pre) → callEach (ns.map Op.unload) v () v' →
      v'.ctrls = v.ctrls.filter (fun c => c.name ∉ ns) := by
  induction ns with
  | nil => intro v v' _ _ h; obtain ⟨_, rfl⟩ := h; simp
  | cons n ns ih =>
    intro v v' hs ho h
    obtain ⟨r, v1, h1, h2⟩ := h
    have hno : ∀ c ∈ v.ctrls, n ∉ c.before ∧ n ∉ c.after := fun c hc =>
      ⟨fun hb => absurd (ho [] n ns rfl c hc (Or.inl hb)) (by simp), fun hb => absurd (ho [] n ns rfl c hc (Or.inr hb)) (by simp)⟩
    have hv1 : v1.ctrls = v.ctrls.filter (fun c => c.name != n) := by
      rcases unload_cases h1 with ⟨_, _, _, _, _, k4⟩ | ⟨_, k1, k2⟩
      · exact k4
      · subst k1
        symm
        rw [List.filter_eq_self]
        intro c hc
        have : n ∉ v1.names := fun hn => k2 ⟨⟨hn, hno⟩, fun c hc hcn => hs c hc (by simp [hcn])⟩
        have : c.name ≠ n := fun e => this (List.mem_map.2 ⟨c, hc, e⟩)
        simpa using this
    have hsub : ∀ c ∈ v1.ctrls, c ∈ v.ctrls ∧ c.name ≠ n := by
      intro c hc
      rw [hv1] at hc
      obtain ⟨a, b⟩ := List.mem_filter.1 hc
      exact ⟨a, by simpa using b⟩
    rw [ih v1 v' (fun c hc hcn => hs c (hsub c hc).1 (by simp [hcn])) ?_ h2, hv1, List.filter_filter]
    · refine List.filter_congr fun c _ => ?_
      by_cases e1 : c.name = n <;> by_cases e2 : c.name ∈ ns <;> simp [e1, e2]
    · intro pre m post he c hc hcm
      have := ho (n :: pre) m post (by rw [he]; rfl) c (hsub c hc).1 hcm
      rcases List.mem_cons.1 this with h | h
      · exact absurd h (hsub c hc).2
      · exact h

theorem switch_halted {l : List CtrlView} (ns : List String) : l.map (switchOne [] ns) = l.map (CtrlView.halted ns) := by
  refine List.map_congr_left fun c _ => ?_
  unfold switchOne CtrlView.halted
  by_cases hc : c.name ∈ ns <;> simp [hc]

/-- **C60.** Whatever others have done: if all controllers the spawner loaded are still loaded, its shutdown stops them all and unloads only such as nobody loaded
needs afterwards; one that stays was needed by a loaded controller; nothing else changes. -/
theorem C60_takes_down {loaded : List String} {v v' : View} (h : spawnerShutdown loaded v () v') (hl : ∀ n ∈ loaded, n ∈ v.names) :
    ∃ gone : List String, gone ⊆ loaded ∧ v'.ctrls = (v.ctrls.filter (fun c => c.name ∉ gone)).map (CtrlView.halted loaded) ∧
      (∀ n ∈ gone, ∀ c ∈ v'.ctrls, ¬ c.Needs n) ∧ (∀ n ∈ loaded, n ∈ v'.names → ∃ c ∈ v.ctrls, c.Needs n) := by
  obtain ⟨r, v1, h1, h2⟩ := h
  obtain ⟨_, h3⟩ := switch_ok h1 (by simpa using hl)
  have e1 : v1.ctrls = v.ctrls.map (CtrlView.halted loaded) := by rw [h3]; exact switch_halted loaded
  rw [unloadEach_eq] at h2
  obtain ⟨gone, g1, g2, g3, g4⟩ := each_unload (by
    rw [e1]; intro c hc hn; exact halted_stops loaded c hc (by simpa using hn)) h2
  refine ⟨gone, fun x hx => by simpa using g1 hx, ?_, g3, ?_⟩
  · rw [g2, e1, List.filter_map]; rfl
  · intro n hn hv
    obtain ⟨c, hc, hcn⟩ := g4 n (by simpa using hn) hv
    rw [e1] at hc
    obtain ⟨d, hd, rfl⟩ := List.mem_map.1 hc
    exact ⟨d, hd, hcn⟩

/-- **C60.** If moreover they are still in the order in which they were loaded and no other controller needs them, exactly they are gone. -/
theorem C60_takes_all_down {l : List CallRec} {loaded : List String} {v v' : View} (hv : History View.empty l v) (h : spawnerShutdown loaded v () v')
    (hl : loaded.Sublist v.names) (ho : ∀ c ∈ v.ctrls, c.name ∉ loaded → ∀ n ∈ loaded, ¬ c.Needs n) :
    v'.ctrls = v.ctrls.filter (fun c => c.name ∉ loaded) := by
  have hw := WF.history hv WF.empty
  obtain ⟨r, v1, h1, h2⟩ := h
  obtain ⟨_, h3⟩ := switch_ok h1 (by simpa using fun n hn => hl.subset hn)
  have e1 : v1.ctrls = v.ctrls.map (CtrlView.halted loaded) := by rw [h3]; exact switch_halted loaded
  rw [unloadEach_eq] at h2
  rw [unload_all v1 v' (by rw [e1]; intro c hc hn; exact halted_stops loaded c hc (by simpa using hn)) ?_ h2, e1, List.filter_map]
  · have : ((fun c : CtrlView => decide (c.name ∉ loaded.reverse)) ∘ CtrlView.halted loaded) = (fun c => decide (c.name ∉ loaded)) := by
      funext c; exact decide_eq_decide.2 (by simp [CtrlView.halted])
    rw [this]
    conv_rhs => rw [← List.map_id (v.ctrls.filter _)]
    refine List.map_congr_left fun c hc => ?_
    have := (List.mem_filter.1 hc).2
    simp only [decide_eq_true_eq] at this
    simp [CtrlView.halted, this]
  · intro pre n post he c hc hcn
    rw [e1] at hc
    obtain ⟨d, hd, rfl⟩ := List.mem_map.1 hc
    change d.name ∈ pre
    have hnl : n ∈ loaded := by
      have : n ∈ loaded.reverse := by rw [he]; simp
      simpa using this
    have hdl : d.name ∈ loaded := by
      by_contra hx
      exact ho d hd hx n hnl hcn
    have hnd := hl.nodup hw.nodup
    -- `n` is loaded before `d`
    obtain ⟨p, q, hpq⟩ := List.append_of_mem hd
    have hearly : n ∈ p.map (·.name) := hw.deps p d q hpq n hcn
    have hloaded : loaded = post.reverse ++ n :: pre.reverse := by
      have := congrArg List.reverse he
      simpa using this
    by_contra hx
    have hpost : d.name ∈ post ∨ d.name = n := by
      rw [hloaded] at hdl
      simp at hdl
      rcases hdl with h | h | h
      · exact Or.inl h
      · exact Or.inr h
      · exact absurd h hx
    have hvn : v.names = p.map (·.name) ++ d.name :: q.map (·.name) := by unfold View.names; rw [hpq]; simp
    have hvnd := hw.nodup
    rw [hvn] at hvnd
    rcases hpost with hp | hp
    · -- then `d` precedes `n` in the list, a contradiction
      have s1 : [d.name, n].Sublist loaded := by
        rw [hloaded]
        have a1 : [d.name].Sublist post.reverse := List.singleton_sublist.2 (by simpa using hp)
        have a2 : [n].Sublist (n :: pre.reverse) := List.singleton_sublist.2 (by simp)
        exact a1.append a2
      have s2 := s1.trans hl
      have s3 : [n, d.name].Sublist v.names := by
        rw [hvn]
        have a1 : [n].Sublist (p.map (·.name)) := List.singleton_sublist.2 hearly
        have a2 : [d.name].Sublist (d.name :: q.map (·.name)) := List.singleton_sublist.2 (by simp)
        exact a1.append a2
      exact pair_sublist_asymm hw.nodup s2 s3
    · rw [← hp] at hearly
      exact (List.nodup_append.1 hvnd).2.2 _ hearly _ (by simp) rfl

/-- **C60, counterexample.** If one of the controllers the spawner loaded has been unloaded by somebody else, its STRICT stop is refused as a whole, and the shutdown
leaves all the others that run loaded and running. -/
theorem C60_left_running {loaded : List String} {v v' : View} (h : spawnerShutdown loaded v () v') {n : String} (hn : n ∈ loaded) (hu : n ∉ v.names) :
    ∀ c ∈ v.ctrls, c.running = true → c ∈ v'.ctrls := by
  obtain ⟨r, v1, h1, h2⟩ := h
  rw [unloadEach_eq] at h2
  have : v1 = v := by
    rcases h1 with ⟨_, _, _, h⟩ | ⟨_, h, _⟩
    · exact h
    · exact absurd ⟨rfl, n, by simp [hn], hu⟩ h
  subst this
  exact unloads_keep_running h2

/-! ## The hypotheses are met -/

/-- With `a` and `b` loaded, where `b` needs `a`: the shutdown of a spawner that had loaded both removes both. -/
example : ∃ v', spawnerShutdown ["a", "b"] reloadMid.view () v' ∧ v'.names = [] := by
  obtain ⟨l, hl⟩ := reloadMid_history
  obtain ⟨⟨⟩, v', h, _⟩ := clients_total.2.1 ["a", "b"] reloadMid.view (WF.history hl WF.empty)
  refine ⟨v', h, ?_⟩
  have hn : reloadMid.view.names = ["a", "b"] := by decide +kernel
  have hm : ∀ c ∈ reloadMid.view.ctrls, c.name ∈ ["a", "b"] := fun c hc => by rw [← hn]; exact List.mem_map.2 ⟨c, hc, rfl⟩
  have := C60_takes_all_down hl h (by rw [hn]) (fun c hc hx => absurd (hm c hc) hx)
  unfold View.names
  rw [this, List.map_eq_nil_iff, List.filter_eq_nil_iff]
  intro c hc
  have := hm c hc
  simpa [or_iff_not_imp_left] using this

/-- The shutdown of a spawner that had loaded `b` and a controller `x` which somebody else has unloaded keeps every running controller: the hypotheses of `C60_left_running`. -/
example : ∃ v', spawnerShutdown ["b", "x"] reloadMid.view () v' ∧ "x" ∉ reloadMid.view.names := by
  obtain ⟨l, hl⟩ := reloadMid_history
  obtain ⟨⟨⟩, v', h, _⟩ := clients_total.2.1 ["b", "x"] reloadMid.view (WF.history hl WF.empty)
  exact ⟨v', h, by decide +kernel⟩

end Pr2
