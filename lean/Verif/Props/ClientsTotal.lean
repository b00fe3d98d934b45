import Verif.Props.Restore

/-!
# The client programs can always run

Theorems about clients have the form "if a run of the client ends so, then …".  Here: in every state of the manager every service call has a
legal outcome, so each client program has a run from every state — the hypotheses of C22, C60–C62 and C71 are never vacuous.
-/

namespace Pr2
set_option linter.unusedVariables false

theorem validOrder_exists {cs : List CtrlView} (hn : (cs.map (·.name)).Nodup)
    (ha : AfterPresent (View.specs ⟨cs, []⟩)) (ho : ∃ o, Admissible (View.specs ⟨cs, []⟩) o) : ∃ order, View.ValidOrder ⟨cs, order⟩ := by
  have hd : DistinctNames (View.specs ⟨cs, []⟩) := by
    unfold DistinctNames; rw [vspecs_names]; exact hn
  obtain ⟨s, hs⟩ := (C03_schedule_iff_satisfiable (View.specs ⟨cs, []⟩) hd []).2 ⟨ha, ho⟩
  refine ⟨s, ?_, C04_schedule_lex_least _ hd _ _ hs⟩
  have := C01_schedule_perm _ hd _ _ hs
  simpa [View.specs] using this

theorem WF.afterPresent {v : View} (hw : v.WF) : AfterPresent v.specs := by
  intro pre c post hs a ha
  unfold View.specs at hs
  obtain ⟨p, cq, e1, e2, e3⟩ := List.map_eq_append_iff.1 hs
  obtain ⟨d, t, e4, e5, e6⟩ := List.map_eq_cons_iff.1 e3
  have := hw.deps p d t (by rw [e1, e4]) a (Or.inr (by rw [← e5] at ha; exact ha))
  rw [← e2, List.map_append, List.mem_append]
  left
  obtain ⟨x, hx, hxa⟩ := List.mem_map.1 this
  exact List.mem_map.2 ⟨_, List.mem_map.2 ⟨x, hx, rfl⟩, hxa⟩

theorem fresh_id (l : List CtrlView) : ∃ id, ∀ c ∈ l, c.id ≠ id := by
  refine ⟨(l.map (·.id)).sum + 1, ?_⟩
  intro c hc
  have : c.id ≤ (l.map (·.id)).sum := by
    clear * - hc
    induction l with
    | nil => simp at hc
    | cons d l ih =>
      simp only [List.map_cons, List.sum_cons]
      rcases List.mem_cons.1 hc with rfl | h
      · omega
      · have := ih h
        omega
  omega

/-- Every service call has a legal outcome in every state of the manager. -/
theorem call_total {v : View} (hw : v.WF) (op : Op) : ∃ res v', call op v res v' := by
  classical
  cases op with
  | load q =>
    by_cases hq : LoadOk v q
    · obtain ⟨id, hid⟩ := fresh_id v.ctrls
      obtain ⟨h1, h2, h3, h4, h5, h6⟩ := hq
      have hsp : View.specs ⟨v.ctrls ++ [⟨q.name, id, q.init.befores v.names, q.init.afters v.names, false⟩], []⟩ =
          v.specs ++ [⟨q.name, q.init.befores v.names, q.init.afters v.names⟩] := by simp [View.specs]
      obtain ⟨o, ho⟩ := validOrder_exists (cs := v.ctrls ++ [⟨q.name, id, q.init.befores v.names, q.init.afters v.names, false⟩])
        (by
          rw [List.map_append, List.nodup_append]
          refine ⟨hw.nodup, by simp, ?_⟩
          intro a ha b hb
          simp only [List.map_cons, List.map_nil, List.mem_singleton] at hb
          subst hb
          rintro rfl
          exact h1 ha) (by rw [hsp]; exact h5) (by rw [hsp]; exact h6)
      exact ⟨.flag true, _, Or.inl ⟨rfl, ⟨h1, h2, h3, h4, h5, h6⟩, ho, id, hid, rfl⟩⟩
    · exact ⟨.flag false, v, Or.inr ⟨rfl, hq, rfl⟩⟩
  | unload n =>
    by_cases hu : (n ∈ v.names ∧ ∀ c ∈ v.ctrls, n ∉ c.before ∧ n ∉ c.after) ∧ ∀ c ∈ v.ctrls, c.name = n → c.running = false
    · obtain ⟨⟨h1, h2⟩, h3⟩ := hu
      have hm : ∀ c ∈ v.specs, n ∉ c.before ∧ n ∉ c.after := by
        intro c hc
        obtain ⟨d, hd, rfl⟩ := List.mem_map.1 hc
        exact h2 d hd
      obtain ⟨r1, r2⟩ := sched_remove hm
      have hsp : View.specs ⟨v.ctrls.filter (fun c => c.name != n), []⟩ = v.specs.filter (fun c => c.name != n) := by
        simp [View.specs, List.filter_map, Function.comp_def]
      obtain ⟨o, ho⟩ := validOrder_exists (cs := v.ctrls.filter (fun c => c.name != n))
        ((List.filter_sublist.map _).nodup hw.nodup) (by rw [hsp]; exact r1 (WF.afterPresent hw))
        (by
          obtain ⟨_, o, _, hadm, _⟩ := hw.order
          rw [hsp]; exact ⟨_, r2 o hadm⟩)
      exact ⟨.flag true, ⟨_, o⟩, Or.inl ⟨rfl, ⟨h1, h2⟩, fun _ => h3, ho, rfl⟩⟩
    · exact ⟨.flag false, v, Or.inr ⟨rfl, hu, rfl⟩⟩
  | switch start stop k =>
    by_cases hu : k = STRICT ∧ ∃ n, (n ∈ start ∨ n ∈ stop) ∧ n ∉ v.names
    · exact ⟨.flag false, v, Or.inl ⟨rfl, hu.1, hu.2, rfl⟩⟩
    · exact ⟨.flag true, { v with ctrls := v.ctrls.map (switchOne start stop) }, Or.inr ⟨rfl, hu, rfl⟩⟩
  | list =>
    refine ⟨.listing v.listing, v, v.listing, rfl, rfl, fun _ => rfl, ?_⟩
    exact List.forall₂_same.2 (fun a _ => ⟨rfl, fun h => h⟩)

/-- A client that has a run from every state of the manager. -/
def Client.Total {α : Type} (c : Client α) : Prop := ∀ v : View, v.WF → ∃ a v', c v a v' ∧ v'.WF

theorem total_pure {α : Type} (a : α) : Client.Total (pure a : Client α) := fun v hw => ⟨a, v, ⟨rfl, rfl⟩, hw⟩

theorem total_bind {α β : Type} {c : Client α} {f : α → Client β} (hc : c.Total) (hf : ∀ a, (f a).Total) : (c >>= f).Total := by
  intro v hw
  obtain ⟨a, v1, h1, hw1⟩ := hc v hw
  obtain ⟨b, v2, h2, hw2⟩ := hf a v1 hw1
  exact ⟨b, v2, ⟨a, v1, h1, h2⟩, hw2⟩

theorem total_call (op : Op) : (call op).Total := by
  intro v hw
  obtain ⟨r, v', h⟩ := call_total hw op
  exact ⟨r, v', h, WF.call h hw⟩

theorem total_loadedNames : loadedNames.Total := fun v hw => ⟨v.names, v, ⟨rfl, rfl⟩, hw⟩

theorem total_unloadUntilFail (ns : List String) : (unloadUntilFail ns).Total := by
  induction ns with
  | nil => exact total_pure _
  | cons n ns ih =>
    refine total_bind (total_call _) (fun r => ?_)
    split
    · exact ih
    · exact total_pure _

theorem total_reload (ndebug force : Bool) : (reload ndebug force).Total := by
  refine total_bind total_loadedNames (fun ns => ?_)
  split
  · exact total_pure _
  split
  · refine total_bind (total_call _) (fun r => ?_)
    split
    · exact total_pure _
    · refine total_bind (total_unloadUntilFail _) (fun b => ?_)
      split
      · exact total_pure _
      · refine total_bind total_loadedNames (fun now => ?_)
        split
        · exact total_pure _
        · exact total_pure _
  · exact total_pure _

theorem total_callEach (os : List Op) : (callEach os).Total := by
  induction os with
  | nil => exact total_pure _
  | cons o os ih => exact total_bind (total_call _) (fun _ => ih)

theorem total_loadAll (qs : List LoadReq) : ∀ acc, (loadAll qs acc).Total := by
  induction qs with
  | nil => exact fun _ => total_pure _
  | cons q qs ih => exact fun acc => total_bind (total_call _) (fun r => ih _)

theorem total_unloadEach (ns : List String) : (unloadEach ns).Total := by
  induction ns with
  | nil => exact total_pure _
  | cons n ns ih => exact total_bind (total_call _) (fun _ => ih)

theorem total_inhibitRound (t i : List String) : (inhibitRound t i).Total := by
  refine total_bind (total_call _) (fun r => ?_)
  split
  · dsimp only
    split
    · exact total_pure _
    · exact total_bind (total_call _) (fun _ => total_pure _)
  · exact total_pure _

theorem total_inhibitRounds (env : Client Unit) (he : env.Total) (t : List String) (n : Nat) : ∀ i, (inhibitRounds env t n i).Total := by
  induction n with
  | zero => exact fun i => total_pure _
  | succ n ih => exact fun i => total_bind (total_inhibitRound t i) (fun j => total_bind he (fun _ => ih j))

/-- Every client program of this repository has a run from every state the manager can be in. -/
theorem clients_total :
    (∀ a qs, (spawn a qs).Total) ∧ (∀ l, (spawnerShutdown l).Total) ∧
    (∀ env, Client.Total env → ∀ t n, (unspawner env t n).Total) ∧
    (∀ qs, (cliSpawn qs).Total) ∧ (∀ ns, (cliKill ns).Total) ∧
    (∀ ndebug force, (reload ndebug force).Total) ∧
    (∀ ndebug force req, (reloadRestore ndebug force req).Total) ∧
    (∀ ns st, (pyStartStop ns st).Total) := by
  refine ⟨?_, ?_, ?_, ?_, ?_, total_reload, ?_, ?_⟩
  · intro a qs
    refine total_bind (total_loadAll qs []) (fun l => ?_)
    split
    · exact total_bind (total_call _) (fun _ => total_pure _)
    · exact total_pure _
  · exact fun l => total_bind (total_call _) (fun _ => total_unloadEach _)
  · intro env he t n
    exact total_bind (total_inhibitRounds env he t n []) (fun i => total_bind (total_call _) (fun _ => total_pure _))
  · exact fun qs => total_bind (total_callEach _) (fun _ => total_callEach _)
  · exact fun ns => total_bind (total_callEach _) (fun _ => total_callEach _)
  · intro ndebug force req
    refine total_bind (total_call _) (fun r => ?_)
    split
    · refine total_bind (total_reload _ _) (fun out => ?_)
      split
      · exact total_pure _
      · exact total_bind (total_callEach _) (fun _ => total_bind (total_call _) (fun _ => total_pure _))
    · exact total_pure _
  · exact fun ns st => total_bind (total_call _) (fun _ => total_pure _)

/-- A load request that is independent of everything else. -/
def plainReq (n : String) : LoadReq := ⟨n, true, some "T", ⟨fun _ => true, [], id, fun _ => true⟩, ⟨[], [], [], fun _ => some true⟩⟩

theorem plainReq_independent (n : String) : (plainReq n).Independent :=
  ⟨rfl, ⟨"T", "T", rfl, Or.inl ⟨rfl, rfl⟩, rfl⟩, fun names => ⟨rfl, rfl, rfl⟩⟩

/-- C71: its hypotheses are met from every state of the manager (with assertions compiled out, or without `force_kill`). -/
example {l : List CallRec} {v : View} (hv : History View.empty l v) : ∃ out v', reloadRestore true true plainReq v out v' ∧
    (∀ n, (plainReq n).name = n) ∧ ∀ c ∈ v.ctrls, c.before = [] → c.after = [] → (plainReq c.name).Independent := by
  obtain ⟨out, v', h, _⟩ := clients_total.2.2.2.2.2.2.1 true true plainReq v (WF.history hv WF.empty)
  exact ⟨out, v', h, fun _ => rfl, fun c _ _ _ => plainReq_independent _⟩

/-! ## C72: the Python helpers -/

/-- **C72.**  `start_controllers(names)`: returns true exactly if all names are loaded, and then exactly these controllers have been started and
nothing else has changed; otherwise nothing has changed. -/
theorem C72_start_controllers {names : List String} {v v' : View} {r : PyR} (h : pyStartControllers names v r v') :
    (r = .returned true ∧ (∀ n ∈ names, n ∈ v.names) ∧ v'.order = v.order ∧
      v'.ctrls = v.ctrls.map (fun c => { c with running := c.running || decide (c.name ∈ names) })) ∨
    (r = .returned false ∧ (∃ n ∈ names, n ∉ v.names) ∧ v' = v) := by
  obtain ⟨b, v1, ⟨q, v2, hc, rfl, rfl⟩, rfl, rfl⟩ := h
  rw [if_pos rfl] at hc
  rcases hc with ⟨h1, _, ⟨n, hn, hu⟩, h3⟩ | ⟨h1, h2, h3⟩
  · right
    have h1' : q = .flag false := h1
    simp only [List.not_mem_nil, or_false] at hn
    exact ⟨by rw [h1']; simp, ⟨n, hn, hu⟩, h3⟩
  · left
    have h1' : q = .flag true := h1
    have h3 : v' = _ := h3
    refine ⟨by rw [h1']; simp, ?_, by rw [h3], ?_⟩
    · intro n hn
      by_contra hu
      exact h2 ⟨rfl, n, Or.inl hn, hu⟩
    · rw [h3]
      dsimp only
      apply List.map_congr_left
      intro c _
      unfold switchOne
      by_cases hc : c.name ∈ names <;> simp [hc]

/-- The same for `stop_controller(name)` (a list of one). -/
theorem C72_stop_controller {name : String} {v v' : View} {b : Bool} (h : pyStartStop [name] false v b v') :
    (b = true ∧ name ∈ v.names ∧ v'.order = v.order ∧
      v'.ctrls = v.ctrls.map (fun c => { c with running := c.running && c.name != name })) ∨
    (b = false ∧ name ∉ v.names ∧ v' = v) := by
  obtain ⟨q, v2, hc, rfl, rfl⟩ := h
  rw [if_neg (by simp)] at hc
  rcases hc with ⟨h1, _, ⟨n, hn, hu⟩, h3⟩ | ⟨h1, h2, h3⟩
  · right
    have h1' : q = .flag false := h1
    simp only [List.not_mem_nil, false_or, List.mem_singleton] at hn
    subst hn
    exact ⟨by rw [h1']; simp, hu, h3⟩
  · left
    have h1' : q = .flag true := h1
    have h3 : v' = _ := h3
    refine ⟨by rw [h1']; simp, ?_, by rw [h3], ?_⟩
    · by_contra hu
      exact h2 ⟨rfl, name, Or.inr (by simp), hu⟩
    · rw [h3]
      dsimp only
      apply List.map_congr_left
      intro c _
      unfold switchOne
      by_cases hc : c.name = name <;> simp [hc]

/-- **Finding (C72).** `stop_controllers(names)` never stops anything: it raises. -/
theorem C72_stop_controllers_counterexample {names : List String} {v v' : View} {r : PyR} (h : pyStopControllers names v r v') :
    r = .raised ∧ v' = v := h

example (names : List String) {l : List CallRec} {v : View} (hv : History View.empty l v) : ∃ r v', pyStartControllers names v r v' := by
  obtain ⟨b, v', h, _⟩ := clients_total.2.2.2.2.2.2.2 names true v (WF.history hv WF.empty)
  exact ⟨.returned b, v', b, v', h, rfl, rfl⟩

/-! ## Concrete cases for the clients: the manager after loading `a`, and `b` which needs `a` (`reloadMid`) -/

theorem reloadMid_history : ∃ l, History View.empty l reloadMid.view := by
  obtain ⟨v, hv, hid⟩ := manager_history reloadMid_reachable
  have := hid (by decide +kernel)
  rw [← this] at hv
  exact ⟨_, hv⟩

/-- `C62_kill_one`: nobody mentions `b`. -/
example : "b" ∈ reloadMid.view.names ∧ (∀ c ∈ reloadMid.view.ctrls, "b" ∉ c.before ∧ "b" ∉ c.after) ∧ ∃ v', cliKill ["b"] reloadMid.view () v' := by
  obtain ⟨l, hl⟩ := reloadMid_history
  refine ⟨by decide +kernel, by decide +kernel, ?_⟩
  obtain ⟨_, v', h, _⟩ := clients_total.2.2.2.2.1 ["b"] reloadMid.view (WF.history hl WF.empty)
  exact ⟨v', h⟩

/-- `C22_reload_force_partial`, `C22_reload_force_never_succeeds`, `C61_round_stops`, `C61_unspawner_restores`: a state with controllers, one of which has dependencies. -/
example : reloadMid.view.ctrls ≠ [] ∧ ¬ reloadMid.view.NoDeps := by
  refine ⟨?_, ?_⟩
  · have : reloadMid.view.ctrls.length = 2 := by decide +kernel
    intro h; rw [h] at this; simp at this
  · intro h
    have : (reloadMid.view.ctrls.all (fun c => c.before.isEmpty && c.after.isEmpty)) = false := by decide +kernel
    rw [← Bool.not_eq_true] at this
    apply this
    rw [List.all_eq_true]
    intro c hc
    simp [h c hc]

/-- `C62_spawn_one`: loading a controller without dependencies is accepted by an empty manager. -/
example : LoadOk View.empty (plainReq "x") := by
  refine ⟨by simp [View.empty, View.names], rfl, (plainReq_independent "x").2.1, ((plainReq_independent "x").2.2 _).1, ?_, ["x"], ?_, ?_, ?_⟩
  · intro pre c post h a ha
    have : c ∈ [(⟨"x", [], []⟩ : SchedSpec String)] := by
      have h' : [(⟨"x", [], []⟩ : SchedSpec String)] = pre ++ c :: post := h
      rw [h']; simp
    simp at this; subst this; simp at ha
  · exact List.Perm.refl _
  · intro c hc b hb
    have : c ∈ [(⟨"x", [], []⟩ : SchedSpec String)] := hc
    simp at this; subst this; simp at hb
  · intro c hc b hb
    have : c ∈ [(⟨"x", [], []⟩ : SchedSpec String)] := hc
    simp at this; subst this; simp at hb

end Pr2
