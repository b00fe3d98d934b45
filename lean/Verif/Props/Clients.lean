import Verif.Lemmas.Clients
import Verif.Props.ManagerTraces

/-!
# C22, C60–C62: reloading libraries, spawner, unspawner and the command line tool

`History View.empty l v` says that `v` is the manager's observable state after some history of service calls; this holds of every
reachable idle state (`manager_history`).  Theorems about a client program `c` have the form: if running `c` from `v` can give result
`a` and state `v'`, then …
-/

namespace Pr2
set_option linter.unusedVariables false
set_option linter.unusedSimpArgs false

theorem client_bind {α β : Type} (c : Client α) (f : α → Client β) (v : View) (b : β) (v' : View) :
    (c >>= f) v b v' ↔ ∃ a v1, c v a v1 ∧ f a v1 b v' := Iff.rfl
theorem client_pure {α : Type} (a b : α) (v v' : View) : (pure a : Client α) v b v' ↔ b = a ∧ v' = v := Iff.rfl

/-- Every completed call of every execution in normal operation that did not race with a motor restart is a `call` of a client. -/
theorem call_of_reachable {m : Bool} {s : State} (h : Reachable m s) {r : CallRec} (hr : r ∈ s.nlog) (hn : r.raced = false) :
    call r.op r.pre r.res r.post := by
  have := callOk h hr
  obtain ⟨op, res, pre, post, raced⟩ := r
  dsimp only at hn
  subst hn
  exact this

/-- No loaded controller depends on another one. -/
def View.NoDeps (v : View) : Prop := ∀ c ∈ v.ctrls, c.before = [] ∧ c.after = []

/-- No loaded controller is running. -/
def View.AllStopped (v : View) : Prop := ∀ c ∈ v.ctrls, c.running = false

theorem unload_cases {v v' : View} {n : String} {res : Res} (h : call (.unload n) v res v') :
    (res = .flag true ∧ n ∈ v.names ∧ (∀ c ∈ v.ctrls, n ∉ c.before ∧ n ∉ c.after) ∧ (∀ c ∈ v.ctrls, c.name = n → c.running = false) ∧
      v'.ValidOrder ∧ v'.ctrls = v.ctrls.filter (fun c => c.name != n)) ∨
    (res = .flag false ∧ v' = v ∧ ¬ ((n ∈ v.names ∧ ∀ c ∈ v.ctrls, n ∉ c.before ∧ n ∉ c.after) ∧ ∀ c ∈ v.ctrls, c.name = n → c.running = false)) := by
  rcases h with ⟨h1, ⟨h2, h3⟩, h4, h5, h6⟩ | ⟨h1, h2, h3⟩
  · exact Or.inl ⟨h1, h2, h3, h4 rfl, h5, h6⟩
  · exact Or.inr ⟨h1, h3, h2⟩

theorem unloadUntilFail_spec {v v' : View} {b : Bool} (hw : v.WF) (hs : v.AllStopped) (h : unloadUntilFail v.names v b v') :
    (b = true ↔ v.NoDeps) ∧ (b = true → v'.ctrls = []) ∧ v'.AllStopped ∧ (b = false → v'.ctrls ≠ []) := by
  generalize hl : v.ctrls = l at *
  induction l generalizing v with
  | nil =>
    unfold View.names at h
    rw [hl] at h
    obtain ⟨rfl, rfl⟩ := h
    refine ⟨by simp [View.NoDeps, hl], fun _ => hl, hs, by simp⟩
  | cons c rest ih =>
    unfold View.names at h
    rw [hl] at h
    obtain ⟨r, v1, h1, h2⟩ := h
    have hn0 : c.before = [] ∧ c.after = [] := by
      have := hw.deps [] c rest hl
      simp only [List.map_nil, List.not_mem_nil, imp_false, not_or] at this
      exact ⟨List.eq_nil_iff_forall_not_mem.2 (fun n => (this n).1), List.eq_nil_iff_forall_not_mem.2 (fun n => (this n).2)⟩
    have hnd := hw.nodup
    unfold View.names at hnd
    rw [hl, List.map_cons, List.nodup_cons] at hnd
    rcases unload_cases h1 with ⟨rfl, hmem, hun, hst, hv, hc⟩ | ⟨rfl, rfl, hno⟩
    · rw [if_pos rfl] at h2
      have hc1 : v1.ctrls = rest := by
        rw [hc, hl, List.filter_cons]
        simp only [bne_self_eq_false, Bool.false_eq_true, if_false]
        rw [List.filter_eq_self]
        intro d hd
        have : d.name ≠ c.name := fun hdc => hnd.1 (List.mem_map.2 ⟨d, hd, hdc⟩)
        simpa using this
      have hw1 : v1.WF := WF.call h1 hw
      have hs1 : v1.AllStopped := by
        intro d hd
        rw [hc1] at hd
        exact hs d (by rw [hl]; simp [hd])
      have h2' : unloadUntilFail v1.names v1 b v' := by
        unfold View.names; rw [hc1]; exact h2
      obtain ⟨i1, i2, i3, i4⟩ := ih hw1 hs1 h2' hc1
      refine ⟨?_, i2, i3, i4⟩
      rw [i1]
      unfold View.NoDeps
      rw [hc1, hl]
      simp [hn0]
    · rw [if_neg (by simp)] at h2
      obtain ⟨rfl, rfl⟩ := h2
      refine ⟨?_, by simp, hs, fun _ => by rw [hl]; simp⟩
      simp only [Bool.false_eq_true, false_iff]
      intro hnodeps
      apply hno
      refine ⟨⟨by unfold View.names; rw [hl]; simp, ?_⟩, fun d hd _ => hs d hd⟩
      intro d hd
      obtain ⟨e1, e2⟩ := hnodeps d hd
      rw [e1, e2]; simp

/-- **C22.** Without `force_kill`: refused, with nothing changed, exactly if a controller is loaded; otherwise accepted, with nothing changed. -/
theorem C22_reload_without_force {ndebug : Bool} {v v' : View} {out : Outcome} (h : reload ndebug false v out v') :
    v' = v ∧ (v.ctrls ≠ [] → out = .reply false) ∧ (v.ctrls = [] → out = .reply true) := by
  obtain ⟨ns, v1, ⟨rfl, rfl⟩, h⟩ := h
  have hne : v1.names = [] ↔ v1.ctrls = [] := by simp [View.names]
  by_cases he : v1.names = []
  · rw [if_neg (by simp [he]), if_neg (by simp [he])] at h
    obtain ⟨rfl, rfl⟩ := h
    exact ⟨rfl, fun hc => absurd (hne.1 he) hc, fun _ => rfl⟩
  · rw [if_pos ⟨he, rfl⟩] at h
    obtain ⟨rfl, rfl⟩ := h
    exact ⟨rfl, fun _ => rfl, fun hc => absurd (hne.2 hc) he⟩

/-- with `force_kill` and controllers loaded: the common part -/
theorem reload_force {ndebug : Bool} {v v' : View} {out : Outcome} (hw : v.WF) (hv : v.ctrls ≠ []) (h : reload ndebug true v out v') :
    v'.AllStopped ∧
    (v.NoDeps → v'.ctrls = [] ∧ out = if ndebug then .reply true else .aborted) ∧
    (¬ v.NoDeps → v'.ctrls ≠ [] ∧ out = .reply false) := by
  obtain ⟨ns, v1, ⟨rfl, rfl⟩, h⟩ := h
  have hne : v1.names ≠ [] := by simpa [View.names] using hv
  rw [if_neg (by simp), if_pos hne] at h
  obtain ⟨r, v2, h1, h2⟩ := h
  rcases h1 with ⟨_, hk, _⟩ | ⟨hr, _, hp⟩
  · exact absurd hk (by decide)
  · have hr : r = .flag true := hr
    have hp : v2 = { v1 with ctrls := v1.ctrls.map (switchOne [] v1.names) } := hp
    have hc1 : call (.switch [] v1.names BEST_EFFORT) v1 r v2 := Or.inr ⟨hr, fun hx => absurd hx.1 (by decide), hp⟩
    have hw2 : v2.WF := WF.call hc1 hw
    rw [if_neg (by simp [hr])] at h2
    obtain ⟨b, v3, h3, h4⟩ := h2
    have hn2 : v2.names = v1.names := by rw [hp]; simp [View.names, Function.comp_def, switchOne]
    have hs2 : v2.AllStopped := by
      intro c hc
      rw [hp] at hc
      obtain ⟨d, hd, rfl⟩ := List.mem_map.1 hc
      have : d.name ∈ v1.names := List.mem_map.2 ⟨d, hd, rfl⟩
      simp [switchOne, this]
    have hnd : v2.NoDeps ↔ v1.NoDeps := by
      rw [hp]; simp [View.NoDeps, switchOne]
    obtain ⟨i1, i2, i3, i4⟩ := unloadUntilFail_spec hw2 hs2 (by rw [hn2]; exact h3)
    rw [hnd] at i1
    cases b with
    | false =>
      rw [if_pos rfl] at h4
      obtain ⟨rfl, rfl⟩ := h4
      refine ⟨i3, fun hx => ?_, fun _ => ⟨i4 rfl, rfl⟩⟩
      exact absurd (i1.2 hx) (by simp)
    | true =>
      rw [if_neg (by simp)] at h4
      obtain ⟨now, v4, ⟨rfl, rfl⟩, h5⟩ := h4
      have hz : v1.names ++ v4.names ≠ [] := by simp [hne]
      refine ⟨?_, fun _ => ?_, fun hx => absurd (i1.1 rfl) hx⟩
      · cases ndebug <;> simp [hz] at h5 <;> obtain ⟨_, rfl⟩ := h5 <;> exact i3
      · cases ndebug
        · rw [if_pos ⟨hz, rfl⟩] at h5
          obtain ⟨rfl, rfl⟩ := h5; exact ⟨i2 rfl, by simp⟩
        · rw [if_neg (by simp)] at h5
          obtain ⟨rfl, rfl⟩ := h5; exact ⟨i2 rfl, by simp⟩

/-- **C22, with `force_kill`, partial.**  All controllers are stopped; they are all unloaded and the libraries reloaded exactly if no
loaded controller depends on another and assertions are compiled out.  (What is missing from the full property: see the
counterexample theorem below.) -/
theorem C22_reload_force_partial {l : List CallRec} {v v' : View} {out : Outcome} (hv : History View.empty l v)
    (hne : v.ctrls ≠ []) (h : reload true true v out v') :
    v'.AllStopped ∧ (out = .reply true ∨ out = .reply false) ∧ (out = .reply true ↔ v.NoDeps) ∧ (out = .reply true ↔ v'.ctrls = []) := by
  obtain ⟨h1, h2, h3⟩ := reload_force (WF.history hv WF.empty) hne h
  by_cases hn : v.NoDeps
  · obtain ⟨e1, e2⟩ := h2 hn
    rw [if_pos rfl] at e2
    exact ⟨h1, Or.inl e2, by simp [e2, hn], by simp [e2, e1]⟩
  · obtain ⟨e1, e2⟩ := h3 hn
    exact ⟨h1, Or.inr e2, by simp [e2, hn], by simp [e2, e1]⟩

/-- **Finding (C22).** With assertions enabled (the default build), `reload_controller_libraries` with `force_kill` never succeeds
when a controller is loaded, in *any* state the manager can be in: if no controller depends on another, all are unloaded and then
the manager aborts (the vector of names passed to `getControllerNames` again still holds the old names); otherwise the request
fails with every controller stopped, because controllers are unloaded in the order in which they were loaded. -/
theorem C22_reload_force_never_succeeds {l : List CallRec} {v v' : View} {out : Outcome} (hv : History View.empty l v)
    (hne : v.ctrls ≠ []) (h : reload false true v out v') :
    (out = .aborted ∧ v.NoDeps ∧ v'.ctrls = []) ∨ (out = .reply false ∧ ¬ v.NoDeps ∧ v'.ctrls ≠ [] ∧ v'.AllStopped) := by
  obtain ⟨h1, h2, h3⟩ := reload_force (WF.history hv WF.empty) hne h
  by_cases hn : v.NoDeps
  · obtain ⟨e1, e2⟩ := h2 hn
    exact Or.inl ⟨by simpa using e2, hn, e1⟩
  · obtain ⟨e1, e2⟩ := h3 hn
    exact Or.inr ⟨e2, hn, e1, h1⟩

/-! ## Spawner -/

/-- the controllers added by the spawner -/
theorem loadAll_spec {qs : List LoadReq} {v v' : View} {acc loaded : List String} (hw : v.WF) (h : loadAll qs acc v loaded v') :
    ∃ news, v'.ctrls = v.ctrls ++ news ∧ loaded = acc ++ news.map (·.name) ∧ (∀ c ∈ news, c.running = false) ∧ v'.WF := by
  induction qs generalizing v acc with
  | nil =>
    obtain ⟨rfl, rfl⟩ := h
    exact ⟨[], by simp, by simp, by simp, hw⟩
  | cons q qs ih =>
    obtain ⟨r, v1, h1, h2⟩ := h
    have hw1 : v1.WF := WF.call h1 hw
    rcases h1 with ⟨hr, _, _, id, _, hc⟩ | ⟨hr, _, hp⟩
    · have hr : r = .flag true := hr
      rw [if_pos hr] at h2
      obtain ⟨news, e1, e2, e3, e4⟩ := ih hw1 h2
      dsimp only at hc
      refine ⟨⟨q.name, id, (q.init.befores v.names), (q.init.afters v.names), false⟩ :: news, ?_, ?_, ?_, e4⟩
      · rw [e1, hc]; simp
      · rw [e2]; simp
      · intro c hc
        rw [List.mem_cons] at hc
        rcases hc with rfl | hc
        · rfl
        · exact e3 c hc
    · have hr : r = .flag false := hr
      have hp : v1 = v := hp
      subst hp
      subst hr
      rw [if_neg (show ¬ (Res.flag false = Res.flag true) by simp)] at h2
      exact ih hw1 h2

theorem switch_ok {v v' : View} {res : Res} {start stop : List String} {k : Int} (h : call (.switch start stop k) v res v')
    (hk : ∀ n, n ∈ start ∨ n ∈ stop → n ∈ v.names) : res = .flag true ∧ v' = { v with ctrls := v.ctrls.map (switchOne start stop) } := by
  rcases h with ⟨_, _, ⟨n, hn, hu⟩, _⟩ | ⟨h1, _, h2⟩
  · exact absurd (hk n hn) hu
  · exact ⟨h1, h2⟩

theorem map_switchOne_other {l : List CtrlView} {start stop : List String} (h : ∀ c ∈ l, c.name ∉ start ∧ c.name ∉ stop) :
    l.map (switchOne start stop) = l := by
  induction l with
  | nil => rfl
  | cons c l ih =>
    rw [List.map_cons, ih (fun d hd => h d (by simp [hd]))]
    have := h c (by simp)
    simp [switchOne, this.1, this.2]

/-- **C60, bringing up.** The spawner appends exactly the controllers it managed to load, in the order given; they are running if autostart
was requested and stopped otherwise, and all controllers that were there before are as before. -/
theorem C60_spawn {l : List CallRec} {v v1 : View} (hv : History View.empty l v) {autostart : Bool} {qs : List LoadReq} {loaded : List String}
    (h : spawn autostart qs v loaded v1) :
    ∃ news, v1.ctrls = v.ctrls ++ news ∧ loaded = news.map (·.name) ∧ (∀ c ∈ news, c.running = autostart) ∧ v1.WF := by
  have hw := WF.history hv WF.empty
  obtain ⟨ld, v2, h1, h2⟩ := h
  obtain ⟨news, e1, e2, e3, e4⟩ := loadAll_spec hw h1
  rw [List.nil_append] at e2
  cases autostart with
  | false =>
    rw [if_neg (by simp)] at h2
    obtain ⟨rfl, rfl⟩ := h2
    exact ⟨news, e1, e2, e3, e4⟩
  | true =>
    rw [if_pos rfl] at h2
    obtain ⟨r, v3, h3, rfl, rfl⟩ := h2
    have hmem : ∀ n, n ∈ loaded ∨ n ∈ ([] : List String) → n ∈ v2.names := by
      intro n hn
      simp only [List.not_mem_nil, or_false] at hn
      rw [e2] at hn
      unfold View.names; rw [e1, List.map_append, List.mem_append]; exact Or.inr hn
    obtain ⟨_, h4⟩ := switch_ok h3 hmem
    have hnd := e4.nodup
    unfold View.names at hnd
    rw [e1, List.map_append, List.nodup_append] at hnd
    refine ⟨news.map (switchOne loaded []), ?_, ?_, ?_, WF.call h3 e4⟩
    · rw [h4]; dsimp only; rw [e1, List.map_append, map_switchOne_other]
      intro c hc
      refine ⟨?_, by simp⟩
      rw [e2]
      intro hx
      exact hnd.2.2 _ (List.mem_map.2 ⟨c, hc, rfl⟩) _ hx rfl
    · rw [List.map_map]; exact e2
    · intro c hc
      obtain ⟨d, hd, rfl⟩ := List.mem_map.1 hc
      have : d.name ∈ loaded := by rw [e2]; exact List.mem_map.2 ⟨d, hd, rfl⟩
      simp [switchOne, this]

/-- unloading stopped controllers in reverse order of loading -/
theorem unloadEach_reverse {v0 : List CtrlView} {news : List CtrlView} {v v' : View} (hw : v.WF) (hc : v.ctrls = v0 ++ news)
    (hs : ∀ c ∈ news, c.running = false) (h : unloadEach (news.map (·.name)).reverse v () v') : v'.ctrls = v0 ∧ v'.WF := by
  induction news using List.reverseRecOn generalizing v with
  | nil =>
    obtain ⟨_, rfl⟩ := h
    exact ⟨by simpa using hc, hw⟩
  | append_singleton news c ih =>
    rw [List.map_append, List.map_singleton, List.reverse_append] at h
    obtain ⟨r, v1, h1, h2⟩ := h
    have hw1 : v1.WF := WF.call h1 hw
    have hnd := hw.nodup
    unfold View.names at hnd
    rw [hc, ← List.append_assoc, List.map_append, List.nodup_append] at hnd
    have hnot : ∀ d ∈ v0 ++ news, d.name ≠ c.name := fun d hd =>
      hnd.2.2 _ (List.mem_map.2 ⟨d, hd, rfl⟩) _ (by simp)
    have hun : ∀ d ∈ v.ctrls, c.name ∉ d.before ∧ c.name ∉ d.after := by
      intro d hd
      obtain ⟨a, b, hab⟩ := List.append_of_mem hd
      have hdep := hw.deps a d b hab c.name
      have hca : c.name ∉ a.map (·.name) := by
        intro hx
        rcases List.eq_nil_or_concat b with rfl | ⟨b', x, rfl⟩
        · rw [hc, ← List.append_assoc] at hab
          obtain ⟨e, _⟩ := List.append_inj' hab rfl
          rw [← e] at hx
          obtain ⟨y, hy, hyc⟩ := List.mem_map.1 hx
          exact hnot y hy hyc
        · rw [hc, List.concat_eq_append, ← List.cons_append, ← List.append_assoc, ← List.append_assoc] at hab
          obtain ⟨e, _⟩ := List.append_inj' hab rfl
          obtain ⟨y, hy, hyc⟩ := List.mem_map.1 hx
          exact hnot y (by rw [e]; simp [hy]) hyc
      exact ⟨fun hb => hca (hdep (Or.inl hb)), fun hb => hca (hdep (Or.inr hb))⟩
    have hcs : ∀ d ∈ v.ctrls, d.name = c.name → d.running = false := by
      intro d hd hdc
      rw [hc, ← List.append_assoc, List.mem_append, List.mem_singleton] at hd
      rcases hd with hd | rfl
      · exact absurd hdc (hnot d hd)
      · exact hs _ (by simp)
    have hcn : c.name ∈ v.names := by unfold View.names; rw [hc]; simp
    rcases unload_cases h1 with ⟨_, _, _, _, _, he⟩ | ⟨_, _, hno⟩
    · refine ih hw1 ?_ (fun d hd => hs d (by simp [hd])) h2
      rw [he, hc, ← List.append_assoc, List.filter_append]
      rw [show List.filter (fun d => d.name != c.name) [c] = [] by simp, List.append_nil, List.filter_eq_self]
      intro d hd
      simpa using hnot d hd
    · exact absurd ⟨⟨hcn, hun⟩, hcs⟩ hno

/-- **C60.** If nobody else uses the manager meanwhile, the spawner's shutdown restores exactly the state from before the spawner:
the same controllers with the same dependencies and run states, in the same execution order.  For every manager state, list of
controllers and plugin behaviour. -/
theorem C60_spawner_restores {l : List CallRec} {v v1 v' : View} (hv : History View.empty l v) {autostart : Bool} {qs : List LoadReq}
    {loaded : List String} (h1 : spawn autostart qs v loaded v1) (h2 : spawnerShutdown loaded v1 () v') : v' = v := by
  have hw := WF.history hv WF.empty
  obtain ⟨news, e1, e2, e3, e4⟩ := C60_spawn hv h1
  obtain ⟨r, v2, h3, h4⟩ := h2
  have hmem : ∀ n, n ∈ ([] : List String) ∨ n ∈ loaded → n ∈ v1.names := by
    intro n hn
    simp only [List.not_mem_nil, false_or] at hn
    rw [e2] at hn
    unfold View.names; rw [e1, List.map_append, List.mem_append]; exact Or.inr hn
  obtain ⟨_, h5⟩ := switch_ok h3 hmem
  have hnd := e4.nodup
  unfold View.names at hnd
  rw [e1, List.map_append, List.nodup_append] at hnd
  have hc2 : v2.ctrls = v.ctrls ++ news.map (switchOne [] loaded) := by
    rw [h5]; dsimp only; rw [e1, List.map_append, map_switchOne_other]
    intro c hc
    refine ⟨by simp, ?_⟩
    rw [e2]
    intro hx
    exact hnd.2.2 _ (List.mem_map.2 ⟨c, hc, rfl⟩) _ hx rfl
  have hs2 : ∀ c ∈ news.map (switchOne [] loaded), c.running = false := by
    intro c hc
    obtain ⟨d, hd, rfl⟩ := List.mem_map.1 hc
    have : d.name ∈ loaded := by rw [e2]; exact List.mem_map.2 ⟨d, hd, rfl⟩
    simp [switchOne, this]
  have hl2 : loaded = (news.map (switchOne [] loaded)).map (·.name) := by
    rw [List.map_map]; exact e2
  rw [hl2] at h4
  rw [← hl2] at h4
  have h4' : unloadEach ((news.map (switchOne [] loaded)).map (·.name)).reverse v2 () v' := by rw [← hl2]; exact h4
  obtain ⟨f1, f2⟩ := unloadEach_reverse (WF.call h3 e4) hc2 hs2 h4'
  exact view_eq_of f1 hw.order f2.order hw.nodup

/-! ## Unspawner -/

/-- **C61.** Whatever others do in the meantime, when the unspawner has ended every controller it stopped that is still loaded is running. -/
theorem C61_unspawner_restarts {env : Client Unit} {toInhibit : List String} {n : Nat} {v v' : View} {stopped : List String}
    (h : unspawner env toInhibit n v stopped v') : ∀ c ∈ v'.ctrls, c.name ∈ stopped → c.running = true := by
  obtain ⟨i, v1, h1, h2⟩ := h
  obtain ⟨r, v2, h3, rfl, rfl⟩ := h2
  intro c hc hn
  rcases h3 with ⟨_, hk, _⟩ | ⟨_, _, hp⟩
  · exact absurd hk (by decide)
  · dsimp only at hp
    rw [hp] at hc
    obtain ⟨d, hd, rfl⟩ := List.mem_map.1 hc
    have : d.name ∈ stopped := hn
    simp [switchOne, this]

theorem listing_mem {v : View} (hw : v.WF) {p : String × Bool} : p ∈ v.listing ↔ ∃ c ∈ v.ctrls, p = (c.name, c.running) := by
  unfold View.listing
  rw [List.mem_filterMap]
  constructor
  · rintro ⟨j, hj, h⟩
    cases hc : v.ctrls[j]? with
    | none => rw [hc] at h; simp at h
    | some c =>
      rw [hc] at h
      simp only [Option.map_some, Option.some.injEq] at h
      exact ⟨c, List.mem_of_getElem? hc, h.symm⟩
  · rintro ⟨c, hc, rfl⟩
    obtain ⟨j, hj⟩ := List.getElem?_of_mem hc
    have hjl : j < v.ctrls.length := (List.getElem?_eq_some_iff.1 hj).1
    exact ⟨j, hw.order.1.mem_iff.2 (by simpa using hjl), by rw [hj]; rfl⟩

/-- After a round: the unwanted running controllers are stopped, and remembered. -/
theorem inhibitRound_spec {toInhibit i i' : List String} {v v' : View} (hw : v.WF) (h : inhibitRound toInhibit i v i' v') :
    v'.WF ∧ ∃ s, (∀ n, n ∈ s ↔ n ∈ toInhibit ∧ ∃ c ∈ v.ctrls, c.name = n ∧ c.running = true) ∧ i' = i ++ s ∧
      v' = { v with ctrls := v.ctrls.map (switchOne [] s) } := by
  obtain ⟨r, v1, h1, h2⟩ := h
  have hw1 : v1.WF := WF.call h1 hw
  obtain ⟨l, hr, hp, hl, _⟩ := h1
  dsimp only at hr hp hl
  have hl := hl rfl
  subst hr hp
  simp only at h2
  have hs : ∀ n, n ∈ (l.filter (fun p => toInhibit.contains p.1 && p.2)).map (·.1) ↔ n ∈ toInhibit ∧ ∃ c ∈ v1.ctrls, c.name = n ∧ c.running = true := by
    intro n
    rw [List.mem_map]
    constructor
    · rintro ⟨p, hp, rfl⟩
      rw [List.mem_filter] at hp
      obtain ⟨c, hc, rfl⟩ := (listing_mem hw1).1 (hl ▸ hp.1)
      simp only [Bool.and_eq_true, List.contains_iff_mem] at hp
      exact ⟨hp.2.1, c, hc, rfl, hp.2.2⟩
    · rintro ⟨hn, c, hc, rfl, hr⟩
      refine ⟨(c.name, c.running), List.mem_filter.2 ⟨?_, ?_⟩, rfl⟩
      · rw [hl]; exact (listing_mem hw1).2 ⟨c, hc, rfl⟩
      · simp [hr, hn]
  split at h2
  · rename_i he
    obtain ⟨rfl, rfl⟩ := h2
    refine ⟨hw1, [], ?_, by simp, ?_⟩
    · intro n; rw [he] at hs; exact hs n
    · rw [map_switchOne_other (by simp)]
  · obtain ⟨r2, v2, h3, rfl, rfl⟩ := h2
    refine ⟨WF.call h3 hw1, _, hs, rfl, ?_⟩
    refine (switch_ok h3 ?_).2
    intro n hn
    simp only [List.not_mem_nil, false_or] at hn
    obtain ⟨_, c, hc, rfl, _⟩ := (hs n).1 hn
    exact List.mem_map.2 ⟨c, hc, rfl⟩

theorem map_switchOne_stop_stop (l : List CtrlView) (a b : List String) :
    (l.map (switchOne [] a)).map (switchOne [] b) = l.map (switchOne [] (a ++ b)) := by
  rw [List.map_map]
  apply List.map_congr_left
  intro c _
  simp only [Function.comp, switchOne, List.not_mem_nil, if_false, List.mem_append]
  by_cases h1 : c.name ∈ a <;> by_cases h2 : c.name ∈ b <;> simp [h1, h2]

theorem inhibitRounds_quiet {toInhibit i i' : List String} {n : Nat} {v0 v v' : View} (hw : v.WF)
    (hv : v = { v0 with ctrls := v0.ctrls.map (switchOne [] i) }) (hi : ∀ c ∈ v0.ctrls, c.name ∈ i → c.running = true)
    (h : inhibitRounds (pure ()) toInhibit n i v i' v') :
    v' = { v0 with ctrls := v0.ctrls.map (switchOne [] i') } ∧ (∀ c ∈ v0.ctrls, c.name ∈ i' → c.running = true) := by
  induction n generalizing i v with
  | zero => obtain ⟨rfl, rfl⟩ := h; exact ⟨hv, hi⟩
  | succ n ih =>
    obtain ⟨i1, v1, h1, h2⟩ := h
    obtain ⟨_, v2, ⟨_, rfl⟩, h3⟩ := h2
    obtain ⟨hw1, s, hs, rfl, hv1⟩ := inhibitRound_spec hw h1
    refine ih hw1 ?_ ?_ h3
    · rw [hv1, hv]; simp only [map_switchOne_stop_stop]
    · intro c hc hn
      rw [List.mem_append] at hn
      rcases hn with hn | hn
      · exact hi c hc hn
      · obtain ⟨_, d, hd, hdn, hdr⟩ := (hs _).1 hn
        rw [hv] at hd
        obtain ⟨e, he, rfl⟩ := List.mem_map.1 hd
        have hec : e = c := by
          have hnd := hw.nodup
          rw [hv] at hnd
          have hnd : (v0.ctrls.map (·.name)).Nodup := by simpa [View.names, Function.comp_def, switchOne] using hnd
          exact List.inj_on_of_nodup_map hnd he hc hdn
        subst hec
        unfold switchOne at hdr
        simp only [List.not_mem_nil, if_false] at hdr
        split at hdr
        · simp at hdr
        · exact hdr

/-- **C61.** If nobody else uses the manager meanwhile, then after the unspawner has ended, however long it ran, everything is as it was
before it was started. -/
theorem C61_unspawner_restores {l : List CallRec} {toInhibit stopped : List String} {n : Nat} {v v' : View} (hv : History View.empty l v)
    (h : unspawner (pure ()) toInhibit n v stopped v') : v' = v := by
  have hw := WF.history hv WF.empty
  obtain ⟨i, v1, h1, h2⟩ := h
  obtain ⟨r, v2, h3, rfl, rfl⟩ := h2
  obtain ⟨e1, e2⟩ := inhibitRounds_quiet (v0 := v) hw (by rw [map_switchOne_other (by simp)]) (by simp) h1
  rcases h3 with ⟨_, hk, _⟩ | ⟨_, _, hp⟩
  · exact absurd hk (by decide)
  · dsimp only at hp
    rw [hp, e1]
    have : (v.ctrls.map (switchOne [] stopped)).map (switchOne stopped []) = v.ctrls := by
      rw [List.map_map]
      conv_rhs => rw [← List.map_id v.ctrls]
      apply List.map_congr_left
      intro c hc
      have := e2 c hc
      simp only [Function.comp, switchOne, List.not_mem_nil, if_false, id]
      by_cases h1 : c.name ∈ stopped
      · simp [h1, ← this h1]
      · simp [h1]
    cases v; simp_all

/-- **C61.** While the unspawner runs, after each of its rounds none of the given controllers is running (until somebody starts one). -/
theorem C61_round_stops {l : List CallRec} {toInhibit i i' : List String} {v v' : View} (hv : History View.empty l v)
    (h : inhibitRound toInhibit i v i' v') : ∀ c ∈ v'.ctrls, c.name ∈ toInhibit → c.running = false := by
  obtain ⟨_, s, hs, _, rfl⟩ := inhibitRound_spec (WF.history hv WF.empty) h
  intro c hc hn
  obtain ⟨d, hd, rfl⟩ := List.mem_map.1 hc
  by_cases hr : d.running = true
  · have : d.name ∈ s := (hs _).2 ⟨hn, d, hd, rfl, hr⟩
    simp [switchOne, this]
  · simp only [switchOne, List.not_mem_nil, if_false]
    split <;> simp_all

/-! ## Command line tool -/

/-- **C62.** `pr2_controller_manager kill n`: a loaded controller that no other needs is stopped and unloaded; nothing else changes. -/
theorem C62_kill_one {l : List CallRec} {n : String} {v v' : View} (hv : History View.empty l v) (h : cliKill [n] v () v')
    (hn : n ∈ v.names) (hu : ∀ c ∈ v.ctrls, n ∉ c.before ∧ n ∉ c.after) :
    v'.ctrls = v.ctrls.filter (fun c => c.name != n) := by
  have hw := WF.history hv WF.empty
  obtain ⟨_, v1, ⟨r, v2, h1, _, rfl⟩, r2, v3, h2, _, rfl⟩ := h
  obtain ⟨_, h3⟩ := switch_ok h1 (by simpa using hn)
  have hfil : v1.ctrls.filter (fun c => c.name != n) = v.ctrls.filter (fun c => c.name != n) := by
    rw [h3]; dsimp only
    rw [List.filter_map]
    rw [show ((fun c : CtrlView => c.name != n) ∘ switchOne [] [n]) = (fun c => c.name != n) from rfl]
    apply map_switchOne_other
    intro c hc
    simpa using (List.mem_filter.1 hc).2
  rcases unload_cases h2 with ⟨_, _, _, _, _, he⟩ | ⟨_, _, hno⟩
  · rw [he, hfil]
  · refine absurd ⟨⟨?_, ?_⟩, ?_⟩ hno
    · rw [h3]; simpa [View.names, Function.comp_def, switchOne] using hn
    · intro c hc
      rw [h3] at hc
      obtain ⟨d, hd, rfl⟩ := List.mem_map.1 hc
      exact hu d hd
    · intro c hc hcn
      rw [h3] at hc
      obtain ⟨d, hd, rfl⟩ := List.mem_map.1 hc
      have : d.name = n := hcn
      simp [switchOne, this]

/-- **C62.** `pr2_controller_manager spawn n`: if the controller can be loaded, it is afterwards loaded and running, and nothing else changes. -/
theorem C62_spawn_one {l : List CallRec} {q : LoadReq} {v v' : View} (hv : History View.empty l v) (h : cliSpawn [q] v () v')
    (hq : LoadOk v q) : ∃ c, c.name = q.name ∧ c.running = true ∧ v'.ctrls = v.ctrls ++ [c] := by
  obtain ⟨_, v1, ⟨r, v2, h1, _, rfl⟩, r2, v3, h2, _, rfl⟩ := h
  rcases h1 with ⟨_, _, _, id, _, hc⟩ | ⟨_, hno, _⟩
  · dsimp only at hc
    obtain ⟨_, h3⟩ := switch_ok h2 (by unfold View.names; rw [hc]; simp)
    rw [h3]; dsimp only; rw [hc, List.map_append, map_switchOne_other]
    · refine ⟨_, ?_, ?_, by rw [List.map_singleton]⟩
      · simp [switchOne]
      · simp [switchOne]
    · intro c hc
      refine ⟨?_, by simp⟩
      intro hx
      simp only [List.mem_singleton] at hx
      exact hq.1 (List.mem_map.2 ⟨c, hc, hx⟩)
  · exact absurd hq hno

/-! ## The hypotheses are met: executions of the interleaving model that are runs of these clients -/

/-- Load `a`, load `b` which wants `a` before it, start both, stop both, unload `b`, unload `a`. -/
def clientTrace : List Act :=
  [.call (goodLoad "a" [])] ++ serve 7 ++ cycle 12 ++ serve 5 ++
  [.call (goodLoad "b" ["a"])] ++ serve 7 ++ cycle 12 ++ serve 5 ++
  [.call (.switch ["a", "b"] [] STRICT)] ++ serve 4 ++ cycle 40 ++ serve 4 ++
  [.call (.switch [] ["a", "b"] STRICT)] ++ serve 4 ++ cycle 40 ++ serve 4 ++
  [.call (.unload "b")] ++ serve 7 ++ cycle 16 ++ serve 5 ++
  [.call (.unload "a")] ++ serve 7 ++ cycle 16 ++ serve 5

def clientState : State := ((State.init false).run (firstInputs.map Act.rt)).run clientTrace

theorem clientState_reachable : Reachable false clientState := by
  refine reachable_first.run _ ?_
  intro a ha
  have : (clientTrace.all (fun a => match a with | .shutdown => false | _ => true)) = true := by decide +kernel
  have := List.all_eq_true.1 this a ha
  rintro rfl; simp at this

attribute [irreducible] clientState

def Op.isUnload (n : String) : Op → Bool
  | .unload m => m == n
  | _ => false
def Op.isSwitchOf (a b : List String) (k : Int) : Op → Bool
  | .switch a' b' k' => a' == a && b' == b && k' == k
  | _ => false
def Op.isLoad : Op → Bool
  | .load _ => true
  | _ => false

theorem Op.isUnload_eq {n : String} {o : Op} (h : o.isUnload n = true) : o = .unload n := by
  cases o <;> simp [Op.isUnload] at h
  rw [h]
theorem Op.isSwitchOf_eq {a b : List String} {k : Int} {o : Op} (h : o.isSwitchOf a b k = true) : o = .switch a b k := by
  cases o <;> simp [Op.isSwitchOf] at h
  obtain ⟨⟨rfl, rfl⟩, rfl⟩ := h; rfl
theorem Op.isLoad_eq {o : Op} (h : o.isLoad = true) : ∃ q, o = .load q := by
  cases o <;> simp [Op.isLoad] at h
  exact ⟨_, rfl⟩

/-- The record of the `i`-th service call of the execution. -/
def clientRec (i : Nat) : CallRec := (clientState.nlog[i]?).getD ⟨.list, .flag false, .empty, .empty, true⟩

attribute [irreducible] clientRec

theorem clientRec_call (i : Nat) (hi : i < 6) : call (clientRec i).op (clientRec i).pre (clientRec i).res (clientRec i).post := by
  have hlen : clientState.nlog.length = 6 := by decide +kernel
  have hget : clientState.nlog[i]? = some (clientState.nlog[i]) := List.getElem?_eq_getElem (by omega)
  have hm : clientRec i ∈ clientState.nlog := by
    unfold clientRec; rw [hget]; exact List.getElem_mem _
  refine call_of_reachable clientState_reachable hm ?_
  have hall : clientState.nlog.all (fun r => !r.raced) = true := by decide +kernel
  have := List.all_eq_true.1 hall _ hm
  simpa using this

/-- The spawner for two controllers, one of which needs the other, on a fresh manager; then its shutdown. -/
example : ∃ qs v1 v', spawn true qs View.empty ["a", "b"] v1 ∧ spawnerShutdown ["a", "b"] v1 () v' ∧ v1.ctrls.length = 2 := by
  obtain ⟨q0, h0⟩ := Op.isLoad_eq (o := (clientRec 0).op) (by decide +kernel)
  obtain ⟨q1, h1⟩ := Op.isLoad_eq (o := (clientRec 1).op) (by decide +kernel)
  have n0 : q0.name = "a" := by
    have : (match (clientRec 0).op with | .load q => q.name | _ => "") = "a" := by decide +kernel
    rw [h0] at this; exact this
  have n1 : q1.name = "b" := by
    have : (match (clientRec 1).op with | .load q => q.name | _ => "") = "b" := by decide +kernel
    rw [h1] at this; exact this
  have h2 := Op.isSwitchOf_eq (o := (clientRec 2).op) (a := ["a", "b"]) (b := []) (k := STRICT) (by decide +kernel)
  have h3 := Op.isSwitchOf_eq (o := (clientRec 3).op) (a := []) (b := ["a", "b"]) (k := STRICT) (by decide +kernel)
  have h4 := Op.isUnload_eq (o := (clientRec 4).op) (n := "b") (by decide +kernel)
  have h5 := Op.isUnload_eq (o := (clientRec 5).op) (n := "a") (by decide +kernel)
  have c0 := clientRec_call 0 (by decide)
  have c1 := clientRec_call 1 (by decide)
  have c2 := clientRec_call 2 (by decide)
  have c3 := clientRec_call 3 (by decide)
  have c4 := clientRec_call 4 (by decide)
  have c5 := clientRec_call 5 (by decide)
  rw [h0, show (clientRec 0).pre = View.empty by decide +kernel, show (clientRec 0).res = .flag true by decide +kernel] at c0
  rw [h1, show (clientRec 1).pre = (clientRec 0).post by decide +kernel, show (clientRec 1).res = .flag true by decide +kernel] at c1
  rw [h2, show (clientRec 2).pre = (clientRec 1).post by decide +kernel] at c2
  rw [h3, show (clientRec 3).pre = (clientRec 2).post by decide +kernel] at c3
  rw [h4, show (clientRec 4).pre = (clientRec 3).post by decide +kernel] at c4
  rw [h5, show (clientRec 5).pre = (clientRec 4).post by decide +kernel] at c5
  refine ⟨[q0, q1], (clientRec 2).post, (clientRec 5).post, ?_, ?_, by decide +kernel⟩
  · refine ⟨["a", "b"], (clientRec 1).post, ⟨_, _, c0, _, _, c1, ?_⟩, _, _, c2, rfl, rfl⟩
    beta_reduce
    rw [if_pos rfl, n0, n1]
    exact ⟨rfl, rfl⟩
  · exact ⟨_, _, c3, _, _, c4, _, _, c5, rfl, rfl⟩

def reloadStart : List Act :=
  [.call (goodLoad "a" [])] ++ serve 7 ++ cycle 12 ++ serve 5 ++
  [.call (goodLoad "b" ["a"])] ++ serve 7 ++ cycle 12 ++ serve 5
def reloadTrace : List Act := reloadStart ++
  [.call (.switch [] ["a", "b"] BEST_EFFORT)] ++ serve 4 ++ cycle 40 ++ serve 4 ++
  [.call (.unload "a")] ++ serve 7

def reloadMid : State := ((State.init false).run (firstInputs.map Act.rt)).run reloadStart
def reloadState : State := ((State.init false).run (firstInputs.map Act.rt)).run reloadTrace

theorem reloadMid_reachable : Reachable false reloadMid := by
  refine reachable_first.run _ ?_
  intro a ha
  have : (reloadStart.all (fun a => match a with | .shutdown => false | _ => true)) = true := by decide +kernel
  have := List.all_eq_true.1 this a ha
  rintro rfl; simp at this
theorem reloadState_reachable : Reachable false reloadState := by
  refine reachable_first.run _ ?_
  intro a ha
  have : (reloadTrace.all (fun a => match a with | .shutdown => false | _ => true)) = true := by decide +kernel
  have := List.all_eq_true.1 this a ha
  rintro rfl; simp at this

attribute [irreducible] reloadState reloadMid

def reloadRec (i : Nat) : CallRec := (reloadState.nlog[i]?).getD ⟨.list, .flag false, .empty, .empty, true⟩

attribute [irreducible] reloadRec

theorem reloadRec_call (i : Nat) (hi : i < 4) : call (reloadRec i).op (reloadRec i).pre (reloadRec i).res (reloadRec i).post := by
  have hlen : reloadState.nlog.length = 4 := by decide +kernel
  have hget : reloadState.nlog[i]? = some (reloadState.nlog[i]) := List.getElem?_eq_getElem (by omega)
  have hm : reloadRec i ∈ reloadState.nlog := by
    unfold reloadRec; rw [hget]; exact List.getElem_mem _
  refine call_of_reachable reloadState_reachable hm ?_
  have hall : reloadState.nlog.all (fun r => !r.raced) = true := by decide +kernel
  have := List.all_eq_true.1 hall _ hm
  simpa using this

/-- Forced reload with the two controllers above: refused. -/
example : ∃ v v', v.ctrls.length = 2 ∧ reload false true v (.reply false) v' ∧ ∃ l, History View.empty l v := by
  have h2 := Op.isSwitchOf_eq (o := (reloadRec 2).op) (a := []) (b := ["a", "b"]) (k := BEST_EFFORT) (by decide +kernel)
  have h3 := Op.isUnload_eq (o := (reloadRec 3).op) (n := "a") (by decide +kernel)
  have c2 := reloadRec_call 2 (by decide)
  have c3 := reloadRec_call 3 (by decide)
  rw [h2, show (reloadRec 2).pre = (reloadRec 1).post by decide +kernel, show (reloadRec 2).res = .flag true by decide +kernel] at c2
  rw [h3, show (reloadRec 3).pre = (reloadRec 2).post by decide +kernel, show (reloadRec 3).res = .flag false by decide +kernel] at c3
  have hn : (reloadRec 1).post.names = ["a", "b"] := by decide +kernel
  refine ⟨(reloadRec 1).post, (reloadRec 3).post, by decide +kernel, ?_, ?_⟩
  · refine ⟨["a", "b"], _, ⟨hn.symm, rfl⟩, ?_⟩
    beta_reduce
    rw [if_neg (by simp), if_pos (by simp)]
    refine ⟨.flag true, _, c2, ?_⟩
    beta_reduce
    rw [if_neg (by simp)]
    refine ⟨false, (reloadRec 3).post, ⟨.flag false, _, c3, ?_⟩, ?_⟩
    · beta_reduce; rw [if_neg (by simp)]; exact ⟨rfl, rfl⟩
    · beta_reduce; rw [if_pos rfl]; exact ⟨rfl, rfl⟩
  · obtain ⟨v, hv, hid⟩ := manager_history reloadMid_reachable
    have := hid (by decide +kernel)
    have he : reloadMid.view = (reloadRec 1).post := by decide +kernel
    rw [← this, he] at hv
    exact ⟨_, hv⟩

end Pr2
