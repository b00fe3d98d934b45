import Verif.Model.Controller
import Mathlib.Data.List.Induction
import Mathlib.Tactic.Common

/-! # C06–C08: life cycle of a single controller -/

namespace Pr2

/-- The plugin calls made for a freshly constructed controller serving `reqs`. -/
def calls (reqs : List CReq) : List CEvent := (Ctrl.fresh.serveAll reqs).2

/-- Specification: the calls so far allow `update()` now: a successful `init`, later a `starting()`, and no
`stopping()` since. -/
def UpdateAllowed (hist : List CEvent) : Prop :=
  ∃ a b, hist = a ++ CEvent.starting :: b ∧ CEvent.init true ∈ a ∧ CEvent.stopping ∉ b

theorem serveAll_append (c : Ctrl) (rs rs' : List CReq) :
    (c.serveAll (rs ++ rs')) = (((c.serveAll rs).1.serveAll rs').1, (c.serveAll rs).2 ++ ((c.serveAll rs).1.serveAll rs').2) := by
  induction rs generalizing c with
  | nil => simp [Ctrl.serveAll]
  | cons r rs ih => simp [Ctrl.serveAll, ih]

theorem runRequests_st (loaded : List String) : ∀ (rs : List GetReq) (c : Ctrl), (c.runRequests loaded rs).1.st = c.st := by
  intro rs
  induction rs with
  | nil => intro c; rfl
  | cons r rs ih =>
    intro c
    simp only [Ctrl.runRequests, ih]
    unfold Ctrl.getController
    split
    · split
      · rfl
      · split <;> rfl
    · rfl

/-- what the state means in terms of the calls made so far -/
structure Meaning (c : Ctrl) (hist : List CEvent) : Prop where
  inited : c.st ≠ .constructed ↔ CEvent.init true ∈ hist
  running : c.st = .running ↔ UpdateAllowed hist
  startOk : ∀ pre post e, hist = pre ++ e :: post → (e = .starting ∨ e = .stopping) → CEvent.init true ∈ pre
  updateOk : ∀ pre post, hist = pre ++ CEvent.update :: post → UpdateAllowed pre
  once : ∀ pre post, hist = pre ++ CEvent.init true :: post → CEvent.init true ∉ post

theorem snoc_split {α} {hist pre post : List α} {x e : α} (h : hist ++ [x] = pre ++ e :: post) :
    (post = [] ∧ pre = hist ∧ e = x) ∨ ∃ post', post = post' ++ [x] ∧ hist = pre ++ e :: post' := by
  rcases List.eq_nil_or_concat post with rfl | ⟨post', y, rfl⟩
  · left
    have := List.append_inj' h rfl
    simp only [List.cons.injEq, and_true] at this
    exact ⟨rfl, this.1.symm, this.2.symm⟩
  · right
    have h' : hist ++ [x] = (pre ++ e :: post') ++ [y] := by simpa using h
    have := List.append_inj' h' rfl
    simp only [List.cons.injEq, and_true] at this
    exact ⟨post', by simp [this.2], this.1⟩

theorem updateAllowed_snoc (hist : List CEvent) (e : CEvent) : UpdateAllowed (hist ++ [e]) ↔
    (e = .starting ∧ CEvent.init true ∈ hist) ∨ (e ≠ .stopping ∧ UpdateAllowed hist) := by
  constructor
  · rintro ⟨a, b, h, hi, hb⟩
    rcases snoc_split h with ⟨rfl, rfl, rfl⟩ | ⟨b', rfl, rfl⟩
    · exact Or.inl ⟨rfl, hi⟩
    · simp only [List.mem_append, List.mem_singleton, not_or] at hb
      exact Or.inr ⟨Ne.symm hb.2, a, b', rfl, hi, hb.1⟩
  · rintro (⟨rfl, h⟩ | ⟨h, a, b, rfl, hi, hb⟩)
    · exact ⟨hist, [], rfl, h, by simp⟩
    · exact ⟨a, b ++ [e], by simp, hi, by simp [hb, Ne.symm h]⟩

theorem meaning_snoc {c c' : Ctrl} {hist : List CEvent} {e : CEvent} (m : Meaning c hist)
    (h : (e = .init false ∧ c'.st = .constructed ∧ c.st = .constructed) ∨ (e = .init true ∧ c'.st = .initialized ∧ c.st = .constructed) ∨
      (e = .starting ∧ c'.st = .running ∧ c.st ≠ .constructed) ∨ (e = .stopping ∧ c'.st = .initialized ∧ c.st ≠ .constructed) ∨
      (e = .update ∧ c'.st = c.st ∧ c.st = .running)) : Meaning c' (hist ++ [e]) := by
  have hi := m.inited
  have hr := m.running
  refine ⟨?_, ?_, ?_, ?_, ?_⟩
  · rcases h with ⟨rfl, h1, h2⟩ | ⟨rfl, h1, h2⟩ | ⟨rfl, h1, h2⟩ | ⟨rfl, h1, h2⟩ | ⟨rfl, h1, h2⟩ <;> simp_all
  · rw [updateAllowed_snoc]
    rcases h with ⟨rfl, h1, h2⟩ | ⟨rfl, h1, h2⟩ | ⟨rfl, h1, h2⟩ | ⟨rfl, h1, h2⟩ | ⟨rfl, h1, h2⟩
    · simp [h1, ← hr, h2]
    · simp [h1, ← hr, h2]
    · simp [h1, ← hi, h2]
    · simp [h1]
    · simp [h1, ← hr, h2]
  · intro pre post e' hs he'
    rcases snoc_split hs with ⟨rfl, rfl, rfl⟩ | ⟨b', rfl, rfl⟩
    · rw [← hi]
      rcases h with ⟨rfl, h1, h2⟩ | ⟨rfl, h1, h2⟩ | ⟨rfl, h1, h2⟩ | ⟨rfl, h1, h2⟩ | ⟨rfl, h1, h2⟩ <;> simp_all
    · exact m.startOk pre b' e' rfl he'
  · intro pre post hs
    rcases snoc_split hs with ⟨rfl, rfl, rfl⟩ | ⟨b', rfl, rfl⟩
    · rw [← hr]
      rcases h with ⟨h, _⟩ | ⟨h, _⟩ | ⟨h, _⟩ | ⟨h, _⟩ | ⟨_, _, h⟩
      all_goals first | exact h | simp at h
    · exact m.updateOk pre b' rfl
  · intro pre post hs
    rcases snoc_split hs with ⟨rfl, rfl, rfl⟩ | ⟨b', rfl, rfl⟩
    · simp
    · have := m.once pre b' rfl
      have hm : CEvent.init true ∈ pre ++ CEvent.init true :: b' := by simp
      rw [← hi] at hm
      simp only [List.mem_append, List.mem_singleton, not_or]
      refine ⟨this, ?_⟩
      rcases h with ⟨rfl, h1, h2⟩ | ⟨rfl, h1, h2⟩ | ⟨rfl, h1, h2⟩ | ⟨rfl, h1, h2⟩ | ⟨rfl, h1, h2⟩ <;> simp_all

theorem meaning_st {c c' : Ctrl} {hist : List CEvent} (m : Meaning c hist) (h : c'.st = c.st) : Meaning c' hist :=
  ⟨by rw [h]; exact m.inited, by rw [h]; exact m.running, m.startOk, m.updateOk, m.once⟩

/-- the effect of one request on state and calls, case by case -/
theorem serve_cases (c : Ctrl) (r : CReq) :
    ((c.serve r).2.1 = [] ∧ (c.serve r).1.st = c.st) ∨ ∃ e, (c.serve r).2.1 = [e] ∧
     ((e = .init false ∧ (c.serve r).1.st = .constructed ∧ c.st = .constructed) ∨ (e = .init true ∧ (c.serve r).1.st = .initialized ∧ c.st = .constructed) ∨
      (e = .starting ∧ (c.serve r).1.st = .running ∧ c.st ≠ .constructed) ∨ (e = .stopping ∧ (c.serve r).1.st = .initialized ∧ c.st ≠ .constructed) ∨
      (e = .update ∧ (c.serve r).1.st = c.st ∧ c.st = .running)) := by
  cases r with
  | init loaded p =>
    simp only [Ctrl.serve, Ctrl.initRequest]
    split
    · left; exact ⟨rfl, rfl⟩
    · rename_i h
      simp only [ne_eq, not_not] at h
      split <;> rename_i ho <;> right <;> refine ⟨_, rfl, ?_⟩ <;> simp [runRequests_st, h]
  | start =>
    simp only [Ctrl.serve, Ctrl.startRequest]
    split
    · rename_i h
      right; refine ⟨_, rfl, ?_⟩
      rcases h with h | h <;> simp [h]
    · left; exact ⟨rfl, rfl⟩
  | stop =>
    simp only [Ctrl.serve, Ctrl.stopRequest]
    split
    · rename_i h
      right; refine ⟨_, rfl, ?_⟩
      rcases h with h | h <;> simp [h]
    · left; exact ⟨rfl, rfl⟩
  | update =>
    simp only [Ctrl.serve, Ctrl.updateRequest]
    split
    · rename_i h
      right; refine ⟨_, rfl, ?_⟩
      simp [h]
    · left; exact ⟨rfl, rfl⟩

theorem meaning_all (reqs : List CReq) : Meaning (Ctrl.fresh.serveAll reqs).1 (calls reqs) := by
  unfold calls
  induction reqs using List.reverseRecOn with
  | nil =>
    refine ⟨by simp [Ctrl.serveAll, Ctrl.fresh], ?_, ?_, ?_, ?_⟩
    · simp [Ctrl.serveAll, Ctrl.fresh, UpdateAllowed]
    · intro pre post e h; simp [Ctrl.serveAll] at h
    · intro pre post h; simp [Ctrl.serveAll] at h
    · intro pre post h; simp [Ctrl.serveAll] at h
  | append_singleton rs r ih =>
    rw [serveAll_append]
    simp only [Ctrl.serveAll, List.append_nil]
    rcases serve_cases (Ctrl.fresh.serveAll rs).1 r with ⟨h1, h2⟩ | ⟨e, h1, h2⟩
    · rw [h1, List.append_nil]
      exact meaning_st ih h2
    · rw [h1]; exact meaning_snoc ih h2

/-- C06: for every sequence of requests, whenever `update()` is called, `init()` had succeeded, then `starting()`
was called, and `stopping()` has not been called since. -/
theorem C06_update_between_starting_and_stopping (reqs : List CReq) (pre post : List CEvent)
    (h : calls reqs = pre ++ CEvent.update :: post) : UpdateAllowed pre :=
  (meaning_all reqs).updateOk pre post h

/-- C06: `starting()` and `stopping()` are never called before a successful `init()`. -/
theorem C06_no_start_stop_before_init (reqs : List CReq) (pre post : List CEvent) (e : CEvent)
    (he : e = .starting ∨ e = .stopping) (h : calls reqs = pre ++ e :: post) : CEvent.init true ∈ pre :=
  (meaning_all reqs).startOk pre post e h he

/-- C06: conversely an update request is honoured exactly when the history allows it. -/
theorem C06_update_request_honoured_iff (reqs : List CReq) :
    calls (reqs ++ [.update]) = calls reqs ++ (if (Ctrl.fresh.serveAll reqs).1.isRunning then [.update] else []) ∧
    ((Ctrl.fresh.serveAll reqs).1.isRunning = true ↔ UpdateAllowed (calls reqs)) := by
  refine ⟨?_, ?_⟩
  · unfold calls
    rw [serveAll_append]
    simp only [Ctrl.serveAll, Ctrl.serve, Ctrl.updateRequest, Ctrl.isRunning]
    split <;> rename_i h <;> simp [h]
  · rw [← (meaning_all reqs).running]; simp [Ctrl.isRunning]

/-- C07: `init()` succeeds at most once in the life of a controller. -/
theorem C07_init_succeeds_at_most_once (reqs : List CReq) : (calls reqs).count (CEvent.init true) ≤ 1 := by
  by_cases h : CEvent.init true ∈ calls reqs
  · obtain ⟨pre, post, hs, hpre⟩ := List.eq_append_cons_of_mem h
    have := (meaning_all reqs).once pre post hs
    rw [hs, List.count_append, List.count_cons_self, List.count_eq_zero_of_not_mem this, List.count_eq_zero_of_not_mem hpre]
    omega
  · rw [List.count_eq_zero_of_not_mem h]; omega

/-- C07: a start (stop) request after any history succeeds exactly if `init()` has succeeded; then it calls
`starting()` (`stopping()`) and the controller runs (does not run); when refused it calls nothing and changes nothing. -/
theorem C07_start_stop_accepted_iff_initialised (reqs : List CReq) :
    let c := (Ctrl.fresh.serveAll reqs).1
    (CEvent.init true ∈ calls reqs →
      (c.serve .start).2 = ([.starting], some true) ∧ (c.serve .start).1.isRunning = true ∧
      (c.serve .stop).2 = ([.stopping], some true) ∧ (c.serve .stop).1.isRunning = false) ∧
    (CEvent.init true ∉ calls reqs →
      c.serve .start = (c, [], some false) ∧ c.serve .stop = (c, [], some false)) := by
  intro c
  have hi := (meaning_all reqs).inited
  refine ⟨?_, ?_⟩
  · intro h
    rw [← hi] at h
    have h' : c.st = .running ∨ c.st = .initialized := by
      change c.st ≠ _ at h
      cases hc : c.st <;> simp_all
    simp [Ctrl.serve, Ctrl.startRequest, Ctrl.stopRequest, h', Ctrl.isRunning]
  · intro h
    rw [← hi] at h
    have h' : c.st = .constructed := by simpa using h
    simp [Ctrl.serve, Ctrl.startRequest, Ctrl.stopRequest, h']

/-- C07: once initialised, a further init request is refused, calls nothing and changes nothing. -/
theorem C07_second_init_refused (reqs : List CReq) (loaded : List String) (p : InitProg)
    (h : CEvent.init true ∈ calls reqs) :
    let c := (Ctrl.fresh.serveAll reqs).1
    c.serve (.init loaded p) = (c, [], some false) := by
  intro c
  have hi := (meaning_all reqs).inited.2 h
  simp only [Ctrl.serve, Ctrl.initRequest]
  rw [if_pos hi]

/-- C08: a dependency is handed out and recorded exactly if the name is loaded, has the right type and the flag is
valid; exactly that name is recorded, in the list given by the flag; in all other cases nothing is recorded. -/
theorem C08_dependency_recorded_iff (loaded : List String) (c : Ctrl) (r : GetReq) :
    let ok := r.name ∈ loaded ∧ r.castOk = true ∧ (r.sched = BEFORE_ME ∨ r.sched = AFTER_ME)
    ((c.getController loaded r).2 = true ↔ ok) ∧
    (¬ ok → (c.getController loaded r).1 = c) ∧
    (ok → (c.getController loaded r).1 =
      { c with before := if r.sched = BEFORE_ME then c.before ++ [r.name] else c.before,
               after := if r.sched = AFTER_ME then c.after ++ [r.name] else c.after }) := by
  intro ok
  have hne : BEFORE_ME ≠ AFTER_ME := by decide
  unfold Ctrl.getController
  have hp : providerFind loaded r = true ↔ r.name ∈ loaded ∧ r.castOk = true := by simp [providerFind]
  by_cases hf : providerFind loaded r = true
  · rw [if_pos hf]
    rw [hp] at hf
    by_cases hb : r.sched = BEFORE_ME
    · simp [ok, hf, hb, hne]
    · by_cases ha : r.sched = AFTER_ME
      · simp [ok, hf, ha, hb, Ne.symm hne]
      · simp [ok, hf, ha, hb]
  · rw [if_neg hf]
    rw [hp] at hf
    simp [ok]; tauto

/-- C08: everything recorded during `init` through `getController` names loaded controllers, whatever `init` asks for. -/
theorem C08_init_records_only_loaded (loaded : List String) (rs : List GetReq) (c : Ctrl) :
    ∀ n, (n ∈ (c.runRequests loaded rs).1.before → n ∈ c.before ∨ n ∈ loaded) ∧
         (n ∈ (c.runRequests loaded rs).1.after → n ∈ c.after ∨ n ∈ loaded) := by
  induction rs generalizing c with
  | nil => intro n; exact ⟨Or.inl, Or.inl⟩
  | cons r rs ih =>
    intro n
    simp only [Ctrl.runRequests]
    have := ih (c.getController loaded r).1 n
    obtain ⟨-, h2, h3⟩ := C08_dependency_recorded_iff loaded c r
    by_cases ok : r.name ∈ loaded ∧ r.castOk = true ∧ (r.sched = BEFORE_ME ∨ r.sched = AFTER_ME)
    · rw [h3 ok] at this ⊢
      constructor
      · intro hn
        rcases this.1 hn with h | h
        · simp only at h
          split at h
          · rcases List.mem_append.1 h with h | h
            · exact Or.inl h
            · rw [List.mem_singleton] at h; rw [h]; exact Or.inr ok.1
          · exact Or.inl h
        · exact Or.inr h
      · intro hn
        rcases this.2 hn with h | h
        · simp only at h
          split at h
          · rcases List.mem_append.1 h with h | h
            · exact Or.inl h
            · rw [List.mem_singleton] at h; rw [h]; exact Or.inr ok.1
          · exact Or.inl h
        · exact Or.inr h
    · rw [h2 ok] at this ⊢; exact this

/-! Concrete non-trivial history. -/

/-- An init that asks for a loaded controller to run before it and succeeds. -/
def exampleInit : InitProg := ⟨[⟨"base", BEFORE_ME, true⟩, ⟨"nobody", AFTER_ME, true⟩], [], [], fun bs => some (bs == [true, false])⟩

def exampleReqs : List CReq :=
  [.update, .start, .init ["base"] exampleInit, .start, .update, .start, .update, .stop, .update, .init ["base"] exampleInit]

example : calls exampleReqs = [.init true, .starting, .update, .starting, .update, .stopping] := by decide
example : (Ctrl.fresh.serveAll exampleReqs).1 = ⟨.initialized, ["base"], []⟩ := by decide
example : UpdateAllowed [.init true, .starting] := ⟨[.init true], [], rfl, by simp, by simp⟩

end Pr2
