import Verif.Spec.Manager

/-! # `initRequest` and plugin resolution do what the specification says -/

namespace Pr2

theorem runRequests_spec (loaded : List String) (rs : List GetReq) (c : Ctrl) :
    (c.runRequests loaded rs).1.before = c.before ++ (rs.filter (fun r => r.Granted loaded && r.sched == BEFORE_ME)).map (·.name) ∧
    (c.runRequests loaded rs).1.after = c.after ++ (rs.filter (fun r => r.Granted loaded && r.sched == AFTER_ME)).map (·.name) ∧
    (c.runRequests loaded rs).2 = rs.map (·.Granted loaded) ∧ (c.runRequests loaded rs).1.st = c.st := by
  induction rs generalizing c with
  | nil => simp [Ctrl.runRequests]
  | cons r rs ih =>
    have key : c.getController loaded r = (if r.Granted loaded && r.sched == BEFORE_ME then { c with before := c.before ++ [r.name] }
        else if r.Granted loaded && r.sched == AFTER_ME then { c with after := c.after ++ [r.name] } else c, r.Granted loaded) := by
      unfold Ctrl.getController GetReq.Granted providerFind
      by_cases h1 : r.name ∈ loaded <;> by_cases h2 : r.castOk = true <;> by_cases h3 : r.sched = BEFORE_ME <;>
        by_cases h4 : r.sched = AFTER_ME <;> simp_all [BEFORE_ME, AFTER_ME]
    simp only [Ctrl.runRequests]
    rw [key]
    dsimp only
    obtain ⟨i1, i2, i3, i4⟩ := ih (if r.Granted loaded && r.sched == BEFORE_ME then { c with before := c.before ++ [r.name] }
        else if r.Granted loaded && r.sched == AFTER_ME then { c with after := c.after ++ [r.name] } else c)
    rw [i1, i2, i3, i4]
    have hne : ¬ (r.sched = BEFORE_ME ∧ r.sched = AFTER_ME) := by rintro ⟨a, b⟩; rw [a] at b; exact absurd b (by decide)
    by_cases hg : r.Granted loaded = true
    · by_cases h3 : r.sched = BEFORE_ME
      · have h4 : ¬ r.sched = AFTER_ME := fun h => hne ⟨h3, h⟩
        simp [hg, h3, List.filter_cons, BEFORE_ME, AFTER_ME]
      · by_cases h4 : r.sched = AFTER_ME
        · simp [hg, h4, List.filter_cons, BEFORE_ME, AFTER_ME]
        · simp [hg, h3, h4, List.filter_cons]
    · simp [hg, List.filter_cons]

theorem initRequest_befores (loaded : List String) (p : InitProg) : (Ctrl.fresh.initRequest loaded p).1.before = p.befores loaded := by
  obtain ⟨h1, h2, h3, h4⟩ := runRequests_spec loaded p.requests Ctrl.fresh
  unfold Ctrl.initRequest InitProg.befores
  rw [if_neg (by simp [Ctrl.fresh])]
  dsimp only
  split <;> dsimp only <;> rw [h1] <;> rfl

theorem initRequest_afters (loaded : List String) (p : InitProg) : (Ctrl.fresh.initRequest loaded p).1.after = p.afters loaded := by
  obtain ⟨h1, h2, h3, h4⟩ := runRequests_spec loaded p.requests Ctrl.fresh
  unfold Ctrl.initRequest InitProg.afters
  rw [if_neg (by simp [Ctrl.fresh])]
  dsimp only
  split <;> dsimp only <;> rw [h2] <;> rfl

theorem initRequest_succeeds (loaded : List String) (p : InitProg) : (Ctrl.fresh.initRequest loaded p).2.2 = some true ↔ p.Succeeds loaded := by
  obtain ⟨h1, h2, h3, h4⟩ := runRequests_spec loaded p.requests Ctrl.fresh
  unfold Ctrl.initRequest InitProg.Succeeds
  rw [if_neg (by simp [Ctrl.fresh])]
  dsimp only
  rw [h3]
  generalize p.outcome (List.map (·.Granted loaded) p.requests) = o
  rcases o with _ | _ | _ <;> simp

theorem resolve_picks (L : Loader) (t : String) : L.Picks t (L.resolve t) := by
  unfold Loader.resolve Loader.Picks
  by_cases h : L.available t = true
  · rw [if_pos h]; exact Or.inl ⟨h, rfl⟩
  · rw [if_neg h]
    refine Or.inr ⟨by simpa using h, ?_⟩
    rcases hf : L.declared.find? (fun c => t == L.shortName c) with _ | c
    · refine Or.inr ⟨?_, rfl⟩
      rw [List.find?_eq_none] at hf
      intro c hc he
      exact hf c hc (by simp [he])
    · left
      obtain ⟨h1, a, b, h2, h3⟩ := List.find?_eq_some_iff_append.1 hf
      refine ⟨a, b, h2, ?_, ?_⟩
      · simpa using (beq_iff_eq.1 h1).symm
      · intro d hd he
        have := h3 d hd
        simp [he] at this

theorem picks_unique {L : Loader} {t c c' : String} (h : L.Picks t c) (h' : L.Picks t c') : c = c' := by
  rcases h with ⟨a, rfl⟩ | ⟨a, h⟩
  · rcases h' with ⟨_, rfl⟩ | ⟨b, _⟩
    · rfl
    · rw [a] at b; cases b
  · rcases h' with ⟨b, _⟩ | ⟨_, h'⟩
    · rw [a] at b; cases b
    · rcases h with ⟨x, y, e, s, n⟩ | ⟨n, rfl⟩
      · rcases h' with ⟨x', y', e', s', n'⟩ | ⟨n', _⟩
        · rw [e] at e'
          rcases List.append_eq_append_iff.1 e' with ⟨z, e1, e2⟩ | ⟨z, e1, e2⟩
          · cases z with
            | nil => simp at e2; exact e2.1
            | cons w z =>
              simp only [List.cons_append, List.cons.injEq] at e2
              exact absurd s (n' c (by rw [e1, e2.1]; simp))
          · cases z with
            | nil => simp at e2; exact e2.1.symm
            | cons w z =>
              simp only [List.cons_append, List.cons.injEq] at e2
              exact absurd s' (n c' (by rw [e1, e2.1]; simp))
        · exact absurd s (n' c (by rw [e]; simp))
      · rcases h' with ⟨x', y', e', s', _⟩ | ⟨_, rfl⟩
        · exact absurd s' (n c' (by rw [e']; simp))
        · rfl

theorem constructed_iff (q : LoadReq) : q.constructed = true ↔ q.TypeOk := by
  unfold LoadReq.constructed LoadReq.TypeOk
  rcases q.type with _ | t
  · simp
  · constructor
    · intro h; exact ⟨t, _, rfl, resolve_picks _ _, h⟩
    · rintro ⟨t', cls, e, hp, hc⟩
      cases e
      dsimp only
      rw [picks_unique (resolve_picks q.loader t) hp]; exact hc

end Pr2
