import Verif.Lemmas.Lifecycle
import Verif.Props.ManagerTraces

/-!
# The life of controllers inside the manager (C73–C75)

Unlike C06 and C07, which speak about one controller served any sequence of requests, these theorems speak about every controller object in every
interleaving of the realtime loop with service calls.
-/

namespace Pr2

/-- **C73.**  Whenever no service call is in progress, the switches the realtime loop has executed are exactly the switch requests that
returned true: each once, in the order of the requests, stopping and starting exactly the known controllers that were named, in the order in which
they were named. -/
theorem C73_switches_exactly_once {m : Bool} {s : State} (h : Reachable m s) (hi : s.nrt = .idle) :
    executedSwitches s.log = acceptedSwitches s.nlog := by
  have := h.exactlyOnce
  unfold ExactlyOnce pendingSwitch at this
  rw [hi] at this
  simpa using this

/-- C73, at any time: at most one more switch has been begun, and that is the one a call in progress has requested. -/
theorem C73_switches_in_progress {m : Bool} {s : State} (h : Reachable m s) :
    executedSwitches s.log = acceptedSwitches s.nlog ∨
    ∃ start stop k, (s.nrt = .waitSwitch (.switch start stop k) ∨ s.nrt = .waitSwitchInner (.switch start stop k)) ∧
      executedSwitches s.log = acceptedSwitches s.nlog ++ [(s.snap.idsOf stop, s.snap.idsOf start)] := by
  have hx := h.exactlyOnce
  obtain ⟨hinv, h2⟩ := h.inv
  unfold ExactlyOnce pendingSwitch at hx
  have hp := h2.prog
  unfold Prog at hp
  have hwf := hinv.wf
  have key : ∀ op, op.isSwitch = true → SwitchProg s op →
      executedSwitches s.log = acceptedSwitches s.nlog ++ (if s.pleaseSwitch && !s.rt.inSwitch then [] else [(stopIds s op, startIds s op)]) →
      executedSwitches s.log = acceptedSwitches s.nlog ∨
      ∃ start stop k, op = .switch start stop k ∧ executedSwitches s.log = acceptedSwitches s.nlog ++ [(s.snap.idsOf stop, s.snap.idsOf start)] := by
    intro op ho ⟨R, h3, _⟩ he
    split at he
    · left; simpa using he
    · right
      cases op with
      | switch start stop k =>
        refine ⟨start, stop, k, rfl, ?_⟩
        rw [he, h3, idsOf_viewOf, idsOf_viewOf]
        rfl
      | load r => simp [Op.isSwitch] at ho
      | unload n => simp [Op.isSwitch] at ho
      | list => simp [Op.isSwitch] at ho
  cases hn : s.nrt with
  | waitSwitch op =>
    rw [hn] at hx hp hwf
    rcases key op hwf hp.1 hx with h3 | ⟨a, b, k, rfl, h3⟩
    · exact Or.inl h3
    · exact Or.inr ⟨a, b, k, Or.inl rfl, h3⟩
  | waitSwitchInner op =>
    rw [hn] at hx hp hwf
    rcases key op hwf hp.1 hx with h3 | ⟨a, b, k, rfl, h3⟩
    · exact Or.inl h3
    · exact Or.inr ⟨a, b, k, Or.inr rfl, h3⟩
  | _ => rw [hn] at hx; left; simpa using hx

/-- **C74.**  In every interleaving, whenever `update()` of a controller is called, its `starting()` has been called before and its `stopping()` not
since. -/
theorem C74_update_between_starting_and_stopping {m : Bool} {s : State} (h : Reachable m s) (pre post : List Ev) (id : Nat)
    (hl : s.log = pre ++ .update id :: post) : StartedLast pre id :=
  h.updatesStarted pre post id hl

/-- C74: the run state of a loaded controller says whether `starting()` or `stopping()` was called last.  (While the realtime loop is between
`stopping()` and `starting()` of restarting a controller, that controller counts as running.) -/
theorem C74_running_iff_started_last {m : Bool} {s : State} (h : Reachable m s) (c : CtrlView) (hc : c ∈ s.view.ctrls)
    (hr : s.midRestart c.id = false) : c.running = true ↔ StartedLast s.log c.id := by
  obtain ⟨e, he, rfl⟩ := List.mem_map.1 hc
  have := h.life.run e.id (h.inv.1.good.lt e he)
  dsimp only at hr ⊢
  unfold State.runs
  rw [hr, Bool.or_false]
  exact this

/-- **C75.**  Once an unload call has returned true, the object it removed is never called again, whatever happens afterwards, even if a controller of
the same name is loaded again: that is another object. -/
theorem C75_unloaded_never_called {m : Bool} {s : State} (h : Reachable m s) (n : String) (pre post : View) (raced : Bool)
    (hr : ⟨.unload n, .flag true, pre, post, raced⟩ ∈ s.nlog) (c : CtrlView) (hc : c ∈ pre.ctrls) (hn : c.name = n)
    (acts : List Act) (ha : ∀ a ∈ acts, a ≠ .shutdown) :
    (∃ new, (s.run acts).log = s.log ++ new ∧ ∀ e ∈ new, e.calls c.id = false) ∧ ∀ d ∈ (s.run acts).view.ctrls, d.id ≠ c.id := by
  have hg := h.removedGone _ hr n rfl rfl c hc hn
  obtain ⟨g, hl⟩ := hg.run h.inv.1 acts ha
  refine ⟨hl, ?_⟩
  intro d hd
  obtain ⟨e, he, rfl⟩ := List.mem_map.1 hd
  exact g.cur e he

/-! ## The hypotheses are met -/

theorem demo_reachable : Reachable false demoState := by
  refine reachable_first.run _ ?_
  intro a ha
  have : (demo.all (fun a => match a with | .shutdown => false | _ => true)) = true := by decide +kernel
  have := List.all_eq_true.1 this a ha
  rintro rfl; simp at this

/-- C73: two switches requested and executed (the second with an unknown name), a third refused. -/
example : acceptedSwitches demoState.nlog = [([], [0, 1]), ([1], [])] ∧ executedSwitches demoState.log = [([], [0, 1]), ([1], [])] ∧
    (demoState.nrt matches .idle) = true := by decide +kernel

/-- C74: `b` (object 1) was updated and stopped; `a` (object 0) is running. -/
example : Ev.update 1 ∈ demoState.log ∧ Ev.stopping 1 ∈ demoState.log ∧ demoState.view.ctrls.map (fun c => (c.id, c.running)) = [(0, true)] := by
  decide +kernel

/-- C75: `b` was unloaded; afterwards a new `b` can be loaded, and is another object. -/
example : (∃ r ∈ demoState.nlog, (r.op matches .unload "b") = true ∧ r.res = .flag true ∧ ∃ c ∈ r.pre.ctrls, c.name = "b" ∧ c.id = 1) ∧
    (demoState.run ([.call (goodLoad "b" [])] ++ serve 7 ++ cycle 14 ++ serve 5)).view.ctrls.map (fun c => (c.name, c.id)) = [("a", 0), ("b", 2)] := by
  decide +kernel

end Pr2
