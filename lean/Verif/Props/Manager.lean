import Verif.Lemmas.Race

/-!
# C09–C21, C23: properties of the controller manager

`Reachable m s`: `s` is a state of the running manager (realtime thread and service thread interleaved arbitrarily, first
realtime cycle begun, ROS not shutting down; `m`: motors initially halted).  `s.view`: loaded controllers, dependencies, run states,
execution order.  `s.nlog`: completed service calls, each with its result and the views when it was called and when it returned.
`s.log`: calls made by the realtime loop.
-/

namespace Pr2

/-- The service calls so far form a legal history, starting from no controllers: every call did what its specification
(`CallOk`) says, and between two calls nothing changes; nor after the last one, when no call is in progress. -/
theorem manager_history {m : Bool} {s : State} (h : Reachable m s) :
    ∃ v, History View.empty s.nlog v ∧ ((s.nrt matches .idle) = true → s.view = v) := by
  have := h.inv.2.hist
  refine ⟨_, this, ?_⟩
  cases s.nrt <;> simp

theorem History.callOk {v v' : View} {l : List CallRec} (h : History v l v') : ∀ r ∈ l, CallOk r := by
  induction h with
  | nil => simp
  | snoc r h hpre hok ih =>
    intro r' hr'
    rw [List.mem_append, List.mem_singleton] at hr'
    rcases hr' with hr' | rfl
    · exact ih r' hr'
    · exact hok

theorem callOk {m : Bool} {s : State} (h : Reachable m s) {r : CallRec} (hr : r ∈ s.nlog) : CallOk r := by
  obtain ⟨v, hv, _⟩ := manager_history h
  exact hv.callOk r hr

/-- Consecutive calls: each begins in the state in which the previous one ended. -/
theorem History.chained {v v' : View} {l : List CallRec} (h : History v l v') :
    ∀ a r r' b, l = a ++ r :: r' :: b → r'.pre = r.post := by
  induction h with
  | nil => intro a r r' b hl; simp at hl
  | @snoc v1 l r0 h hpre hok ih =>
    intro a r r' b hl
    rcases List.eq_nil_or_concat b with rfl | ⟨b', x, rfl⟩
    · have : l ++ [r0] = (a ++ [r]) ++ [r'] := by rw [hl]; simp
      obtain ⟨h1, h2⟩ := List.append_inj' this rfl
      simp only [List.cons.injEq, and_true] at h2
      subst h2
      rw [hpre]
      subst h1
      generalize hg : a ++ [r] = l2 at h
      cases h with
      | nil => simp at hg
      | snoc r2 h2 hp2 ho2 =>
        have := (List.append_inj' hg rfl).2
        simp only [List.cons.injEq, and_true] at this
        rw [this]
    · have : l ++ [r0] = (a ++ r :: r' :: b') ++ [x] := by rw [hl]; simp
      exact ih a r r' b' (List.append_inj' this rfl).1

/-- C09: no two loaded controllers have the same name. -/
theorem C09_names_distinct {m : Bool} {s : State} (h : Reachable m s) : s.view.names.Nodup := by
  rw [view_eq, viewOf_names]; exact h.inv.1.good.distinct

/-- … and distinct names are distinct objects. -/
theorem C09_objects_distinct {m : Bool} {s : State} (h : Reachable m s) : (s.view.ctrls.map (·.id)).Nodup := by
  have := h.inv.1.good.ids
  rw [view_eq]; simpa [viewOf, Function.comp_def] using this

/-- C10: a load that returns false changes nothing. -/
theorem C10_failed_load_changes_nothing {m : Bool} {s : State} (h : Reachable m s) (q : LoadReq) (pre post : View) (raced : Bool)
    (hr : ⟨.load q, .flag false, pre, post, raced⟩ ∈ s.nlog) : post = pre := by
  rcases callOk h hr with ⟨h1, _⟩ | ⟨_, _, h1⟩
  · simp at h1
  · exact h1

/-- C10/C11: a load returns true or false, and true exactly if the name is new, the plugin is constructed and initialises, and
all requests can be scheduled. -/
theorem C11_load_succeeds_iff {m : Bool} {s : State} (h : Reachable m s) (q : LoadReq) (res : Res) (pre post : View) (raced : Bool)
    (hr : ⟨.load q, res, pre, post, raced⟩ ∈ s.nlog) : (res = .flag true ↔ LoadOk pre q) ∧ (res = .flag false ↔ ¬ LoadOk pre q) := by
  rcases callOk h hr with ⟨h1, h2, _⟩ | ⟨h1, h2, _⟩
  · dsimp only at h1 h2; subst h1; simp [h2]
  · dsimp only at h1 h2; subst h1; simp [h2]

/-- C11: a load that returns true appends exactly the new controller, with the dependencies its `init` recorded, not
running, and computes a valid new execution order; everything else is as before. -/
theorem C11_successful_load_adds_one {m : Bool} {s : State} (h : Reachable m s) (q : LoadReq) (pre post : View) (raced : Bool)
    (hr : ⟨.load q, .flag true, pre, post, raced⟩ ∈ s.nlog) :
    (∃ id, (∀ c ∈ pre.ctrls, c.id ≠ id) ∧ post.ctrls = pre.ctrls ++ [⟨q.name, id,
        (q.init.befores pre.names), (q.init.afters pre.names), false⟩]) ∧
    post.ValidOrder := by
  rcases callOk h hr with ⟨_, _, h1, h2⟩ | ⟨h1, _⟩
  · exact ⟨h2, h1⟩
  · simp at h1

/-- C12 (partial: for calls that do not read `isRunning()` in the middle of a restart after motors are re-enabled; see
`C12_unload_race_counterexample`): unload returns true exactly if the name is loaded, not running and in no loaded
controller's dependency lists; then exactly that controller disappears; otherwise nothing changes. -/
theorem C12_unload_partial {m : Bool} {s : State} (h : Reachable m s) (n : String) (res : Res) (pre post : View)
    (hr : ⟨.unload n, res, pre, post, false⟩ ∈ s.nlog) :
    (res = .flag true ∨ res = .flag false) ∧
    (res = .flag true ↔ n ∈ pre.names ∧ (∀ c ∈ pre.ctrls, n ∉ c.before ∧ n ∉ c.after) ∧ ∀ c ∈ pre.ctrls, c.name = n → c.running = false) ∧
    (res = .flag true → post.ctrls = pre.ctrls.filter (fun c => c.name != n) ∧ post.ValidOrder) ∧
    (res = .flag false → post = pre) := by
  rcases callOk h hr with ⟨h1, h2, h3, h4, h5⟩ | ⟨h1, h2, h3⟩
  · dsimp only at *; subst h1
    exact ⟨Or.inl rfl, ⟨fun _ => ⟨h2.1, h2.2, h3 rfl⟩, fun _ => rfl⟩, fun _ => ⟨h5, h4⟩, by simp⟩
  · dsimp only at *; subst h1
    refine ⟨Or.inr rfl, ⟨by simp, fun hc => absurd ⟨⟨hc.1, hc.2.1⟩, hc.2.2⟩ h2⟩, by simp, fun _ => h3⟩

/-- C12, in full, when motors have never been re-enabled. -/
theorem C12_unload_without_reenabling {m : Bool} {s : State} (h : Reachable m s) (hm : NeverReenabled m s.log)
    (n : String) (res : Res) (pre post : View) (raced : Bool) (hr : ⟨.unload n, res, pre, post, raced⟩ ∈ s.nlog) :
    (res = .flag true ∨ res = .flag false) ∧
    (res = .flag true ↔ n ∈ pre.names ∧ (∀ c ∈ pre.ctrls, n ∉ c.before ∧ n ∉ c.after) ∧ ∀ c ∈ pre.ctrls, c.name = n → c.running = false) ∧
    (res = .flag true → post.ctrls = pre.ctrls.filter (fun c => c.name != n) ∧ post.ValidOrder) ∧
    (res = .flag false → post = pre) := by
  have := (h.raceInv.raced hm).2 _ hr
  dsimp only at this; subst this
  exact C12_unload_partial h n res pre post hr

/-- C12, always: unload never removes a controller that is needed or any other controller, and a refused unload changes nothing. -/
theorem C12_unload_always {m : Bool} {s : State} (h : Reachable m s) (n : String) (res : Res) (pre post : View) (raced : Bool)
    (hr : ⟨.unload n, res, pre, post, raced⟩ ∈ s.nlog) :
    (res = .flag true ∧ n ∈ pre.names ∧ (∀ c ∈ pre.ctrls, n ∉ c.before ∧ n ∉ c.after) ∧
      post.ctrls = pre.ctrls.filter (fun c => c.name != n) ∧ post.ValidOrder) ∨ (res = .flag false ∧ post = pre) := by
  rcases callOk h hr with ⟨h1, h2, h3, h4, h5⟩ | ⟨h1, h2, h3⟩
  · exact Or.inl ⟨h1, h2.1, h2.2, h5, h4⟩
  · exact Or.inr ⟨h1, h3⟩

/-- The execution order in every state is the canonical valid one. -/
theorem C13_order_valid {m : Bool} {s : State} (h : Reachable m s) : s.view.ValidOrder := by
  rw [view_eq]; exact h.inv.1.good.validOrder _

theorem precedes_mem {l : List String} {a b : String} (h : Precedes l a b) : a ∈ l ∧ b ∈ l := by
  obtain ⟨x, y, z, rfl⟩ := h; simp

/-- C13: dependencies of loaded controllers are loaded. -/
theorem C13_dependencies_loaded {m : Bool} {s : State} (h : Reachable m s) : s.view.Closed := by
  obtain ⟨_, o, _, ho, _⟩ := C13_order_valid h
  intro c hc n hn
  have hsp : (⟨c.name, c.before, c.after⟩ : SchedSpec String) ∈ s.view.specs := List.mem_map.2 ⟨c, hc, rfl⟩
  have hnames : s.view.specs.map (·.name) = s.view.names := by simp [View.specs, View.names, Function.comp_def]
  rw [← hnames]
  rcases hn with hn | hn
  · exact ho.perm.mem_iff.1 (precedes_mem (ho.before _ hsp n hn)).1
  · exact ho.perm.mem_iff.1 (precedes_mem (ho.after _ hsp n hn)).2

/-- C14: a STRICT switch with an unknown name returns false and starts or stops nothing. -/
theorem C14_strict_all_or_nothing {m : Bool} {s : State} (h : Reachable m s) (start stop : List String) (res : Res)
    (pre post : View) (raced : Bool) (hr : ⟨.switch start stop STRICT, res, pre, post, raced⟩ ∈ s.nlog)
    (n : String) (hn : n ∈ start ∨ n ∈ stop) (hu : n ∉ pre.names) : res = .flag false ∧ post = pre := by
  rcases callOk h hr with ⟨h1, _, _, h2⟩ | ⟨_, h2, _⟩
  · exact ⟨h1, h2⟩
  · exact absurd ⟨rfl, n, hn, hu⟩ h2

/-- C14: a switch is refused only for STRICT with an unknown name. -/
theorem C14_refused_only_if {m : Bool} {s : State} (h : Reachable m s) (start stop : List String) (k : Int)
    (pre post : View) (raced : Bool) (hr : ⟨.switch start stop k, .flag false, pre, post, raced⟩ ∈ s.nlog) :
    k = STRICT ∧ (∃ n, (n ∈ start ∨ n ∈ stop) ∧ n ∉ pre.names) ∧ post = pre := by
  rcases callOk h hr with ⟨_, h1, h2, h3⟩ | ⟨h1, _⟩
  · exact ⟨h1, h2, h3⟩
  · simp at h1

/-- C15/C23: a switch that returned true has been executed: exactly the known controllers in the start list run, those only
in the stop list are stopped, the others keep their state, and nothing else changed; unknown names were skipped. -/
theorem C15_switch_effect {m : Bool} {s : State} (h : Reachable m s) (start stop : List String) (k : Int)
    (pre post : View) (raced : Bool) (hr : ⟨.switch start stop k, .flag true, pre, post, raced⟩ ∈ s.nlog) :
    post.order = pre.order ∧
    List.Forall₂ (fun a b : CtrlView => b.name = a.name ∧ b.id = a.id ∧ b.before = a.before ∧ b.after = a.after ∧
      (a.name ∈ start → b.running = true) ∧ (a.name ∉ start → a.name ∈ stop → b.running = false) ∧
      (a.name ∉ start → a.name ∉ stop → b.running = a.running)) pre.ctrls post.ctrls := by
  rcases callOk h hr with ⟨h1, _⟩ | ⟨_, _, h2⟩
  · simp at h1
  · dsimp only at h2
    rw [h2]
    refine ⟨rfl, ?_⟩
    rw [List.forall₂_map_right_iff, List.forall₂_same]
    intro c _
    refine ⟨rfl, rfl, rfl, rfl, ?_, ?_, ?_⟩
    · intro h1; simp [switchOne, h1]
    · intro h1 h2; simp [switchOne, h1, h2]
    · intro h1 h2; simp [switchOne, h1, h2]

/-- C16: the realtime thread never uses a list or request vector while it is written, never leaves a vector's bounds and never
calls a destroyed controller. -/
theorem C16_no_undefined_behaviour {m : Bool} {s : State} (h : Reachable m s) : s.bad = false := h.inv.1.notbad

/-- C16, spelled out: the list the realtime loop iterates is not the one being written, and every controller in it is alive. -/
theorem C16_realtime_list_stable {m : Bool} {s : State} (h : Reachable m s) (u : Bool) (hu : s.used = some u) :
    s.writing ≠ some u ∧ ∀ e ∈ s.lists u, s.alive e.id = true :=
  ⟨h.inv.1.writing_ne hu, fun _ he => alive_of (h.inv.1.writing_ne hu) he⟩

/-- C17, C18, C19: whenever no cycle is in progress, the calls made so far are a sequence of complete cycles, each of which
(`IsCycle`): restarts the running controllers exactly if motors were halted in the previous cycle and are not now; updates
each running controller once in execution order; and only then, if at all, executes one whole switch. -/
theorem C17_log_is_cycles {m : Bool} {s : State} (h : Reachable m s) (hi : s.rt = .idle) : Cycles m s.log s.motorsPrev := by
  obtain ⟨done, p, hd, hl⟩ := h.logOk
  rw [hi] at hl
  obtain ⟨h1, h2⟩ := hl
  rw [h1, h2]; exact hd

theorem pubEvents_prefix : PubEvents [] := Or.inl rfl

/-- C17, in the middle of a cycle: the calls made so far are complete cycles followed by a beginning of a cycle. -/
theorem C17_log_prefix {m : Bool} {s : State} (h : Reachable m s) :
    ∃ done part p now rest, s.log = done ++ part ∧ Cycles m done p ∧ IsCycle p now (part ++ rest) := by
  obtain ⟨done, p, hd, hl⟩ := h.logOk
  obtain ⟨u, hu⟩ := h.inv.1.usedSome
  have fin : ∀ (order : List (Nat × Bool)) (now : Bool) (a b pub sw : List Ev), PubEvents pub → SwitchEvents sw →
      a ++ b = sweepEvents order p now ++ pub ++ sw ++ [.cycleEnd] → s.log = done ++ a →
      ∃ done part p now rest, s.log = done ++ part ∧ Cycles m done p ∧ IsCycle p now (part ++ rest) := by
    intro order now a b pub sw h1 h2 h3 h4
    exact ⟨done, a, p, now, b, h4, hd, order, pub, sw, h1, h2, h3⟩
  have nosw : SwitchEvents [] := Or.inl rfl
  have nopub : PubEvents [] := Or.inl rfl
  have htake : ∀ (l : List (Nat × Bool)) (k : Nat), restartEvents l = restartEvents (l.take k) ++ restartEvents (l.drop k) := by
    intro l k; unfold restartEvents; rw [← List.flatMap_append, List.take_append_drop]
  have htake2 : ∀ (l : List (Nat × Bool)) (k : Nat), updateEvents l = updateEvents (l.take k) ++ updateEvents (l.drop k) := by
    intro l k; unfold updateEvents; rw [← List.flatMap_append, List.take_append_drop]
  cases hrt : s.rt with
  | idle =>
    rw [hrt] at hl
    exact fin [] s.motorsPrev [] _ [] [] nopub nosw rfl (by simpa using hl.1)
  | gotCurrent r =>
    rw [hrt] at hl
    exact fin [] s.motorsPrev [] _ [] [] nopub nosw rfl (by simpa using hl.1)
  | pre =>
    rw [hrt] at hl
    exact fin [] s.motorsPrev [] _ [] [] nopub nosw rfl (by simpa using hl.1)
  | restart k =>
    rw [hrt] at hl
    obtain ⟨h1, h2, h3⟩ := hl
    refine fin (orderOf s u) false _ (restartEvents ((orderOf s u).drop k) ++ updateEvents (orderOf s u) ++ [.cycleEnd]) [] [] nopub nosw ?_ (h3 u hu)
    simp only [sweepEvents, h1, htake (orderOf s u) k]; simp
  | restartMid k id =>
    rw [hrt] at hl
    obtain ⟨h1, h2, h3⟩ := hl
    obtain ⟨h4, h5⟩ := h3 u hu
    refine fin (orderOf s u) false _ (.starting id :: (restartEvents ((orderOf s u).drop (k+1)) ++ updateEvents (orderOf s u) ++ [.cycleEnd])) [] [] nopub nosw ?_ h5
    simp only [sweepEvents, h1, htake (orderOf s u) (k+1), take_succ_of h4, restartEvents_snoc]; simp
  | sweep k =>
    rw [hrt] at hl
    refine fin (orderOf s u) s.motorsPrev _ (updateEvents ((orderOf s u).drop k) ++ [.cycleEnd]) [] [] nopub nosw ?_ (hl u hu)
    simp only [sweepEvents, htake2 (orderOf s u) k]; simp
  | publish =>
    rw [hrt] at hl
    obtain ⟨order, hl⟩ := hl
    exact fin order s.motorsPrev _ [.cycleEnd] [] [] nopub nosw (by simp) hl
  | pubFill k msg =>
    rw [hrt] at hl
    obtain ⟨order, hl, _⟩ := hl
    exact fin order s.motorsPrev _ [.cycleEnd] [] [] nopub nosw (by simp) hl
  | switchCheck =>
    rw [hrt] at hl
    obtain ⟨order, pub, hp, hl⟩ := hl
    exact fin order s.motorsPrev _ [.cycleEnd] pub [] hp nosw (by simp) hl
  | switchStop k =>
    rw [hrt] at hl
    obtain ⟨order, pub, hp, hl⟩ := hl
    refine fin order s.motorsPrev _ ((s.stopReq.drop k).map Ev.stopping ++ s.startReq.map Ev.starting ++ [.switchEnd, .cycleEnd]) pub _ hp
      (Or.inr ⟨s.stopReq, s.startReq, rfl⟩) ?_ hl
    have := List.take_append_drop k (s.stopReq.map Ev.stopping)
    simp only [List.map_take, List.map_drop, List.append_assoc, List.cons_append, List.nil_append]
    rw [← List.append_assoc (List.take k _), this]
  | switchStart k =>
    rw [hrt] at hl
    obtain ⟨order, pub, hp, hl⟩ := hl
    refine fin order s.motorsPrev _ ((s.startReq.drop k).map Ev.starting ++ [.switchEnd, .cycleEnd]) pub _ hp
      (Or.inr ⟨s.stopReq, s.startReq, rfl⟩) ?_ hl
    have := List.take_append_drop k (s.startReq.map Ev.starting)
    simp only [List.map_take, List.map_drop, List.append_assoc, List.cons_append, List.nil_append]
    rw [← List.append_assoc (List.take k (s.startReq.map _)), this]
  | switchClear =>
    rw [hrt] at hl
    obtain ⟨order, pub, hp, hl⟩ := hl
    exact fin order s.motorsPrev _ [.switchEnd, .cycleEnd] pub _ hp (Or.inr ⟨s.stopReq, s.startReq, rfl⟩) (by simp) hl
  | switchFlag =>
    rw [hrt] at hl
    obtain ⟨order, pub, sw, hp, hs, hl⟩ := hl
    exact fin order s.motorsPrev _ [.cycleEnd] pub sw hp hs rfl hl
  | done =>
    rw [hrt] at hl
    obtain ⟨order, pub, sw, hp, hs, hl⟩ := hl
    exact fin order s.motorsPrev _ [.cycleEnd] pub sw hp hs rfl hl

/-- C18: what a beginning cycle works on: the loaded controllers with their run flags in execution order - those loaded now or,
while a load or unload has not returned yet, possibly those loaded when that call began.  Every loaded controller occurs
exactly once.  (`C17_log_is_cycles` says what the cycle does with them.) -/
theorem C18_cycle_order {m : Bool} {s : State} (h : Reachable m s) (i : RtIn) (hp : s.rt = .pre) :
    ∃ v : View, (v = s.view ∨ (v = s.snap ∧ ∃ f, s.nrt.former = some f)) ∧ v.ValidOrder ∧ v.names.Nodup ∧
      v.exec.Perm (v.ctrls.map (fun c => (c.id, c.running))) ∧
      (s.rtStep i).log = s.log ++ [.cycleBegin v.exec i.halted] := by
  obtain ⟨u, hu, he⟩ := rtStep_pre h.inv.1 i hp
  have g := h.inv.1.goodUsed hu
  refine ⟨viewOf s.heap (s.lists u) (s.sched u) s.runs, ?_, g.validOrder _, ?_, ?_, ?_⟩
  · rcases h.inv.1.used with h1 | ⟨f, h1, h2⟩
    · rw [hu, Option.some.injEq] at h1; subst h1; exact Or.inl rfl
    · rw [hu, Option.some.injEq] at h1; subst h1
      exact Or.inr ⟨(h.formerInv _ h2).symm, _, h2⟩
  · rw [viewOf_names]; exact g.distinct
  · rw [viewOf_exec]
    have h1 := orderOf_eq_map g
    unfold orderOf at h1
    rw [h1]
    refine (g.perm.map _).trans (List.Perm.of_eq ?_)
    simp only [viewOf, List.map_map, Function.comp_def]
    apply List.ext_getElem
    · simp
    · intro n h2 h3
      simp only [List.length_map, List.length_range] at h2
      simp [List.getElem?_eq_getElem h2]
  · rw [he, viewOf_exec]
    simp only [isRunning_eq_runs (s := s) (by rw [hp]; rfl)]

/-- C20 (partial: run flags are exact unless `isRunning()` was read in the middle of a restart; see
`C20_list_race_counterexample`): list_controllers returns every loaded controller once, in execution order, with its run flag. -/
theorem C20_list_partial {m : Bool} {s : State} (h : Reachable m s) (res : Res) (pre post : View)
    (hr : ⟨.list, res, pre, post, false⟩ ∈ s.nlog) : res = .listing pre.listing ∧ post = pre := by
  obtain ⟨l, h1, h2, h3, _⟩ := callOk h hr
  exact ⟨h1.trans (by rw [h3 rfl]), h2⟩

/-- C20, in full, when motors have never been re-enabled. -/
theorem C20_list_without_reenabling {m : Bool} {s : State} (h : Reachable m s) (hm : NeverReenabled m s.log) (res : Res)
    (pre post : View) (raced : Bool) (hr : ⟨.list, res, pre, post, raced⟩ ∈ s.nlog) : res = .listing pre.listing ∧ post = pre := by
  have := (h.raceInv.raced hm).2 _ hr
  dsimp only at this; subst this
  exact C20_list_partial h res pre post hr

/-- C20, always: names and order are exact, and a controller reported running is running. -/
theorem C20_list_always {m : Bool} {s : State} (h : Reachable m s) (res : Res) (pre post : View) (raced : Bool)
    (hr : ⟨.list, res, pre, post, raced⟩ ∈ s.nlog) : ∃ l, res = .listing l ∧ post = pre ∧
      List.Forall₂ (fun a b => a.1 = b.1 ∧ (a.2 = true → b.2 = true)) l pre.listing := by
  obtain ⟨l, h1, h2, _, h3⟩ := callOk h hr
  exact ⟨l, h1, h2, h3⟩

/-- The listing names every loaded controller exactly once. -/
theorem C20_listing_complete {m : Bool} {s : State} (h : Reachable m s) :
    s.view.listing.Perm (s.view.ctrls.map (fun c => (c.name, c.running))) := by
  have g := h.inv.1.good
  rw [view_eq, view_listing]
  have hall : ∀ j ∈ s.sched s.current, ∃ e, (s.lists s.current)[j]? = some e := by
    intro j hj
    have := g.perm.mem_iff.1 hj
    exact ⟨_, List.getElem?_eq_getElem (by simpa using this)⟩
  have h1 : (s.sched s.current).filterMap (fun j => (s.lists s.current)[j]?.map (fun e => (e.name, s.runs e.id))) =
      (s.sched s.current).map (fun j => ((s.lists s.current)[j]?.map (fun e => (e.name, s.runs e.id))).getD ("", false)) := by
    generalize s.sched s.current = sc at hall
    induction sc with
    | nil => rfl
    | cons j sc ih =>
      obtain ⟨e, he⟩ := hall j (by simp)
      rw [List.filterMap_cons, he]
      simp only [Option.map_some, List.map_cons, he, Option.getD_some]
      rw [ih (fun j hj => hall j (by simp [hj]))]
  rw [h1]
  refine (g.perm.map _).trans (List.Perm.of_eq ?_)
  simp only [viewOf, List.map_map, Function.comp_def]
  apply List.ext_getElem
  · simp
  · intro n h2 h3
    simp only [List.length_map, List.length_range] at h2
    simp [List.getElem?_eq_getElem h2]

/-- C21: when a statistics message is published, its controller entries are exactly the loaded controllers, in order, each with
its own name and run flag. -/
theorem C21_published_aligned {m : Bool} {s : State} (h : Reachable m s) (i : RtIn) (es : List (Entry × Bool))
    (msg : List (String × Bool)) (hp : (s.rtStep i).log = s.log ++ [.published es msg]) :
    msg = s.view.ctrls.map (fun c => (c.name, c.running)) ∧ es.length = msg.length := by
  have hi := h.inv.1
  have hl := h.logOk
  obtain ⟨done, p, hd, hl⟩ := hl
  have nope : ∀ evs, (s.rtStep i).log = s.log ++ evs → (∀ es msg, evs ≠ [.published es msg]) → False := by
    intro evs h1 h2
    rw [hp] at h1
    exact h2 es msg (List.append_cancel_left h1).symm
  have nope0 : (s.rtStep i).log = s.log → False := fun h1 => nope [] (by simpa using h1) (by simp)
  cases hrt : s.rt with
  | pubFill k ms =>
    rw [hrt] at hl
    obtain ⟨order, _, hm⟩ := hl
    have hir : ∀ j, s.isRunning j = s.runs j := isRunning_eq_runs (s := s) (by rw [hrt]; rfl)
    obtain ⟨hu, hn, he⟩ := rtStep_pubFill hi i hrt
    rcases he with ⟨e, he1, he⟩ | ⟨hk, he⟩
    · exact (nope0 (by rw [he])).elim
    · rw [he] at hp
      have hp := List.append_cancel_left hp
      simp only [List.cons.injEq, Ev.published.injEq, and_true] at hp
      obtain ⟨h1, h2⟩ := hp
      rw [List.take_of_length_le hk] at hm
      rw [← h2, ← h1, hm, view_eq]
      simp [viewOf, Function.comp_def]
  | idle => exact (nope0 (by unfold State.rtStep; rw [hrt])).elim
  | gotCurrent r => exact (nope0 (by unfold State.rtStep; rw [hrt])).elim
  | pre => obtain ⟨u, hu, he⟩ := rtStep_pre hi i hrt; exact (nope _ (by rw [he]) (by simp)).elim
  | restart k =>
    obtain ⟨u, hu, he⟩ := rtStep_restart hi i hrt
    rcases he with ⟨hk, j, e, h1, h2, h3, ⟨hr, he⟩ | ⟨hr, he⟩⟩ | ⟨hk, he⟩
    · exact (nope _ (by rw [he]) (by simp)).elim
    · exact (nope0 (by rw [he])).elim
    · exact (nope0 (by rw [he])).elim
  | restartMid k id => exact (nope _ (by rw [rtStep_restartMid hi i hrt]) (by simp)).elim
  | sweep k =>
    obtain ⟨u, hu, he⟩ := rtStep_sweep hi i hrt
    rcases he with ⟨hk, j, e, h1, h2, h3, he⟩ | ⟨hk, he⟩
    · exact (nope _ (by rw [he]) (by intro a b; split <;> simp)).elim
    · exact (nope0 (by rw [he])).elim
  | publish => exact (nope0 (by unfold State.rtStep; rw [hrt]; simp only; split <;> rfl)).elim
  | switchCheck =>
    by_cases hps : s.pleaseSwitch = true
    · exact (nope [.switchBegin s.stopReq s.startReq] (by unfold State.rtStep; rw [hrt]; simp [hps]) (by simp)).elim
    · exact (nope0 (by unfold State.rtStep; rw [hrt]; simp [hps])).elim
  | switchStop k =>
    rcases rtStep_switchStop hi i hrt with ⟨id, hid, _, he⟩ | ⟨hk, he⟩
    · exact (nope _ (by rw [he]) (by simp)).elim
    · exact (nope0 (by rw [he])).elim
  | switchStart k =>
    rcases rtStep_switchStart hi i hrt with ⟨id, hid, _, he⟩ | ⟨hk, he⟩
    · exact (nope _ (by rw [he]) (by simp)).elim
    · exact (nope0 (by rw [he])).elim
  | switchClear => exact (nope _ (by rw [rtStep_switchClear hi i hrt]) (by simp)).elim
  | switchFlag => exact (nope0 (by unfold State.rtStep; rw [hrt])).elim
  | done => exact (nope [.cycleEnd] (by unfold State.rtStep; rw [hrt]) (by simp)).elim

end Pr2
