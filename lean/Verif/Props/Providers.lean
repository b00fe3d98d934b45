import Verif.Lemmas.Providers
import Verif.Props.Lifecycle

/-!
# C105: what a controller was given outlives it, and the requested order holds in every cycle

`getController(name, sched, c)` hands the controller being initialised a *raw pointer* to another loaded controller
(controller.h:89-107), which it keeps and uses in its `update()`.  Nothing but the manager's dependency check keeps that pointer valid.
-/

namespace Pr2
set_option linter.unusedVariables false
set_option linter.unusedSimpArgs false

/-- Some load call made object `c`, and in its `init`, `getController(…, k, …)` returned true and handed out object `p`. -/
def Gave (calls : List CallRec) (c p : Nat) (k : Int) : Prop :=
  ∃ q pre post raced, (⟨.load q, .flag true, pre, post, raced⟩ : CallRec) ∈ calls ∧
    ∃ r ∈ q.init.requests, r.sched = k ∧ r.Granted pre.names = true ∧
      (∃ x ∈ pre.ctrls, x.name = r.name ∧ x.id = p) ∧ ∃ y ∈ post.ctrls, y.name = q.name ∧ y.id = c

theorem nodup_map_inj {α β : Type} {f : α → β} {l : List α} (h : (l.map f).Nodup) {a b : α} (ha : a ∈ l) (hb : b ∈ l) (he : f a = f b) : a = b :=
  List.inj_on_of_nodup_map h ha hb he

/-- the links of an object that was given another -/
theorem gave_link {m : Bool} {s : State} (h : Reachable m s) {T : Links} (hl : LinkInv T s) {c p : Nat} {k : Int} (hg : Gave s.nlog c p k) :
    ∃ n, (T c).prov n = p ∧ ((k = BEFORE_ME ∧ n ∈ (T c).bef) ∨ (k = AFTER_ME ∧ n ∈ (T c).aft)) := by
  obtain ⟨q, pre, post, raced, hr, r, hrq, hk, hgr, ⟨x, hx, hxn, hxp⟩, y, hy, hyn, hyc⟩ := hg
  obtain ⟨hpre, hpost⟩ := hl.calls _ hr
  rcases callOk h hr with ⟨_, hlo, _, id, hid, hctrls⟩ | ⟨h1, _⟩
  swap
  · simp at h1
  dsimp only at hpre hpost hlo hid hctrls
  have hnew : (⟨q.name, id, q.init.befores pre.names, q.init.afters pre.names, false⟩ : CtrlView) ∈ post.ctrls := by rw [hctrls]; simp
  have hy' : y = ⟨q.name, id, q.init.befores pre.names, q.init.afters pre.names, false⟩ :=
    nodup_map_inj hpost.1 hy hnew (by rw [hyn])
  have hx' : x ∈ post.ctrls := by rw [hctrls]; exact List.mem_append.2 (Or.inl hx)
  obtain ⟨_, _, hb, ha, hd⟩ := hpost.2.2 y hy
  rw [hyc] at hb ha hd
  refine ⟨r.name, ?_, ?_⟩
  · have hmem : r.name ∈ y.before ∨ r.name ∈ y.after := by
      rw [hy']
      unfold GetReq.Granted at hgr
      simp only [Bool.and_eq_true, Bool.or_eq_true, beq_iff_eq, decide_eq_true_eq] at hgr
      rcases hgr.2 with hs | hs
      · left
        refine List.mem_append.2 (Or.inl (List.mem_map.2 ⟨r, List.mem_filter.2 ⟨hrq, ?_⟩, rfl⟩))
        simp [GetReq.Granted, hgr.1.1, hgr.1.2, hs]
      · right
        refine List.mem_append.2 (Or.inl (List.mem_map.2 ⟨r, List.mem_filter.2 ⟨hrq, ?_⟩, rfl⟩))
        simp [GetReq.Granted, hgr.1.1, hgr.1.2, hs]
    obtain ⟨d, hdm, hdn, hdp⟩ := hd r.name hmem
    have : d = x := nodup_map_inj hpost.1 hdm hx' (by rw [hdn, hxn])
    rw [← hdp, this, hxp]
  · rw [hb, ha, hy']
    have hgr' := hgr
    unfold GetReq.Granted at hgr
    simp only [Bool.and_eq_true, Bool.or_eq_true, beq_iff_eq, decide_eq_true_eq] at hgr
    rcases hgr.2 with hs | hs
    · refine Or.inl ⟨hk.symm.trans hs, List.mem_append.2 (Or.inl (List.mem_map.2 ⟨r, List.mem_filter.2 ⟨hrq, ?_⟩, rfl⟩))⟩
      rw [hgr', hs]; rfl
    · refine Or.inr ⟨hk.symm.trans hs, List.mem_append.2 (Or.inl (List.mem_map.2 ⟨r, List.mem_filter.2 ⟨hrq, ?_⟩, rfl⟩))⟩
      rw [hgr', hs]; rfl

/-- C105: as long as a controller is loaded, every controller object it was given is loaded - that very object, not merely one of the same name. -/
theorem C105_provider_loaded {m : Bool} {s : State} (h : Reachable m s) {c p : Nat} {k : Int} (hg : Gave s.nlog c p k)
    (hc : c ∈ s.view.ctrls.map (·.id)) : p ∈ s.view.ctrls.map (·.id) := by
  obtain ⟨T, hl⟩ := h.links
  obtain ⟨n, hp, hn⟩ := gave_link h hl hg
  obtain ⟨y, hy, rfl⟩ := List.mem_map.1 hc
  obtain ⟨_, _, hb, ha, hd⟩ := (hl.view h.inv.1).2.2 y hy
  rw [hb, ha] at hn
  obtain ⟨d, hdm, _, hdp⟩ := hd n (hn.elim (fun h => Or.inl h.2) (fun h => Or.inr h.2))
  exact List.mem_map.2 ⟨d, hdm, by rw [hdp, hp]⟩

theorem alive_provider {m : Bool} {s : State} (h : Reachable m s) {T : Links} (hl : LinkInv T s) {c p : Nat} {k : Int} (hg : Gave s.nlog c p k)
    {u : Bool} (hw : s.writing ≠ some u) (hu : T.OnList s.next (s.lists u)) {e : Entry} (he : e ∈ s.lists u) (hec : e.id = c) :
    s.alive p = true := by
  obtain ⟨n, hp, hn⟩ := gave_link h hl hg
  subst hec
  obtain ⟨_, _, hd⟩ := hu e he
  obtain ⟨d, hdm, _, hdp⟩ := hd n (hn.elim (fun h => Or.inl h.2) (fun h => Or.inr h.2))
  rw [← hp, ← hdp]
  exact alive_of hw hdm

/-- C105: whenever the realtime loop calls `starting()`, `update()` or `stopping()` of a controller, every controller object it was given still
exists - at that moment, and hence for as long as the call lasts, since the service thread's steps during the call lead to such states too. -/
theorem C105_provider_alive {m : Bool} {s : State} (h : Reachable m s) {c p : Nat} {k : Int} (hg : Gave s.nlog c p k) (i : RtIn)
    {e : Ev} {l : List Ev} (hlog : (s.rtStep i).log = s.log ++ l) (he : e ∈ l) (hc : e.calls c = true) : s.alive p = true := by
  obtain ⟨T, hl⟩ := h.links
  have hi := h.inv.1
  have no : ∀ {s' : State}, s.rtStep i = s' → s'.log = s.log → False := by
    intro s' h1 h2
    rw [h1, h2] at hlog
    have : l = [] := by simpa using hlog
    rw [this] at he; simp at he
  have one : ∀ {s' : State} {x : Ev}, s.rtStep i = s' → s'.log = s.log ++ [x] → e = x := by
    intro s' x h1 h2
    rw [h1, h2, List.append_cancel_left_eq] at hlog
    rw [← hlog] at he
    simpa using he
  cases hrt : s.rt with
  | idle => exact (no (s' := { s with rt := .gotCurrent s.current }) (by unfold State.rtStep; rw [hrt]) rfl).elim
  | gotCurrent r => exact (no (s' := { s with used := some r, rt := .pre }) (by unfold State.rtStep; rw [hrt]) rfl).elim
  | pre =>
    obtain ⟨u, hu, he'⟩ := rtStep_pre hi i hrt
    rw [one he' rfl] at hc; simp [Ev.calls] at hc
  | restart k =>
    obtain ⟨u, hu, he'⟩ := rtStep_restart hi i hrt
    rcases he' with ⟨hk, j, x, h1, h2, h3, ⟨hr, he'⟩ | ⟨hr, he'⟩⟩ | ⟨hk, he'⟩
    · rw [one he' rfl] at hc
      exact alive_provider h hl hg (hi.writing_ne hu) (hl.used hi hu) h3 (by simpa [Ev.calls] using hc)
    · exact (no he' rfl).elim
    · exact (no he' rfl).elim
  | restartMid k id =>
    obtain ⟨_, u, x, hu, hx, hid⟩ := hi.mid id (by rw [hrt]; rfl)
    rw [one (rtStep_restartMid hi i hrt) rfl] at hc
    refine alive_provider h hl hg (hi.writing_ne hu) (hl.used hi hu) hx ?_
    rw [hid]; simpa [Ev.calls] using hc
  | sweep k =>
    obtain ⟨u, hu, he'⟩ := rtStep_sweep hi i hrt
    rcases he' with ⟨hk, j, x, h1, h2, h3, he'⟩ | ⟨hk, he'⟩
    · cases hr : s.isRunning x.id with
      | false => exact (no he' (by simp [hr])).elim
      | true =>
        rw [one (x := .update x.id) he' (by simp [hr])] at hc
        exact alive_provider h hl hg (hi.writing_ne hu) (hl.used hi hu) h3 (by simpa [Ev.calls] using hc)
    · exact (no he' rfl).elim
  | publish =>
    by_cases hp : (i.wantPublish && i.turn && s.pubLock == none) = true
    · exact (no (s' := { s with pubLock := some .rt, rt := .pubFill 0 [] }) (by unfold State.rtStep; rw [hrt]; simp only; rw [if_pos hp]) rfl).elim
    · exact (no (s' := { s with rt := .switchCheck }) (by unfold State.rtStep; rw [hrt]; simp only; rw [if_neg hp]) rfl).elim
  | pubFill k msg =>
    obtain ⟨hu, hn, he'⟩ := rtStep_pubFill hi i hrt
    rcases he' with ⟨x, he1, he'⟩ | ⟨hk, he'⟩
    · exact (no he' rfl).elim
    · rw [one he' rfl] at hc; simp [Ev.calls] at hc
  | switchCheck =>
    by_cases hp : s.pleaseSwitch = true
    · rw [one (s' := { s with rt := .switchStop 0, log := s.log ++ [.switchBegin s.stopReq s.startReq] })
        (by unfold State.rtStep; rw [hrt]; simp only; rw [if_pos hp]) rfl] at hc
      simp [Ev.calls] at hc
    · exact (no (s' := { s with rt := .done }) (by unfold State.rtStep; rw [hrt]; simp only; rw [if_neg hp]) rfl).elim
  | switchStop k =>
    rcases rtStep_switchStop hi i hrt with ⟨id, h1, ⟨x, hx, hid⟩, he'⟩ | ⟨hk, he'⟩
    · rw [one he' rfl] at hc
      refine alive_provider h hl hg hi.writing_ne_current hl.cur hx ?_
      rw [hid]; simpa [Ev.calls] using hc
    · exact (no he' rfl).elim
  | switchStart k =>
    rcases rtStep_switchStart hi i hrt with ⟨id, h1, ⟨x, hx, hid⟩, he'⟩ | ⟨hk, he'⟩
    · rw [one he' rfl] at hc
      refine alive_provider h hl hg hi.writing_ne_current hl.cur hx ?_
      rw [hid]; simpa [Ev.calls] using hc
    · exact (no he' rfl).elim
  | switchClear =>
    rw [one (rtStep_switchClear hi i hrt) rfl] at hc; simp [Ev.calls] at hc
  | switchFlag => exact (no (s' := { s with pleaseSwitch := false, rt := .done }) (by unfold State.rtStep; rw [hrt]) rfl).elim
  | done =>
    rw [one (s' := { s with rt := .idle, log := s.log ++ [.cycleEnd] }) (by unfold State.rtStep; rw [hrt]) rfl] at hc
    simp [Ev.calls] at hc

/-! ## Order within a cycle -/

/-- the object updated by an event -/
def Ev.updated : Ev → Option Nat
  | .update i => some i
  | _ => none

theorem updated_updateEvents (o : List (Nat × Bool)) : (updateEvents o).filterMap Ev.updated = (o.filter (·.2)).map (·.1) := by
  induction o with
  | nil => rfl
  | cons a o ih =>
    obtain ⟨x, b⟩ := a
    unfold updateEvents at ih ⊢
    rw [List.flatMap_cons, List.filterMap_append, ih]
    cases b <;> rfl

theorem updated_restartEvents (o : List (Nat × Bool)) : (restartEvents o).filterMap Ev.updated = [] := by
  induction o with
  | nil => rfl
  | cons a o ih =>
    obtain ⟨x, b⟩ := a
    unfold restartEvents at ih ⊢
    rw [List.flatMap_cons, List.filterMap_append, ih]
    cases b <;> rfl

theorem updated_pub {l : List Ev} (h : PubEvents l) : l.filterMap Ev.updated = [] := by
  rcases h with rfl | ⟨es, rfl⟩ <;> rfl

theorem updated_switch {l : List Ev} (h : SwitchEvents l) : l.filterMap Ev.updated = [] := by
  rcases h with rfl | ⟨A, B, rfl⟩
  · rfl
  · rw [List.filterMap_eq_nil_iff]
    intro a ha
    simp only [List.mem_cons, List.mem_append, List.mem_map, List.mem_singleton, List.not_mem_nil, or_false] at ha
    rcases ha with rfl | (⟨x, _, rfl⟩ | ⟨x, _, rfl⟩) | rfl <;> rfl

theorem isCycle_updates {before now : Bool} {l : List Ev} (h : IsCycle before now l) :
    ∃ order l', l = .cycleBegin order now :: l' ∧ l.filterMap Ev.updated = (order.filter (·.2)).map (·.1) := by
  obtain ⟨order, pub, sw, hp, hs, rfl⟩ := h
  refine ⟨order, ((if before && !now then restartEvents order else []) ++ updateEvents order) ++ pub ++ sw ++ [.cycleEnd],
    by unfold sweepEvents; simp only [List.cons_append], ?_⟩
  simp only [List.filterMap_append, updated_pub hp, updated_switch hs]
  unfold sweepEvents
  simp only [List.filterMap_cons, List.filterMap_append, updated_updateEvents, Ev.updated]
  split <;> simp [updated_restartEvents]

/-- two updates in the same cycle come in the order of that cycle -/
theorem cycles_order {m p : Bool} {L : List Ev} (h : Cycles m L p) {l₁ l₂ l₃ : List Ev} {a b : Nat}
    (hL : L = l₁ ++ .update a :: l₂ ++ .update b :: l₃) (hno : ∀ o x, Ev.cycleBegin o x ∉ l₂) :
    ∃ order x, Ev.cycleBegin order x ∈ l₁ ∧ [a, b].Sublist (order.map (·.1)) := by
  induction h generalizing l₁ l₂ l₃ with
  | nil => simp at hL
  | @snoc l c p now _ hc ih =>
    obtain ⟨order, c', rfl, hup⟩ := isCycle_updates hc
    rw [List.append_assoc, List.append_eq_append_iff] at hL
    rcases hL with ⟨t, h1, h2⟩ | ⟨t, h1, h2⟩
    · -- the first update lies in the last cycle
      cases t with
      | nil => simp at h2
      | cons y t =>
        simp only [List.cons_append, List.cons.injEq] at h2
        obtain ⟨rfl, h2⟩ := h2
        refine ⟨order, now, by rw [h1]; simp, ?_⟩
        have hup' : c'.filterMap Ev.updated = (order.filter (·.2)).map (·.1) := hup
        rw [h2] at hup'
        have h3 : [a, b].Sublist ((order.filter (·.2)).map (·.1)) := by
          rw [← hup']
          simp only [List.filterMap_append, List.filterMap_cons, Ev.updated]
          refine List.Sublist.trans ?_ (List.sublist_append_right _ _)
          refine List.Sublist.cons_cons a ?_
          refine List.Sublist.trans ?_ (List.sublist_append_right _ _)
          exact List.Sublist.cons_cons b (List.nil_sublist _)
        exact h3.trans (List.filter_sublist.map _)
    · cases t with
      | nil => simp at h2
      | cons y t =>
        rw [List.cons_append, List.cons_append, List.cons.injEq] at h2
        obtain ⟨rfl, h2⟩ := h2
        rw [List.append_eq_append_iff] at h2
        rcases h2 with ⟨t', h3, h4⟩ | ⟨t', h3, h4⟩
        · cases t' with
          | nil => simp at h4
          | cons z t' =>
            rw [List.cons_append, List.cons.injEq] at h4
            obtain ⟨rfl, h4⟩ := h4
            exact ih (l₁ := l₁) (l₂ := l₂) (l₃ := t') (by rw [h1, h3]; simp) hno
        · cases t' with
          | nil => simp at h4
          | cons z t' =>
            rw [List.cons_append, List.cons.injEq] at h4
            exact absurd (by rw [h3, ← h4.1]; simp) (hno order now)

theorem pair_sublist_asymm {α : Type} {l : List α} {a b : α} (hn : l.Nodup) (h1 : [a, b].Sublist l) (h2 : [b, a].Sublist l) : False := by
  induction l with
  | nil => simp at h1
  | cons x l ih =>
    rw [List.nodup_cons] at hn
    cases h1 with
    | cons _ h1 =>
      cases h2 with
      | cons _ h2 => exact ih hn.2 h1 h2
      | cons_cons _ h2 => exact hn.1 (h1.subset (by simp))
    | cons_cons _ h1 =>
      cases h2 with
      | cons _ h2 => exact hn.1 (h2.subset (by simp))
      | cons_cons _ h2 => exact hn.1 (h1.subset (by simp))

/-- in the order of a snapshot, a controller that must run before another does -/
theorem exec_order {v : View} (hv : v.ValidOrder) (hn : v.names.Nodup) {a b : CtrlView} (ha : a ∈ v.ctrls) (hb : b ∈ v.ctrls)
    (hids : (v.ctrls.map (·.id)).Nodup) (hab : b.name ∈ a.before ∨ a.name ∈ b.after) (hs : [a.id, b.id].Sublist (v.exec.map (·.1))) : False := by
  obtain ⟨hperm, o, hex, hadm, _⟩ := hv
  let seq : List CtrlView := v.order.filterMap (fun j => v.ctrls[j]?)
  have h1 : v.exec.map (·.1) = seq.map (·.id) := by
    unfold View.exec
    simp only [seq, List.map_filterMap, Option.map_map, Function.comp_def]
  have h2 : o = seq.map (·.name) := by
    unfold Executes at hex
    have : ∀ (l : List Nat) (o : List String), l.map (fun i => v.specs[i]?.map (·.name)) = o.map some →
        o = (l.filterMap (fun j => v.ctrls[j]?)).map (·.name) := by
      intro l
      induction l with
      | nil => intro o h; simpa using h.symm
      | cons j l ih =>
        intro o h
        cases o with
        | nil => simp at h
        | cons x o =>
          simp only [List.map_cons, List.cons.injEq] at h
          obtain ⟨h1, h2⟩ := h
          unfold View.specs at h1
          rw [List.getElem?_map, Option.map_map] at h1
          cases hj : v.ctrls[j]? with
          | none => rw [hj] at h1; simp at h1
          | some c =>
            rw [hj] at h1
            simp only [Option.map_some, Function.comp_apply, Option.some.injEq] at h1
            rw [List.filterMap_cons_some hj, List.map_cons, ← ih o h2, ← h1]
    exact this _ _ hex
  rw [h1] at hs
  obtain ⟨l', hl', he⟩ := List.sublist_map_iff.1 hs
  cases l' with
  | nil => simp at he
  | cons x l' =>
    cases l' with
    | nil => simp at he
    | cons y l' =>
      simp only [List.map_cons, List.cons.injEq, List.nil_eq, List.map_eq_nil_iff] at he
      obtain ⟨hxa, hyb, rfl⟩ := he
      have hmem : ∀ z ∈ seq, z ∈ v.ctrls := by
        intro z hz
        obtain ⟨j, _, hj⟩ := List.mem_filterMap.1 hz
        exact List.mem_of_getElem? hj
      have hx : x = a := nodup_map_inj hids (hmem x (hl'.subset (by simp))) ha hxa.symm
      have hy : y = b := nodup_map_inj hids (hmem y (hl'.subset (by simp))) hb hyb.symm
      subst hx hy
      have hs2 : [x.name, y.name].Sublist o := by rw [h2]; exact hl'.map _
      have hspec : ∀ c ∈ v.ctrls, (⟨c.name, c.before, c.after⟩ : SchedSpec String) ∈ v.specs := fun c hc => List.mem_map.2 ⟨c, hc, rfl⟩
      have hpr : Precedes o y.name x.name := by
        rcases hab with h | h
        · exact hadm.before _ (hspec x ha) _ h
        · exact hadm.after _ (hspec y hb) _ h
      have hnod : o.Nodup := by
        refine hadm.perm.nodup_iff.2 ?_
        have : v.specs.map (·.name) = v.names := by simp [View.specs, View.names, Function.comp_def]
        rw [this]; exact hn
      refine pair_sublist_asymm hnod hs2 ?_
      obtain ⟨a1, a2, a3, rfl⟩ := hpr
      rw [List.append_assoc]
      refine List.Sublist.trans ?_ (List.sublist_append_right _ _)
      rw [List.cons_append]
      refine List.Sublist.cons_cons _ ?_
      refine List.Sublist.trans ?_ (List.sublist_append_right _ _)
      exact List.Sublist.cons_cons _ (List.nil_sublist _)

/-- two updates in the same cycle, in terms of the links -/
theorem update_order {m : Bool} {s : State} (h : Reachable m s) {T : Links} (hl : LinkInv T s) {l₁ l₂ l₃ : List Ev} {a b : Nat}
    (hL : s.log = l₁ ++ .update a :: l₂ ++ .update b :: l₃) (hno : ∀ o x, Ev.cycleBegin o x ∉ l₂) :
    ∃ v : View, v.ValidOrder ∧ T.OnView s.next v ∧ [a, b].Sublist (v.exec.map (·.1)) := by
  obtain ⟨done, part, p, now, rest, h1, h2, h3⟩ := C17_log_prefix h
  obtain ⟨order, x, hmem, hsub⟩ := cycles_order (Cycles.snoc h2 h3) (l₁ := l₁) (l₂ := l₂) (l₃ := l₃ ++ rest) (a := a) (b := b)
    (by rw [← List.append_assoc, ← h1, hL]; simp) hno
  obtain ⟨v, hv1, hv2, hv3⟩ := hl.log (.cycleBegin order x) (by rw [hL]; simp [hmem])
  exact ⟨v, hv2, hv3, by rw [hv1]; exact hsub⟩

/-- C105: the requested order holds in every cycle.  If a controller was given another BEFORE_ME, it is never updated before the other in the
same cycle: between an update of it and a later update of the other, a new cycle begins. -/
theorem C105_order_before {m : Bool} {s : State} (h : Reachable m s) {c p : Nat} (hg : Gave s.nlog c p BEFORE_ME)
    {l₁ l₂ l₃ : List Ev} (hL : s.log = l₁ ++ .update c :: l₂ ++ .update p :: l₃) : ∃ o x, Ev.cycleBegin o x ∈ l₂ := by
  by_contra hno
  push Not at hno
  obtain ⟨T, hl⟩ := h.links
  obtain ⟨v, hv, hon, hsub⟩ := update_order h hl hL hno
  obtain ⟨n, hp, hn⟩ := gave_link h hl hg
  have hnb : n ∈ (T c).bef := hn.elim (fun h => h.2) (fun h => absurd h.1 (by decide))
  have hcm : c ∈ v.exec.map (·.1) := hsub.subset (by simp)
  have hexm : ∀ i ∈ v.exec.map (·.1), ∃ z ∈ v.ctrls, z.id = i := by
    intro i hi
    obtain ⟨q, hq, rfl⟩ := List.mem_map.1 hi
    obtain ⟨j, _, hj⟩ := List.mem_filterMap.1 hq
    obtain ⟨z, hz, rfl⟩ := Option.map_eq_some_iff.1 hj
    exact ⟨z, List.mem_of_getElem? hz, rfl⟩
  obtain ⟨z, hz, rfl⟩ := hexm c hcm
  obtain ⟨_, _, hb, ha, hd⟩ := hon.2.2 z hz
  obtain ⟨d, hdm, hdn, hdp⟩ := hd n (Or.inl (hb ▸ hnb))
  rw [hp] at hdp
  subst hdp
  exact exec_order hv hon.1 hz hdm hon.2.1 (Or.inl (by rw [hdn]; exact hb ▸ hnb)) hsub

/-- C105: and if it was given the other AFTER_ME, it is never updated after the other in the same cycle. -/
theorem C105_order_after {m : Bool} {s : State} (h : Reachable m s) {c p : Nat} (hg : Gave s.nlog c p AFTER_ME)
    {l₁ l₂ l₃ : List Ev} (hL : s.log = l₁ ++ .update p :: l₂ ++ .update c :: l₃) : ∃ o x, Ev.cycleBegin o x ∈ l₂ := by
  by_contra hno
  push Not at hno
  obtain ⟨T, hl⟩ := h.links
  obtain ⟨v, hv, hon, hsub⟩ := update_order h hl hL hno
  obtain ⟨n, hp, hn⟩ := gave_link h hl hg
  have hnb : n ∈ (T c).aft := hn.elim (fun h => absurd h.1 (by decide)) (fun h => h.2)
  have hcm : c ∈ v.exec.map (·.1) := hsub.subset (by simp)
  have hexm : ∀ i ∈ v.exec.map (·.1), ∃ z ∈ v.ctrls, z.id = i := by
    intro i hi
    obtain ⟨q, hq, rfl⟩ := List.mem_map.1 hi
    obtain ⟨j, _, hj⟩ := List.mem_filterMap.1 hq
    obtain ⟨z, hz, rfl⟩ := Option.map_eq_some_iff.1 hj
    exact ⟨z, List.mem_of_getElem? hz, rfl⟩
  obtain ⟨z, hz, rfl⟩ := hexm c hcm
  obtain ⟨_, _, hb, ha, hd⟩ := hon.2.2 z hz
  obtain ⟨d, hdm, hdn, hdp⟩ := hd n (Or.inr (ha ▸ hnb))
  rw [hp] at hdp
  subst hdp
  exact exec_order hv hon.1 hdm hz hon.2.1 (Or.inr (by rw [hdn]; exact ha ▸ hnb)) hsub

/-- C105, for what a controller was given by way of others: the controllers its providers were given, and so on. -/
theorem C105_providers_loaded {m : Bool} {s : State} (h : Reachable m s) {c p : Nat}
    (hg : Relation.TransGen (fun a b => ∃ k, Gave s.nlog a b k) c p) (hc : c ∈ s.view.ctrls.map (·.id)) : p ∈ s.view.ctrls.map (·.id) := by
  induction hg with
  | single h1 => obtain ⟨k, hk⟩ := h1; exact C105_provider_loaded h hk hc
  | tail _ h1 ih => obtain ⟨k, hk⟩ := h1; exact C105_provider_loaded h hk ih

/-! ## The hypotheses are met; what is not promised -/

/-- Load `a`, `b` (given `a` BEFORE_ME) and `c` (given `a` AFTER_ME), start all, run, then stop `a` only. -/
def provTrace : List Act :=
  [.call (goodLoad "a" [])] ++ serve 7 ++ cycle 12 ++ serve 5 ++
  [.call (goodLoad "b" ["a"])] ++ serve 7 ++ cycle 12 ++ serve 5 ++
  [.call (.load ⟨"c", true, some "T", goodLoader, ⟨[⟨"a", AFTER_ME, true⟩], [], [], fun bs => some (bs.all id)⟩⟩)] ++ serve 7 ++ cycle 14 ++ serve 5 ++
  [.call (.switch ["a", "b", "c"] [] STRICT)] ++ serve 4 ++ cycle 40 ++ serve 4 ++
  [.call (.switch [] ["a"] STRICT)] ++ serve 4 ++ cycle 40 ++ serve 4

def provState : State := ((State.init false).run (firstInputs.map Act.rt)).run provTrace

theorem prov_reachable : Reachable false provState := by
  refine reachable_first.run _ ?_
  intro a ha
  have : (provTrace.all (fun a => match a with | .shutdown => false | _ => true)) = true := by decide +kernel
  have := List.all_eq_true.1 this a ha
  rintro rfl; simp at this

/-- the same question, decided by going through the recorded calls -/
def gaveCheck (calls : List CallRec) (c p : Nat) (k : Int) : Bool :=
  calls.any (fun r => match r.op, r.res with
    | .load q, .flag true => q.init.requests.any (fun g => decide (g.sched = k) && g.Granted r.pre.names &&
        r.pre.ctrls.any (fun x => x.name == g.name && x.id == p) && r.post.ctrls.any (fun y => y.name == q.name && y.id == c))
    | _, _ => false)

theorem gave_of_check {calls : List CallRec} {c p : Nat} {k : Int} (h : gaveCheck calls c p k = true) : Gave calls c p k := by
  unfold gaveCheck at h
  obtain ⟨⟨op, res, pre, post, raced⟩, hr, h⟩ := List.any_eq_true.1 h
  dsimp only at h
  split at h
  · obtain ⟨g, hg, h⟩ := List.any_eq_true.1 h
    simp only [Bool.and_eq_true, decide_eq_true_eq, List.any_eq_true, beq_iff_eq] at h
    exact ⟨_, _, _, _, hr, g, hg, h.1.1.1, h.1.1.2, h.1.2, h.2⟩
  · simp at h

theorem prov_gave : Gave provState.nlog 1 0 BEFORE_ME ∧ Gave provState.nlog 2 0 AFTER_ME :=
  ⟨gave_of_check (by decide +kernel), gave_of_check (by decide +kernel)⟩

/-- In a cycle of this run all three are updated: `c` before `a`, `b` after it. -/
example : [Ev.update 2, .update 0, .update 1].Sublist (provState.log) ∧
    provState.view.ctrls.map (fun c => (c.name, c.id, c.running)) = [("a", 0, false), ("b", 1, true), ("c", 2, true)] := by
  constructor
  · have : ([Ev.update 2, .update 0, .update 1].isSublist provState.log) = true := by decide +kernel
    exact List.isSublist_iff_sublist.1 this
  · decide +kernel

/-- A step of that run which updates `b`, so `a` exists then. -/
example : ∃ n, (((provState.run (cycle n)).rtStep ⟨false, false, false⟩).log = (provState.run (cycle n)).log ++ [.update 1]) :=
  ⟨10, by decide +kernel⟩

/-- Not promised: that the provider *runs*.  A controller can be stopped while one that was given it runs on, calling it perhaps in each update. -/
theorem C105_provider_may_be_stopped : ∃ (s : State) (c p : CtrlView), Reachable false s ∧ (s.nrt matches .idle) = true ∧
    Gave s.nlog c.id p.id BEFORE_ME ∧ c ∈ s.view.ctrls ∧ p ∈ s.view.ctrls ∧ c.running = true ∧ p.running = false :=
  ⟨provState, ⟨"b", 1, ["a"], [], true⟩, ⟨"a", 0, [], [], false⟩, prov_reachable, by decide +kernel, prov_gave.1, by decide +kernel,
    by decide +kernel, rfl, rfl⟩

/-- Load `a`, then `b` which asks for `a` with a scheduling that is neither BEFORE_ME nor AFTER_ME and ignores the answer; start `b`; unload `a`. -/
def unschedTrace : List Act :=
  [.call (goodLoad "a" [])] ++ serve 7 ++ cycle 12 ++ serve 5 ++
  [.call (.load ⟨"b", true, some "T", goodLoader, ⟨[⟨"a", 2, true⟩], [], [], fun _ => some true⟩⟩)] ++ serve 7 ++ cycle 12 ++ serve 5 ++
  [.call (.switch ["b"] [] STRICT)] ++ serve 4 ++ cycle 40 ++ serve 4 ++
  [.call (.unload "a")] ++ serve 7 ++ cycle 16 ++ serve 5

def unschedState : State := ((State.init false).run (firstInputs.map Act.rt)).run unschedTrace

theorem unsched_reachable : Reachable false unschedState := by
  refine reachable_first.run _ ?_
  intro a ha
  have : (unschedTrace.all (fun a => match a with | .shutdown => false | _ => true)) = true := by decide +kernel
  have := List.all_eq_true.1 this a ha
  rintro rfl; simp at this

/-- Not promised either: anything about a controller asked for with another scheduling than BEFORE_ME or AFTER_ME.  `getController` has set the
pointer by then (`providerFind`), but returns false and records nothing; a plugin that goes on with the pointer is left with one to a destroyed object. -/
theorem C105_unscheduled_dangles : ∃ (s : State) (q : LoadReq) (pre post : View) (raced : Bool) (r : GetReq) (p : CtrlView) (c : CtrlView),
    Reachable false s ∧ (⟨.load q, .flag true, pre, post, raced⟩ : CallRec) ∈ s.nlog ∧ r ∈ q.init.requests ∧
    providerFind pre.names r = true ∧ r.Granted pre.names = false ∧ p ∈ pre.ctrls ∧ p.name = r.name ∧
    c ∈ s.view.ctrls ∧ c.name = q.name ∧ c.running = true ∧ s.alive p.id = false := by
  have h : unschedState.nlog[1]?.isSome = true := by decide +kernel
  obtain ⟨rec, hrec⟩ := Option.isSome_iff_exists.1 h
  have hop : ∃ q, rec.op = .load q ∧ q.name = "b" ∧ q.init.requests = [⟨"a", 2, true⟩] := by
    have : (unschedState.nlog[1]?.map (fun r => match r.op with | .load q => q.name == "b" && decide (q.init.requests = [⟨"a", 2, true⟩]) | _ => false)) =
        some true := by decide +kernel
    rw [hrec, Option.map_some, Option.some.injEq] at this
    split at this
    · rename_i q hq
      simp only [Bool.and_eq_true, beq_iff_eq, decide_eq_true_eq] at this
      exact ⟨q, hq, this⟩
    · simp at this
  have hres : rec.res = .flag true := by
    have : unschedState.nlog[1]?.map (·.res) = some (.flag true) := by decide +kernel
    rw [hrec] at this; exact Option.some.inj this
  have hpre : rec.pre = ⟨[⟨"a", 0, [], [], false⟩], [0]⟩ := by
    have : unschedState.nlog[1]?.map (·.pre) = some ⟨[⟨"a", 0, [], [], false⟩], [0]⟩ := by decide +kernel
    rw [hrec] at this; exact Option.some.inj this
  obtain ⟨op, res, pre, post, raced⟩ := rec
  dsimp only at hop hres hpre
  obtain ⟨q, rfl, hqn, hqr⟩ := hop
  subst hres hpre
  exact ⟨unschedState, q, _, post, raced, ⟨"a", 2, true⟩, ⟨"a", 0, [], [], false⟩, ⟨"b", 1, [], [], true⟩, unsched_reachable,
    List.mem_of_getElem? hrec, by rw [hqr]; decide, by decide +kernel, by decide +kernel, by decide, rfl, by decide +kernel, hqn.symm, rfl, by decide +kernel⟩

end Pr2
