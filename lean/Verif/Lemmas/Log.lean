import Verif.Lemmas.Reach

namespace Pr2
set_option linter.unusedVariables false
set_option linter.unusedSimpArgs false

/-- What a service step may not touch. -/
structure NrtKeeps (s s' : State) : Prop where
  log : s'.log = s.log
  rt : s'.rt = s.rt
  used : s'.used = s.used
  lists : ∀ u, s.used = some u → s'.lists u = s.lists u ∧ s'.sched u = s.sched u
  runs : ∀ u, s.used = some u → ∀ e ∈ s.lists u, s'.runs e.id = s.runs e.id
  fills : s.rt.fills = true → s'.current = s.current
  sw : s.rt.inSwitch = true → s'.stopReq = s.stopReq ∧ s'.startReq = s.startReq
  motors : s'.motorsPrev = s.motorsPrev

theorem NrtKeeps.refl (s : State) : NrtKeeps s s :=
  ⟨rfl, rfl, rfl, fun _ _ => ⟨rfl, rfl⟩, fun _ _ _ _ => rfl, fun _ => rfl, fun _ => ⟨rfl, rfl⟩, rfl⟩

theorem runs_eq {s s' : State} (h1 : s'.rt = s.rt) {j : Nat} (h2 : s'.heap j = s.heap j) : s'.runs j = s.runs j := by
  simp [State.runs, State.isRunning, State.midRestart, h1, h2]

/-- steps that touch none of the protected fields -/
theorem NrtKeeps.of {s s' : State} (h1 : s'.log = s.log) (h2 : s'.rt = s.rt) (h3 : s'.used = s.used) (h4 : s'.lists = s.lists)
    (h5 : s'.sched = s.sched) (h6 : s'.heap = s.heap) (h7 : s'.current = s.current) (h8 : s'.stopReq = s.stopReq)
    (h9 : s'.startReq = s.startReq) (h10 : s'.motorsPrev = s.motorsPrev) : NrtKeeps s s' :=
  ⟨h1, h2, h3, fun u _ => by rw [h4, h5]; exact ⟨rfl, rfl⟩, fun u _ e _ => runs_eq h2 (by rw [h6]), fun _ => h7, fun _ => ⟨h8, h9⟩, h10⟩

theorem Inv.notFillsOf {s : State} (h : Inv s) (hn : s.nrt.holdsPub = true) : s.rt.fills = false := by
  by_contra hc
  have h1 := h.pubR.2 (by simpa using hc)
  have h2 := h.pubN.2 hn
  rw [h1] at h2; simp at h2

theorem Inv.notInSwitch {s : State} (h : Inv s) (hn : s.nrt.waitsSwitch = false) : s.rt.inSwitch = false := by
  by_contra hc
  have := (h.switchFacts (by simpa using hc)).2
  rw [hn] at this; simp at this

theorem nrtKeeps {s : State} (h : Inv s) : NrtKeeps s s.nrtStep := by
  cases hn : s.nrt with
  | idle => unfold State.nrtStep; rw [hn]; exact NrtKeeps.refl s
  | wait1 op =>
    unfold State.nrtStep; rw [hn]; simp only
    split <;> exact NrtKeeps.of rfl rfl rfl rfl rfl rfl rfl rfl rfl rfl
  | wait1Inner op =>
    unfold State.nrtStep; rw [hn]; simp only [h.ok, if_true]
    exact NrtKeeps.of rfl rfl rfl rfl rfl rfl rfl rfl rfl rfl
  | build op =>
    unfold State.nrtStep; rw [hn]; simp only
    split <;> exact NrtKeeps.of rfl rfl rfl rfl rfl rfl rfl rfl rfl rfl
  | build2 op =>
    have hu := h.usedCurrent (by rw [hn]; rfl)
    have hns := h.notInSwitch (by rw [hn]; rfl)
    have hc : ∀ u, s.used = some u → u = s.current := by
      intro u h1; rw [hu, Option.some.injEq] at h1; exact h1.symm
    cases op with
    | load r =>
      rcases nrtStep_build2_load h hn with ⟨hok, he, hg, hst⟩ | ⟨hok, he⟩ <;> rw [he]
      · refine ⟨rfl, rfl, rfl, ?_, ?_, fun _ => rfl, fun _ => ⟨rfl, rfl⟩, rfl⟩
        · intro u h1; rw [hc u h1]; simp only [setAt_not]; exact ⟨trivial, trivial⟩
        · intro u h1 e he
          rw [hc u h1] at he
          refine runs_eq ?_ ?_
          · rfl
          have := ne_of_lt (h.good.lt e he)
          simp [this]
      · refine ⟨rfl, rfl, rfl, ?_, ?_, fun _ => rfl, fun _ => ⟨rfl, rfl⟩, rfl⟩
        · intro u h1; rw [hc u h1]; simp only [State.ret, setAt_not]; exact ⟨trivial, trivial⟩
        · intro u h1 e he; exact runs_eq rfl rfl
    | unload n =>
      rcases nrtStep_build2_unload h hn with ⟨hok, he, hg⟩ | ⟨hok, he⟩ <;> rw [he]
      · refine ⟨rfl, rfl, rfl, ?_, ?_, fun _ => rfl, fun _ => ⟨rfl, rfl⟩, rfl⟩
        · intro u h1; rw [hc u h1]; simp only [setAt_not]; exact ⟨trivial, trivial⟩
        · intro u h1 e he; exact runs_eq rfl rfl
      · refine ⟨rfl, rfl, rfl, ?_, ?_, fun _ => rfl, fun _ => ⟨rfl, rfl⟩, rfl⟩
        · intro u h1; rw [hc u h1]; simp only [State.ret, setAt_not]; exact ⟨trivial, trivial⟩
        · intro u h1 e he; exact runs_eq rfl rfl
    | switch a b c => have := h.wf; rw [hn] at this; simp [NrtPc.wf, Op.isListOp] at this
    | list => have := h.wf; rw [hn] at this; simp [NrtPc.wf, Op.isListOp] at this
  | pubLock op =>
    unfold State.nrtStep; rw [hn]; simp only
    split <;> exact NrtKeeps.of rfl rfl rfl rfl rfl rfl rfl rfl rfl rfl
  | pubResize op =>
    unfold State.nrtStep; rw [hn]; simp only
    exact NrtKeeps.of rfl rfl rfl rfl rfl rfl rfl rfl rfl rfl
  | swap op =>
    have hf := h.notFillsOf (by rw [hn]; rfl)
    unfold State.nrtStep; rw [hn]; simp only
    refine ⟨rfl, rfl, rfl, fun _ _ => ⟨rfl, rfl⟩, fun _ _ _ _ => rfl, ?_, fun _ => ⟨rfl, rfl⟩, rfl⟩
    intro hc; rw [hf] at hc; simp at hc
  | wait2 op f =>
    unfold State.nrtStep; rw [hn]; simp only
    split <;> exact NrtKeeps.of rfl rfl rfl rfl rfl rfl rfl rfl rfl rfl
  | wait2Inner op f =>
    unfold State.nrtStep; rw [hn]; simp only [h.ok, if_true]
    exact NrtKeeps.of rfl rfl rfl rfl rfl rfl rfl rfl rfl rfl
  | clear op f =>
    unfold State.nrtStep; rw [hn]; simp only
    split <;> exact NrtKeeps.of rfl rfl rfl rfl rfl rfl rfl rfl rfl rfl
  | clear2 op f =>
    have hu := h.usedCurrent (by rw [hn]; rfl)
    have hf := h.clearing f (by rw [hn]; rfl)
    unfold State.nrtStep; rw [hn]; simp only
    refine ⟨rfl, rfl, rfl, ?_, fun _ _ _ _ => rfl, fun _ => rfl, fun _ => ⟨rfl, rfl⟩, rfl⟩
    intro u h1
    rw [hu, Option.some.injEq] at h1
    subst h1
    rw [hf]; simp only [setAt_not]; exact ⟨trivial, trivial⟩
  | unlock op =>
    unfold State.nrtStep; rw [hn]; simp only
    exact NrtKeeps.of rfl rfl rfl rfl rfl rfl rfl rfl rfl rfl
  | resolve op =>
    unfold State.nrtStep; rw [hn]; simp only
    split <;> exact NrtKeeps.of rfl rfl rfl rfl rfl rfl rfl rfl rfl rfl
  | resolve2 op =>
    have hns := h.notInSwitch (by rw [hn]; rfl)
    unfold State.nrtStep; rw [hn]; simp only
    cases op with
    | switch start stop k =>
      simp only
      split
      · refine ⟨rfl, rfl, rfl, fun _ _ => ⟨rfl, rfl⟩, fun _ _ _ _ => rfl, fun _ => rfl, ?_, rfl⟩
        intro hc; rw [hns] at hc; simp at hc
      · refine ⟨rfl, rfl, rfl, fun _ _ => ⟨rfl, rfl⟩, fun _ _ _ _ => rfl, fun _ => rfl, ?_, rfl⟩
        intro hc; rw [hns] at hc; simp at hc
    | load r => exact NrtKeeps.of rfl rfl rfl rfl rfl rfl rfl rfl rfl rfl
    | unload n => exact NrtKeeps.of rfl rfl rfl rfl rfl rfl rfl rfl rfl rfl
    | list => exact NrtKeeps.of rfl rfl rfl rfl rfl rfl rfl rfl rfl rfl
  | setFlag op =>
    unfold State.nrtStep; rw [hn]; simp only
    exact NrtKeeps.of rfl rfl rfl rfl rfl rfl rfl rfl rfl rfl
  | waitSwitch op =>
    unfold State.nrtStep; rw [hn]; simp only
    split <;> exact NrtKeeps.of rfl rfl rfl rfl rfl rfl rfl rfl rfl rfl
  | waitSwitchInner op =>
    unfold State.nrtStep; rw [hn]; simp only [h.ok, if_true]
    exact NrtKeeps.of rfl rfl rfl rfl rfl rfl rfl rfl rfl rfl
  | listing k acc =>
    rcases nrtStep_listing h hn with ⟨hk, he⟩ | ⟨j, e, hj, he1, he2, he⟩ <;> rw [he]
    all_goals exact NrtKeeps.of rfl rfl rfl rfl rfl rfl rfl rfl rfl rfl

theorem callKeeps (s : State) (op : Op) : NrtKeeps s (s.call op) := by
  unfold State.call
  split
  · exact NrtKeeps.of rfl rfl rfl rfl rfl rfl rfl rfl rfl rfl
  · exact NrtKeeps.refl s

/-- execution order of list `u` with run flags -/
def orderOf (s : State) (u : Bool) : List (Nat × Bool) :=
  (s.sched u).filterMap (fun j => (s.lists u)[j]?.map (fun e => (e.id, s.runs e.id)))

theorem viewOf_exec (h : Heap) (l : List Entry) (sc : List Nat) (R : Nat → Bool) :
    (viewOf h l sc R).exec = sc.filterMap (fun j => l[j]?.map (fun e => (e.id, R e.id))) := by
  unfold View.exec viewOf
  simp only [List.getElem?_map, Option.map_map, Function.comp_def]

theorem orderOf_congr {s s' : State} {u : Bool} (hl : s'.lists u = s.lists u) (hsc : s'.sched u = s.sched u)
    (hr : ∀ e ∈ s.lists u, s'.runs e.id = s.runs e.id) : orderOf s' u = orderOf s u := by
  unfold orderOf
  rw [hl, hsc]
  apply List.filterMap_congr
  intro j _
  cases he : (s.lists u)[j]? with
  | none => rfl
  | some e => simp only [Option.map_some]; rw [hr e (List.mem_of_getElem? he)]

theorem orderOf_eq_map {s : State} {u : Bool} (g : Good s.heap s.next (s.lists u) (s.sched u)) :
    orderOf s u = (s.sched u).map (fun j => ((s.lists u)[j]?.map (fun e => (e.id, s.runs e.id))).getD (0, false)) := by
  have hall : ∀ j ∈ s.sched u, ∃ e, (s.lists u)[j]? = some e := by
    intro j hj
    have := g.perm.mem_iff.1 hj
    exact ⟨_, List.getElem?_eq_getElem (by simpa using this)⟩
  unfold orderOf
  generalize s.sched u = sc at hall
  induction sc with
  | nil => rfl
  | cons j sc ih =>
    obtain ⟨e, he⟩ := hall j (by simp)
    rw [List.filterMap_cons, he]
    simp only [Option.map_some, List.map_cons, he, Option.getD_some]
    rw [ih (fun j hj => hall j (by simp [hj]))]

theorem orderOf_length {s : State} {u : Bool} (g : Good s.heap s.next (s.lists u) (s.sched u)) :
    (orderOf s u).length = (s.lists u).length := by
  rw [orderOf_eq_map g, List.length_map, g.sched_length]

theorem orderOf_get {s : State} {u : Bool} (g : Good s.heap s.next (s.lists u) (s.sched u)) {k j : Nat} {e : Entry}
    (h1 : (s.sched u)[k]? = some j) (h2 : (s.lists u)[j]? = some e) : (orderOf s u)[k]? = some (e.id, s.runs e.id) := by
  rw [orderOf_eq_map g, List.getElem?_map, h1]
  simp [h2]

theorem restartEvents_snoc (l : List (Nat × Bool)) (p : Nat × Bool) :
    restartEvents (l ++ [p]) = restartEvents l ++ (if p.2 then [.stopping p.1, .starting p.1] else []) := by
  simp [restartEvents, List.flatMap_append]

theorem updateEvents_snoc (l : List (Nat × Bool)) (p : Nat × Bool) :
    updateEvents (l ++ [p]) = updateEvents l ++ (if p.2 then [.update p.1] else []) := by
  simp [updateEvents, List.flatMap_append]

/-- where the log stands, by position of the realtime loop -/
def LogOk (m : Bool) (s : State) : Prop :=
  ∃ done p, Cycles m done p ∧
  match s.rt with
  | .idle | .gotCurrent _ | .pre => s.log = done ∧ s.motorsPrev = p
  | .restart k => p = true ∧ s.motorsPrev = false ∧ ∀ u, s.used = some u →
      s.log = done ++ .cycleBegin (orderOf s u) false :: restartEvents ((orderOf s u).take k)
  | .restartMid k id => p = true ∧ s.motorsPrev = false ∧ ∀ u, s.used = some u → (orderOf s u)[k]? = some (id, true) ∧
      s.log = done ++ .cycleBegin (orderOf s u) false :: (restartEvents ((orderOf s u).take k) ++ [.stopping id])
  | .sweep k => ∀ u, s.used = some u → 
      s.log = done ++ .cycleBegin (orderOf s u) s.motorsPrev ::
        ((if p && !s.motorsPrev then restartEvents (orderOf s u) else []) ++ updateEvents ((orderOf s u).take k))
  | .publish => ∃ order, s.log = done ++ sweepEvents order p s.motorsPrev
  | .pubFill k msg => ∃ order, s.log = done ++ sweepEvents order p s.motorsPrev ∧
      msg = ((s.lists s.current).take k).map (fun e => (e.name, s.runs e.id))
  | .switchCheck => ∃ order pub, PubEvents pub ∧ s.log = done ++ (sweepEvents order p s.motorsPrev ++ pub)
  | .switchStop k => ∃ order pub, PubEvents pub ∧
      s.log = done ++ (sweepEvents order p s.motorsPrev ++ pub ++ .switchBegin s.stopReq s.startReq :: (s.stopReq.take k).map Ev.stopping)
  | .switchStart k => ∃ order pub, PubEvents pub ∧
      s.log = done ++ (sweepEvents order p s.motorsPrev ++ pub ++ .switchBegin s.stopReq s.startReq :: (s.stopReq.map Ev.stopping ++ (s.startReq.take k).map Ev.starting))
  | .switchClear => ∃ order pub, PubEvents pub ∧
      s.log = done ++ (sweepEvents order p s.motorsPrev ++ pub ++ .switchBegin s.stopReq s.startReq :: (s.stopReq.map Ev.stopping ++ s.startReq.map Ev.starting))
  | .switchFlag | .done => ∃ order pub sw, PubEvents pub ∧ SwitchEvents sw ∧ s.log = done ++ (sweepEvents order p s.motorsPrev ++ pub ++ sw)

theorem LogOk.keep {m : Bool} {s s' : State} (h : Inv s) (hl : LogOk m s) (hk : NrtKeeps s s') : LogOk m s' := by
  obtain ⟨done, p, hd, hl⟩ := hl
  refine ⟨done, p, hd, ?_⟩
  have ho : ∀ u, s.used = some u → orderOf s' u = orderOf s u := fun u hu =>
    orderOf_congr (hk.lists u hu).1 (hk.lists u hu).2 (hk.runs u hu)
  rw [hk.rt]
  have hsw := hk.sw
  have hfl := hk.fills
  have hus : s.rt.fills = true → s.used = some s.current := fun hf => (h.fillsUsed hf).1
  cases hrt : s.rt with
  | idle => rw [hrt] at hl; simp only at hl ⊢; rw [hk.log, hk.motors]; exact hl
  | gotCurrent r => rw [hrt] at hl; simp only at hl ⊢; rw [hk.log, hk.motors]; exact hl
  | pre => rw [hrt] at hl; simp only at hl ⊢; rw [hk.log, hk.motors]; exact hl
  | restart k =>
    rw [hrt] at hl; simp only at hl ⊢
    refine ⟨hl.1, by rw [hk.motors]; exact hl.2.1, ?_⟩
    intro u hu; rw [hk.used] at hu; rw [hk.log, ho u hu]; exact hl.2.2 u hu
  | restartMid k id =>
    rw [hrt] at hl; simp only at hl ⊢
    refine ⟨hl.1, by rw [hk.motors]; exact hl.2.1, ?_⟩
    intro u hu; rw [hk.used] at hu; rw [hk.log, ho u hu]; exact hl.2.2 u hu
  | sweep k =>
    rw [hrt] at hl; simp only at hl ⊢
    intro u hu; rw [hk.used] at hu; rw [hk.log, hk.motors, ho u hu]; exact hl u hu
  | publish => rw [hrt] at hl; simp only at hl ⊢; rw [hk.log, hk.motors]; exact hl
  | pubFill k msg =>
    rw [hrt] at hl hfl hus; simp only at hl ⊢
    have hu := hus rfl
    rw [hk.log, hk.motors, hfl rfl, (hk.lists _ hu).1]
    obtain ⟨order, h1, h2⟩ := hl
    refine ⟨order, h1, ?_⟩
    rw [h2]
    apply List.map_congr_left
    intro e he
    rw [hk.runs _ hu e (List.mem_of_mem_take he)]
  | switchCheck => rw [hrt] at hl; simp only at hl ⊢; rw [hk.log, hk.motors]; exact hl
  | switchStop k => rw [hrt] at hl hsw; simp only at hl ⊢; rw [hk.log, hk.motors, (hsw rfl).1, (hsw rfl).2]; exact hl
  | switchStart k => rw [hrt] at hl hsw; simp only at hl ⊢; rw [hk.log, hk.motors, (hsw rfl).1, (hsw rfl).2]; exact hl
  | switchClear => rw [hrt] at hl hsw; simp only at hl ⊢; rw [hk.log, hk.motors, (hsw rfl).1, (hsw rfl).2]; exact hl
  | switchFlag => rw [hrt] at hl; simp only at hl ⊢; rw [hk.log, hk.motors]; exact hl
  | done => rw [hrt] at hl; simp only at hl ⊢; rw [hk.log, hk.motors]; exact hl

theorem isRunning_eq_runs {s : State} (h : s.rt.mid = none) (j : Nat) : s.isRunning j = s.runs j := by
  have : s.midRestart j = false := by
    by_contra hc
    have := (midRestart_eq s j).1 (by simpa using hc)
    rw [h] at this; simp at this
  simp [State.runs, this]

theorem LogOk.rtStep {m : Bool} {s : State} (h : Inv s) (hl : LogOk m s) (i : RtIn) : LogOk m (s.rtStep i) := by
  obtain ⟨done, p, hd, hl⟩ := hl
  have horder : s.rt.inSwitch = false → ∀ u, orderOf (s.rtStep i) u = orderOf s u := by
    intro hs u
    obtain ⟨hr, hb, hl, hsc, hc, hn, hsnap, hra, hnl, hps, hst, hsa, hnx⟩ := rtStep_runs h i hs
    exact orderOf_congr (by rw [hl]) (by rw [hsc]) (fun e _ => hr e.id)
  cases hrt : s.rt with
  | idle =>
    rw [hrt] at hl; simp only at hl
    have he : s.rtStep i = { s with rt := .gotCurrent s.current } := by unfold State.rtStep; rw [hrt]
    rw [he]; exact ⟨done, p, hd, hl⟩
  | gotCurrent r =>
    rw [hrt] at hl; simp only at hl
    have he : s.rtStep i = { s with used := some r, rt := .pre } := by unfold State.rtStep; rw [hrt]
    rw [he]; exact ⟨done, p, hd, hl⟩
  | pre =>
    rw [hrt] at hl horder; simp only at hl
    have horder := horder rfl
    obtain ⟨u, hu, he⟩ := rtStep_pre h i hrt
    have ho : (s.sched u).filterMap (fun j => (s.lists u)[j]?.map (fun e => (e.id, s.isRunning e.id))) = orderOf s u := by
      unfold orderOf
      simp only [isRunning_eq_runs (s := s) (by rw [hrt]; rfl)]
    rw [ho] at he
    refine ⟨done, p, hd, ?_⟩
    obtain ⟨hl, hmp⟩ := hl
    by_cases hre : (!i.halted && s.motorsPrev) = true
    · have hrt' : (s.rtStep i).rt = .restart 0 := by rw [he]; simp [hre]
      rw [hrt']
      have hh : i.halted = false ∧ s.motorsPrev = true := by simpa using hre
      refine ⟨by rw [← hmp]; exact hh.2, by rw [he]; exact hh.1, ?_⟩
      intro u' hu'
      have : u' = u := by rw [he] at hu'; simp only [hu, Option.some.injEq] at hu'; exact hu'.symm
      subst this
      rw [horder u', he]; simp [hh.1, hl, restartEvents]
    · have hrt' : (s.rtStep i).rt = .sweep 0 := by rw [he]; simp [hre]
      rw [hrt']
      intro u' hu'
      have : u' = u := by rw [he] at hu'; simp only [hu, Option.some.injEq] at hu'; exact hu'.symm
      subst this
      have hre' : (p && !i.halted) = false := by rw [← hmp, Bool.and_comm]; simpa using hre
      rw [horder u', he]; simp only [hre', hl]; simp [updateEvents]
  | restart k =>
    rw [hrt] at hl horder; simp only at hl
    have horder := horder rfl
    obtain ⟨u, hu, he⟩ := rtStep_restart h i hrt
    obtain ⟨hp1, hp2, hl⟩ := hl
    have hl := hl u hu
    have g := h.goodUsed hu
    refine ⟨done, p, hd, ?_⟩
    rcases he with ⟨hk, j, e, h1, h2, h3, ⟨hr, he⟩ | ⟨hr, he⟩⟩ | ⟨hk, he⟩
    · have hrt' : (s.rtStep i).rt = .restartMid k e.id := by rw [he]
      rw [hrt']
      refine ⟨hp1, by rw [he]; exact hp2, ?_⟩
      intro u' hu'
      have : u' = u := by rw [he] at hu'; simp only [hu, Option.some.injEq] at hu'; exact hu'.symm
      subst this
      have hget := orderOf_get g h1 h2
      rw [← isRunning_eq_runs (s := s) (by rw [hrt]; rfl), hr] at hget
      rw [horder u']
      refine ⟨hget, ?_⟩
      rw [he]; simp [hl]
    · have hrt' : (s.rtStep i).rt = .restart (k+1) := by rw [he]
      rw [hrt']
      refine ⟨hp1, by rw [he]; exact hp2, ?_⟩
      intro u' hu'
      have : u' = u := by rw [he] at hu'; simp only [hu, Option.some.injEq] at hu'; exact hu'.symm
      subst this
      have hget := orderOf_get g h1 h2
      rw [← isRunning_eq_runs (s := s) (by rw [hrt]; rfl), hr] at hget
      rw [horder u', take_succ_of hget, restartEvents_snoc, he]; simp [hl]
    · have hrt' : (s.rtStep i).rt = .sweep 0 := by rw [he]
      rw [hrt']
      intro u' hu'
      have : u' = u := by rw [he] at hu'; simp only [hu, Option.some.injEq] at hu'; exact hu'.symm
      subst this
      rw [List.take_of_length_le (by rw [orderOf_length g]; exact hk)] at hl
      rw [horder u', he]; simp [hl, updateEvents, hp1, hp2]
  | restartMid k id =>
    rw [hrt] at hl horder; simp only at hl
    have horder := horder rfl
    have he := rtStep_restartMid h i hrt
    refine ⟨done, p, hd, ?_⟩
    have hrt' : (s.rtStep i).rt = .restart (k+1) := by rw [he]
    rw [hrt']
    obtain ⟨hp1, hp2, hl⟩ := hl
    refine ⟨hp1, by rw [he]; exact hp2, ?_⟩
    intro u hu
    have hu : s.used = some u := by rw [he] at hu; exact hu
    obtain ⟨h1, h2⟩ := hl u hu
    rw [horder u, take_succ_of h1, restartEvents_snoc, he]
    simp [h2]
  | sweep k =>
    rw [hrt] at hl horder; simp only at hl
    have horder := horder rfl
    obtain ⟨u, hu, he⟩ := rtStep_sweep h i hrt
    have hl := hl u hu
    have g := h.goodUsed hu
    refine ⟨done, p, hd, ?_⟩
    rcases he with ⟨hk, j, e, h1, h2, h3, he⟩ | ⟨hk, he⟩
    · have hrt' : (s.rtStep i).rt = .sweep (k+1) := by rw [he]
      rw [hrt']
      intro u' hu'
      have : u' = u := by rw [he] at hu'; simp only [hu, Option.some.injEq] at hu'; exact hu'.symm
      subst this
      have hget := orderOf_get g h1 h2
      rw [← isRunning_eq_runs (s := s) (by rw [hrt]; rfl)] at hget
      rw [horder u', take_succ_of hget, updateEvents_snoc, he]; simp [hl]
    · have hrt' : (s.rtStep i).rt = .publish := by rw [he]
      rw [hrt']
      rw [List.take_of_length_le (by rw [orderOf_length g]; exact hk)] at hl
      refine ⟨orderOf s u, ?_⟩
      rw [he]; exact hl
  | publish =>
    rw [hrt] at hl; simp only at hl
    obtain ⟨order, hl⟩ := hl
    unfold State.rtStep; rw [hrt]; simp only
    split
    · exact ⟨done, p, hd, order, hl, by simp⟩
    · exact ⟨done, p, hd, order, [], Or.inl rfl, by simpa using hl⟩
  | pubFill k msg =>
    rw [hrt] at hl; simp only at hl
    obtain ⟨order, hl, hm⟩ := hl
    have hir : ∀ j, s.isRunning j = s.runs j := isRunning_eq_runs (s := s) (by rw [hrt]; rfl)
    obtain ⟨hu, hn, he⟩ := rtStep_pubFill h i hrt
    rcases he with ⟨e, he1, he⟩ | ⟨hk, he⟩ <;> rw [he]
    · refine ⟨done, p, hd, order, hl, ?_⟩
      dsimp only
      rw [take_succ_of he1, List.map_append, hm, hir]
      congr 1
      · apply List.map_congr_left
        intro e' _
        simp only [State.runs, State.midRestart, hrt, State.isRunning]
      · simp only [State.runs, State.midRestart, hrt, State.isRunning]; rfl
    · rw [List.take_of_length_le hk] at hm
      refine ⟨done, p, hd, order, _, Or.inr ⟨(s.lists s.current).map (fun e => (e, s.isRunning e.id)), rfl⟩, ?_⟩
      simp only [hl, hm, List.append_assoc, List.map_map, Function.comp_def, hir]
  | switchCheck =>
    rw [hrt] at hl; simp only at hl
    obtain ⟨order, pub, hp, hl⟩ := hl
    unfold State.rtStep; rw [hrt]; simp only
    split
    · exact ⟨done, p, hd, order, pub, hp, by simp [hl]⟩
    · exact ⟨done, p, hd, order, pub, [], hp, Or.inl rfl, by simp [hl]⟩
  | switchStop k =>
    rw [hrt] at hl; simp only at hl
    obtain ⟨order, pub, hp, hl⟩ := hl
    rcases rtStep_switchStop h i hrt with ⟨id, hid, ⟨e, he, hee⟩, he'⟩ | ⟨hk, he'⟩ <;> rw [he']
    · refine ⟨done, p, hd, order, pub, hp, ?_⟩
      rw [take_succ_of hid]; simp [hl]
    · rw [List.take_of_length_le hk] at hl
      exact ⟨done, p, hd, order, pub, hp, by simp [hl]⟩
  | switchStart k =>
    rw [hrt] at hl; simp only at hl
    obtain ⟨order, pub, hp, hl⟩ := hl
    rcases rtStep_switchStart h i hrt with ⟨id, hid, ⟨e, he, hee⟩, he'⟩ | ⟨hk, he'⟩ <;> rw [he']
    · refine ⟨done, p, hd, order, pub, hp, ?_⟩
      rw [take_succ_of hid]; simp [hl]
    · rw [List.take_of_length_le hk] at hl
      exact ⟨done, p, hd, order, pub, hp, by simp [hl]⟩
  | switchClear =>
    rw [hrt] at hl; simp only at hl
    obtain ⟨order, pub, hp, hl⟩ := hl
    rw [rtStep_switchClear h i hrt]
    exact ⟨done, p, hd, order, pub, _, hp, Or.inr ⟨s.stopReq, s.startReq, rfl⟩, by simp [hl]⟩
  | switchFlag =>
    rw [hrt] at hl; simp only at hl
    have he : s.rtStep i = { s with pleaseSwitch := false, rt := .done } := by unfold State.rtStep; rw [hrt]
    rw [he]
    exact ⟨done, p, hd, hl⟩
  | done =>
    rw [hrt] at hl; simp only at hl
    obtain ⟨order, pub, sw, hp, hs, hl⟩ := hl
    have he : s.rtStep i = { s with rt := .idle, log := s.log ++ [.cycleEnd] } := by unfold State.rtStep; rw [hrt]
    rw [he]
    exact ⟨_, _, Cycles.snoc hd ⟨order, pub, sw, hp, hs, rfl⟩, by simp [hl], rfl⟩

theorem Reachable.logOk {m : Bool} {s : State} (h : Reachable m s) : LogOk m s :=
  (reach_induct m (P := LogOk m) ⟨[], m, Cycles.nil, rfl, rfl⟩ (fun s i h hl => hl.rtStep h i) (fun s h hl => hl.keep h (nrtKeeps h))
    (fun s op h hl => hl.keep h (callKeeps s op)) h).2

end Pr2
