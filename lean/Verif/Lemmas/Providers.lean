import Verif.Lemmas.Lifecycle

/-! Bookkeeping for C105: every controller object keeps, for as long as it is loaded, the very objects it was given when it was initialised. -/

namespace Pr2
set_option linter.unusedVariables false
set_option linter.unusedSimpArgs false

/-- what is fixed about an object when it is made: its name, its requests, and the object behind each requested name -/
structure Link where
  name : String
  bef : List String
  aft : List String
  prov : String → Nat

abbrev Links := Nat → Link

/-- a list respects the links: the objects it was given are in it -/
def Links.OnList (T : Links) (N : Nat) (l : List Entry) : Prop :=
  ∀ e ∈ l, e.id < N ∧ (T e.id).name = e.name ∧ ∀ n, n ∈ (T e.id).bef ∨ n ∈ (T e.id).aft → ∃ d ∈ l, d.name = n ∧ d.id = (T e.id).prov n

/-- the same for a snapshot -/
def Links.OnView (T : Links) (N : Nat) (v : View) : Prop :=
  v.names.Nodup ∧ (v.ctrls.map (·.id)).Nodup ∧
  ∀ c ∈ v.ctrls, c.id < N ∧ (T c.id).name = c.name ∧ (T c.id).bef = c.before ∧ (T c.id).aft = c.after ∧
    ∀ n, n ∈ c.before ∨ n ∈ c.after → ∃ d ∈ v.ctrls, d.name = n ∧ d.id = (T c.id).prov n

theorem Links.OnList.grow {T T' : Links} {N N' : Nat} {l : List Entry} (h : T.OnList N l) (hN : N ≤ N') (hT : ∀ i < N, T' i = T i) : T'.OnList N' l := by
  intro e he
  obtain ⟨h1, h2, h3⟩ := h e he
  rw [hT _ h1]
  exact ⟨lt_of_lt_of_le h1 hN, h2, h3⟩

theorem Links.OnView.grow {T T' : Links} {N N' : Nat} {v : View} (h : T.OnView N v) (hN : N ≤ N') (hT : ∀ i < N, T' i = T i) : T'.OnView N' v := by
  refine ⟨h.1, h.2.1, fun c hc => ?_⟩
  obtain ⟨h1, h2⟩ := h.2.2 c hc
  rw [hT _ h1]
  exact ⟨lt_of_lt_of_le h1 hN, h2⟩

theorem Links.OnList.view {T : Links} {N : Nat} {l : List Entry} (h : T.OnList N l) {hp : Heap} {sc : List Nat} (g : Good hp N l sc)
    (hd : ∀ i < N, (hp i).before = (T i).bef ∧ (hp i).after = (T i).aft) (R : Nat → Bool) : T.OnView N (viewOf hp l sc R) := by
  refine ⟨by rw [viewOf_names]; exact g.distinct, ?_, ?_⟩
  · have : ((viewOf hp l sc R).ctrls.map (·.id)) = l.map (·.id) := by simp [viewOf, Function.comp_def]
    rw [this]; exact g.ids
  · intro c hc
    obtain ⟨e, he, rfl⟩ := List.mem_map.1 hc
    obtain ⟨h1, h2, h3⟩ := h e he
    obtain ⟨d1, d2⟩ := hd e.id h1
    refine ⟨h1, h2, d1.symm, d2.symm, ?_⟩
    intro n hn
    dsimp only at hn
    rw [d1, d2] at hn
    obtain ⟨d, hd, hd1, hd2⟩ := h3 n hn
    exact ⟨_, List.mem_map.2 ⟨d, hd, rfl⟩, hd1, hd2⟩

/-- what a logged event must satisfy: a cycle works on a snapshot that respects the links -/
def Links.OnEv (T : Links) (N : Nat) : Ev → Prop
  | .cycleBegin order _ => ∃ v : View, v.exec = order ∧ v.ValidOrder ∧ T.OnView N v
  | _ => True

structure LinkInv (T : Links) (s : State) : Prop where
  deps : ∀ i < s.next, (s.heap i).before = (T i).bef ∧ (s.heap i).after = (T i).aft
  cur : T.OnList s.next (s.lists s.current)
  former : ∀ f, s.nrt.former = some f → T.OnList s.next (s.lists f)
  built : s.nrt.built = true → T.OnList s.next (s.lists (!s.current))
  snap : T.OnView s.next s.snap
  calls : ∀ r ∈ s.nlog, T.OnView s.next r.pre ∧ T.OnView s.next r.post
  log : ∀ e ∈ s.log, T.OnEv s.next e

/-- a step of the realtime loop that logs `evs` -/
theorem LinkInv.rt {T : Links} {s s' : State} (h : LinkInv T s) (evs : List Ev)
    (h1 : ∀ j, (s'.heap j).before = (s.heap j).before ∧ (s'.heap j).after = (s.heap j).after)
    (h2 : s'.lists = s.lists) (h3 : s'.current = s.current) (h4 : s'.nrt = s.nrt) (h5 : s'.snap = s.snap) (h6 : s'.nlog = s.nlog)
    (h7 : s'.next = s.next) (h8 : s'.log = s.log ++ evs) (h9 : ∀ e ∈ evs, T.OnEv s.next e) : LinkInv T s' := by
  refine ⟨?_, ?_, ?_, ?_, ?_, ?_, ?_⟩
  · intro i hi; rw [h7] at hi; rw [(h1 i).1, (h1 i).2]; exact h.deps i hi
  · rw [h7, h2, h3]; exact h.cur
  · rw [h7, h2, h4]; exact h.former
  · rw [h7, h2, h3, h4]; exact h.built
  · rw [h7, h5]; exact h.snap
  · rw [h7, h6]; exact h.calls
  · rw [h7, h8]
    intro e he
    rcases List.mem_append.1 he with he | he
    · exact h.log e he
    · exact h9 e he

theorem LinkInv.used {T : Links} {s : State} (h : Inv s) (hl : LinkInv T s) {u : Bool} (hu : s.used = some u) : T.OnList s.next (s.lists u) := by
  rcases h.used with h1 | ⟨f, h1, h2⟩
  · rw [hu, Option.some.injEq] at h1; rw [h1]; exact hl.cur
  · rw [hu, Option.some.injEq] at h1; rw [h1]; exact hl.former f h2

theorem LinkInv.rtStep {T : Links} {s : State} (h : Inv s) (hl : LinkInv T s) (i : RtIn) : LinkInv T (s.rtStep i) := by
  have no : ∀ j, (s.heap j).before = (s.heap j).before ∧ (s.heap j).after = (s.heap j).after := fun j => ⟨rfl, rfl⟩
  cases hrt : s.rt with
  | idle => unfold State.rtStep; rw [hrt]; exact hl.rt [] no rfl rfl rfl rfl rfl rfl (by simp) (by simp)
  | gotCurrent r => unfold State.rtStep; rw [hrt]; exact hl.rt [] no rfl rfl rfl rfl rfl rfl (by simp) (by simp)
  | pre =>
    obtain ⟨u, hu, he⟩ := rtStep_pre h i hrt
    rw [he]
    refine hl.rt _ no rfl rfl rfl rfl rfl rfl rfl ?_
    intro e he'
    rw [List.mem_singleton] at he'; subst he'
    exact ⟨viewOf s.heap (s.lists u) (s.sched u) s.isRunning, viewOf_exec _ _ _ _, (h.goodUsed hu).validOrder _,
      (hl.used h hu).view (h.goodUsed hu) hl.deps _⟩
  | restart k =>
    obtain ⟨u, hu, he⟩ := rtStep_restart h i hrt
    rcases he with ⟨hk, j, e, h1, h2, h3, ⟨hr, he⟩ | ⟨hr, he⟩⟩ | ⟨hk, he⟩ <;> rw [he]
    · exact hl.rt _ (setSt_deps _ _ _) rfl rfl rfl rfl rfl rfl rfl (by simp [Links.OnEv])
    · exact hl.rt [] no rfl rfl rfl rfl rfl rfl (by simp) (by simp)
    · exact hl.rt [] no rfl rfl rfl rfl rfl rfl (by simp) (by simp)
  | restartMid k id =>
    rw [rtStep_restartMid h i hrt]
    exact hl.rt _ (setSt_deps _ _ _) rfl rfl rfl rfl rfl rfl rfl (by simp [Links.OnEv])
  | sweep k =>
    obtain ⟨u, hu, he⟩ := rtStep_sweep h i hrt
    rcases he with ⟨hk, j, e, h1, h2, h3, he⟩ | ⟨hk, he⟩ <;> rw [he]
    · refine hl.rt _ no rfl rfl rfl rfl rfl rfl rfl ?_
      split <;> simp [Links.OnEv]
    · exact hl.rt [] no rfl rfl rfl rfl rfl rfl (by simp) (by simp)
  | publish =>
    unfold State.rtStep; rw [hrt]; simp only
    split <;> exact hl.rt [] no rfl rfl rfl rfl rfl rfl (by simp) (by simp)
  | pubFill k msg =>
    obtain ⟨hu, hn, he⟩ := rtStep_pubFill h i hrt
    rcases he with ⟨e, he1, he⟩ | ⟨hk, he⟩ <;> rw [he]
    · exact hl.rt [] no rfl rfl rfl rfl rfl rfl (by simp) (by simp)
    · exact hl.rt _ no rfl rfl rfl rfl rfl rfl rfl (by simp [Links.OnEv])
  | switchCheck =>
    unfold State.rtStep; rw [hrt]; simp only
    split
    · exact hl.rt _ no rfl rfl rfl rfl rfl rfl rfl (by simp [Links.OnEv])
    · exact hl.rt [] no rfl rfl rfl rfl rfl rfl (by simp) (by simp)
  | switchStop k =>
    rcases rtStep_switchStop h i hrt with ⟨id, h1, h3, he⟩ | ⟨hk, he⟩ <;> rw [he]
    · exact hl.rt _ (setSt_deps _ _ _) rfl rfl rfl rfl rfl rfl rfl (by simp [Links.OnEv])
    · exact hl.rt [] no rfl rfl rfl rfl rfl rfl (by simp) (by simp)
  | switchStart k =>
    rcases rtStep_switchStart h i hrt with ⟨id, h1, h3, he⟩ | ⟨hk, he⟩ <;> rw [he]
    · exact hl.rt _ (setSt_deps _ _ _) rfl rfl rfl rfl rfl rfl rfl (by simp [Links.OnEv])
    · exact hl.rt [] no rfl rfl rfl rfl rfl rfl (by simp) (by simp)
  | switchClear =>
    rw [rtStep_switchClear h i hrt]
    exact hl.rt _ no rfl rfl rfl rfl rfl rfl rfl (by simp [Links.OnEv])
  | switchFlag => unfold State.rtStep; rw [hrt]; exact hl.rt [] no rfl rfl rfl rfl rfl rfl (by simp) (by simp)
  | done =>
    unfold State.rtStep; rw [hrt]
    exact hl.rt _ no rfl rfl rfl rfl rfl rfl rfl (by simp [Links.OnEv])

theorem LinkInv.view {T : Links} {s : State} (h : Inv s) (hl : LinkInv T s) : T.OnView s.next s.view :=
  hl.cur.view h.good hl.deps s.runs

/-- a step of the service thread that leaves everything the links speak of -/
theorem LinkInv.stay {T : Links} {s s' : State} (h : LinkInv T s) (h1 : s'.heap = s.heap) (h2 : s'.next = s.next) (h3 : s'.lists = s.lists)
    (h4 : s'.current = s.current) (h5 : s'.snap = s.snap) (h6 : s'.nlog = s.nlog) (h7 : s'.log = s.log)
    (h8 : ∀ f, s'.nrt.former = some f → s.nrt.former = some f) (h9 : s'.nrt.built = true → s.nrt.built = true) : LinkInv T s' := by
  refine ⟨?_, ?_, ?_, ?_, ?_, ?_, ?_⟩
  · rw [h1, h2]; exact h.deps
  · rw [h2, h3, h4]; exact h.cur
  · intro f hf; rw [h2, h3]; exact h.former f (h8 f hf)
  · intro hb; rw [h2, h3, h4]; exact h.built (h9 hb)
  · rw [h2, h5]; exact h.snap
  · rw [h2, h6]; exact h.calls
  · rw [h2, h7]; exact h.log

/-- returning from a call, after possibly overwriting the spare list -/
theorem LinkInv.ret {T : Links} {s s' : State} (h : Inv s) (hl : LinkInv T s) (h1 : s'.heap = s.heap) (h2 : s'.next = s.next)
    (h3 : s'.lists s.current = s.lists s.current) (h3' : s'.sched s.current = s.sched s.current)
    (h4 : s'.current = s.current) (h5 : s'.snap = s.snap) (h6 : s'.nlog = s.nlog) (h7 : s'.log = s.log) (h8 : s'.rt = s.rt)
    (op : Op) (r : Res) : LinkInv T (s'.ret op r) := by
  have hv : s'.view = s.view := by
    unfold State.view State.runs State.isRunning State.midRestart
    rw [h1, h4, h3, h3', h8]
  refine ⟨?_, ?_, ?_, ?_, ?_, ?_, ?_⟩
  · show ∀ i < s'.next, _
    rw [h2]; show ∀ i < s.next, (s'.heap i).before = _ ∧ (s'.heap i).after = _
    rw [h1]; exact hl.deps
  · show T.OnList s'.next (s'.lists s'.current)
    rw [h2, h4, h3]; exact hl.cur
  · intro f hf; simp [State.ret, NrtPc.former] at hf
  · intro hb; simp [State.ret, NrtPc.built] at hb
  · show T.OnView s'.next s'.snap
    rw [h2, h5]; exact hl.snap
  · show ∀ r ∈ s'.nlog ++ [_], T.OnView s'.next _ ∧ T.OnView s'.next _
    intro r hr
    rw [h2]
    rcases List.mem_append.1 hr with hr | hr
    · rw [h6] at hr; exact hl.calls r hr
    · rw [List.mem_singleton] at hr; subst hr
      dsimp only
      rw [h5, hv]
      exact ⟨hl.snap, hl.view h⟩
  · show ∀ e ∈ s'.log, T.OnEv s'.next e
    rw [h2, h7]; exact hl.log

/-- a new object: its links are the objects behind the requested names in the list it is added to -/
theorem LinkInv.load {T : Links} {s : State} (h : Inv s) (hl : LinkInv T s) {r : LoadReq} (hn : s.nrt = .build2 (.load r))
    (hok : (loadBody s.heap s.next (s.lists s.current) (s.sched (!s.current)) r).ok = true) : ∃ T', LinkInv T' s.nrtStep := by
  rcases nrtStep_build2_load h hn with ⟨_, he, hg, hst⟩ | ⟨hno, _⟩
  swap
  · rw [hok] at hno; simp at hno
  let l' := s.lists s.current ++ [⟨r.name, s.next⟩]
  let T' : Links := fun i => if i = s.next then ⟨r.name, (newCtrl s r).before, (newCtrl s r).after, fun n => (findByName l' n).getD 0⟩ else T i
  have hT : ∀ i < s.next, T' i = T i := fun i hi => if_neg (by omega)
  have hTn : T' s.next = ⟨r.name, (newCtrl s r).before, (newCtrl s r).after, fun n => (findByName l' n).getD 0⟩ := if_pos rfl
  have hle : s.next ≤ s.next + 1 := by omega
  refine ⟨T', ?_⟩
  rw [he]
  refine ⟨?_, ?_, ?_, ?_, ?_, ?_, ?_⟩
  · intro i hi
    dsimp only at hi ⊢
    by_cases hc : i = s.next
    · rw [if_pos hc, hc, hTn]; exact ⟨rfl, rfl⟩
    · rw [if_neg hc, hT i (by omega)]; exact hl.deps i (by omega)
  · have : setAt s.lists (!s.current) (s.lists s.current ++ [⟨r.name, s.next⟩]) s.current = s.lists s.current := by simp [setAt]
    show T'.OnList _ (setAt s.lists (!s.current) (s.lists s.current ++ [⟨r.name, s.next⟩]) s.current)
    rw [this]
    exact hl.cur.grow hle hT
  · intro f hf; simp [NrtPc.former] at hf
  · intro _
    have : setAt s.lists (!s.current) (s.lists s.current ++ [⟨r.name, s.next⟩]) (!s.current) = l' := by simp [setAt, l']
    show T'.OnList _ (setAt s.lists (!s.current) (s.lists s.current ++ [⟨r.name, s.next⟩]) (!s.current))
    rw [this]
    intro e he
    rcases List.mem_append.1 he with he | he
    · obtain ⟨h1, h2, h3⟩ := hl.cur.grow hle hT e he
      refine ⟨h1, h2, fun n hn => ?_⟩
      obtain ⟨d, hd, hd'⟩ := h3 n hn
      exact ⟨d, List.mem_append.2 (Or.inl hd), hd'⟩
    · rw [List.mem_singleton] at he; subst he
      dsimp only
      rw [hTn]
      refine ⟨by omega, rfl, fun n hn => ?_⟩
      dsimp only at hn ⊢
      have hmem : n ∈ names l' := by
        obtain ⟨_, o, _, ho, _⟩ := hg.validOrder (fun _ => false)
        rw [viewOf_specs] at ho
        have hsp : (⟨r.name, (newCtrl s r).before, (newCtrl s r).after⟩ : SchedSpec String) ∈
            specs (fun i => if i = s.next then newCtrl s r else s.heap i) l' := by
          refine List.mem_map.2 ⟨⟨r.name, s.next⟩, by simp [l'], by simp⟩
        rw [← specs_names (fun i => if i = s.next then newCtrl s r else s.heap i)]
        rcases hn with hn | hn
        · obtain ⟨a, b, c, e⟩ := ho.before _ hsp n hn
          refine ho.perm.mem_iff.1 ?_
          rw [e]; simp
        · obtain ⟨a, b, c, e⟩ := ho.after _ hsp n hn
          refine ho.perm.mem_iff.1 ?_
          rw [e]; simp
      cases hf : findByName l' n with
      | none => exact absurd hmem (findByName_none.1 hf)
      | some i =>
        obtain ⟨d, hd, h1, h2⟩ := findByName_some hf
        exact ⟨d, hd, h1, h2⟩
  · exact hl.snap.grow hle hT
  · intro q hq
    exact ⟨(hl.calls q hq).1.grow hle hT, (hl.calls q hq).2.grow hle hT⟩
  · intro e he
    have := hl.log e he
    revert this
    cases e with
    | cycleBegin o b =>
      rintro ⟨v, h1, h2, h3⟩
      exact ⟨v, h1, h2, h3.grow hle hT⟩
    | _ => exact fun _ => trivial

theorem LinkInv.nrtStep {T : Links} {s : State} (h : Inv s) (hl : LinkInv T s) : ∃ T', LinkInv T' s.nrtStep := by
  have hwf := h.wf
  cases hn : s.nrt with
  | idle => unfold State.nrtStep; rw [hn]; exact ⟨T, hl⟩
  | wait1 op =>
    refine ⟨T, ?_⟩
    unfold State.nrtStep; rw [hn]; simp only
    split <;> exact hl.stay rfl rfl rfl rfl rfl rfl rfl (by simp [NrtPc.former]) (by simp [NrtPc.built])
  | wait1Inner op =>
    refine ⟨T, ?_⟩
    unfold State.nrtStep; rw [hn]; simp only [h.ok, if_true]
    exact hl.stay rfl rfl rfl rfl rfl rfl rfl (by simp [NrtPc.former]) (by simp [NrtPc.built])
  | build op =>
    refine ⟨T, ?_⟩
    unfold State.nrtStep; rw [hn]; simp only
    split
    · exact hl.stay rfl rfl rfl rfl rfl rfl rfl (fun f hf => hf) (fun hb => hb)
    · exact hl.stay rfl rfl rfl rfl rfl rfl rfl (by simp [NrtPc.former]) (by simp [NrtPc.built])
  | build2 op =>
    cases op with
    | load r =>
      cases hok : (loadBody s.heap s.next (s.lists s.current) (s.sched (!s.current)) r).ok with
      | true => exact hl.load h hn hok
      | false =>
        rcases nrtStep_build2_load h hn with ⟨hok', _⟩ | ⟨_, he⟩
        · rw [hok] at hok'; simp at hok'
        · rw [he]
          refine ⟨T, ?_⟩
          apply LinkInv.ret h hl <;> first | rfl | simp [setAt]
    | unload n =>
      rcases nrtStep_build2_unload h hn with ⟨hok, he, hg⟩ | ⟨hok, he⟩ <;> rw [he]
      · refine ⟨T, hl.deps, ?_, ?_, ?_, hl.snap, hl.calls, hl.log⟩
        · show T.OnList _ (setAt s.lists (!s.current) _ s.current)
          rw [show setAt s.lists (!s.current) ((s.lists s.current).filter (fun e => e.name != n)) s.current = s.lists s.current by simp [setAt]]
          exact hl.cur
        · intro f hf; simp [NrtPc.former] at hf
        · intro _
          show T.OnList _ (setAt s.lists (!s.current) _ (!s.current))
          rw [show setAt s.lists (!s.current) ((s.lists s.current).filter (fun e => e.name != n)) (!s.current) = (s.lists s.current).filter (fun e => e.name != n) by simp [setAt]]
          obtain ⟨_, _, hok', _⟩ := unloadBody_spec h.good s.isRunning (s.sched (!s.current)) n
          obtain ⟨_, hun, _⟩ := hok'.1 hok
          intro e he
          obtain ⟨h1, h2, h3⟩ := hl.cur e (List.mem_filter.1 he).1
          refine ⟨h1, h2, fun m hm => ?_⟩
          obtain ⟨d, hd, hd1, hd2⟩ := h3 m hm
          refine ⟨d, List.mem_filter.2 ⟨hd, ?_⟩, hd1, hd2⟩
          have hu := hun e (List.mem_filter.1 he).1
          rw [(hl.deps _ h1).1, (hl.deps _ h1).2] at hu
          simp only [bne_iff_ne, ne_eq]
          rintro rfl
          rw [← hd1] at hm
          exact hm.elim hu.1 hu.2
      · refine ⟨T, ?_⟩
        apply LinkInv.ret h hl <;> first | rfl | simp [setAt]
    | switch a b c => rw [hn] at hwf; simp [NrtPc.wf, Op.isListOp] at hwf
    | list => rw [hn] at hwf; simp [NrtPc.wf, Op.isListOp] at hwf
  | pubLock op =>
    refine ⟨T, ?_⟩
    unfold State.nrtStep; rw [hn]; simp only
    split
    · exact hl.stay rfl rfl rfl rfl rfl rfl rfl (by simp [NrtPc.former]) (fun _ => by rw [hn]; rfl)
    · exact hl
  | pubResize op =>
    refine ⟨T, ?_⟩
    unfold State.nrtStep; rw [hn]; simp only
    exact hl.stay rfl rfl rfl rfl rfl rfl rfl (by simp [NrtPc.former]) (fun _ => by rw [hn]; rfl)
  | swap op =>
    refine ⟨T, ?_⟩
    unfold State.nrtStep; rw [hn]; simp only
    refine ⟨hl.deps, hl.built (by rw [hn]; rfl), ?_, ?_, hl.snap, hl.calls, hl.log⟩
    · intro f hf
      simp only [NrtPc.former, Option.some.injEq] at hf
      rw [← hf]; exact hl.cur
    · intro hb; simp [NrtPc.built] at hb
  | wait2 op f =>
    refine ⟨T, ?_⟩
    unfold State.nrtStep; rw [hn]; simp only
    split
    · exact hl.stay rfl rfl rfl rfl rfl rfl rfl (fun g hg => by rw [hn]; exact hg) (by simp [NrtPc.built])
    · exact hl.stay rfl rfl rfl rfl rfl rfl rfl (by simp [NrtPc.former]) (by simp [NrtPc.built])
  | wait2Inner op f =>
    refine ⟨T, ?_⟩
    unfold State.nrtStep; rw [hn]; simp only [h.ok, if_true]
    exact hl.stay rfl rfl rfl rfl rfl rfl rfl (fun g hg => by rw [hn]; exact hg) (by simp [NrtPc.built])
  | clear op f =>
    refine ⟨T, ?_⟩
    unfold State.nrtStep; rw [hn]; simp only
    split
    · exact hl.stay rfl rfl rfl rfl rfl rfl rfl (fun f hf => hf) (fun hb => hb)
    · exact hl.stay rfl rfl rfl rfl rfl rfl rfl (by simp [NrtPc.former]) (by simp [NrtPc.built])
  | clear2 op f =>
    have hf := h.clearing f (by rw [hn]; rfl)
    refine ⟨T, ?_⟩
    unfold State.nrtStep; rw [hn]; simp only
    refine ⟨hl.deps, ?_, ?_, ?_, hl.snap, hl.calls, hl.log⟩
    · show T.OnList _ (setAt s.lists f [] s.current)
      rw [show setAt s.lists f [] s.current = s.lists s.current by rw [hf]; simp [setAt]]
      exact hl.cur
    · intro g hg; simp [NrtPc.former] at hg
    · intro hb; simp [NrtPc.built] at hb
  | unlock op =>
    refine ⟨T, ?_⟩
    unfold State.nrtStep; rw [hn]; simp only
    apply LinkInv.ret h hl <;> rfl
  | resolve op =>
    refine ⟨T, ?_⟩
    unfold State.nrtStep; rw [hn]; simp only
    split
    · exact hl.stay rfl rfl rfl rfl rfl rfl rfl (fun f hf => hf) (fun hb => hb)
    · exact hl.stay rfl rfl rfl rfl rfl rfl rfl (by simp [NrtPc.former]) (by simp [NrtPc.built])
  | resolve2 op =>
    refine ⟨T, ?_⟩
    cases op with
    | switch start stop k =>
      unfold State.nrtStep; rw [hn]; simp only
      split
      · exact hl.stay rfl rfl rfl rfl rfl rfl rfl (by simp [NrtPc.former]) (by simp [NrtPc.built])
      · apply LinkInv.ret h hl <;> rfl
    | load r => rw [hn] at hwf; simp [NrtPc.wf, Op.isSwitch] at hwf
    | unload n => rw [hn] at hwf; simp [NrtPc.wf, Op.isSwitch] at hwf
    | list => rw [hn] at hwf; simp [NrtPc.wf, Op.isSwitch] at hwf
  | setFlag op =>
    refine ⟨T, ?_⟩
    unfold State.nrtStep; rw [hn]; simp only
    exact hl.stay rfl rfl rfl rfl rfl rfl rfl (by simp [NrtPc.former]) (by simp [NrtPc.built])
  | waitSwitch op =>
    refine ⟨T, ?_⟩
    unfold State.nrtStep; rw [hn]; simp only
    split
    · exact hl.stay rfl rfl rfl rfl rfl rfl rfl (by simp [NrtPc.former]) (by simp [NrtPc.built])
    · apply LinkInv.ret h hl <;> rfl
  | waitSwitchInner op =>
    refine ⟨T, ?_⟩
    unfold State.nrtStep; rw [hn]; simp only [h.ok, if_true]
    exact hl.stay rfl rfl rfl rfl rfl rfl rfl (by simp [NrtPc.former]) (by simp [NrtPc.built])
  | listing k acc =>
    refine ⟨T, ?_⟩
    rcases nrtStep_listing h hn with ⟨hk, he⟩ | ⟨j, e, hj, he1, he2, he⟩ <;> rw [he]
    · apply LinkInv.ret h hl <;> rfl
    · exact hl.stay rfl rfl rfl rfl rfl rfl rfl (by simp [NrtPc.former]) (by simp [NrtPc.built])

theorem LinkInv.call {T : Links} {s : State} (h : Inv s) (hl : LinkInv T s) (op : Op) : LinkInv T (s.call op) := by
  unfold State.call
  split
  · have hv : T.OnView s.next s.view := hl.view h
    refine ⟨hl.deps, hl.cur, ?_, ?_, hv, hl.calls, hl.log⟩
    · intro f hf; cases op <;> simp [NrtPc.former] at hf
    · intro hb; cases op <;> simp [NrtPc.built] at hb
  · exact hl

theorem linkInv_first (m : Bool) : LinkInv (fun _ => ⟨"", [], [], fun _ => 0⟩) { State.init m with used := some false, rt := .pre } := by
  refine ⟨?_, ?_, ?_, ?_, ?_, ?_, ?_⟩ <;> simp [State.init, Links.OnList, Links.OnView, NrtPc.former, NrtPc.built, View.names]

theorem Reachable.links {m : Bool} {s : State} (h : Reachable m s) : ∃ T, LinkInv T s :=
  (reach_induct m (P := fun s => ∃ T, LinkInv T s) ⟨_, linkInv_first m⟩
    (fun s i h ⟨T, hl⟩ => ⟨T, hl.rtStep h i⟩) (fun s h ⟨T, hl⟩ => hl.nrtStep h)
    (fun s op h ⟨T, hl⟩ => ⟨T, hl.call h op⟩) h).2

end Pr2
