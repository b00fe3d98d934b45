import Verif.Lemmas.Service
import Verif.Lemmas.InitSpec

namespace Pr2
set_option linter.unusedVariables false
set_option linter.unusedSimpArgs false

theorem view_listing (h : Heap) (l : List Entry) (sc : List Nat) (R : Nat → Bool) :
    (viewOf h l sc R).listing = sc.filterMap (fun j => l[j]?.map (fun e => (e.name, R e.id))) := by
  unfold View.listing viewOf
  simp only [List.getElem?_map, Option.map_map, Function.comp_def]

/-- return from a service call -/
theorem Inv2.ret {s s1 : State} (h2 : Inv2 s) (hn : s.nrt ≠ .idle) (hl : s1.nlog = s.nlog) (hsn : s1.snap = s.snap) (op : Op) (r : Res)
    (hok : CallOk ⟨op, r, s.snap, s1.view, s1.raced⟩) : Inv2 (s1.ret op r) := by
  have hh : History View.empty s.nlog s.snap := by
    have := h2.hist
    revert this hn
    cases s.nrt <;> simp
  refine ⟨?_, ?_⟩
  · show History View.empty (s1.nlog ++ [⟨op, r, s1.snap, s1.view, s1.raced⟩]) _
    rw [hl, hsn]
    exact History.snoc _ hh rfl hok
  · trivial

/-- a step that stays inside the service call -/
theorem Inv2.stay {s s' : State} (h2 : Inv2 s) (hn : s.nrt ≠ .idle) (hn' : s'.nrt ≠ .idle) (hl : s'.nlog = s.nlog) (hsn : s'.snap = s.snap)
    (hp : Prog s') : Inv2 s' := by
  refine ⟨?_, hp⟩
  have := h2.hist
  rw [hl, hsn]
  revert this hn hn'
  cases s.nrt <;> cases s'.nrt <;> simp

theorem loadOk_view {s : State} {q : LoadReq} (h : Inv s) :
    LoadOk s.view q ↔ (loadBody s.heap s.next (s.lists s.current) (s.sched (!s.current)) q).ok = true := by
  rw [(loadBody_spec h.good (s.sched (!s.current)) q).2.2.1, view_eq]
  unfold LoadOk
  dsimp only
  rw [viewOf_names, viewOf_specs, initRequest_succeeds, initRequest_befores, initRequest_afters, constructed_iff]

theorem midRestart_next {s : State} (h : Inv s) (hf : s.nrt.former = none) : s.midRestart s.next = false := by
  by_contra hc
  have := (midRestart_eq s s.next).1 (by simpa using hc)
  obtain ⟨_, u, e, hu, he, hid⟩ := h.mid _ this
  rw [h.usedCurrent hf, Option.some.injEq] at hu
  subst hu
  have := h.good.lt e he
  omega

theorem Inv2.build2_load {s : State} (h : Inv s) (h2 : Inv2 s) {r : LoadReq} (hn : s.nrt = .build2 (.load r)) : Inv2 s.nrtStep := by
  have hp := h2.prog
  unfold Prog at hp
  rw [hn] at hp
  obtain ⟨hsn, hra⟩ := hp
  have hL := loadOk_view (q := r) h
  have hold : ∀ e ∈ s.lists s.current, e.id ≠ s.next := fun e he => ne_of_lt (h.good.lt e he)
  rcases nrtStep_build2_load h hn with ⟨hok, he, hg, hst⟩ | ⟨hok, he⟩ <;> rw [he]
  · have hruns : ∀ s' : State, s'.rt = s.rt → s'.heap = (fun i => if i = s.next then newCtrl s r else s.heap i) →
        (∀ e ∈ s.lists s.current, s'.runs e.id = s.runs e.id) ∧ s'.runs s.next = false := by
      intro s' h1 h3
      refine ⟨?_, ?_⟩
      · intro e he
        simp [State.runs, State.isRunning, State.midRestart, hold e he, h1, h3]
      · have hm := midRestart_next h (by rw [hn]; rfl)
        unfold State.midRestart at hm
        simp only [State.runs, State.isRunning, State.midRestart, h1, h3, if_true]
        rw [hm]; simp [Ctrl.isRunning, hst]
    refine h2.stay (by rw [hn]; simp) (by simp) rfl rfl ?_
    unfold Prog
    refine ⟨?_, ?_⟩
    · rw [hsn, view_eq, view_eq]
      dsimp only
      rw [setAt_not, setAt_not]
      refine (viewOf_congr ?_ ?_).symm
      · intro e he; simp [hold e he]
      · intro e he; refine (hruns _ ?_ ?_).1 e he <;> rfl
    · dsimp only
      rw [setAt_same, setAt_same]
      left
      dsimp only
      refine ⟨rfl, ?_⟩
      obtain ⟨hru1, hru2⟩ := hruns { s with
        heap := fun i => if i = s.next then newCtrl s r else s.heap i
        next := s.next + 1
        lists := setAt s.lists (!s.current) (s.lists s.current ++ [⟨r.name, s.next⟩])
        sched := setAt s.sched (!s.current) (loadBody s.heap s.next (s.lists s.current) (s.sched (!s.current)) r).sched
        nrt := .pubLock (.load r) } rfl rfl
      generalize State.runs _ = R at hru1 hru2 ⊢
      rw [hsn]
      refine ⟨hL.2 hok, hg.validOrder _, s.next, ?_, ?_⟩
      · intro c hc
        rw [view_eq] at hc
        simp only [viewOf, List.mem_map] at hc
        obtain ⟨e, he, rfl⟩ := hc
        exact hold e he
      · have : s.view.names = names (s.lists s.current) := by rw [view_eq, viewOf_names]
        rw [this]
        rw [view_eq]
        simp only [viewOf, List.map_append, List.map_cons, List.map_nil]
        congr 1
        · apply List.map_congr_left
          intro e he
          rw [hru1 e he]
          simp [hold e he]
        · simp only [if_true, hru2]
          unfold newCtrl
          rw [initRequest_befores, initRequest_afters]
  · refine h2.ret (by rw [hn]; simp) (by rfl) (by rfl) _ _ ?_
    right
    refine ⟨rfl, ?_, ?_⟩
    · dsimp only; rw [hsn, hL]; rw [hok]; simp
    · dsimp only; rw [hsn, view_eq, view_eq]; dsimp only; rw [setAt_not, setAt_not]; rfl

theorem Inv2.build2_unload {s : State} (h : Inv s) (h2 : Inv2 s) {n : String} (hn : s.nrt = .build2 (.unload n)) : Inv2 s.nrtStep := by
  have hp := h2.prog
  unfold Prog at hp
  rw [hn] at hp
  obtain ⟨hsn, hra⟩ := hp
  obtain ⟨_, _, hiff, _⟩ := unloadBody_spec h.good s.isRunning (s.sched (!s.current)) n
  have hun : (n ∈ s.view.names ∧ ∀ c ∈ s.view.ctrls, n ∉ c.before ∧ n ∉ c.after) ↔
      n ∈ names (s.lists s.current) ∧ (∀ e ∈ s.lists s.current, n ∉ (s.heap e.id).before ∧ n ∉ (s.heap e.id).after) := by
    rw [view_eq, viewOf_names]
    simp [viewOf]
  have hst : (∀ c ∈ s.view.ctrls, c.name = n → c.running = false) ↔ ∀ e ∈ s.lists s.current, e.name = n → s.runs e.id = false := by
    rw [view_eq]; simp [viewOf]
  rcases nrtStep_build2_unload h hn with ⟨hok, he, hg⟩ | ⟨hok, he⟩ <;> rw [he]
  · refine h2.stay (by rw [hn]; simp) (by simp) rfl rfl ?_
    obtain ⟨i1, i2, i3⟩ := hiff.1 hok
    unfold Prog
    refine ⟨?_, ?_⟩
    · rw [hsn, view_eq, view_eq]
      dsimp only
      rw [setAt_not, setAt_not]
      rfl
    · dsimp only
      rw [setAt_same, setAt_same]
      left
      dsimp only
      rw [hsn]
      refine ⟨rfl, hun.2 ⟨i1, i2⟩, ?_, hg.validOrder _, ?_⟩
      · intro hr
        rw [hst]
        intro e he hen
        rw [Bool.or_eq_false_iff] at hr
        have hr2 := hr.2
        unfold State.bodyRaces at hr2
        simp only [List.any_eq_false, Bool.and_eq_true, beq_iff_eq, not_and, Bool.not_eq_true] at hr2
        unfold State.runs
        rw [i3 e he hen, hr2 e he hen]; rfl
      · rw [view_eq]
        simp only [viewOf]
        rw [List.filter_map]
        rfl
  · refine h2.ret (by rw [hn]; simp) (by rfl) (by rfl) _ _ ?_
    right
    refine ⟨rfl, ?_, ?_⟩
    · dsimp only; rw [hsn]
      rintro ⟨h3, h4⟩
      rw [hun] at h3
      rw [hst] at h4
      have : (unloadBody s.heap s.isRunning (s.lists s.current) (s.sched (!s.current)) n).ok = true := by
        rw [hiff]
        refine ⟨h3.1, h3.2, ?_⟩
        intro e he hen
        have := h4 e he hen
        unfold State.runs at this
        rw [Bool.or_eq_false_iff] at this
        exact this.1
      rw [hok] at this; simp at this
    · dsimp only; rw [hsn, view_eq, view_eq]; dsimp only; rw [setAt_not, setAt_not]; rfl

theorem mem_filterMap_find {l : List Entry} (hd : (names l).Nodup) (hi : (l.map (·.id)).Nodup) {e : Entry} (he : e ∈ l) (ns : List String) :
    e.id ∈ ns.filterMap (findByName l) ↔ e.name ∈ ns := by
  rw [List.mem_filterMap]
  constructor
  · rintro ⟨n, hn, h⟩
    obtain ⟨e', he', h1, h2⟩ := findByName_some h
    have : e' = e := List.inj_on_of_nodup_map hi he' he h2
    subst this
    rw [h1]; exact hn
  · intro h
    exact ⟨e.name, h, findByName_mem hd he⟩

theorem resolveSwitch_spec (l : List Entry) (start stop : List String) (k : Int) :
    let r := resolveSwitch l [] [] start stop k
    (r.1 = false ↔ k = STRICT ∧ ∃ n, (n ∈ start ∨ n ∈ stop) ∧ n ∉ names l) ∧
    (r.1 = true → r.2.1 = stop.filterMap (findByName l) ∧ r.2.2 = start.filterMap (findByName l)) := by
  have hk : (if k = 0 then BEST_EFFORT else k) = STRICT ↔ k = STRICT := by
    split
    · rename_i h0; subst h0; simp [BEST_EFFORT, STRICT]
    · rfl
  intro r
  have hr : r = resolveSwitch l [] [] start stop k := rfl
  unfold resolveSwitch at hr
  simp only at hr
  obtain ⟨a1, a2⟩ := resolveNames_spec l (decide ((if k = 0 then BEST_EFFORT else k) = STRICT)) stop []
  obtain ⟨b1, b2⟩ := resolveNames_spec l (decide ((if k = 0 then BEST_EFFORT else k) = STRICT)) start []
  rw [decide_eq_true_iff] at a1 b1
  replace a1 := a1.trans (and_congr_left' hk)
  replace b1 := b1.trans (and_congr_left' hk)
  split at hr
  · rename_i h1
    obtain ⟨c1, n, c2, c3⟩ := a1.1 h1
    rw [hr]
    simp only [true_iff, Bool.false_eq_true, IsEmpty.forall_iff, and_true]
    exact ⟨c1, n, Or.inr c2, c3⟩
  · rename_i a h1
    split at hr
    · rename_i h2
      obtain ⟨c1, n, c2, c3⟩ := b1.1 h2
      rw [hr]
      simp only [true_iff, Bool.false_eq_true, IsEmpty.forall_iff, and_true]
      exact ⟨c1, n, Or.inl c2, c3⟩
    · rename_i b h2
      rw [hr]
      simp only [Bool.true_eq_false, false_iff, forall_const]
      refine ⟨?_, ?_, ?_⟩
      · rintro ⟨c1, n, c2 | c2, c3⟩
        · rw [b1.2 ⟨c1, n, c2, c3⟩] at h2; simp at h2
        · rw [a1.2 ⟨c1, n, c2, c3⟩] at h1; simp at h1
      · simpa using a2 a h1
      · simpa using b2 b h2

theorem Inv2.listing {s : State} (h : Inv s) (h2 : Inv2 s) {k : Nat} {acc} (hn : s.nrt = .listing k acc) : Inv2 s.nrtStep := by
  have hp := h2.prog
  unfold Prog at hp
  rw [hn] at hp
  obtain ⟨hsn, h3, h4⟩ := hp
  have hlist : s.snap.listing = (s.sched s.current).filterMap (fun j => (s.lists s.current)[j]?.map (fun e => (e.name, s.runs e.id))) := by
    rw [hsn, view_eq, view_listing]
  -- every schedule entry is valid
  have hall : ∀ j ∈ s.sched s.current, ∃ e, (s.lists s.current)[j]? = some e := by
    intro j hj
    have := h.good.perm.mem_iff.1 hj
    exact ⟨_, List.getElem?_eq_getElem (by simpa using this)⟩
  have hmap : s.snap.listing = (s.sched s.current).map (fun j => ((s.lists s.current)[j]?.map (fun e => (e.name, s.runs e.id))).getD ("", false)) := by
    rw [hlist]
    clear hlist
    generalize s.sched s.current = sc at hall
    induction sc with
    | nil => rfl
    | cons j sc ih =>
      obtain ⟨e, he⟩ := hall j (by simp)
      rw [List.filterMap_cons, he]
      simp only [Option.map_some, List.map_cons, he, Option.getD_some]
      rw [ih (fun j hj => hall j (by simp [hj]))]
  have hlen : s.snap.listing.length = (s.lists s.current).length := by
    rw [hmap, List.length_map, h.good.sched_length]
  rcases nrtStep_listing h hn with ⟨hk, he⟩ | ⟨j, e, hj, he1, he2, he⟩ <;> rw [he]
  · refine h2.ret (by rw [hn]; simp) rfl rfl _ _ ?_
    rw [List.take_of_length_le (by rw [hlen]; exact hk)] at h3 h4
    exact ⟨acc, rfl, hsn.symm, h3, h4⟩
  · refine h2.stay (by rw [hn]; simp) (by simp) rfl rfl ?_
    have hget : s.snap.listing[k]? = some (e.name, s.runs e.id) := by
      rw [hmap, List.getElem?_map, hj]
      simp [he1]
    unfold Prog
    dsimp only
    refine ⟨?_, ?_, ?_⟩
    · rw [hsn]; rfl
    · intro hr
      rw [Bool.or_eq_false_iff] at hr
      rw [take_succ_of hget, ← h3 hr.1]
      unfold State.runs; rw [hr.2, Bool.or_false]
    · rw [take_succ_of hget]
      refine List.rel_append h4 ?_
      refine List.Forall₂.cons ⟨rfl, ?_⟩ List.Forall₂.nil
      intro ht
      unfold State.runs
      change s.isRunning e.id = true at ht
      simp [ht]

theorem Inv2.nrtStep {s : State} (h : Inv s) (h2 : Inv2 s) : Inv2 s.nrtStep := by
  have hp := h2.prog
  cases hn : s.nrt with
  | idle => unfold State.nrtStep; rw [hn]; exact h2
  | wait1 op =>
    unfold Prog at hp; rw [hn] at hp
    unfold State.nrtStep; rw [hn]; simp only
    split
    all_goals exact h2.stay (by rw [hn]; simp) (by simp) rfl rfl hp
  | wait1Inner op =>
    unfold Prog at hp; rw [hn] at hp
    unfold State.nrtStep; rw [hn]; simp only [h.ok, if_true]
    exact h2.stay (by rw [hn]; simp) (by simp) rfl rfl hp
  | build op =>
    have hu := h.usedCurrent (by rw [hn]; rfl)
    unfold Prog at hp; rw [hn] at hp
    unfold State.nrtStep; rw [hn]; simp only
    rw [rtUses_false (by rw [hu]; simp), if_neg (by simp)]
    exact h2.stay (by rw [hn]; simp) (by simp) rfl rfl hp
  | build2 op =>
    cases op with
    | load r => exact h2.build2_load h hn
    | unload n => exact h2.build2_unload h hn
    | switch a b c => have := h.wf; rw [hn] at this; simp [NrtPc.wf, Op.isListOp] at this
    | list => have := h.wf; rw [hn] at this; simp [NrtPc.wf, Op.isListOp] at this
  | pubLock op =>
    unfold Prog at hp; rw [hn] at hp
    unfold State.nrtStep; rw [hn]; simp only
    split
    · exact h2.stay (by rw [hn]; simp) (by simp) rfl rfl hp
    · exact h2
  | pubResize op =>
    unfold Prog at hp; rw [hn] at hp
    unfold State.nrtStep; rw [hn]; simp only
    exact h2.stay (by rw [hn]; simp) (by simp) rfl rfl hp
  | swap op =>
    unfold Prog at hp; rw [hn] at hp
    unfold State.nrtStep; rw [hn]; simp only
    exact h2.stay (by rw [hn]; simp) (by simp) rfl rfl hp.2
  | wait2 op f =>
    unfold Prog at hp; rw [hn] at hp
    unfold State.nrtStep; rw [hn]; simp only
    split
    all_goals exact h2.stay (by rw [hn]; simp) (by simp) rfl rfl hp
  | wait2Inner op f =>
    unfold Prog at hp; rw [hn] at hp
    unfold State.nrtStep; rw [hn]; simp only [h.ok, if_true]
    exact h2.stay (by rw [hn]; simp) (by simp) rfl rfl hp
  | clear op f =>
    have hu := h.usedCurrent (by rw [hn]; rfl)
    have hf := h.clearing f (by rw [hn]; rfl)
    unfold Prog at hp; rw [hn] at hp
    unfold State.nrtStep; rw [hn]; simp only
    rw [rtUses_false (by rw [hu, hf]; simp), if_neg (by simp)]
    exact h2.stay (by rw [hn]; simp) (by simp) rfl rfl hp
  | clear2 op f =>
    have hf := h.clearing f (by rw [hn]; rfl)
    unfold Prog at hp; rw [hn] at hp
    unfold State.nrtStep; rw [hn]; simp only
    refine h2.stay (by rw [hn]; simp) (by simp) rfl rfl ?_
    unfold Prog
    dsimp only
    rw [view_eq] at hp ⊢
    dsimp only
    rw [hf, setAt_not]
    exact hp
  | unlock op =>
    unfold Prog at hp; rw [hn] at hp
    unfold State.nrtStep; rw [hn]; simp only
    exact h2.ret (s1 := { s with pubLock := none }) (by rw [hn]; simp) rfl rfl _ _ hp
  | resolve op =>
    have hns : s.rt.inSwitch = false := by
      by_contra hc
      have := h.sw1 (h.sw2 (by simpa using hc))
      rw [hn] at this; simp [NrtPc.waitsSwitch] at this
    have hu : s.rtUsesReq = false := by
      unfold State.rtUsesReq
      revert hns
      cases s.rt <;> simp [RtPc.inSwitch]
    unfold Prog at hp; rw [hn] at hp
    unfold State.nrtStep; rw [hn]; simp only [hu]
    rw [if_neg (by simp)]
    refine h2.stay (by rw [hn]; simp) (by simp) rfl rfl hp
  | resolve2 op =>
    unfold Prog at hp; rw [hn] at hp
    obtain ⟨hr1, hr2⟩ := h.req0 (by rw [hn]; rfl)
    cases op with
    | switch start stop k =>
      obtain ⟨g1, g2⟩ := resolveSwitch_spec (s.lists s.current) start stop k
      unfold State.nrtStep; rw [hn]; simp only [hr1, hr2]
      split
      · rename_i hok
        obtain ⟨g3, g4⟩ := g2 hok
        refine h2.stay (by rw [hn]; simp) (by simp) rfl rfl ?_
        unfold Prog
        refine ⟨hp, g3, g4, ?_⟩
        unfold SwitchAccepted
        dsimp only
        rw [← g1, hok]; simp
      · rename_i hok
        have hok := g1.1 (by simpa using hok)
        refine h2.ret (s1 := _) (by rw [hn]; simp) ?_ ?_ _ _ ?_
        · rfl
        · rfl
        · left
          refine ⟨rfl, hok.1, ?_, hp.symm⟩
          obtain ⟨n, h3, h4⟩ := hok.2
          refine ⟨n, h3, ?_⟩
          dsimp only
          rw [hp, view_eq, viewOf_names]; exact h4
    | load r => have := h.wf; rw [hn] at this; simp [NrtPc.wf, Op.isSwitch] at this
    | unload n => have := h.wf; rw [hn] at this; simp [NrtPc.wf, Op.isSwitch] at this
    | list => have := h.wf; rw [hn] at this; simp [NrtPc.wf, Op.isSwitch] at this
  | setFlag op =>
    have hns : s.rt.inSwitch = false := by
      by_contra hc
      have := h.sw1 (h.sw2 (by simpa using hc))
      rw [hn] at this; simp [NrtPc.waitsSwitch] at this
    unfold Prog at hp; rw [hn] at hp
    obtain ⟨p1, p2, p3, p4⟩ := hp
    unfold State.nrtStep; rw [hn]; simp only
    refine h2.stay (by rw [hn]; simp) (by simp) rfl rfl ?_
    unfold Prog
    refine ⟨SwitchProg.of_quiet (Or.inl hns) ⟨s.runs, ?_, ?_⟩, p4⟩
    · rw [p1]; rfl
    · rw [if_pos rfl]
      exact ⟨p2, p3, fun _ => rfl⟩
  | waitSwitch op =>
    unfold Prog at hp; rw [hn] at hp
    obtain ⟨⟨R, p1, p2⟩, p3⟩ := hp
    unfold State.nrtStep; rw [hn]; simp only
    split
    · refine h2.stay (by rw [hn]; simp) (by simp) rfl rfl ?_
      exact ⟨⟨R, p1, p2⟩, p3⟩
    · rename_i hc
      rw [h.ok] at hc
      simp only [Bool.true_and, Bool.not_eq_true] at hc
      rw [if_neg (by rw [hc]; simp)] at p2
      refine h2.ret (by rw [hn]; simp) rfl rfl _ _ ?_
      cases op with
      | switch start stop k =>
        right
        refine ⟨rfl, ?_, ?_⟩
        · dsimp only
          rw [p1, viewOf_names]
          exact p3
        · dsimp only
          rw [p1, view_eq]
          unfold viewOf
          simp only [View.mk.injEq, and_true, List.map_map]
          apply List.map_congr_left
          intro e he
          have hd := h.good.distinct
          have hi := h.good.ids
          simp only [Function.comp, switchOne, p2, afterSwitch, stopIds, startIds, mem_filterMap_find hd hi he]
      | load r => have := h.wf; rw [hn] at this; simp [NrtPc.wf, Op.isSwitch] at this
      | unload n => have := h.wf; rw [hn] at this; simp [NrtPc.wf, Op.isSwitch] at this
      | list => have := h.wf; rw [hn] at this; simp [NrtPc.wf, Op.isSwitch] at this
  | waitSwitchInner op =>
    unfold Prog at hp; rw [hn] at hp
    unfold State.nrtStep; rw [hn]; simp only [h.ok, if_true]
    exact h2.stay (by rw [hn]; simp) (by simp) rfl rfl hp
  | listing k acc => exact h2.listing h hn

end Pr2
