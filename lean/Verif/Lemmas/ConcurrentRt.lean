import Verif.Lemmas.Concurrent

namespace Pr2
set_option linter.unusedVariables false
set_option linter.unusedSimpArgs false

/-! ## What a realtime step does, given the invariant -/

theorem rtStep_pre {s : State} (h : Inv s) (i : RtIn) (hrt : s.rt = .pre) : ∃ u, s.used = some u ∧
    s.rtStep i = { s with
        rt := if (!i.halted && s.motorsPrev) then .restart 0 else .sweep 0
        motorsPrev := i.halted
        log := s.log ++ [.cycleBegin ((s.sched u).filterMap (fun j => (s.lists u)[j]?.map (fun e => (e.id, s.isRunning e.id))))
          i.halted] } := by
  have hu : ∃ u, s.used = some u := by rcases h.used with h1 | ⟨f, h1, _⟩ <;> exact ⟨_, h1⟩
  obtain ⟨u, hu⟩ := hu
  refine ⟨u, hu, ?_⟩
  unfold State.rtStep
  rw [hrt]
  simp only [hu]
  rw [if_neg (h.writing_ne hu)]

theorem Inv.usedSome {s : State} (h : Inv s) : ∃ u, s.used = some u := by
  rcases h.used with h1 | ⟨f, h1, _⟩ <;> exact ⟨_, h1⟩

theorem rtStep_restart {s : State} (h : Inv s) (i : RtIn) {k : Nat} (hrt : s.rt = .restart k) : ∃ u, s.used = some u ∧
    ((k < (s.lists u).length ∧ ∃ j e, (s.sched u)[k]? = some j ∧ (s.lists u)[j]? = some e ∧ e ∈ s.lists u ∧
      ((s.isRunning e.id = true ∧ s.rtStep i =
          { s with heap := setSt s.heap e.id .initialized, rt := .restartMid k e.id, log := s.log ++ [.stopping e.id] }) ∨
       (s.isRunning e.id = false ∧ s.rtStep i = { s with rt := .restart (k+1) }))) ∨
     ((s.lists u).length ≤ k ∧ s.rtStep i = { s with rt := .sweep 0 })) := by
  obtain ⟨u, hu⟩ := h.usedSome
  refine ⟨u, hu, ?_⟩
  unfold State.rtStep
  rw [hrt]
  simp only [hu]
  rw [if_neg (h.writing_ne hu)]
  by_cases hk : k < (s.lists u).length
  · left
    obtain ⟨j, e, h1, h2, h3, h4⟩ := h.rtEntry hu hk
    refine ⟨hk, j, e, h1, h2, h3, ?_⟩
    rw [if_pos hk, h4]
    simp only
    cases hr : s.isRunning e.id with
    | false => right; exact ⟨rfl, by simp⟩
    | true =>
      left
      refine ⟨rfl, ?_⟩
      simp only [if_true]
      rw [stopRequest_inited ((h.goodUsed hu).inited e h3)]
      simp only [State.setCtrl, hu]
      rfl
  · right
    refine ⟨by omega, ?_⟩
    rw [if_neg hk]

theorem rtStep_restartMid {s : State} (h : Inv s) (i : RtIn) {k id : Nat} (hrt : s.rt = .restartMid k id) :
    s.rtStep i = { s with heap := setSt s.heap id .running, rt := .restart (k+1), log := s.log ++ [.starting id] } := by
  obtain ⟨hst, u, e, hu, he, rfl⟩ := h.mid id (by rw [hrt]; rfl)
  unfold State.rtStep
  rw [hrt]
  simp only
  rw [if_pos (alive_of (h.writing_ne hu) he), startRequest_inited (by rw [hst]; simp)]
  rfl

theorem rtStep_sweep {s : State} (h : Inv s) (i : RtIn) {k : Nat} (hrt : s.rt = .sweep k) : ∃ u, s.used = some u ∧
    ((k < (s.lists u).length ∧ ∃ j e, (s.sched u)[k]? = some j ∧ (s.lists u)[j]? = some e ∧ e ∈ s.lists u ∧
      s.rtStep i = { s with rt := .sweep (k+1), log := s.log ++ (if s.isRunning e.id then [.update e.id] else []) }) ∨
     ((s.lists u).length ≤ k ∧ s.rtStep i = { s with rt := .publish })) := by
  obtain ⟨u, hu⟩ := h.usedSome
  refine ⟨u, hu, ?_⟩
  unfold State.rtStep
  rw [hrt]
  simp only [hu]
  rw [if_neg (h.writing_ne hu)]
  by_cases hk : k < (s.lists u).length
  · left
    obtain ⟨j, e, h1, h2, h3, h4⟩ := h.rtEntry hu hk
    refine ⟨hk, j, e, h1, h2, h3, ?_⟩
    rw [if_pos hk, h4]
    simp only
    have hev : tagEv e.id (s.heap e.id).updateRequest.2 = if s.isRunning e.id = true then [Ev.update e.id] else [] := by
      unfold Ctrl.updateRequest State.isRunning Ctrl.isRunning
      by_cases hc : (s.heap e.id).st = .running
      · simp [hc, tagEv]
      · simp [hc, tagEv]
    have hs : s.setCtrl e.id (s.heap e.id).updateRequest.1 = s := by
      rw [updateRequest_fst, setCtrl_self]
    rw [hev, hs]
    simp only [hu]
  · right
    refine ⟨by omega, ?_⟩
    rw [if_neg hk]

theorem Inv.fillsUsed {s : State} (h : Inv s) (hf : s.rt.fills = true) : s.used = some s.current ∧ s.nrt.isSwap = false := by
  have h1 := h.pubR.2 hf
  have h2 : s.nrt.holdsPub = false := by
    by_contra hc
    have := h.pubN.2 (by simpa using hc)
    rw [h1] at this; simp at this
  refine ⟨?_, ?_⟩
  · rcases h.used with h3 | ⟨f, h3, h4⟩
    · exact h3
    · exfalso
      revert h2 h4
      cases s.nrt <;> simp [NrtPc.former, NrtPc.holdsPub]
  · revert h2
    cases s.nrt <;> simp [NrtPc.isSwap, NrtPc.holdsPub]

theorem rtStep_pubFill {s : State} (h : Inv s) (i : RtIn) {k : Nat} {msg} (hrt : s.rt = .pubFill k msg) :
    s.used = some s.current ∧ s.pubNames = names (s.lists s.current) ∧
    ((∃ e, (s.lists s.current)[k]? = some e ∧
      s.rtStep i = { s with rt := .pubFill (k+1) (msg ++ [(e.name, s.isRunning e.id)]) }) ∨
     ((s.lists s.current).length ≤ k ∧ s.rtStep i = { s with
        pubLock := none, rt := .switchCheck,
        log := s.log ++ [.published ((s.lists s.current).map (fun e => (e, s.isRunning e.id))) msg] })) := by
  obtain ⟨hu, hsw⟩ := h.fillsUsed (by rw [hrt]; rfl)
  have hn := h.pnames
  rw [hsw] at hn
  simp only [Bool.false_eq_true, if_false] at hn
  refine ⟨hu, hn, ?_⟩
  unfold State.rtStep
  rw [hrt]
  simp only [hu]
  rw [if_neg (h.writing_ne hu)]
  cases he : (s.lists s.current)[k]? with
  | some e =>
    left
    refine ⟨e, rfl, ?_⟩
    have : s.pubNames[k]? = some e.name := by rw [hn]; simp [names, he]
    simp only [this]
    rw [if_pos (alive_of (h.writing_ne hu) (List.mem_of_getElem? he))]
  | none =>
    right
    have hle : (s.lists s.current).length ≤ k := by simpa using he
    refine ⟨hle, ?_⟩
    have : s.pubNames.drop k = [] := by rw [hn]; simp [names, hle]
    simp [this]

theorem Inv.switchFacts {s : State} (h : Inv s) (hf : s.rt.inSwitch = true) : s.writingReq = false ∧ s.nrt.waitsSwitch = true := by
  have := h.sw1 (h.sw2 hf)
  refine ⟨?_, this⟩
  unfold State.writingReq
  revert this
  cases s.nrt <;> simp [NrtPc.waitsSwitch]

theorem rtStep_switchStop {s : State} (h : Inv s) (i : RtIn) {k : Nat} (hrt : s.rt = .switchStop k) :
    (∃ id, s.stopReq[k]? = some id ∧ (∃ e ∈ s.lists s.current, e.id = id) ∧
       s.rtStep i = { s with heap := setSt s.heap id .initialized, rt := .switchStop (k+1), log := s.log ++ [.stopping id] }) ∨
    (s.stopReq.length ≤ k ∧ s.rtStep i = { s with rt := .switchStart 0 }) := by
  obtain ⟨hw, hn⟩ := h.switchFacts (by rw [hrt]; rfl)
  unfold State.rtStep
  rw [hrt]
  simp only [hw]
  rw [if_neg (by simp)]
  cases hid : s.stopReq[k]? with
  | none => right; exact ⟨by simpa using hid, rfl⟩
  | some id =>
    left
    obtain ⟨e, he, rfl⟩ := h.req id (Or.inl (List.mem_of_getElem? hid))
    refine ⟨_, rfl, ⟨e, he, rfl⟩, ?_⟩
    simp only
    rw [if_pos (alive_of h.writing_ne_current he), stopRequest_inited (h.good.inited e he)]
    rfl

theorem rtStep_switchStart {s : State} (h : Inv s) (i : RtIn) {k : Nat} (hrt : s.rt = .switchStart k) :
    (∃ id, s.startReq[k]? = some id ∧ (∃ e ∈ s.lists s.current, e.id = id) ∧
       s.rtStep i = { s with heap := setSt s.heap id .running, rt := .switchStart (k+1), log := s.log ++ [.starting id] }) ∨
    (s.startReq.length ≤ k ∧ s.rtStep i = { s with rt := .switchClear }) := by
  obtain ⟨hw, hn⟩ := h.switchFacts (by rw [hrt]; rfl)
  unfold State.rtStep
  rw [hrt]
  simp only [hw]
  rw [if_neg (by simp)]
  cases hid : s.startReq[k]? with
  | none => right; exact ⟨by simpa using hid, rfl⟩
  | some id =>
    left
    obtain ⟨e, he, rfl⟩ := h.req id (Or.inr (List.mem_of_getElem? hid))
    refine ⟨_, rfl, ⟨e, he, rfl⟩, ?_⟩
    simp only
    rw [if_pos (alive_of h.writing_ne_current he), startRequest_inited (h.good.inited e he)]
    rfl

theorem rtStep_switchClear {s : State} (h : Inv s) (i : RtIn) (hrt : s.rt = .switchClear) :
    s.rtStep i = { s with stopReq := [], startReq := [], rt := .switchFlag, log := s.log ++ [.switchEnd] } := by
  obtain ⟨hw, hn⟩ := h.switchFacts (by rw [hrt]; rfl)
  unfold State.rtStep
  rw [hrt]
  simp only [hw]
  rw [if_neg (by simp)]

theorem Inv.notFills {s : State} (h : Inv s) (hf : s.rt.fills = false) : s.pubLock ≠ some .rt := by
  intro hc
  have := h.pubR.1 hc
  rw [hf] at this; simp at this

/-- The invariant is preserved by every realtime step. -/
theorem Inv.rtStep {s : State} (h : Inv s) (i : RtIn) : Inv (s.rtStep i) := by
  cases hrt : s.rt with
  | idle =>
    unfold State.rtStep; rw [hrt]; simp only
    have hf := h.notFills (by rw [hrt]; rfl)
    refine h.rtFrame (Or.inl rfl) rfl rfl rfl rfl rfl rfl rfl rfl rfl rfl rfl rfl ⟨Iff.rfl, ?_⟩ ?_ ?_ ?_ (by simp)
    · simp [RtPc.fills, hf]
    · intro r hr; simp only [RtPc.reg, Option.some.injEq] at hr; exact Or.inl hr.symm
    · intro i hi; simp [RtPc.mid] at hi
    · simp [RtPc.inSwitch]
  | gotCurrent r =>
    unfold State.rtStep; rw [hrt]; simp only
    have hf := h.notFills (by rw [hrt]; rfl)
    have hreg := h.reg r (by rw [hrt]; rfl)
    refine ⟨h.ok, h.notbad, h.good, ?_, ?_, h.former, h.clearing, h.built, h.pubN, ?_, h.pnames, ?_, h.sw1, ?_, h.req, h.req0, ?_, h.wf⟩
    · rcases hreg with rfl | ⟨h1, h2⟩
      · exact Or.inl rfl
      · exact Or.inr ⟨r, rfl, h1⟩
    · intro r' hr'; simp [RtPc.reg] at hr'
    · simp [RtPc.fills, hf]
    · intro i hi; simp [RtPc.mid] at hi
    · simp [RtPc.inSwitch]
    · intro hw hp; exact h.req1 hw (Or.inl (by simpa using hp))
  | pre =>
    obtain ⟨u, hu, he⟩ := rtStep_pre h i hrt
    have hf := h.notFills (by rw [hrt]; rfl)
    rw [he]
    refine h.rtFrame (Or.inl rfl) rfl rfl rfl rfl rfl rfl rfl rfl rfl rfl rfl rfl ⟨Iff.rfl, ?_⟩ ?_ ?_ ?_ (by simp only; split <;> simp)
    · simp only [hf, false_iff]; split <;> simp [RtPc.fills]
    · intro r hr; simp only at hr; split at hr <;> simp [RtPc.reg] at hr
    · intro i hi; simp only at hi; split at hi <;> simp [RtPc.mid] at hi
    · simp only; split <;> simp [RtPc.inSwitch]
  | restart k =>
    obtain ⟨u, hu, he⟩ := rtStep_restart h i hrt
    have hf := h.notFills (by rw [hrt]; rfl)
    rcases he with ⟨hk, j, e, h1, h2, h3, ⟨hr, he⟩ | ⟨hr, he⟩⟩ | ⟨hk, he⟩ <;> rw [he]
    · refine h.rtFrame (Or.inr ⟨e.id, .initialized, by simp, rfl⟩) rfl rfl rfl rfl rfl rfl rfl rfl rfl rfl rfl rfl ⟨Iff.rfl, ?_⟩ ?_ ?_ ?_ (by simp)
      · simp [RtPc.fills, hf]
      · intro r hr; simp [RtPc.reg] at hr
      · intro i hi
        simp only [RtPc.mid, Option.some.injEq] at hi
        subst hi
        exact ⟨by simp [setSt], u, e, hu, h3, rfl⟩
      · simp [RtPc.inSwitch]
    · refine h.rtFrame (Or.inl rfl) rfl rfl rfl rfl rfl rfl rfl rfl rfl rfl rfl rfl ⟨Iff.rfl, ?_⟩ ?_ ?_ ?_ (by simp)
      · simp [RtPc.fills, hf]
      · intro r hr; simp [RtPc.reg] at hr
      · intro i hi; simp [RtPc.mid] at hi
      · simp [RtPc.inSwitch]
    · refine h.rtFrame (Or.inl rfl) rfl rfl rfl rfl rfl rfl rfl rfl rfl rfl rfl rfl ⟨Iff.rfl, ?_⟩ ?_ ?_ ?_ (by simp)
      · simp [RtPc.fills, hf]
      · intro r hr; simp [RtPc.reg] at hr
      · intro i hi; simp [RtPc.mid] at hi
      · simp [RtPc.inSwitch]
  | restartMid k id =>
    rw [rtStep_restartMid h i hrt]
    have hf := h.notFills (by rw [hrt]; rfl)
    refine h.rtFrame (Or.inr ⟨id, .running, by simp, rfl⟩) rfl rfl rfl rfl rfl rfl rfl rfl rfl rfl rfl rfl ⟨Iff.rfl, ?_⟩ ?_ ?_ ?_ (by simp)
    · simp [RtPc.fills, hf]
    · intro r hr; simp [RtPc.reg] at hr
    · intro i hi; simp [RtPc.mid] at hi
    · simp [RtPc.inSwitch]
  | sweep k =>
    obtain ⟨u, hu, he⟩ := rtStep_sweep h i hrt
    have hf := h.notFills (by rw [hrt]; rfl)
    rcases he with ⟨hk, j, e, h1, h2, h3, he⟩ | ⟨hk, he⟩ <;> rw [he]
    all_goals
      refine h.rtFrame (Or.inl rfl) rfl rfl rfl rfl rfl rfl rfl rfl rfl rfl rfl rfl ⟨Iff.rfl, ?_⟩ ?_ ?_ ?_ (by simp)
      · simp [RtPc.fills, hf]
      · intro r hr; simp [RtPc.reg] at hr
      · intro i hi; simp [RtPc.mid] at hi
      · simp [RtPc.inSwitch]
  | publish =>
    unfold State.rtStep; rw [hrt]; simp only
    have hf := h.notFills (by rw [hrt]; rfl)
    split
    · rename_i hc
      simp only [Bool.and_eq_true, beq_iff_eq] at hc
      refine h.rtFrame (Or.inl rfl) rfl rfl rfl rfl rfl rfl rfl rfl rfl rfl rfl rfl ⟨?_, ?_⟩ ?_ ?_ ?_ (by simp)
      · simp [hc.2]
      · simp [RtPc.fills]
      · intro r hr; simp [RtPc.reg] at hr
      · intro i hi; simp [RtPc.mid] at hi
      · simp [RtPc.inSwitch]
    · refine h.rtFrame (Or.inl rfl) rfl rfl rfl rfl rfl rfl rfl rfl rfl rfl rfl rfl ⟨Iff.rfl, ?_⟩ ?_ ?_ ?_ (by simp)
      · simp [RtPc.fills, hf]
      · intro r hr; simp [RtPc.reg] at hr
      · intro i hi; simp [RtPc.mid] at hi
      · simp [RtPc.inSwitch]
  | pubFill k msg =>
    obtain ⟨hu, hn, he⟩ := rtStep_pubFill h i hrt
    have hf := h.pubR.2 (by rw [hrt]; rfl)
    rcases he with ⟨e, he1, he⟩ | ⟨hk, he⟩ <;> rw [he]
    · refine h.rtFrame (Or.inl rfl) rfl rfl rfl rfl rfl rfl rfl rfl rfl rfl rfl rfl ⟨Iff.rfl, ?_⟩ ?_ ?_ ?_ (by simp)
      · simp [RtPc.fills, hf]
      · intro r hr; simp [RtPc.reg] at hr
      · intro i hi; simp [RtPc.mid] at hi
      · simp [RtPc.inSwitch]
    · refine h.rtFrame (Or.inl rfl) rfl rfl rfl rfl rfl rfl rfl rfl rfl rfl rfl rfl ⟨?_, ?_⟩ ?_ ?_ ?_ (by simp)
      · simp [hf]
      · simp [RtPc.fills]
      · intro r hr; simp [RtPc.reg] at hr
      · intro i hi; simp [RtPc.mid] at hi
      · simp [RtPc.inSwitch]
  | switchCheck =>
    unfold State.rtStep; rw [hrt]; simp only
    have hf := h.notFills (by rw [hrt]; rfl)
    split
    · rename_i hc
      refine h.rtFrame (Or.inl rfl) rfl rfl rfl rfl rfl rfl rfl rfl rfl rfl rfl rfl ⟨Iff.rfl, ?_⟩ ?_ ?_ ?_ (by simp)
      · simp [RtPc.fills, hf]
      · intro r hr; simp [RtPc.reg] at hr
      · intro i hi; simp [RtPc.mid] at hi
      · intro _; exact hc
    · refine h.rtFrame (Or.inl rfl) rfl rfl rfl rfl rfl rfl rfl rfl rfl rfl rfl rfl ⟨Iff.rfl, ?_⟩ ?_ ?_ ?_ (by simp)
      · simp [RtPc.fills, hf]
      · intro r hr; simp [RtPc.reg] at hr
      · intro i hi; simp [RtPc.mid] at hi
      · simp [RtPc.inSwitch]
  | switchStop k =>
    have hf := h.notFills (by rw [hrt]; rfl)
    have hsw := h.sw2 (by rw [hrt]; rfl)
    rcases rtStep_switchStop h i hrt with ⟨id, h1, h2, he⟩ | ⟨hk, he⟩ <;> rw [he]
    · refine h.rtFrame (Or.inr ⟨id, .initialized, by simp, rfl⟩) rfl rfl rfl rfl rfl rfl rfl rfl rfl rfl rfl rfl ⟨Iff.rfl, ?_⟩ ?_ ?_ ?_ (by simp)
      · simp [RtPc.fills, hf]
      · intro r hr; simp [RtPc.reg] at hr
      · intro i hi; simp [RtPc.mid] at hi
      · intro _; exact hsw
    · refine h.rtFrame (Or.inl rfl) rfl rfl rfl rfl rfl rfl rfl rfl rfl rfl rfl rfl ⟨Iff.rfl, ?_⟩ ?_ ?_ ?_ (by simp)
      · simp [RtPc.fills, hf]
      · intro r hr; simp [RtPc.reg] at hr
      · intro i hi; simp [RtPc.mid] at hi
      · intro _; exact hsw
  | switchStart k =>
    have hf := h.notFills (by rw [hrt]; rfl)
    have hsw := h.sw2 (by rw [hrt]; rfl)
    rcases rtStep_switchStart h i hrt with ⟨id, h1, h2, he⟩ | ⟨hk, he⟩ <;> rw [he]
    · refine h.rtFrame (Or.inr ⟨id, .running, by simp, rfl⟩) rfl rfl rfl rfl rfl rfl rfl rfl rfl rfl rfl rfl ⟨Iff.rfl, ?_⟩ ?_ ?_ ?_ (by simp)
      · simp [RtPc.fills, hf]
      · intro r hr; simp [RtPc.reg] at hr
      · intro i hi; simp [RtPc.mid] at hi
      · intro _; exact hsw
    · refine h.rtFrame (Or.inl rfl) rfl rfl rfl rfl rfl rfl rfl rfl rfl rfl rfl rfl ⟨Iff.rfl, ?_⟩ ?_ ?_ ?_ (by simp)
      · simp [RtPc.fills, hf]
      · intro r hr; simp [RtPc.reg] at hr
      · intro i hi; simp [RtPc.mid] at hi
      · intro _; exact hsw
  | switchClear =>
    rw [rtStep_switchClear h i hrt]
    have hf := h.notFills (by rw [hrt]; rfl)
    have hsw := h.sw2 (by rw [hrt]; rfl)
    refine ⟨h.ok, h.notbad, h.good, h.used, ?_, h.former, h.clearing, h.built, h.pubN, ?_, h.pnames, ?_, h.sw1, ?_, ?_, ?_, ?_, h.wf⟩
    · intro r hr; simp [RtPc.reg] at hr
    · simp [RtPc.fills, hf]
    · intro i hi; simp [RtPc.mid] at hi
    · intro _; exact hsw
    · intro i hi; simp at hi
    · intro _; exact ⟨rfl, rfl⟩
    · intro _ _; exact ⟨rfl, rfl⟩
  | switchFlag =>
    unfold State.rtStep; rw [hrt]; simp only
    have hf := h.notFills (by rw [hrt]; rfl)
    refine ⟨h.ok, h.notbad, h.good, h.used, ?_, h.former, h.clearing, h.built, h.pubN, ?_, h.pnames, ?_, ?_, ?_, h.req, h.req0, ?_, h.wf⟩
    · intro r hr; simp [RtPc.reg] at hr
    · simp [RtPc.fills, hf]
    · intro i hi; simp [RtPc.mid] at hi
    · intro hc; simp at hc
    · simp [RtPc.inSwitch]
    · intro hw _; exact h.req1 hw (Or.inr hrt)
  | done =>
    unfold State.rtStep; rw [hrt]; simp only
    have hf := h.notFills (by rw [hrt]; rfl)
    refine h.rtFrame (Or.inl rfl) rfl rfl rfl rfl rfl rfl rfl rfl rfl rfl rfl rfl ⟨Iff.rfl, ?_⟩ ?_ ?_ ?_ (by simp)
    · simp [RtPc.fills, hf]
    · intro r hr; simp [RtPc.reg] at hr
    · intro i hi; simp [RtPc.mid] at hi
    · simp [RtPc.inSwitch]

end Pr2
