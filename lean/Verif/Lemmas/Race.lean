import Verif.Lemmas.Log
import Mathlib.Data.List.Chain

namespace Pr2
set_option linter.unusedVariables false
set_option linter.unusedSimpArgs false

theorem haltedFlags_append (a b : List Ev) : haltedFlags (a ++ b) = haltedFlags a ++ haltedFlags b := by
  simp [haltedFlags]

theorem neverReenabled_prefix {m : Bool} {a b : List Ev} (h : NeverReenabled m (a ++ b)) : NeverReenabled m a := by
  unfold NeverReenabled at *
  rw [haltedFlags_append, ← List.cons_append] at h
  exact h.left_of_append

/-- No race without a restart. -/
structure RaceInv (m : Bool) (s : State) : Prop where
  last : (m :: haltedFlags s.log).getLast (by simp) = s.motorsPrev
  restart : NeverReenabled m s.log → (∀ k, s.rt ≠ .restart k) ∧ ∀ k i, s.rt ≠ .restartMid k i
  raced : NeverReenabled m s.log → s.raced = false ∧ ∀ r ∈ s.nlog, r.raced = false

theorem RaceInv.noMid {m : Bool} {s : State} (h : RaceInv m s) (hn : NeverReenabled m s.log) (j : Nat) : s.midRestart j = false := by
  have := (h.restart hn).2
  unfold State.midRestart
  split
  · rename_i k i hrt; exact absurd hrt (this k i)
  · rfl

/-- realtime steps other than `pre` -/
theorem RaceInv.rtOther {m : Bool} {s s' : State} (h : RaceInv m s) (evs : List Ev) (hlog : s'.log = s.log ++ evs)
    (he : haltedFlags evs = []) (hm : s'.motorsPrev = s.motorsPrev) (hr : s'.raced = s.raced) (hnl : s'.nlog = s.nlog)
    (hrt : ((∀ k, s.rt ≠ .restart k) ∧ ∀ k i, s.rt ≠ .restartMid k i) → (∀ k, s'.rt ≠ .restart k) ∧ ∀ k i, s'.rt ≠ .restartMid k i) :
    RaceInv m s' := by
  refine ⟨?_, ?_, ?_⟩
  · have := h.last
    simp only [hlog, haltedFlags_append, he, List.append_nil, hm]
    exact this
  · intro hn
    rw [hlog] at hn
    exact hrt (h.restart (neverReenabled_prefix hn))
  · intro hn
    rw [hlog] at hn
    rw [hr, hnl]
    exact h.raced (neverReenabled_prefix hn)

theorem RaceInv.rtStep {m : Bool} {s : State} (hi : Inv s) (h : RaceInv m s) (i : RtIn) : RaceInv m (s.rtStep i) := by
  cases hrt : s.rt with
  | idle =>
    unfold State.rtStep; rw [hrt]
    exact h.rtOther [] (by simp) rfl rfl rfl rfl (by intro _; simp)
  | gotCurrent r =>
    unfold State.rtStep; rw [hrt]
    exact h.rtOther [] (by simp) rfl rfl rfl rfl (by intro _; simp)
  | pre =>
    obtain ⟨u, hu, he⟩ := rtStep_pre hi i hrt
    rw [he]
    refine ⟨?_, ?_, ?_⟩
    · simp only [haltedFlags_append, ← List.cons_append]
      simp [haltedFlags]
    · intro hn
      have h1 := h.last
      simp only at hn ⊢
      by_cases hre : (!i.halted && s.motorsPrev) = true
      · exfalso
        unfold NeverReenabled at hn
        rw [haltedFlags_append, ← List.cons_append] at hn
        have hch := (List.isChain_append.1 hn).2.2 (s.motorsPrev) (by
          rw [List.getLast?_eq_some_getLast (by simp), h1]; simp) i.halted (by simp [haltedFlags])
        simp only [Bool.and_eq_true, Bool.not_eq_true'] at hre
        rw [hch hre.2] at hre
        simp at hre
      · rw [if_neg hre]; simp
    · intro hn
      exact h.raced (neverReenabled_prefix hn)
  | restart k =>
    obtain ⟨u, hu, he⟩ := rtStep_restart hi i hrt
    have hno : ¬ ((∀ k, s.rt ≠ .restart k) ∧ ∀ k i, s.rt ≠ .restartMid k i) := fun hc => hc.1 k hrt
    rcases he with ⟨hk, j, e, h1, h2, h3, ⟨hr, he⟩ | ⟨hr, he⟩⟩ | ⟨hk, he⟩ <;> rw [he]
    · exact h.rtOther [.stopping e.id] rfl rfl rfl rfl rfl (fun hc => absurd hc hno)
    · exact h.rtOther [] (by simp) rfl rfl rfl rfl (fun hc => absurd hc hno)
    · exact h.rtOther [] (by simp) rfl rfl rfl rfl (fun hc => absurd hc hno)
  | restartMid k id =>
    have hno : ¬ ((∀ k, s.rt ≠ .restart k) ∧ ∀ k i, s.rt ≠ .restartMid k i) := fun hc => hc.2 k id hrt
    rw [rtStep_restartMid hi i hrt]
    exact h.rtOther [.starting id] rfl rfl rfl rfl rfl (fun hc => absurd hc hno)
  | sweep k =>
    obtain ⟨u, hu, he⟩ := rtStep_sweep hi i hrt
    rcases he with ⟨hk, j, e, h1, h2, h3, he⟩ | ⟨hk, he⟩ <;> rw [he]
    · exact h.rtOther (if s.isRunning e.id then [.update e.id] else []) rfl (by split <;> rfl) rfl rfl rfl (by intro _; simp)
    · exact h.rtOther [] (by simp) rfl rfl rfl rfl (by intro _; simp)
  | publish =>
    unfold State.rtStep; rw [hrt]; simp only
    split
    · exact h.rtOther [] (by simp) rfl rfl rfl rfl (by intro _; simp)
    · exact h.rtOther [] (by simp) rfl rfl rfl rfl (by intro _; simp)
  | pubFill k msg =>
    obtain ⟨hu, hn, he⟩ := rtStep_pubFill hi i hrt
    rcases he with ⟨e, he1, he⟩ | ⟨hk, he⟩ <;> rw [he]
    · exact h.rtOther [] (by simp) rfl rfl rfl rfl (by intro _; simp)
    · exact h.rtOther [_] rfl rfl rfl rfl rfl (by intro _; simp)
  | switchCheck =>
    unfold State.rtStep; rw [hrt]; simp only
    split
    · exact h.rtOther [_] rfl rfl rfl rfl rfl (by intro _; simp)
    · exact h.rtOther [] (by simp) rfl rfl rfl rfl (by intro _; simp)
  | switchStop k =>
    rcases rtStep_switchStop hi i hrt with ⟨id, hid, ⟨e, he, hee⟩, he'⟩ | ⟨hk, he'⟩ <;> rw [he']
    · exact h.rtOther [_] rfl rfl rfl rfl rfl (by intro _; simp)
    · exact h.rtOther [] (by simp) rfl rfl rfl rfl (by intro _; simp)
  | switchStart k =>
    rcases rtStep_switchStart hi i hrt with ⟨id, hid, ⟨e, he, hee⟩, he'⟩ | ⟨hk, he'⟩ <;> rw [he']
    · exact h.rtOther [_] rfl rfl rfl rfl rfl (by intro _; simp)
    · exact h.rtOther [] (by simp) rfl rfl rfl rfl (by intro _; simp)
  | switchClear =>
    rw [rtStep_switchClear hi i hrt]
    exact h.rtOther [_] rfl rfl rfl rfl rfl (by intro _; simp)
  | switchFlag =>
    unfold State.rtStep; rw [hrt]
    exact h.rtOther [] (by simp) rfl rfl rfl rfl (by intro _; simp)
  | done =>
    unfold State.rtStep; rw [hrt]
    exact h.rtOther [_] rfl rfl rfl rfl rfl (by intro _; simp)

/-- how a service step may change the race ghosts -/
theorem nrt_raced {s : State} (hi : Inv s) (hm : ∀ j, s.midRestart j = false) :
    (s.nrtStep).raced = s.raced ∧ ((s.nrtStep).nlog = s.nlog ∨ ∃ r, (s.nrtStep).nlog = s.nlog ++ [r] ∧ r.raced = s.raced) := by
  cases hn : s.nrt with
  | idle => unfold State.nrtStep; rw [hn]; exact ⟨rfl, Or.inl rfl⟩
  | wait1 op =>
    unfold State.nrtStep; rw [hn]; simp only
    split <;> exact ⟨rfl, Or.inl rfl⟩
  | wait1Inner op =>
    unfold State.nrtStep; rw [hn]; simp only
    split
    · exact ⟨rfl, Or.inl rfl⟩
    · exact ⟨rfl, Or.inr ⟨_, rfl, rfl⟩⟩
  | build op =>
    unfold State.nrtStep; rw [hn]; simp only
    split <;> exact ⟨rfl, Or.inl rfl⟩
  | build2 op =>
    cases op with
    | load r =>
      rcases nrtStep_build2_load hi hn with ⟨hok, he, hg, hst⟩ | ⟨hok, he⟩ <;> rw [he]
      · exact ⟨rfl, Or.inl rfl⟩
      · exact ⟨rfl, Or.inr ⟨_, rfl, rfl⟩⟩
    | unload n =>
      have hb : s.bodyRaces (.unload n) = false := by simp [State.bodyRaces, hm]
      rcases nrtStep_build2_unload hi hn with ⟨hok, he, hg⟩ | ⟨hok, he⟩ <;> rw [he]
      · refine ⟨?_, Or.inl rfl⟩
        simp [hb]
      · refine ⟨?_, Or.inr ⟨_, rfl, ?_⟩⟩
        · simp [hb, State.ret]
        · simp [hb]
    | switch a b c => have := hi.wf; rw [hn] at this; simp [NrtPc.wf, Op.isListOp] at this
    | list => have := hi.wf; rw [hn] at this; simp [NrtPc.wf, Op.isListOp] at this
  | pubLock op =>
    unfold State.nrtStep; rw [hn]; simp only
    split <;> exact ⟨rfl, Or.inl rfl⟩
  | pubResize op => unfold State.nrtStep; rw [hn]; exact ⟨rfl, Or.inl rfl⟩
  | swap op => unfold State.nrtStep; rw [hn]; exact ⟨rfl, Or.inl rfl⟩
  | wait2 op f =>
    unfold State.nrtStep; rw [hn]; simp only
    split <;> exact ⟨rfl, Or.inl rfl⟩
  | wait2Inner op f =>
    unfold State.nrtStep; rw [hn]; simp only
    split
    · exact ⟨rfl, Or.inl rfl⟩
    · exact ⟨rfl, Or.inr ⟨_, rfl, rfl⟩⟩
  | clear op f =>
    unfold State.nrtStep; rw [hn]; simp only
    split <;> exact ⟨rfl, Or.inl rfl⟩
  | clear2 op f => unfold State.nrtStep; rw [hn]; exact ⟨rfl, Or.inl rfl⟩
  | unlock op => unfold State.nrtStep; rw [hn]; exact ⟨rfl, Or.inr ⟨_, rfl, rfl⟩⟩
  | resolve op =>
    unfold State.nrtStep; rw [hn]; simp only
    split <;> exact ⟨rfl, Or.inl rfl⟩
  | resolve2 op =>
    unfold State.nrtStep; rw [hn]; simp only
    cases op with
    | switch start stop k =>
      simp only
      split
      · exact ⟨rfl, Or.inl rfl⟩
      · exact ⟨rfl, Or.inr ⟨_, rfl, rfl⟩⟩
    | load r => exact ⟨rfl, Or.inl rfl⟩
    | unload n => exact ⟨rfl, Or.inl rfl⟩
    | list => exact ⟨rfl, Or.inl rfl⟩
  | setFlag op => unfold State.nrtStep; rw [hn]; exact ⟨rfl, Or.inl rfl⟩
  | waitSwitch op =>
    unfold State.nrtStep; rw [hn]; simp only
    split
    · exact ⟨rfl, Or.inl rfl⟩
    · exact ⟨rfl, Or.inr ⟨_, rfl, rfl⟩⟩
  | waitSwitchInner op =>
    unfold State.nrtStep; rw [hn]; simp only
    split
    · exact ⟨rfl, Or.inl rfl⟩
    · exact ⟨rfl, Or.inr ⟨_, rfl, rfl⟩⟩
  | listing k acc =>
    rcases nrtStep_listing hi hn with ⟨hk, he⟩ | ⟨j, e, hj, he1, he2, he⟩ <;> rw [he]
    · exact ⟨rfl, Or.inr ⟨_, rfl, rfl⟩⟩
    · refine ⟨?_, Or.inl rfl⟩
      simp [hm]

theorem RaceInv.nrtStep {m : Bool} {s : State} (hi : Inv s) (h : RaceInv m s) : RaceInv m s.nrtStep := by
  have hk := nrtKeeps hi
  refine ⟨?_, ?_, ?_⟩
  · simp only [hk.log, hk.motors]; exact h.last
  · rw [hk.log, hk.rt]; exact h.restart
  · rw [hk.log]
    intro hn
    obtain ⟨h1, h2⟩ := nrt_raced hi (h.noMid hn)
    obtain ⟨h3, h4⟩ := h.raced hn
    refine ⟨by rw [h1]; exact h3, ?_⟩
    rcases h2 with h2 | ⟨r, h2, h5⟩
    · rw [h2]; exact h4
    · rw [h2]
      intro r' hr'
      rw [List.mem_append, List.mem_singleton] at hr'
      rcases hr' with hr' | rfl
      · exact h4 r' hr'
      · rw [h5]; exact h3

theorem RaceInv.call {m : Bool} {s : State} (hi : Inv s) (h : RaceInv m s) (op : Op) : RaceInv m (s.call op) := by
  unfold State.call
  split
  · exact ⟨h.last, h.restart, fun hn => ⟨rfl, (h.raced hn).2⟩⟩
  · exact h

theorem Reachable.raceInv {m : Bool} {s : State} (h : Reachable m s) : RaceInv m s :=
  (reach_induct m (P := RaceInv m) ⟨by simp [State.init, haltedFlags], by intro _; simp, by intro _; simp [State.init]⟩
    (fun s i h hl => hl.rtStep h i) (fun s h hl => hl.nrtStep h) (fun s op h hl => hl.call h op) h).2

/-- while a load/unload waits for the realtime loop to leave the old list, the old list is as when the call started -/
def FormerInv (s : State) : Prop :=
  ∀ f, s.nrt.former = some f → s.snap = viewOf s.heap (s.lists f) (s.sched f) s.runs

theorem FormerInv.rtStep {s : State} (hi : Inv s) (h : FormerInv s) (i : RtIn) : FormerInv (s.rtStep i) := by
  intro f hf
  by_cases hs : s.rt.inSwitch = true
  · have h1 := (hi.switchFacts hs).2
    have hn : (s.rtStep i).nrt = s.nrt := by
      cases hrt : s.rt with
      | switchStop k => rcases rtStep_switchStop hi i hrt with ⟨id, hid, _, he'⟩ | ⟨hk, he'⟩ <;> rw [he']
      | switchStart k => rcases rtStep_switchStart hi i hrt with ⟨id, hid, _, he'⟩ | ⟨hk, he'⟩ <;> rw [he']
      | switchClear => rw [rtStep_switchClear hi i hrt]
      | switchFlag => unfold State.rtStep; rw [hrt]
      | idle => rw [hrt] at hs; simp [RtPc.inSwitch] at hs
      | gotCurrent r => rw [hrt] at hs; simp [RtPc.inSwitch] at hs
      | pre => rw [hrt] at hs; simp [RtPc.inSwitch] at hs
      | restart k => rw [hrt] at hs; simp [RtPc.inSwitch] at hs
      | restartMid k id => rw [hrt] at hs; simp [RtPc.inSwitch] at hs
      | sweep k => rw [hrt] at hs; simp [RtPc.inSwitch] at hs
      | publish => rw [hrt] at hs; simp [RtPc.inSwitch] at hs
      | pubFill k m => rw [hrt] at hs; simp [RtPc.inSwitch] at hs
      | switchCheck => rw [hrt] at hs; simp [RtPc.inSwitch] at hs
      | done => rw [hrt] at hs; simp [RtPc.inSwitch] at hs
    rw [hn] at hf
    exfalso
    revert h1 hf
    cases s.nrt <;> simp [NrtPc.waitsSwitch, NrtPc.former]
  · obtain ⟨hr, hb, hl, hsc, hc, hn, hsnap, hra, hnl, hps, hst, hsa, hnx⟩ := rtStep_runs hi i (by simpa using hs)
    rw [hn] at hf
    rw [hsnap, hl, hsc, viewOf_congr (fun e _ => hb e.id) (fun e _ => hr e.id)]
    exact h f hf

theorem FormerInv.nrtStep {s : State} (hi : Inv s) (h2 : Inv2 s) (h : FormerInv s) : FormerInv s.nrtStep := by
  have hp := h2.prog
  intro f hf
  cases hn : s.nrt with
  | swap op =>
    unfold Prog at hp; rw [hn] at hp
    have he : s.nrtStep = { s with current := !s.current, nrt := .wait2 op s.current } := by
      unfold State.nrtStep; rw [hn]
    rw [he] at hf ⊢
    simp only [NrtPc.former, Option.some.injEq] at hf
    subst hf
    exact hp.1
  | wait2 op f' =>
    have hh := h f' (by rw [hn]; rfl)
    unfold State.nrtStep at hf ⊢; rw [hn] at hf ⊢; simp only at hf ⊢
    split at hf
    · rename_i hc; rw [if_pos hc]
      simp only [NrtPc.former, Option.some.injEq] at hf
      subst hf; exact hh
    · simp [NrtPc.former] at hf
  | wait2Inner op f' =>
    have hh := h f' (by rw [hn]; rfl)
    unfold State.nrtStep at hf ⊢; rw [hn] at hf ⊢; simp only [hi.ok, if_true] at hf ⊢
    simp only [NrtPc.former, Option.some.injEq] at hf
    subst hf; exact hh
  | idle => unfold State.nrtStep at hf; rw [hn] at hf; simp only [hn] at hf; simp [NrtPc.former] at hf
  | wait1 op => unfold State.nrtStep at hf; rw [hn] at hf; simp only at hf; split at hf <;> simp [NrtPc.former] at hf
  | wait1Inner op => unfold State.nrtStep at hf; rw [hn] at hf; simp only at hf; split at hf <;> simp [NrtPc.former, State.ret] at hf
  | build op => unfold State.nrtStep at hf; rw [hn] at hf; simp only at hf; split at hf <;> simp [NrtPc.former, State.fail, hn] at hf
  | build2 op =>
    cases op with
    | load r =>
      rcases nrtStep_build2_load hi hn with ⟨hok, he, hg, hst⟩ | ⟨hok, he⟩ <;> rw [he] at hf <;> simp [NrtPc.former, State.ret] at hf
    | unload n =>
      rcases nrtStep_build2_unload hi hn with ⟨hok, he, hg⟩ | ⟨hok, he⟩ <;> rw [he] at hf <;> simp [NrtPc.former, State.ret] at hf
    | switch a b c => have := hi.wf; rw [hn] at this; simp [NrtPc.wf, Op.isListOp] at this
    | list => have := hi.wf; rw [hn] at this; simp [NrtPc.wf, Op.isListOp] at this
  | pubLock op => unfold State.nrtStep at hf; rw [hn] at hf; simp only at hf; split at hf <;> simp [NrtPc.former, hn] at hf
  | pubResize op => unfold State.nrtStep at hf; rw [hn] at hf; simp [NrtPc.former] at hf
  | clear op f => unfold State.nrtStep at hf; rw [hn] at hf; simp only at hf; split at hf <;> simp [NrtPc.former, State.fail, hn] at hf
  | clear2 op f => unfold State.nrtStep at hf; rw [hn] at hf; simp [NrtPc.former] at hf
  | unlock op => unfold State.nrtStep at hf; rw [hn] at hf; simp [NrtPc.former, State.ret] at hf
  | resolve op => unfold State.nrtStep at hf; rw [hn] at hf; simp only at hf; split at hf <;> simp [NrtPc.former, State.fail, hn] at hf
  | resolve2 op =>
    unfold State.nrtStep at hf; rw [hn] at hf; simp only at hf
    cases op with
    | switch start stop k => simp only at hf; split at hf <;> simp [NrtPc.former, State.ret] at hf
    | load r => simp [NrtPc.former, State.fail, hn] at hf
    | unload n => simp [NrtPc.former, State.fail, hn] at hf
    | list => simp [NrtPc.former, State.fail, hn] at hf
  | setFlag op => unfold State.nrtStep at hf; rw [hn] at hf; simp [NrtPc.former] at hf
  | waitSwitch op => unfold State.nrtStep at hf; rw [hn] at hf; simp only at hf; split at hf <;> simp [NrtPc.former, State.ret] at hf
  | waitSwitchInner op => unfold State.nrtStep at hf; rw [hn] at hf; simp only at hf; split at hf <;> simp [NrtPc.former, State.ret] at hf
  | listing k acc =>
    rcases nrtStep_listing hi hn with ⟨hk, he⟩ | ⟨j, e, hj, he1, he2, he⟩ <;> rw [he] at hf <;> simp [NrtPc.former, State.ret] at hf

theorem Reachable.formerInv {m : Bool} {s : State} (h : Reachable m s) : FormerInv s :=
  (reach_induct m (P := fun s => Inv2 s ∧ FormerInv s) ⟨inv2_first m, by intro f hf; simp [State.init, NrtPc.former] at hf⟩
    (fun s i h hl => ⟨hl.1.rtStep h i, hl.2.rtStep h i⟩) (fun s h hl => ⟨hl.1.nrtStep h, hl.2.nrtStep h hl.1⟩)
    (fun s op h hl => ⟨hl.1.call h op, by
      intro f hf
      unfold State.call at hf ⊢
      split at hf
      · cases op <;> simp [NrtPc.former] at hf
      · exact hl.2 f hf⟩) h).2.2

end Pr2
