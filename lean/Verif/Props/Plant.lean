import Verif.Model.Plant
import Verif.Props.Cycle
import Verif.Props.Manager

/-!
# C84: what the motors get, in the running system
-/

namespace Pr2
set_option linter.unusedVariables false
set_option linter.unusedSectionVars false

/-! ## Specification -/

/-- Were the motors halted in the last cycle of a history (`m`: at the beginning)? -/
def wasHalted (m : Bool) (log : List Ev) : Bool := (haltedFlags log).getLast?.getD m

section
variable {F : Type} [FCmp F] [Zero F] [Add F] [Sub F] [Mul F] [iDiv : Div F] [Neg F] [FLit F] [iTrig : FTrig F]

/-- A cycle in which the actuators got what they should: the joints follow the actuators' readings, all commands are zero, then plugins act one after the other -
`stopping` and `starting` of the running controllers if the motors have just been re-enabled, then `update` of every controller that was running when the cycle
began, in execution order, and no other call - then the commands are limited and passed to the actuators.  These are the calls of the manager's history `log`, and
every listed controller is timed once. -/
def CycleRec.Faithful (big : F) (m : Bool) (log : List Ev) (r : CycleRec F) : Prop :=
  ∃ order moved,
    r.begun ++ .cycleBegin order moved.isHalted :: r.calls.map (·.ev) <+: log ∧
    r.entry.propagatePosition = some moved ∧
    r.calls.map (·.ev) = (if wasHalted m r.begun && !moved.isHalted then restartEvents order else []) ++ updateEvents order ∧
    r.timed.map (·.1) = order.map (·.1) ∧
    ((applyCalls r.calls moved.zeroCommands).enforceSafety big).propagateEffort = some r.sent

end

/-! ## Proof -/

def MgrOk (m : Bool) (s : State) : Prop := s = State.init m ∨ s = { State.init m with rt := .gotCurrent false } ∨ Reachable m s

theorem MgrOk.rt {m : Bool} {s : State} (h : MgrOk m s) (i : RtIn) : MgrOk m (s.step (.rt i)) := by
  rcases h with rfl | rfl | h
  · exact Or.inr (Or.inl rfl)
  · refine Or.inr (Or.inr ?_)
    have := Reachable.start (m := m) [i, i] (by simp [State.run, State.step, State.rtStep, State.init])
    exact this
  · exact Or.inr (Or.inr (h.step _ (by simp)))

theorem MgrOk.reach {m : Bool} {s : State} (h : MgrOk m s) (hu : s.used ≠ none) : Reachable m s := by
  rcases h with rfl | rfl | h
  · exact absurd rfl hu
  · exact absurd rfl hu
  · exact h

/-- inside the part of `update` between 148 and 165 -/
def RtPc.inCycle : RtPc → Bool
  | .restart _ | .restartMid _ _ | .sweep _ => true
  | _ => false

theorem MgrOk.reach' {m : Bool} {s : State} (h : MgrOk m s) (h1 : s.rt ≠ .idle) (h2 : ∀ r, s.rt ≠ .gotCurrent r) : Reachable m s := by
  rcases h with rfl | rfl | h
  · exact absurd rfl h1
  · exact absurd rfl (h2 false)
  · exact h

def Ev.isBegin : Ev → Bool
  | .cycleBegin _ _ => true
  | _ => false

theorem split_unique {a a' b b' : List Ev} {x x' : Ev} (h : a ++ x :: b = a' ++ x' :: b') (hx : x.isBegin = true) (hx' : x'.isBegin = true)
    (hb : ∀ e ∈ b, e.isBegin = false) (hb' : ∀ e ∈ b', e.isBegin = false) : a = a' ∧ x = x' ∧ b = b' := by
  rcases List.append_eq_append_iff.1 h with ⟨c, h1, h2⟩ | ⟨c, h1, h2⟩
  · cases c with
    | nil => simp only [List.nil_append, List.cons.injEq] at h2; simp only [List.append_nil] at h1; exact ⟨h1.symm, h2.1, h2.2⟩
    | cons y c =>
      simp only [List.cons_append, List.cons.injEq] at h2
      have := hb x' (by rw [h2.2]; simp)
      rw [hx'] at this; cases this
  · cases c with
    | nil => simp only [List.nil_append, List.cons.injEq] at h2; simp only [List.append_nil] at h1; exact ⟨h1, h2.1.symm, h2.2.symm⟩
    | cons y c =>
      simp only [List.cons_append, List.cons.injEq] at h2
      have := hb' x (by rw [h2.2]; simp)
      rw [hx] at this; cases this

theorem isCall_not_begin {e : Ev} (h : e.isCall = true) : e.isBegin = false := by
  cases e <;> first | rfl | cases h

theorem restart_calls (l : List (Nat × Bool)) : ∀ e ∈ restartEvents l, e.isCall = true := by
  intro e he
  obtain ⟨p, _, h⟩ := List.mem_flatMap.1 he
  split at h
  · rcases List.mem_cons.1 h with rfl | h
    · rfl
    · rcases List.mem_cons.1 h with rfl | h
      · rfl
      · cases h
  · cases h

theorem update_calls (l : List (Nat × Bool)) : ∀ e ∈ updateEvents l, e.isCall = true := by
  intro e he
  obtain ⟨p, _, h⟩ := List.mem_flatMap.1 he
  split at h
  · rcases List.mem_cons.1 h with rfl | h
    · rfl
    · cases h
  · cases h

theorem haltedFlags_nil {l : List Ev} (h : ∀ e ∈ l, e.isBegin = false) : haltedFlags l = [] := by
  unfold haltedFlags
  rw [List.filterMap_eq_nil_iff]
  intro e he
  have := h e he
  cases e <;> first | rfl | cases this

theorem isCycle_flags {p now : Bool} {l : List Ev} (h : IsCycle p now l) : haltedFlags l = [now] := by
  obtain ⟨order, pub, sw, h1, h2, rfl⟩ := h
  have e1 : haltedFlags pub = [] := by
    rcases h1 with rfl | ⟨es, rfl⟩ <;> rfl
  have e2 : haltedFlags sw = [] := by
    rcases h2 with rfl | ⟨A, B, rfl⟩
    · rfl
    · apply haltedFlags_nil
      intro e he
      simp only [List.mem_cons, List.mem_append, List.mem_map, List.not_mem_nil, or_false] at he
      rcases he with rfl | ((⟨_, _, rfl⟩ | ⟨_, _, rfl⟩) | rfl) <;> rfl
  have e3 : haltedFlags ((if p && !now then restartEvents order else []) ++ updateEvents order) = [] := by
    apply haltedFlags_nil
    intro e he
    rcases List.mem_append.1 he with he | he
    · split at he
      · exact isCall_not_begin (restart_calls _ e he)
      · cases he
    · exact isCall_not_begin (update_calls _ e he)
  simp only [haltedFlags_append, e1, e2]
  unfold sweepEvents
  have : ∀ l, haltedFlags (Ev.cycleBegin order now :: l) = now :: haltedFlags l := fun l => rfl
  rw [this, e3]; rfl

theorem cycles_wasHalted {m : Bool} {l : List Ev} {p : Bool} (h : Cycles m l p) : p = wasHalted m l := by
  cases h with
  | nil => rfl
  | snoc h hc => unfold wasHalted; rw [haltedFlags_append, isCycle_flags hc]; simp

theorem applyCalls_append {F : Type} (a b : List (PlugCall F)) (s : RState F) : applyCalls (a ++ b) s = applyCalls b (applyCalls a s) := by
  simp [applyCalls, List.foldl_append]

section
variable {F : Type} [FCmp F] [Zero F] [Add F] [Sub F] [Mul F] [iDiv : Div F] [Neg F] [FLit F] [iTrig : FTrig F]

omit iDiv iTrig [FLit F] [FCmp F] [Add F] [Sub F] [Mul F] [Neg F] in
theorem zero_isHalted (s : RState F) : s.zeroCommands.isHalted = s.isHalted := rfl

/-- what is known at each point -/
structure PInv (big : F) (m : Bool) (p : Plant F) : Prop where
  mgr : MgrOk m p.mgr
  cyc : p.mgr.rt.inCycle = true → ∃ order moved, p.mgr.log = p.begun ++ .cycleBegin order moved.isHalted :: p.calls.map (·.ev) ∧
    (∀ c ∈ p.calls, c.ev.isCall = true) ∧ p.entry.propagatePosition = some moved ∧ p.data.robot = applyCalls p.calls moved.zeroCommands
  pre : (∀ k, p.mgr.rt = .restart k → p.timed = []) ∧ (∀ k id, p.mgr.rt = .restartMid k id → p.timed = [])
  timed : ∀ k, p.mgr.rt = .sweep k → ∀ u, p.mgr.used = some u → p.timed.map (·.1) = ((orderOf p.mgr u).take k).map (·.1)
  recs : ∀ r ∈ p.cycles, r.Faithful big m p.mgr.log
  count : (haltedFlags p.mgr.log).length = p.cycles.length + (if p.mgr.rt.inCycle then 1 else 0)

omit iDiv iTrig [FLit F] [FCmp F] [Zero F] [Add F] [Sub F] [Mul F] [Neg F] in
theorem advance_eq (p : Plant F) (m : State) (plug : RState F → RState F) (new : List Ev) (hl : m.log = p.mgr.log ++ new) :
    p.advance m plug =
      { p with
        mgr := m
        data := { p.data with robot := applyCalls ((new.filter Ev.isCall).map (fun e => PlugCall.mk e plug)) p.data.robot }
        calls := p.calls ++ (new.filter Ev.isCall).map (fun e => PlugCall.mk e plug) } := by
  unfold Plant.advance
  rw [hl, List.drop_left]

theorem CycleRec.Faithful.mono {big : F} {m : Bool} {l l' : List Ev} {r : CycleRec F} (h : r.Faithful big m l) (hl : l <+: l') : r.Faithful big m l' := by
  obtain ⟨order, moved, h1, h2⟩ := h
  exact ⟨order, moved, h1.trans hl, h2⟩


omit iDiv iTrig [FLit F] [FCmp F] [Zero F] [Add F] [Sub F] [Mul F] [Neg F] in
theorem plantStep_rt {s : State} (h : Inv s) (i : RtIn) : s.step (.rt i) = s.rtStep i := by
  unfold State.step
  rw [if_neg (by rw [h.notbad]; simp)]

/-- outside the cycle proper a step makes no difference to what is known -/
theorem rtStep_outside {s : State} (h : Inv s) (i : RtIn) (hp : s.rt ≠ .pre) (hc : s.rt.inCycle = false) :
    (s.rtStep i).rt.inCycle = false ∧ ∃ new, (s.rtStep i).log = s.log ++ new ∧ haltedFlags new = [] := by
  cases hrt : s.rt with
  | idle => unfold State.rtStep; rw [hrt]; exact ⟨rfl, [], by simp, rfl⟩
  | gotCurrent r => unfold State.rtStep; rw [hrt]; exact ⟨rfl, [], by simp, rfl⟩
  | pre => exact absurd hrt hp
  | restart k => rw [hrt] at hc; cases hc
  | restartMid k id => rw [hrt] at hc; cases hc
  | sweep k => rw [hrt] at hc; cases hc
  | publish =>
    unfold State.rtStep; rw [hrt]; dsimp only
    split <;> exact ⟨rfl, [], by simp, rfl⟩
  | pubFill k msg =>
    unfold State.rtStep; rw [hrt]; dsimp only
    split
    · exact ⟨by simp [State.fail, hrt, RtPc.inCycle], [], by simp [State.fail], rfl⟩
    · split
      · exact ⟨by simp [State.fail, hrt, RtPc.inCycle], [], by simp [State.fail], rfl⟩
      · split
        · split
          · exact ⟨by simp [State.fail, hrt, RtPc.inCycle], [], by simp [State.fail], rfl⟩
          · split
            · exact ⟨rfl, [], by simp, rfl⟩
            · exact ⟨by simp [State.fail, hrt, RtPc.inCycle], [], by simp [State.fail], rfl⟩
        · exact ⟨rfl, _, rfl, rfl⟩
  | switchCheck =>
    unfold State.rtStep; rw [hrt]; dsimp only
    split
    · exact ⟨rfl, _, rfl, rfl⟩
    · exact ⟨rfl, [], by simp, rfl⟩
  | switchStop k =>
    rcases rtStep_switchStop h i hrt with ⟨id, _, _, he⟩ | ⟨_, he⟩ <;> rw [he]
    · exact ⟨rfl, _, rfl, rfl⟩
    · exact ⟨rfl, [], by simp, rfl⟩
  | switchStart k =>
    rcases rtStep_switchStart h i hrt with ⟨id, _, _, he⟩ | ⟨_, he⟩ <;> rw [he]
    · exact ⟨rfl, _, rfl, rfl⟩
    · exact ⟨rfl, [], by simp, rfl⟩
  | switchClear => rw [rtStep_switchClear h i hrt]; exact ⟨rfl, _, rfl, rfl⟩
  | switchFlag => unfold State.rtStep; rw [hrt]; exact ⟨rfl, [], by simp, rfl⟩
  | done => unfold State.rtStep; rw [hrt]; exact ⟨rfl, _, rfl, rfl⟩

theorem outside_step {m : Bool} {s : State} (h : MgrOk m s) (i : RtIn) (hp : s.rt ≠ .pre) (hc : s.rt.inCycle = false) :
    (s.step (.rt i)).rt.inCycle = false ∧ ∃ new, (s.step (.rt i)).log = s.log ++ new ∧ haltedFlags new = [] := by
  rcases h with rfl | rfl | h
  · exact ⟨rfl, [], rfl, rfl⟩
  · exact ⟨rfl, [], rfl, rfl⟩
  · rw [plantStep_rt h.inv.1]; exact rtStep_outside h.inv.1 i hp hc

/-- the manager moves outside the cycle proper -/
theorem PInv.outside {big : F} {m : Bool} {p q : Plant F} (h : PInv big m p) {i : RtIn} (hp : p.mgr.rt ≠ .pre) (hc : p.mgr.rt.inCycle = false)
    (hm : q.mgr = p.mgr.step (.rt i)) (hcy : q.cycles = p.cycles) : PInv big m q := by
  obtain ⟨h1, new, h2, h3⟩ := outside_step h.mgr i hp hc
  rw [← hm] at h1 h2
  refine ⟨by rw [hm]; exact h.mgr.rt i, ?_, ⟨?_, ?_⟩, ?_, ?_, ?_⟩
  · intro hq; rw [h1] at hq; cases hq
  · intro k hk; rw [hk] at h1; cases h1
  · intro k id hk; rw [hk] at h1; cases h1
  · intro k hk; rw [hk] at h1; cases h1
  · intro r hr; rw [hcy] at hr; exact CycleRec.Faithful.mono (h.recs r hr) (by rw [h2]; exact List.prefix_append _ _)
  · rw [h2, haltedFlags_append, h3, List.append_nil, h.count, hcy, h1, hc]

/-- a step within the cycle proper, which does not end it -/
theorem PInv.inside {big : F} {m : Bool} {p q : Plant F} (h : PInv big m p) (i : RtIn) (hc : p.mgr.rt.inCycle = true) (plug : RState F → RState F) (new : List Ev)
    (hm : q.mgr = p.mgr.step (.rt i)) (hl : q.mgr.log = p.mgr.log ++ new) (hn : ∀ e ∈ new, e.isCall = true) (hcq : q.mgr.rt.inCycle = true)
    (hb : q.begun = p.begun) (he : q.entry = p.entry) (hcs : q.calls = (p.advance q.mgr plug).calls) (hr : q.data.robot = (p.advance q.mgr plug).data.robot)
    (hcy : q.cycles = p.cycles) (h1 : ∀ k, q.mgr.rt = .restart k → q.timed = []) (h2 : ∀ k id, q.mgr.rt = .restartMid k id → q.timed = [])
    (h3 : ∀ k, q.mgr.rt = .sweep k → ∀ u, q.mgr.used = some u → q.timed.map (·.1) = ((orderOf q.mgr u).take k).map (·.1)) : PInv big m q := by
  obtain ⟨order, moved, e1, e2, e3, e4⟩ := h.cyc hc
  have hf : new.filter Ev.isCall = new := List.filter_eq_self.2 hn
  rw [advance_eq p q.mgr plug new hl, hf] at hcs hr
  dsimp only at hcs hr
  have hev : (new.map (fun e => PlugCall.mk e plug)).map (·.ev) = new := by
    rw [List.map_map]; exact List.map_id _
  refine ⟨by rw [hm]; exact h.mgr.rt i, fun _ => ⟨order, moved, ?_, ?_, by rw [he]; exact e3, ?_⟩, ⟨h1, h2⟩, h3, ?_, ?_⟩
  · rw [hl, e1, hb, hcs, List.map_append, hev]; simp
  · intro c hc'
    rw [hcs] at hc'
    rcases List.mem_append.1 hc' with hc' | hc'
    · exact e2 c hc'
    · obtain ⟨e, he', rfl⟩ := List.mem_map.1 hc'; exact hn e he'
  · rw [hr, hcs, applyCalls_append, e4]
  · intro r hr'; rw [hcy] at hr'; exact CycleRec.Faithful.mono (h.recs r hr') (by rw [hl]; exact List.prefix_append _ _)
  · rw [hl, haltedFlags_append, haltedFlags_nil (fun e he => isCall_not_begin (hn e he)), List.append_nil, h.count, hcy, hcq, hc]

theorem PInv.rtStep {big : F} {m : Bool} {p : Plant F} (h : PInv big m p) (i : PlantIn F) : PInv big m (p.rtStep big i) := by
  have dead : ∀ b, PInv big m { p with dead := b } := fun b => ⟨h.mgr, h.cyc, h.pre, h.timed, h.recs, h.count⟩
  unfold Plant.rtStep
  cases hrt : p.mgr.rt with
  | pre =>
    dsimp only
    rcases hpos : ({ p.data.robot with acts := i.hw p.data.robot.acts } : RState F).propagatePosition with _ | moved
    · exact dead true
    · dsimp only
      have hR : Reachable m p.mgr := h.mgr.reach' (by rw [hrt]; simp) (by rw [hrt]; simp)
      obtain ⟨u, hu, he⟩ := rtStep_pre hR.inv.1 ⟨moved.zeroCommands.isHalted, false, false⟩ hrt
      have hm := h.mgr.rt ⟨moved.zeroCommands.isHalted, false, false⟩
      rw [plantStep_rt hR.inv.1] at hm ⊢
      have hcount := h.count
      rw [hrt] at hcount
      rw [he] at hm ⊢
      refine ⟨hm, fun _ => ⟨_, moved, rfl, by simp, hpos, rfl⟩, ⟨fun _ _ => rfl, fun _ _ _ => rfl⟩, ?_, ?_, ?_⟩
      · intro k hk v hv
        dsimp only at hk ⊢
        split at hk
        · cases hk
        · cases hk; rfl
      · intro r hr; exact CycleRec.Faithful.mono (h.recs r hr) (List.prefix_append _ _)
      · dsimp only
        rw [haltedFlags_append]
        have : (if (!moved.zeroCommands.isHalted && p.mgr.motorsPrev) = true then RtPc.restart 0 else RtPc.sweep 0).inCycle = true := by split <;> rfl
        rw [this, List.length_append, hcount]
        rfl
  | sweep k =>
    dsimp only
    have hR : Reachable m p.mgr := h.mgr.reach' (by rw [hrt]; simp) (by rw [hrt]; simp)
    have hm := h.mgr.rt ⟨false, false, false⟩
    have hc : p.mgr.rt.inCycle = true := by rw [hrt]; rfl
    have hstep := plantStep_rt hR.inv.1 ⟨false, false, false⟩
    obtain ⟨u, hu, hcase⟩ := rtStep_sweep hR.inv.1 ⟨false, false, false⟩ hrt
    have g := hR.inv.1.goodUsed hu
    rcases hcase with ⟨hk, j, e, hj, hje, hmem, he⟩ | ⟨hk, he⟩
    · -- a controller
      have hrt' : (p.mgr.step (.rt ⟨false, false, false⟩)).rt = .sweep (k+1) := by rw [hstep, he]
      rw [hrt']
      dsimp only
      have hupd : p.updated k = some e.id := by
        unfold Plant.updated
        rw [hu]; dsimp only
        obtain ⟨j', e', h1, h2, _, h4⟩ := hR.inv.1.rtEntry hu hk
        rw [hj] at h1; cases h1
        rw [hje] at h2; cases h2
        rw [if_pos hk, h4]; rfl
      rw [hupd]
      dsimp only
      have horder : orderOf (p.mgr.step (.rt ⟨false, false, false⟩)) u = orderOf p.mgr u := by
        rw [hstep, he]
        exact orderOf_congr rfl rfl (fun e _ => by simp [State.runs, State.isRunning, State.midRestart, hrt])
      have hog := orderOf_get g hj hje
      refine h.inside ⟨false, false, false⟩ hc i.plug (if p.mgr.isRunning e.id then [.update e.id] else []) rfl ?_ ?_ ?_ rfl rfl rfl rfl rfl ?_ ?_ ?_
      · change (p.mgr.step (.rt ⟨false, false, false⟩)).log = _
        rw [hstep, he]
      · intro ev hev
        split at hev
        · rcases List.mem_cons.1 hev with rfl | hev
          · rfl
          · cases hev
        · cases hev
      · change (p.mgr.step (.rt ⟨false, false, false⟩)).rt.inCycle = true
        rw [hrt']; rfl
      · intro k' hk'
        change (p.mgr.step (.rt ⟨false, false, false⟩)).rt = _ at hk'
        rw [hrt'] at hk'; cases hk'
      · intro k' id hk'
        change (p.mgr.step (.rt ⟨false, false, false⟩)).rt = _ at hk'
        rw [hrt'] at hk'; cases hk'
      · intro k' hk' v hv
        change (p.mgr.step (.rt ⟨false, false, false⟩)).rt = _ at hk'
        change (p.mgr.step (.rt ⟨false, false, false⟩)).used = _ at hv
        rw [hrt'] at hk'; cases hk'
        have : v = u := by
          rw [hstep, he] at hv
          dsimp only at hv
          rw [hu] at hv; cases hv; rfl
        subst this
        change (p.timed ++ [(e.id, i.start, i.fin)]).map (·.1) = ((orderOf (p.mgr.step (.rt ⟨false, false, false⟩)) v).take (k+1)).map (·.1)
        rw [horder, List.map_append, h.timed k hrt v hu, take_succ_of hog]
        simp
    · -- the end of the loop
      have hrt' : (p.mgr.step (.rt ⟨false, false, false⟩)).rt = .publish := by rw [hstep, he]
      have hlog' : (p.mgr.step (.rt ⟨false, false, false⟩)).log = p.mgr.log := by rw [hstep, he]
      rw [hrt']
      dsimp only
      rcases heff : (p.data.robot.enforceSafety big).propagateEffort with _ | sent
      · exact dead true
      · dsimp only
        have hcount := h.count
        rw [hc] at hcount
        refine ⟨hm, ?_, ⟨?_, ?_⟩, ?_, ?_, ?_⟩
        · intro hq
          change (p.mgr.step (.rt ⟨false, false, false⟩)).rt.inCycle = true at hq
          rw [hrt'] at hq; cases hq
        · intro k' hk'
          change (p.mgr.step (.rt ⟨false, false, false⟩)).rt = _ at hk'
          rw [hrt'] at hk'; cases hk'
        · intro k' id hk'
          change (p.mgr.step (.rt ⟨false, false, false⟩)).rt = _ at hk'
          rw [hrt'] at hk'; cases hk'
        · intro k' hk'
          change (p.mgr.step (.rt ⟨false, false, false⟩)).rt = _ at hk'
          rw [hrt'] at hk'; cases hk'
        · intro r hr
          change r.Faithful big m (p.mgr.step (.rt ⟨false, false, false⟩)).log
          rw [hlog']
          rcases List.mem_append.1 hr with hr | hr
          · exact h.recs r hr
          · rw [List.mem_singleton] at hr
            subst hr
            obtain ⟨order, moved, e1, e2, e3, e4⟩ := h.cyc hc
            obtain ⟨done, pp, hd, hl⟩ := hR.logOk
            rw [hrt] at hl
            have hl := hl u hu
            have htake : (orderOf p.mgr u).take k = orderOf p.mgr u := List.take_of_length_le (by rw [orderOf_length g]; exact hk)
            rw [htake] at hl
            have hcalls : ∀ e ∈ (if pp && !p.mgr.motorsPrev then restartEvents (orderOf p.mgr u) else []) ++ updateEvents (orderOf p.mgr u), e.isBegin = false := by
              intro e he'
              rcases List.mem_append.1 he' with he' | he'
              · split at he'
                · exact isCall_not_begin (restart_calls _ e he')
                · cases he'
              · exact isCall_not_begin (update_calls _ e he')
            rw [e1] at hl
            obtain ⟨u1, u2, u3⟩ := split_unique hl rfl rfl (by
              intro e he'
              obtain ⟨c, hc', rfl⟩ := List.mem_map.1 he'
              exact isCall_not_begin (e2 c hc')) hcalls
            rw [Ev.cycleBegin.injEq] at u2
            obtain ⟨u2, u4⟩ := u2
            refine ⟨order, moved, ?_, e3, ?_, ?_, ?_⟩
            · dsimp only; rw [e1]
            · dsimp only
              rw [u3, u1, ← cycles_wasHalted hd, u2, u4]
            · dsimp only
              rw [h.timed k hrt u hu, htake, u2]
            · dsimp only
              rw [← e4]; exact heff
        · change (haltedFlags (p.mgr.step (.rt ⟨false, false, false⟩)).log).length = (p.cycles ++ [_]).length + if (p.mgr.step (.rt ⟨false, false, false⟩)).rt.inCycle then 1 else 0
          rw [hlog', hcount, hrt', List.length_append]
          rfl
  | publish =>
    dsimp only
    split
    · exact dead true
    · split
      · exact dead true
      · exact h.outside (q := _) (by rw [hrt]; simp) (by rw [hrt]; rfl) rfl rfl
  | restart k =>
    dsimp only
    have hR : Reachable m p.mgr := h.mgr.reach' (by rw [hrt]; simp) (by rw [hrt]; simp)
    have hc : p.mgr.rt.inCycle = true := by rw [hrt]; rfl
    have hstep := plantStep_rt hR.inv.1 ⟨false, false, false⟩
    obtain ⟨u, hu, hcase⟩ := rtStep_restart hR.inv.1 ⟨false, false, false⟩ hrt
    have ht : p.timed = [] := h.pre.1 k hrt
    rcases hcase with ⟨hk, j, e, hj, hje, hmem, ⟨hr, he⟩ | ⟨hr, he⟩⟩ | ⟨hk, he⟩
    · refine h.inside ⟨false, false, false⟩ hc i.plug [.stopping e.id] rfl ?_ ?_ ?_ rfl rfl rfl rfl rfl (fun _ _ => ht) (fun _ _ _ => ht) ?_
      · change (p.mgr.step (.rt ⟨false, false, false⟩)).log = _; rw [hstep, he]
      · simp [Ev.isCall]
      · change (p.mgr.step (.rt ⟨false, false, false⟩)).rt.inCycle = true; rw [hstep, he]; rfl
      · intro k' hk'
        change (p.mgr.step (.rt ⟨false, false, false⟩)).rt = _ at hk'
        rw [hstep, he] at hk'; cases hk'
    · refine h.inside ⟨false, false, false⟩ hc i.plug [] rfl ?_ ?_ ?_ rfl rfl rfl rfl rfl (fun _ _ => ht) (fun _ _ _ => ht) ?_
      · change (p.mgr.step (.rt ⟨false, false, false⟩)).log = _; rw [hstep, he]; simp
      · simp
      · change (p.mgr.step (.rt ⟨false, false, false⟩)).rt.inCycle = true; rw [hstep, he]; rfl
      · intro k' hk'
        change (p.mgr.step (.rt ⟨false, false, false⟩)).rt = _ at hk'
        rw [hstep, he] at hk'; cases hk'
    · refine h.inside ⟨false, false, false⟩ hc i.plug [] rfl ?_ ?_ ?_ rfl rfl rfl rfl rfl (fun _ _ => ht) (fun _ _ _ => ht) ?_
      · change (p.mgr.step (.rt ⟨false, false, false⟩)).log = _; rw [hstep, he]; simp
      · simp
      · change (p.mgr.step (.rt ⟨false, false, false⟩)).rt.inCycle = true; rw [hstep, he]; rfl
      · intro k' hk' v hv
        change (p.mgr.step (.rt ⟨false, false, false⟩)).rt = _ at hk'
        rw [hstep, he] at hk'; cases hk'
        change p.timed.map (·.1) = _
        rw [ht]; rfl
  | restartMid k id =>
    dsimp only
    have hR : Reachable m p.mgr := h.mgr.reach' (by rw [hrt]; simp) (by rw [hrt]; simp)
    have hc : p.mgr.rt.inCycle = true := by rw [hrt]; rfl
    have hstep := plantStep_rt hR.inv.1 ⟨false, false, false⟩
    have he := rtStep_restartMid hR.inv.1 ⟨false, false, false⟩ hrt
    have ht : p.timed = [] := h.pre.2 k id hrt
    refine h.inside ⟨false, false, false⟩ hc i.plug [.starting id] rfl ?_ ?_ ?_ rfl rfl rfl rfl rfl (fun _ _ => ht) (fun _ _ _ => ht) ?_
    · change (p.mgr.step (.rt ⟨false, false, false⟩)).log = _; rw [hstep, he]
    · simp [Ev.isCall]
    · change (p.mgr.step (.rt ⟨false, false, false⟩)).rt.inCycle = true; rw [hstep, he]; rfl
    · intro k' hk'
      change (p.mgr.step (.rt ⟨false, false, false⟩)).rt = _ at hk'
      rw [hstep, he] at hk'; cases hk'
  | idle => exact h.outside (q := _) (by rw [hrt]; simp) (by rw [hrt]; rfl) rfl rfl
  | gotCurrent r => exact h.outside (q := _) (by rw [hrt]; simp) (by rw [hrt]; rfl) rfl rfl
  | pubFill k msg => exact h.outside (q := _) (by rw [hrt]; simp) (by rw [hrt]; rfl) rfl rfl
  | switchCheck => exact h.outside (q := _) (by rw [hrt]; simp) (by rw [hrt]; rfl) rfl rfl
  | switchStop k => exact h.outside (q := _) (by rw [hrt]; simp) (by rw [hrt]; rfl) rfl rfl
  | switchStart k => exact h.outside (q := _) (by rw [hrt]; simp) (by rw [hrt]; rfl) rfl rfl
  | switchClear => exact h.outside (q := _) (by rw [hrt]; simp) (by rw [hrt]; rfl) rfl rfl
  | switchFlag => exact h.outside (q := _) (by rw [hrt]; simp) (by rw [hrt]; rfl) rfl rfl
  | done => exact h.outside (q := _) (by rw [hrt]; simp) (by rw [hrt]; rfl) rfl rfl

/-- service steps keep what is known -/
theorem PInv.service {big : F} {m : Bool} {p : Plant F} (h : PInv big m p) (s : State) (hm : Reachable m s) (hk : NrtKeeps p.mgr s) : PInv big m { p with mgr := s } := by
  refine ⟨Or.inr (Or.inr hm), ?_, ⟨?_, ?_⟩, ?_, ?_, ?_⟩
  · dsimp only; rw [hk.rt, hk.log]; exact h.cyc
  · dsimp only; rw [hk.rt]; exact h.pre.1
  · dsimp only; rw [hk.rt]; exact h.pre.2
  · dsimp only
    rw [hk.rt, hk.used]
    intro k hk' u hu
    rw [h.timed k hk' u hu, orderOf_congr (hk.lists u hu).1 (hk.lists u hu).2 (hk.runs u hu)]
  · dsimp only; rw [hk.log]; exact h.recs
  · dsimp only; rw [hk.rt, hk.log]; exact h.count

theorem Plant.Reach.pinv {big : F} {m : Bool} {d : RtData F} {ok : PlantIn F → Prop} {p : Plant F} (h : Plant.Reach big m d ok p) : PInv big m p := by
  induction h with
  | init =>
    refine ⟨Or.inl rfl, ?_, ⟨?_, ?_⟩, ?_, ?_, rfl⟩
    · intro h; cases h
    · intro k h; cases h
    · intro k id h; cases h
    · intro k h; cases h
    · intro r h; cases h
  | rt h i hi ih =>
    unfold Plant.step
    split
    · exact ih
    · exact ih.rtStep i
  | nrt h hu ih =>
    unfold Plant.step
    split
    · exact ih
    · have hR := ih.mgr.reach hu
      refine ih.service _ (hR.step _ (by simp)) ?_
      unfold State.step
      rw [if_neg (by rw [hR.inv.1.notbad]; simp)]
      exact nrtKeeps hR.inv.1
  | call h hu op ih =>
    unfold Plant.step
    split
    · exact ih
    · have hR := ih.mgr.reach hu
      refine ih.service _ (hR.step _ (by simp)) ?_
      unfold State.step
      rw [if_neg (by rw [hR.inv.1.notbad]; simp)]
      exact callKeeps _ _


/-! ## Nothing fails -/

/-- Hardware that reports the same actuators, plugins that change values only. -/
structure PlantIn.Tame (i : PlantIn F) : Prop where
  hw : ∀ as, List.Forall₂ (fun a a' => a'.name = a.name) as (i.hw as)
  plug : ∀ s, SameRobot s (i.plug s)

omit iDiv iTrig [FLit F] [FCmp F] [Zero F] [Add F] [Sub F] [Mul F] [Neg F] in
theorem SameRobot.of_acts (s : RState F) (as : List (Actuator F)) (h : List.Forall₂ (fun a a' => a'.name = a.name) s.acts as) :
    SameRobot s { s with acts := as } :=
  ⟨(SameRobot.refl s).conns, rfl, (SameRobot.refl s).joints, h⟩

theorem RtData.Good.same {d : RtData F} (h : d.Good) {r : RState F} (k : SameRobot d.robot r) {st : Nat → CStat} : ({ d with robot := r, stats := st } : RtData F).Good :=
  ⟨k.ready h.ready, k.types h.types, by rw [h.statRows]; exact List.Forall₂.length_eq k.joints, by rw [h.actRows]; exact List.Forall₂.length_eq k.acts,
    by rw [h.jointRows]; exact List.Forall₂.length_eq k.joints, h.statPeriod, h.jointPeriod⟩

theorem publishStats_good {d : RtData F} (h : d.Good) (now : Int) (free : Bool) :
    ∃ sp robot b, publishStats now free d.statPub d.robot = some (sp, robot, b) ∧ SameRobot d.robot robot ∧ sp.period = d.statPub.period ∧
      sp.msg.1.length = d.robot.joints.length ∧ sp.msg.2.length = d.robot.acts.length := by
  obtain ⟨t, ht⟩ := pubTick_some d.statPub.period now d.statPub.last free h.statPeriod
  unfold publishStats
  rw [ht]
  simp only [Option.bind_eq_bind, Option.bind_some]
  cases t.2
  · exact ⟨_, _, _, rfl, SameRobot.refl _, rfl, h.statRows, h.actRows⟩
  · rw [if_pos rfl]
    rw [fillRows_spec _ _ _ _ (fun j hj => published_of (h.types j hj)) (by rw [h.statRows]; simp), fillActs_spec _ _ _ (by rw [h.actRows]; simp)]
    simp only [Option.bind_some]
    exact ⟨_, _, _, rfl, SameRobot.reset _, rfl, by simp, by simp⟩

theorem publishJoints_good {d : RtData F} (h : d.Good) (now : Int) (free : Bool) :
    ∃ jp b, publishJoints now free d.jointPub d.robot = some (jp, b) ∧ jp.period = d.jointPub.period ∧ jp.msg.length = d.robot.joints.length := by
  obtain ⟨t, ht⟩ := pubTick_some d.jointPub.period now d.jointPub.last free h.jointPeriod
  unfold publishJoints
  rw [ht]
  simp only [Option.bind_eq_bind, Option.bind_some]
  cases t.2
  · exact ⟨_, _, rfl, rfl, h.jointRows⟩
  · rw [if_pos rfl]
    rw [fillRows_spec _ _ _ _ (fun j hj => published_of (h.types j hj)) (by rw [h.jointRows]; simp)]
    simp only [Option.bind_some]
    exact ⟨_, _, rfl, rfl, by simp⟩

/-- the data stay in order -/
structure GInv (big : F) (d : RtData F) (p : Plant F) : Prop where
  alive : p.dead = false
  good : p.data.Good
  same : SameRobot d.robot p.data.robot
  sent : ∀ r ∈ p.cycles, SameRobot d.robot r.sent
  ready : ∀ r ∈ p.cycles, ∃ x : RState F, (x.enforceSafety big).Ready ∧ (x.enforceSafety big).propagateEffort = some r.sent

theorem applyCalls_same {plug : RState F → RState F} (hp : ∀ s, SameRobot s (plug s)) (l : List Ev) (s : RState F) :
    SameRobot s (applyCalls (l.map (fun e => PlugCall.mk e plug)) s) := by
  induction l generalizing s with
  | nil => exact SameRobot.refl s
  | cons e l ih => exact (hp s).trans (ih _)

theorem GInv.advance {big : F} {d : RtData F} {p : Plant F} (h : GInv big d p) (m : State) {plug : RState F → RState F} (hp : ∀ s, SameRobot s (plug s)) :
    GInv big d (p.advance m plug) := by
  have k := applyCalls_same hp ((m.log.drop p.mgr.log.length).filter Ev.isCall) p.data.robot
  exact ⟨h.alive, h.good.same k, h.same.trans k, h.sent, h.ready⟩

theorem GInv.time {big : F} {d : RtData F} {p : Plant F} (h : GInv big d p) (id : Nat) (a b : Int) : GInv big d (p.time id a b) :=
  ⟨h.alive, h.good.same (SameRobot.refl _), h.same, h.sent, h.ready⟩

theorem GInv.rtStep {big : F} {d : RtData F} {p : Plant F} (h : GInv big d p) {i : PlantIn F} (hi : i.Tame) : GInv big d (p.rtStep big i) := by
  unfold Plant.rtStep
  cases hrt : p.mgr.rt with
  | pre =>
    dsimp only
    have k0 := SameRobot.of_acts p.data.robot _ (hi.hw p.data.robot.acts)
    have hr0 := k0.ready h.good.ready
    obtain ⟨s', hs', _⟩ := C67_position_never_aborts _ hr0
    rw [hs']
    have k1 := (k0.trans (SameRobot.position hr0 hs')).trans (SameRobot.zero s')
    exact ⟨h.alive, h.good.same k1, h.same.trans k1, h.sent, h.ready⟩
  | sweep k =>
    dsimp only
    split
    · have k1 := SameRobot.safety big p.data.robot
      have hr1 := k1.ready h.good.ready
      obtain ⟨s', hs', _⟩ := C67_effort_never_aborts _ hr1
      rw [hs']
      have k2 := k1.trans (SameRobot.effort hr1 hs')
      refine ⟨h.alive, h.good.same k2, h.same.trans k2, ?_, ?_⟩
      · intro r hr
        rcases List.mem_append.1 hr with hr | hr
        · exact h.sent r hr
        · rw [List.mem_singleton] at hr; subst hr; exact h.same.trans k2
      · intro r hr
        rcases List.mem_append.1 hr with hr | hr
        · exact h.ready r hr
        · rw [List.mem_singleton] at hr; subst hr; exact ⟨_, hr1, hs'⟩
    · split
      · exact h.advance _ hi.plug
      · exact (h.advance _ hi.plug).time _ _ _
  | publish =>
    dsimp only
    obtain ⟨sp, robot, b, h1, k1, h2, h3, h4⟩ := publishStats_good h.good i.statNow (i.turn && p.mgr.pubLock == none)
    rw [h1]
    dsimp only
    have g1 := h.good.same k1 (st := p.data.stats)
    obtain ⟨jp, b', j1, j2, j3⟩ := publishJoints_good g1 i.jointNow i.jointFree
    dsimp only at j1 j2 j3
    rw [j1]
    refine ⟨h.alive, ⟨g1.ready, g1.types, ?_, ?_, j3, ?_, ?_⟩, h.same.trans k1, h.sent, h.ready⟩
    · dsimp only; rw [h3]; exact List.Forall₂.length_eq k1.joints
    · dsimp only; rw [h4]; exact List.Forall₂.length_eq k1.acts
    · dsimp only; rw [h2]; exact h.good.statPeriod
    · dsimp only; rw [j2]; exact h.good.jointPeriod
  | _ => exact h.advance _ hi.plug

theorem Plant.Reach.ginv {big : F} {m : Bool} {d : RtData F} (hd : d.Good) {p : Plant F} (h : Plant.Reach big m d PlantIn.Tame p) : GInv big d p := by
  induction h with
  | init =>
    refine ⟨rfl, hd, SameRobot.refl _, ?_, ?_⟩ <;> (intro r h; cases h)
  | rt h i hi ih =>
    unfold Plant.step
    rw [if_neg (by rw [ih.alive]; simp)]
    exact ih.rtStep hi
  | nrt h hu ih =>
    unfold Plant.step
    rw [if_neg (by rw [ih.alive]; simp)]
    exact ⟨ih.alive, ih.good, ih.same, ih.sent, ih.ready⟩
  | call h hu op ih =>
    unfold Plant.step
    rw [if_neg (by rw [ih.alive]; simp)]
    exact ⟨ih.alive, ih.good, ih.same, ih.sent, ih.ready⟩

/-! ## C84 -/

/-- **C84.**  Whatever services are called meanwhile and whatever plugins do: in every cycle the motors get what `CycleRec.Faithful` says. -/
theorem C84_faithful {big : F} {m : Bool} {d : RtData F} {ok : PlantIn F → Prop} {p : Plant F} (h : Plant.Reach big m d ok p) :
    ∀ r ∈ p.cycles, r.Faithful big m p.mgr.log := h.pinv.recs

/-- **C84.**  In a cycle that ends in efforts being sent, no plugin has been called of a controller that was not running when the cycle began. -/
theorem C84_only_running {big : F} {m : Bool} {d : RtData F} {ok : PlantIn F → Prop} {p : Plant F} (h : Plant.Reach big m d ok p)
    (r : CycleRec F) (hr : r ∈ p.cycles) :
    ∃ order halted, r.begun ++ [.cycleBegin order halted] <+: p.mgr.log ∧ ∀ c ∈ r.calls, ∃ id, c.ev.target = some id ∧ (id, true) ∈ order := by
  obtain ⟨order, moved, h1, _, h3, _⟩ := h.pinv.recs r hr
  refine ⟨order, moved.isHalted, List.IsPrefix.trans ⟨r.calls.map (·.ev), by simp⟩ h1, ?_⟩
  intro c hc
  have hm : c.ev ∈ r.calls.map (·.ev) := List.mem_map_of_mem hc
  rw [h3] at hm
  have one : ∀ e : Ev, e ∈ restartEvents order ∨ e ∈ updateEvents order → ∃ id, e.target = some id ∧ (id, true) ∈ order := by
    rintro e (he | he)
    · obtain ⟨q, hq, he⟩ := List.mem_flatMap.1 he
      obtain ⟨id, b⟩ := q
      cases b
      · cases he
      · simp only [if_true, List.mem_cons, List.not_mem_nil, or_false] at he
        rcases he with rfl | rfl <;> exact ⟨id, rfl, hq⟩
    · obtain ⟨q, hq, he⟩ := List.mem_flatMap.1 he
      obtain ⟨id, b⟩ := q
      cases b
      · cases he
      · simp only [if_true, List.mem_cons, List.not_mem_nil, or_false] at he
        subst he; exact ⟨id, rfl, hq⟩
  rcases List.mem_append.1 hm with hm | hm
  · split at hm
    · exact one _ (Or.inl hm)
    · cases hm
  · exact one _ (Or.inr hm)

/-- **C84.**  There is a record of every cycle that has come this far. -/
theorem C84_every_cycle {big : F} {m : Bool} {d : RtData F} {ok : PlantIn F → Prop} {p : Plant F} (h : Plant.Reach big m d ok p)
    (hi : p.mgr.rt = .idle) : p.cycles.length = (haltedFlags p.mgr.log).length := by
  have := h.pinv.count
  rw [hi] at this
  exact this.symm

/-- **C84.**  On a well-described robot, with hardware that reports its actuators and plugins that only change values, the system never aborts or hangs, no
matter which services are called when. -/
theorem C84_survives {big : F} {m : Bool} {d : RtData F} (hd : d.Good) {p : Plant F} (h : Plant.Reach big m d PlantIn.Tame p) :
    p.dead = false ∧ p.mgr.bad = false ∧ SameRobot d.robot p.data.robot := by
  refine ⟨(h.ginv hd).alive, ?_, (h.ginv hd).same⟩
  rcases h.pinv.mgr with e | e | e
  · rw [e]; rfl
  · rw [e]; rfl
  · exact e.inv.1.notbad

/-- **C84, with C28.**  And every command sent to the hardware is limited. -/
theorem C84_limited [IeeeLike F] {big : F} {m : Bool} {d : RtData F} (hd : d.Good) {p : Plant F} (h : Plant.Reach big m d PlantIn.Tame p) :
    ∀ r ∈ p.cycles, r.sent.Limited := by
  intro r hr
  obtain ⟨x, hx, he⟩ := (h.ginv hd).ready r hr
  have hj := (C48_effort_only_commands _ _ hx he).2
  intro j hj'
  rw [hj] at hj'
  exact limited_safety big _ j hj'

/-- Executions as lists, for the examples. -/
def Plant.runs (big : F) (p : Plant F) (as : List (PAct F)) : Plant F := as.foldl (Plant.step big) p

theorem Plant.Reach.runs {big : F} {m : Bool} {d : RtData F} {ok : PlantIn F → Prop} {as : List (PAct F)} {p : Plant F} (h : Plant.Reach big m d ok p)
    (hu : p.mgr.used.isSome = true) (hok : ∀ i, PAct.rt i ∈ as → ok i)
    (hs : ∀ pre, pre <+: as → (Plant.runs big p pre).mgr.used.isSome = true) : Plant.Reach big m d ok (p.runs big as) := by
  induction as generalizing p with
  | nil => exact h
  | cons a as ih =>
    have hn : p.mgr.used ≠ none := by intro e; rw [e] at hu; cases hu
    have h1 : Plant.Reach big m d ok (p.step big a) := by
      cases a with
      | rt i => exact h.rt i (hok i (by simp))
      | nrt => exact h.nrt hn
      | call op => exact h.call hn op
    refine ih h1 (hs [a] ⟨as, rfl⟩) (fun i hi => hok i (by simp [hi])) ?_
    intro pre hpre
    exact hs (a :: pre) (List.cons_prefix_cons.2 ⟨rfl, hpre⟩)

end

/-! ## A concrete execution meeting the hypotheses

The elbow of `Verif.Props.Cycle`; a spring controller is loaded and started by service calls while the realtime loop runs. -/

section demo
attribute [local instance] exactCmp demoTrig demoLit

def demoReq : LoadReq := ⟨"spring", true, some "T", ⟨fun _ => true, [], id, fun _ => true⟩, ⟨[], [], [], fun _ => some true⟩⟩
/-- The controllers' updates take 2 ms; nothing is published. -/
def demoIn : PlantIn ℚ := ⟨id, springController 4, 0, 2000000, 0, false, 0, false⟩
def demoBoth : Nat → List (PAct ℚ)
  | 0 => []
  | n + 1 => .nrt :: .rt demoIn :: demoBoth n
def demoActs : List (PAct ℚ) := .call (.load demoReq) :: demoBoth 20 ++ .call (.switch ["spring"] [] 2) :: demoBoth 30
def demoStart : Plant ℚ := Plant.runs 1000 (Plant.init false demoRt) [.rt demoIn, .rt demoIn]

theorem demoReach_of (a b : Nat) (o o' : Op)
    (h2 : ∀ pre ∈ (.call o :: demoBoth a ++ .call o' :: demoBoth b).inits, (Plant.runs 1000 demoStart pre).mgr.used.isSome = true) :
    Plant.Reach 1000 false demoRt PlantIn.Tame (demoStart.runs 1000 (.call o :: demoBoth a ++ .call o' :: demoBoth b)) := by
  have tame : demoIn.Tame := ⟨fun as => List.forall₂_same.2 fun _ _ => rfl, (springController_tame 4).1⟩
  have h : Plant.Reach 1000 false demoRt PlantIn.Tame demoStart := (Plant.Reach.init.rt demoIn tame).rt demoIn tame
  refine h.runs (h2 [] (by simp)) ?_ (fun pre hpre => h2 pre ((List.mem_inits _ _).2 hpre))
  have : ∀ n i, PAct.rt i ∈ demoBoth n → i = demoIn := by
    intro n i hi
    induction n with
    | zero => cases hi
    | succ n ih =>
      simp only [demoBoth, List.mem_cons, reduceCtorEq, false_or, PAct.rt.injEq] at hi
      exact hi.elim id ih
  intro i hi
  simp only [List.cons_append, List.mem_cons, reduceCtorEq, false_or, List.mem_append] at hi
  rcases hi with hi | hi <;> (rw [this _ i hi]; exact tame)

theorem demoReach : Plant.Reach 1000 false demoRt PlantIn.Tame (demoStart.runs 1000 demoActs) := demoReach_of _ _ _ _ (by decide +kernel)

/-- All of C84: reachable; the controller was loaded and started; in the last cycle it is updated and the motor is told -3/2, in the first one 0. -/
example : (demoStart.runs 1000 demoActs).mgr.nlog.map (·.res) = [.flag true, .flag true] := by decide +kernel
example : ((demoStart.runs 1000 demoActs).cycles.head?.map (fun r => (r.calls.length, r.sent.acts.map (·.effort)))) = some (0, [0]) := by decide +kernel
example : ((demoStart.runs 1000 demoActs).cycles.getLast?.map (fun r => (r.calls.map (·.ev), r.sent.acts.map (·.effort)))) = some ([.update 0], [-3 / 2]) := by
  decide +kernel
theorem demoGood : demoRt.Good := by
  refine ⟨⟨⟨?_, ?_, ?_⟩, ?_, ?_⟩, ?_, rfl, rfl, rfl, by decide, by decide⟩ <;> simp [demoRt, demoRobotState, demoMotor, Actuator.fresh, Body.Wants, JState.fresh, demoElbow]

end demo

end Pr2
