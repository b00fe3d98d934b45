import Verif.Props.Plant
import Verif.Props.CtrlStats

/-!
# C85: the controllers' statistics in the running system
-/

namespace Pr2
set_option linter.unusedVariables false
set_option linter.unusedSectionVars false

section
variable {F : Type} [FCmp F] [Zero F] [Add F] [Sub F] [Mul F] [iDiv : Div F] [Neg F] [FLit F] [iTrig : FTrig F]

/-! ## Specification -/

/-- A timed update as in C26. -/
def timedRec (t : Nat × Int × Int) : UpdateRec := ⟨t.1, t.2.1, t.2.2⟩

/-- All updates timed so far: those of the cycles that sent commands, then those of the cycle being executed. -/
def Plant.timings (p : Plant F) : List UpdateRec :=
  (p.cycles.flatMap (·.timed) ++ (if p.mgr.rt.inCycle then p.timed else [])).map timedRec

/-- The controllers in the list the realtime loop uses, with their run flags. -/
def Plant.listed (p : Plant F) (u : Bool) : List Listed := (p.mgr.lists u).map (fun e => ⟨e.name, e.id, p.mgr.isRunning e.id⟩)

/-! ## Proof -/

def RtPc.publishing : RtPc → Bool
  | .publish | .pubFill _ _ => true
  | _ => false

structure SInv (d : RtData F) (p : Plant F) : Prop where
  stats : ∀ id, StatOf id p.timings (p.data.stats id)
  listed : p.mgr.rt.publishing = true → ∀ u, p.mgr.used = some u → ∃ r, p.cycles.getLast? = some r ∧ r.timed.map (·.1) = (orderOf p.mgr u).map (·.1)

theorem SInv.dead {d : RtData F} {p : Plant F} (h : SInv d p) : SInv d { p with dead := true } := ⟨h.stats, h.listed⟩

/-- neither statistics nor timings change -/
theorem SInv.keep {d : RtData F} {p q : Plant F} (h : SInv d p) (h1 : q.data.stats = p.data.stats) (h2 : q.cycles = p.cycles)
    (h3 : (if q.mgr.rt.inCycle then q.timed else []) = if p.mgr.rt.inCycle then p.timed else [])
    (h4 : q.mgr.rt.publishing = true → p.mgr.rt.publishing = true ∧ q.mgr.used = p.mgr.used ∧ ∀ u, orderOf q.mgr u = orderOf p.mgr u) : SInv d q := by
  refine ⟨?_, ?_⟩
  · intro id
    have : q.timings = p.timings := by unfold Plant.timings; rw [h2, h3]
    rw [this, h1]; exact h.stats id
  · intro hq u hu
    obtain ⟨k1, k2, k3⟩ := h4 hq
    rw [k2] at hu
    rw [h2, k3]
    exact h.listed k1 u hu

theorem SInv.rtStep {big : F} {m : Bool} {d : RtData F} {p : Plant F} (hp : PInv big m p) (h : SInv d p) (i : PlantIn F) : SInv d (p.rtStep big i) := by
  unfold Plant.rtStep
  cases hrt : p.mgr.rt with
  | pre =>
    dsimp only
    rcases hpos : ({ p.data.robot with acts := i.hw p.data.robot.acts } : RState F).propagatePosition with _ | moved
    · exact h.dead
    · dsimp only
      have hR : Reachable m p.mgr := hp.mgr.reach' (by rw [hrt]; simp) (by rw [hrt]; simp)
      obtain ⟨u, hu, he⟩ := rtStep_pre hR.inv.1 ⟨moved.zeroCommands.isHalted, false, false⟩ hrt
      rw [plantStep_rt hR.inv.1, he]
      refine h.keep rfl rfl ?_ ?_
      · dsimp only
        rw [hrt]
        split <;> rfl
      · dsimp only
        intro hq
        split at hq <;> cases hq
  | sweep k =>
    dsimp only
    have hR : Reachable m p.mgr := hp.mgr.reach' (by rw [hrt]; simp) (by rw [hrt]; simp)
    have hc : p.mgr.rt.inCycle = true := by rw [hrt]; rfl
    have hstep := plantStep_rt hR.inv.1 ⟨false, false, false⟩
    obtain ⟨u, hu, hcase⟩ := rtStep_sweep hR.inv.1 ⟨false, false, false⟩ hrt
    have g := hR.inv.1.goodUsed hu
    rcases hcase with ⟨hk, j, e, hj, hje, hmem, he⟩ | ⟨hk, he⟩
    · have hrt' : (p.mgr.step (.rt ⟨false, false, false⟩)).rt = .sweep (k+1) := by rw [hstep, he]
      rw [hrt']
      dsimp only
      have hupd : p.updated k = some e.id := by
        unfold Plant.updated
        rw [hu]; dsimp only
        obtain ⟨j', e', h1, h2, _, h4⟩ := hR.inv.1.rtEntry hu hk
        rw [hj] at h1; cases h1
        rw [hje] at h2; cases h2
        rw [if_pos hk, h4]; rfl
      rw [hupd]
      dsimp only
      refine ⟨?_, ?_⟩
      · intro id
        have ht : ((p.advance (p.mgr.step (.rt ⟨false, false, false⟩)) i.plug).time e.id i.start i.fin).timings = p.timings ++ [⟨e.id, i.start, i.fin⟩] := by
          unfold Plant.timings
          rw [if_pos hc]
          change (p.cycles.flatMap (·.timed) ++ (if (p.mgr.step (.rt ⟨false, false, false⟩)).rt.inCycle then p.timed ++ [(e.id, i.start, i.fin)] else [])).map timedRec = _
          rw [hrt', if_pos (show (RtPc.sweep (k+1)).inCycle = true from rfl)]
          simp [timedRec]
        rw [ht]
        exact (h.stats id).record ⟨e.id, i.start, i.fin⟩
      · intro hq
        change (p.mgr.step (.rt ⟨false, false, false⟩)).rt.publishing = true at hq
        rw [hrt'] at hq; cases hq
    · have hrt' : (p.mgr.step (.rt ⟨false, false, false⟩)).rt = .publish := by rw [hstep, he]
      rw [hrt']
      dsimp only
      rcases heff : (p.data.robot.enforceSafety big).propagateEffort with _ | sent
      · exact h.dead
      · dsimp only
        refine ⟨?_, ?_⟩
        · intro id
          have : ∀ q : Plant F, q.cycles = p.cycles ++ [⟨p.begun, p.entry, p.calls, p.timed, sent⟩] → q.mgr.rt = .publish → q.timings = p.timings := by
            intro q h1 h2
            unfold Plant.timings
            rw [h1, h2, if_pos hc]
            simp [RtPc.inCycle]
          rw [this _ rfl hrt']
          exact h.stats id
        · intro _ v hv
          change (p.mgr.step (.rt ⟨false, false, false⟩)).used = some v at hv
          have hvu : v = u := by
            rw [hstep, he] at hv
            dsimp only at hv
            rw [hu] at hv; cases hv; rfl
          subst hvu
          refine ⟨⟨p.begun, p.entry, p.calls, p.timed, sent⟩, by simp, ?_⟩
          dsimp only
          have ho : orderOf (p.mgr.step (.rt ⟨false, false, false⟩)) v = orderOf p.mgr v := by
            rw [hstep, he]
            exact orderOf_congr rfl rfl (fun e _ => by simp [State.runs, State.isRunning, State.midRestart, hrt])
          rw [ho, hp.timed k hrt v hu, List.take_of_length_le (by rw [orderOf_length g]; exact hk)]
  | publish =>
    dsimp only
    split
    · exact h.dead
    · split
      · exact h.dead
      · have hR : Reachable m p.mgr := hp.mgr.reach' (by rw [hrt]; simp) (by rw [hrt]; simp)
        refine h.keep rfl rfl ?_ ?_
        · dsimp only
          have hout := outside_step hp.mgr ⟨false, decide (i.statNow > p.data.statPub.last + p.data.statPub.period), i.turn⟩ (by rw [hrt]; simp) (by rw [hrt]; rfl)
          rw [hout.1, hrt]; rfl
        · intro _
          refine ⟨by rw [hrt]; rfl, ?_, ?_⟩
          · dsimp only
            rw [plantStep_rt hR.inv.1]
            unfold State.rtStep; rw [hrt]; dsimp only; split <;> rfl
          · intro u
            dsimp only
            rw [plantStep_rt hR.inv.1]
            unfold State.rtStep; rw [hrt]; dsimp only
            split <;> exact orderOf_congr rfl rfl (fun e _ => by simp [State.runs, State.isRunning, State.midRestart, hrt])
  | restart k =>
    dsimp only
    have hR : Reachable m p.mgr := hp.mgr.reach' (by rw [hrt]; simp) (by rw [hrt]; simp)
    obtain ⟨u, hu, hcase⟩ := rtStep_restart hR.inv.1 ⟨false, false, false⟩ hrt
    have hstep := plantStep_rt hR.inv.1 ⟨false, false, false⟩
    have : (p.mgr.step (.rt ⟨false, false, false⟩)).rt.inCycle = true ∧ (p.mgr.step (.rt ⟨false, false, false⟩)).rt.publishing = false := by
      rcases hcase with ⟨hk, j, e, hj, hje, hmem, ⟨hr, he⟩ | ⟨hr, he⟩⟩ | ⟨hk, he⟩ <;> (rw [hstep, he]; exact ⟨rfl, rfl⟩)
    refine h.keep rfl rfl ?_ ?_
    · change (if (p.mgr.step (.rt ⟨false, false, false⟩)).rt.inCycle then p.timed else []) = _
      rw [this.1, hrt]; rfl
    · intro hq
      change (p.mgr.step (.rt ⟨false, false, false⟩)).rt.publishing = true at hq
      rw [this.2] at hq; cases hq
  | restartMid k id =>
    dsimp only
    have hR : Reachable m p.mgr := hp.mgr.reach' (by rw [hrt]; simp) (by rw [hrt]; simp)
    have he := rtStep_restartMid hR.inv.1 ⟨false, false, false⟩ hrt
    have hstep := plantStep_rt hR.inv.1 ⟨false, false, false⟩
    refine h.keep rfl rfl ?_ ?_
    · change (if (p.mgr.step (.rt ⟨false, false, false⟩)).rt.inCycle then p.timed else []) = _
      rw [hstep, he, hrt]; rfl
    · intro hq
      change (p.mgr.step (.rt ⟨false, false, false⟩)).rt.publishing = true at hq
      rw [hstep, he] at hq; cases hq
  | pubFill k msg =>
    have hR : Reachable m p.mgr := hp.mgr.reach' (by rw [hrt]; simp) (by rw [hrt]; simp)
    have hout := outside_step hp.mgr ⟨false, false, false⟩ (by rw [hrt]; simp) (by rw [hrt]; rfl)
    refine h.keep rfl rfl ?_ ?_
    · change (if (p.mgr.step (.rt ⟨false, false, false⟩)).rt.inCycle then p.timed else []) = _
      rw [hout.1, hrt]; rfl
    · intro _
      refine ⟨by rw [hrt]; rfl, ?_, ?_⟩
      · change (p.mgr.step (.rt ⟨false, false, false⟩)).used = _
        rw [plantStep_rt hR.inv.1]
        unfold State.rtStep; rw [hrt]; dsimp only
        repeat' split
        all_goals rfl
      · intro u
        change orderOf (p.mgr.step (.rt ⟨false, false, false⟩)) u = _
        rw [plantStep_rt hR.inv.1]
        unfold State.rtStep; rw [hrt]; dsimp only
        repeat' split
        all_goals exact orderOf_congr rfl rfl (fun e _ => by simp [State.runs, State.isRunning, State.midRestart, State.fail, hrt])
  | _ =>
    have hout := outside_step hp.mgr ⟨false, false, false⟩ (by rw [hrt]; simp) (by rw [hrt]; rfl)
    refine h.keep rfl rfl ?_ ?_
    · change (if (p.mgr.step (.rt ⟨false, false, false⟩)).rt.inCycle then p.timed else []) = _
      rw [hout.1, hrt]; rfl
    · intro hq
      exfalso
      change (p.mgr.step (.rt ⟨false, false, false⟩)).rt.publishing = true at hq
      unfold State.step at hq
      split at hq
      · rw [hrt] at hq; cases hq
      · unfold State.rtStep at hq
        rw [hrt] at hq
        dsimp only at hq
        repeat' split at hq
        all_goals first | cases hq | (simp [State.fail, hrt, RtPc.publishing] at hq)

theorem SInv.service {d : RtData F} {p : Plant F} (h : SInv d p) (s : State) (hk : NrtKeeps p.mgr s) : SInv d { p with mgr := s } := by
  refine ⟨?_, ?_⟩
  · intro id
    have : ({ p with mgr := s } : Plant F).timings = p.timings := by unfold Plant.timings; dsimp only; rw [hk.rt]
    rw [this]; exact h.stats id
  · dsimp only
    rw [hk.rt, hk.used]
    intro hq u hu
    rw [orderOf_congr (hk.lists u hu).1 (hk.lists u hu).2 (hk.runs u hu)]
    exact h.listed hq u hu

theorem Plant.Reach.sinv {big : F} {m : Bool} {d : RtData F} {ok : PlantIn F → Prop} (hd : ∀ id, d.stats id = CStat.fresh) {p : Plant F}
    (h : Plant.Reach big m d ok p) : SInv d p := by
  induction h with
  | init =>
    refine ⟨?_, ?_⟩
    · intro id
      change StatOf id [] (d.stats id)
      rw [hd]; exact C26_fresh id
    · intro h; cases h
  | rt h i hi ih =>
    unfold Plant.step
    split
    · exact ih
    · exact ih.rtStep h.pinv i
  | nrt h hu ih =>
    unfold Plant.step
    split
    · exact ih
    · have hR := h.pinv.mgr.reach hu
      refine ih.service _ ?_
      unfold State.step
      rw [if_neg (by rw [hR.inv.1.notbad]; simp)]
      exact nrtKeeps hR.inv.1
  | call h hu op ih =>
    unfold Plant.step
    split
    · exact ih
    · have hR := h.pinv.mgr.reach hu
      refine ih.service _ ?_
      unfold State.step
      rw [if_neg (by rw [hR.inv.1.notbad]; simp)]
      exact callKeeps _ _

/-! ## C85 -/

/-- **C85.**  At any time, whatever has been loaded, unloaded and switched: the statistics kept for a controller object count the updates of that object that took
longer than a millisecond, know the end of the last of them and the durations of all - of this object only, since it was loaded, and of every cycle since. -/
theorem C85_statistics {big : F} {m : Bool} {d : RtData F} {ok : PlantIn F → Prop} (hd : ∀ id, d.stats id = CStat.fresh) {p : Plant F}
    (h : Plant.Reach big m d ok p) (id : Nat) : StatOf id p.timings (p.data.stats id) := (h.sinv hd).stats id

/-- **C85, with C81.**  While a statistics message is filled, the entry of each listed controller has its name and run flag and the maximum, mean and standard
deviation of the durations of its updates; the mean is defined, also right after the controller was loaded. -/
theorem C85_published {big : F} {m : Bool} {d : RtData F} {ok : PlantIn F → Prop} (hd : ∀ id, d.stats id = CStat.fresh) {p : Plant F}
    (h : Plant.Reach big m d ok p) {k : Nat} {msg : List (String × Bool)} (hf : p.mgr.rt = .pubFill k msg) (u : Bool) (hu : p.mgr.used = some u)
    (low : ℝ) (now : Int) (j : Nat) (e : Entry) (hj : (p.mgr.lists u)[j]? = some e)
    (hl : ∀ t ∈ durations e.id p.timings, low ≤ t) :
    ∃ r mean, (ctrlRows low now p.data.stats (p.listed u))[j]? = some r ∧ r.name = e.name ∧ r.running = p.mgr.isRunning e.id ∧ r.timestamp = now ∧
      r.meanTime = some mean ∧ TimesOf (durations e.id p.timings) r.maxTime mean r.varTime ∧
      r.overruns = UInt32.ofNat (p.timings.countP (·.overran e.id)) := by
  have hs := (h.sinv hd).stats e.id
  obtain ⟨r, hr, ht⟩ := (h.sinv hd).listed (by rw [hf]; rfl) u hu
  have hR : Reachable m p.mgr := h.pinv.mgr.reach (by rw [hu]; simp)
  have g := hR.inv.1.goodUsed hu
  have hmem : e.id ∈ r.timed.map (·.1) := by
    rw [ht]
    have hjs : j ∈ p.mgr.sched u := g.perm.mem_iff.2 (by
      have := List.getElem?_eq_some_iff.1 hj
      simpa using this.1)
    obtain ⟨n, hn⟩ := List.getElem?_of_mem hjs
    exact List.mem_map.2 ⟨_, List.mem_of_getElem? (orderOf_get g hn hj), rfl⟩
  obtain ⟨t, ht1, ht2⟩ := List.mem_map.1 hmem
  obtain ⟨mean, h1, h2⟩ := ctrlRow_times low now p.data.stats ⟨e.name, e.id, p.mgr.isRunning e.id⟩ p.timings hs
    ⟨timedRec t, List.mem_map.2 ⟨t, List.mem_append_left _ (List.mem_flatMap.2 ⟨r, List.mem_of_getLast? hr, ht1⟩), rfl⟩, ht2⟩ hl
  refine ⟨_, mean, ?_, rfl, rfl, rfl, h1, h2, ?_⟩
  · unfold ctrlRows Plant.listed
    rw [List.map_map, List.getElem?_map, hj]; rfl
  · change (p.data.stats e.id).overruns = _
    exact hs.overruns

/-- at the end of a cycle of a healthy system, if it is time and the publisher is free -/
theorem fills_next {big : F} {m : Bool} {d : RtData F} (hd : d.Good) {p : Plant F} (h : Plant.Reach big m d PlantIn.Tame p) (hp : p.mgr.rt = .publish)
    {i : PlantIn F} (hi : i.Tame) (h1 : i.turn = true) (h2 : i.statNow > p.data.statPub.last + p.data.statPub.period) (h3 : p.mgr.pubLock = none) :
    (p.step big (.rt i)).mgr.rt = .pubFill 0 [] ∧ (p.step big (.rt i)).mgr.lists = p.mgr.lists ∧ (p.step big (.rt i)).mgr.used = p.mgr.used := by
  have ha := (C84_survives hd h).1
  have hb := (C84_survives hd h).2.1
  have h' := (C84_survives hd (h.rt i hi)).1
  unfold Plant.step at h' ⊢
  rw [if_neg (by rw [ha]; simp)] at h' ⊢
  dsimp only at h' ⊢
  unfold Plant.rtStep at h' ⊢
  rw [hp] at h' ⊢
  dsimp only at h' ⊢
  split at h'
  · cases h'
  · split at h'
    · cases h'
    · dsimp only
      unfold State.step
      rw [if_neg (by rw [hb]; simp)]
      dsimp only
      unfold State.rtStep
      rw [hp]
      dsimp only
      rw [h1, h3, decide_eq_true h2, if_pos (by rfl)]
      exact ⟨rfl, rfl, rfl⟩

end

/-! ## A concrete execution meeting the hypotheses: the one of `Verif.Props.Plant`, going on to publish -/

section demo
attribute [local instance] exactCmp demoTrig demoLit

def demoPublish : List (PAct ℚ) := .call (.load demoReq) :: demoBoth 20 ++ .call (.switch ["spring"] [] 2) :: demoBoth 27
theorem demoReach2 : Plant.Reach 1000 false demoRt PlantIn.Tame (demoStart.runs 1000 demoPublish) := demoReach_of _ _ _ _ (by decide +kernel)

example : ∃ p : Plant ℚ, Plant.Reach 1000 false demoRt PlantIn.Tame p ∧ (∀ id, demoRt.stats id = CStat.fresh) ∧ p.mgr.rt = .pubFill 0 [] ∧
    ∃ u e, p.mgr.used = some u ∧ (p.mgr.lists u)[0]? = some e ∧ e.name = "spring" := by
  have tame : ({ demoIn with statNow := 11, turn := true } : PlantIn ℚ).Tame := ⟨fun as => List.forall₂_same.2 fun _ _ => rfl, (springController_tame 4).1⟩
  have h := fills_next demoGood demoReach2 (by decide +kernel) tame rfl (by decide +kernel) (by decide +kernel)
  refine ⟨_, demoReach2.rt _ tame, fun _ => rfl, h.1, ?_⟩
  rw [h.2.1, h.2.2]
  have : ((demoStart.runs 1000 demoPublish).mgr.used.bind (fun u => (((demoStart.runs 1000 demoPublish).mgr.lists u)[0]?).map (·.name))) = some "spring" := by decide +kernel
  rcases hu : (demoStart.runs 1000 demoPublish).mgr.used with _ | u
  · rw [hu] at this; cases this
  · rw [hu] at this
    simp only [Option.bind_some, Option.map_eq_some_iff] at this
    obtain ⟨e, h1, h2⟩ := this
    exact ⟨u, e, rfl, h1, h2⟩

/-- It was timed in five cycles, 2 ms each: all of them are overruns. -/
example : ((demoStart.runs 1000 demoPublish).data.stats 0).overruns = 5 ∧ (demoStart.runs 1000 demoPublish).timings.length = 5 := by decide +kernel

end demo

end Pr2
