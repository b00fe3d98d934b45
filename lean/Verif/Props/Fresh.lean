import Verif.Props.Plant
import Verif.Props.WaitFree

/-!
# C121: fresh efforts for the motors, again and again, whatever the services do

C100 (the realtime loop is wait-free) for the whole machine: sweeps, limits, plugins, publishing.  Within a bounded number of steps of the realtime loop a whole
cycle is made with readings that are newer, and the actuators have been sent its efforts.
-/

namespace Pr2
set_option linter.unusedVariables false
set_option linter.unusedSectionVars false

section
variable {F : Type} [FCmp F] [Zero F] [Add F] [Sub F] [Mul F] [iDiv : Div F] [Neg F] [FLit F] [iTrig : FTrig F]

/-- Is it a step of the realtime loop? -/
def PAct.isRt : PAct F → Bool
  | .rt _ => true
  | _ => false

/-- The number of steps the realtime loop makes in `as`. -/
def rtCount (as : List (PAct F)) : Nat := (as.filter PAct.isRt).length

/-- During the execution `as` from `p` neither list has more than `N` controllers and no more than `R` controllers are to be stopped or started. -/
def PSmall (big : F) (N R : Nat) (p : Plant F) (as : List (PAct F)) : Prop :=
  ∀ l, l <+: as → (∀ u, ((p.runs big l).mgr.lists u).length ≤ N) ∧ (p.runs big l).mgr.stopReq.length + (p.runs big l).mgr.startReq.length ≤ R

/-! ## The manager's part -/

theorem used_some {m : Bool} {s : State} (h : Reachable m s) : s.used ≠ none := by
  rcases h.inv.1.used with e | ⟨f, e, _⟩ <;> rw [e] <;> simp

theorem rtStep_mgr (big : F) (p : Plant F) (i : PlantIn F) (hd : p.dead = false) (hn : (p.rtStep big i).dead = false) :
    ∃ j, (p.rtStep big i).mgr = p.mgr.step (.rt j) := by
  revert hn
  unfold Plant.rtStep
  split
  · dsimp only; split
    · simp
    · intro _; exact ⟨_, rfl⟩
  · dsimp only
    split
    · split
      · simp
      · intro _; exact ⟨_, rfl⟩
    · split
      · intro _; exact ⟨_, rfl⟩
      · intro _; exact ⟨_, rfl⟩
  · dsimp only; split
    · simp
    · split
      · simp
      · intro _; exact ⟨_, rfl⟩
  · intro _; exact ⟨_, rfl⟩

variable {big : F} {m : Bool} {d : RtData F}

/-- A machine that has begun its first cycle and does not abort. -/
structure Up (big : F) (m : Bool) (d : RtData F) (p : Plant F) : Prop where
  reach : Plant.Reach big m d PlantIn.Tame p
  used : p.mgr.used ≠ none

theorem Up.mgr {p : Plant F} (h : Up big m d p) : Reachable m p.mgr := h.reach.pinv.mgr.reach h.used

/-- What may be done. -/
def TameActs (as : List (PAct F)) : Prop := ∀ i, PAct.rt i ∈ as → i.Tame

theorem Up.step (hd : d.Good) {p : Plant F} (h : Up big m d p) (a : PAct F) (ha : ∀ i, a = .rt i → i.Tame) :
    Up big m d (p.step big a) ∧ ∃ b : Act, b ≠ .shutdown ∧ b.isRt = a.isRt ∧ (p.step big a).mgr = p.mgr.step b := by
  have hl := (C84_survives hd h.reach).1
  have hr : Plant.Reach big m d PlantIn.Tame (p.step big a) := by
    cases a with
    | rt i => exact h.reach.rt i (ha i rfl)
    | nrt => exact h.reach.nrt h.used
    | call op => exact h.reach.call h.used op
  have hl' := (C84_survives hd hr).1
  have hb : ∃ b : Act, b ≠ .shutdown ∧ b.isRt = a.isRt ∧ (p.step big a).mgr = p.mgr.step b := by
    cases a with
    | rt i =>
      have e : p.step big (.rt i) = p.rtStep big i := by unfold Plant.step; rw [hl]; rfl
      rw [e] at hl' ⊢
      obtain ⟨j, hj⟩ := rtStep_mgr big p i hl hl'
      exact ⟨.rt j, by simp, rfl, hj⟩
    | nrt => exact ⟨.nrt, by simp, rfl, by unfold Plant.step; rw [hl]; rfl⟩
    | call op => exact ⟨.call op, by simp, rfl, by unfold Plant.step; rw [hl]; rfl⟩
  refine ⟨⟨hr, ?_⟩, hb⟩
  obtain ⟨b, h1, _, h2⟩ := hb
  rw [h2]
  exact used_some (h.mgr.step b h1)

theorem Up.runs (hd : d.Good) {as : List (PAct F)} {p : Plant F} (h : Up big m d p) (ha : TameActs as) : Up big m d (p.runs big as) := by
  induction as generalizing p with
  | nil => exact h
  | cons a as ih => exact ih (h.step hd a (fun i hi => ha i (by simp [hi]))).1 (fun i hi => ha i (by simp [hi]))

theorem project (hd : d.Good) {as : List (PAct F)} {p : Plant F} (h : Up big m d p) (ha : TameActs as) :
    ∃ bs : List Act, bs.length = as.length ∧ (∀ b ∈ bs, b ≠ .shutdown) ∧
      ∀ k, (p.runs big (as.take k)).mgr = p.mgr.run (bs.take k) ∧ rtCount (as.take k) = rtSteps (bs.take k) := by
  induction as generalizing p with
  | nil => exact ⟨[], rfl, by simp, fun k => by simp [Plant.runs, State.run, rtCount, rtSteps]⟩
  | cons a as ih =>
    obtain ⟨h1, b, hb, hi, hm⟩ := h.step hd a (fun i hi => ha i (by simp [hi]))
    obtain ⟨bs, h2, h3, h4⟩ := ih h1 (fun i hi => ha i (by simp [hi]))
    refine ⟨b :: bs, by simp [h2], ?_, ?_⟩
    · intro c hc
      rcases List.mem_cons.1 hc with rfl | hc
      · exact hb
      · exact h3 c hc
    · intro k
      cases k with
      | zero => simp [Plant.runs, State.run, rtCount, rtSteps]
      | succ k =>
        rw [List.take_succ_cons, List.take_succ_cons, run_cons, rtSteps_cons, ← hm, ← (h4 k).1, ← (h4 k).2, hi]
        refine ⟨rfl, ?_⟩
        unfold rtCount
        by_cases hx : a.isRt = true <;> simp [hx, Nat.add_comm]

theorem runs_append (p : Plant F) (a b : List (PAct F)) : p.runs big (a ++ b) = (p.runs big a).runs big b := by simp [Plant.runs]

theorem rtCount_append (a b : List (PAct F)) : rtCount (a ++ b) = rtCount a + rtCount b := by simp [rtCount]

theorem PSmall.drop {N R : Nat} {p : Plant F} {a l : List (PAct F)} (h : PSmall big N R p (a ++ l)) : PSmall big N R (p.runs big a) l := by
  intro l' hl
  rw [← runs_append]
  exact h (a ++ l') ((List.prefix_append_right_inj a).2 hl)

theorem small_project {N R : Nat} {p : Plant F} {as : List (PAct F)} {bs : List Act} (hs : PSmall big N R p as)
    (hp : ∀ k, (p.runs big (as.take k)).mgr = p.mgr.run (bs.take k)) : Small N R p.mgr bs := by
  intro l hl
  have e := List.prefix_iff_eq_take.1 hl
  rw [e, ← hp]
  exact hs _ (List.take_prefix _ _)

/-- **C121, cycles.** The machine ends its control cycle within `4 N + R + 13` steps of the realtime loop, whatever the services, plugins and readings are. -/
theorem C121_cycle_ends (hd : d.Good) {p : Plant F} (h : Plant.Reach big m d PlantIn.Tame p) (hu : p.mgr.used ≠ none) (N R : Nat) (as : List (PAct F))
    (ha : TameActs as) (hs : PSmall big N R p as) (hc : 4 * N + R + 13 ≤ rtCount as) :
    ∃ l rest, as = l ++ rest ∧ 1 ≤ rtCount l ∧ rtCount l ≤ 4 * N + R + 13 ∧ (p.runs big l).mgr.rt = .idle := by
  have up : Up big m d p := ⟨h, hu⟩
  obtain ⟨bs, h1, h2, h3⟩ := project hd up ha
  have hrt : rtSteps bs = rtCount as := by
    have := (h3 as.length).2
    rw [List.take_length, ← h1, List.take_length] at this
    exact this.symm
  obtain ⟨l, rest, e, a1, a2, a3⟩ := C100_wait_free up.mgr N R bs h2 (small_project hs (fun k => (h3 k).1)) (by rw [hrt]; exact hc)
  have el : l = bs.take l.length := by rw [e]; simp
  refine ⟨as.take l.length, as.drop l.length, (List.take_append_drop _ _).symm, ?_, ?_, ?_⟩
  · rw [(h3 _).2, ← el]; exact a1
  · rw [(h3 _).2, ← el]; exact a2
  · rw [(h3 _).1, ← el]; exact a3

/-- **C121, switches.** A switch that is requested is executed within `2 (4 N + R + 13)` steps of the machine's realtime loop. -/
theorem C121_switch_soon (hd : d.Good) {p : Plant F} (h : Plant.Reach big m d PlantIn.Tame p) (hu : p.mgr.used ≠ none) (N R : Nat) (as : List (PAct F))
    (ha : TameActs as) (hs : PSmall big N R p as) (hc : 2 * (4 * N + R + 13) ≤ rtCount as) :
    ∃ l rest, as = l ++ rest ∧ (p.runs big l).mgr.pleaseSwitch = false := by
  have up : Up big m d p := ⟨h, hu⟩
  obtain ⟨bs, h1, h2, h3⟩ := project hd up ha
  have hrt : rtSteps bs = rtCount as := by
    have := (h3 as.length).2
    rw [List.take_length, ← h1, List.take_length] at this
    exact this.symm
  obtain ⟨l, rest, e, a1⟩ := C100_switch_soon up.mgr N R bs h2 (small_project hs (fun k => (h3 k).1)) (by rw [hrt]; exact hc)
  have el : l = bs.take l.length := by rw [e]; simp
  refine ⟨as.take l.length, as.drop l.length, (List.take_append_drop _ _).symm, ?_⟩
  rw [(h3 _).1, ← el]; exact a1

/-! ## From the end of a cycle on -/

/-- since the history was `log` and the cycles were `cs`: a cycle is about to begin, has begun, or has sent its efforts -/
inductive Since (log : List Ev) (cs : List (CycleRec F)) (p : Plant F) : Prop
  | before (hr : (∃ r, p.mgr.rt = .gotCurrent r) ∨ p.mgr.rt = .pre) (hc : p.cycles = cs) (hl : log <+: p.mgr.log)
  | during (hr : p.mgr.rt.inCycle = true) (hc : p.cycles = cs) (hl : log <+: p.begun)
  | after (r : CycleRec F) (more : List (CycleRec F)) (hc : p.cycles = cs ++ r :: more) (hl : log <+: r.begun)

theorem Since.service {log : List Ev} {cs : List (CycleRec F)} {p : Plant F} (h : Since log cs p) (s : State) (hk : NrtKeeps p.mgr s) :
    Since log cs { p with mgr := s } := by
  rcases h with ⟨hr, hc, hl⟩ | ⟨hr, hc, hl⟩ | ⟨r, more, hc, hl⟩
  · exact .before (by dsimp only; rw [hk.rt]; exact hr) hc (by dsimp only; rw [hk.log]; exact hl)
  · exact .during (by dsimp only; rw [hk.rt]; exact hr) hc hl
  · exact .after r more hc hl

theorem Since.rt (hd : d.Good) {p : Plant F} (h : Up big m d p) {log : List Ev} {cs : List (CycleRec F)} (hs : Since log cs p) (i : PlantIn F) (hi : i.Tame) :
    Since log cs (p.step big (.rt i)) := by
  have hl := (C84_survives hd h.reach).1
  have hl' := (C84_survives hd (h.reach.rt i hi)).1
  have e : p.step big (.rt i) = p.rtStep big i := by unfold Plant.step; rw [hl]; rfl
  rw [e] at hl' ⊢
  have inv := h.mgr.inv.1
  have hst := fun j => plantStep_rt inv j
  -- a step that leaves the ghosts alone
  have keep : ∀ q : Plant F, q.cycles = p.cycles → (p.mgr.rt.inCycle = true → q.mgr.rt.inCycle = true ∧ q.begun = p.begun) →
      ((∃ r, p.mgr.rt = .gotCurrent r) ∨ p.mgr.rt = .pre → Since log cs q) → Since log cs q := by
    intro q hc hin hb
    rcases hs with ⟨hr, _, _⟩ | ⟨hr, hc', hlg⟩ | ⟨r, more, hc', hlg⟩
    · exact hb hr
    · exact .during (hin hr).1 (hc.trans hc') (by rw [(hin hr).2]; exact hlg)
    · exact .after r more (hc.trans hc') hlg
  revert hl'
  unfold Plant.rtStep
  cases hrt : p.mgr.rt with
  | pre =>
    dsimp only
    split
    · simp
    · rename_i moved _
      intro _
      refine keep _ rfl (fun hq => by rw [hrt] at hq; cases hq) (fun _ => ?_)
      rcases hs with ⟨_, hc', hlg⟩ | ⟨hr, _, _⟩ | ⟨r, more, hc', hlg⟩
      · refine .during ?_ hc' hlg
        dsimp only
        obtain ⟨u, _, he⟩ := rtStep_pre inv ⟨moved.zeroCommands.isHalted, false, false⟩ hrt
        rw [hst, he]
        dsimp only
        split <;> rfl
      · rw [hrt] at hr; cases hr
      · exact .after r more hc' hlg
  | sweep k =>
    dsimp only
    obtain ⟨u, _, hcase⟩ := rtStep_sweep inv ⟨false, false, false⟩ hrt
    rw [← hst] at hcase
    rcases hcase with ⟨_, j, x, _, _, _, he⟩ | ⟨_, he⟩
    · have hr' : (p.mgr.step (.rt ⟨false, false, false⟩)).rt = .sweep (k + 1) := by rw [he]
      rw [hr']
      dsimp only
      intro _
      refine keep _ ?_ (fun _ => ?_) (fun hq => ?_)
      · split <;> rfl
      · split
        · exact ⟨by show (p.mgr.step (.rt ⟨false, false, false⟩)).rt.inCycle = true; rw [hr']; rfl, rfl⟩
        · exact ⟨by show (p.mgr.step (.rt ⟨false, false, false⟩)).rt.inCycle = true; rw [hr']; rfl, rfl⟩
      · rcases hq with ⟨r, hq⟩ | hq <;> rw [hrt] at hq <;> cases hq
    · have hr' : (p.mgr.step (.rt ⟨false, false, false⟩)).rt = .publish := by rw [he]
      rw [hr']
      dsimp only
      split
      · simp
      · intro _
        rcases hs with ⟨hq, _, _⟩ | ⟨_, hc', hlg⟩ | ⟨r, more, hc', hlg⟩
        · rcases hq with ⟨r, hq⟩ | hq <;> rw [hrt] at hq <;> cases hq
        · exact .after _ [] (by dsimp only; rw [hc']) hlg
        · exact .after r (more ++ [_]) (by dsimp only; rw [hc']; simp; rfl) hlg
  | publish =>
    dsimp only
    split
    · simp
    · split
      · simp
      · intro _
        refine keep _ rfl (fun hq => ?_) (fun hq => ?_)
        · rw [hrt] at hq; cases hq
        · rcases hq with ⟨r, hq⟩ | hq <;> rw [hrt] at hq <;> cases hq
  | restart k =>
    intro _
    refine keep _ rfl (fun _ => ⟨?_, rfl⟩) (fun hq => ?_)
    · show (p.mgr.step (.rt ⟨false, false, false⟩)).rt.inCycle = true
      rw [hst]
      obtain ⟨u, _, hcase⟩ := rtStep_restart inv ⟨false, false, false⟩ hrt
      rcases hcase with ⟨_, j, x, _, _, _, ⟨_, he⟩ | ⟨_, he⟩⟩ | ⟨_, he⟩ <;> rw [he] <;> rfl
    · rcases hq with ⟨r, hq⟩ | hq <;> rw [hrt] at hq <;> cases hq
  | restartMid k id =>
    intro _
    refine keep _ rfl (fun _ => ⟨?_, rfl⟩) (fun hq => ?_)
    · show (p.mgr.step (.rt ⟨false, false, false⟩)).rt.inCycle = true
      rw [hst, rtStep_restartMid inv ⟨false, false, false⟩ hrt]
      rfl
    · rcases hq with ⟨r, hq⟩ | hq <;> rw [hrt] at hq <;> cases hq
  | gotCurrent r =>
    intro _
    refine keep _ rfl (fun hq => by rw [hrt] at hq; cases hq) (fun _ => ?_)
    rcases hs with ⟨_, hc', hlg⟩ | ⟨hr, _, _⟩ | ⟨r, more, hc', hlg⟩
    · refine .before (Or.inr ?_) hc' ?_
      · show (p.mgr.step (.rt ⟨false, false, false⟩)).rt = .pre
        rw [hst]; unfold State.rtStep; rw [hrt]
      · show log <+: (p.mgr.step (.rt ⟨false, false, false⟩)).log
        rw [hst]; unfold State.rtStep; rw [hrt]; exact hlg
    · rw [hrt] at hr; cases hr
    · exact .after r more hc' hlg
  | _ =>
    intro _
    refine keep _ rfl (fun hq => by rw [hrt] at hq; cases hq) (fun hq => ?_)
    rcases hq with ⟨r, hq⟩ | hq <;> rw [hrt] at hq <;> cases hq

theorem other_step (hd : d.Good) {p : Plant F} (h : Up big m d p) {a : PAct F} (ha : a.isRt = false) :
    ∃ s, p.step big a = { p with mgr := s } ∧ NrtKeeps p.mgr s := by
  have hl := (C84_survives hd h.reach).1
  have inv := h.mgr.inv.1
  cases a with
  | rt i => cases ha
  | nrt =>
    refine ⟨p.mgr.step .nrt, by unfold Plant.step; rw [hl]; rfl, ?_⟩
    exact other_keeps inv (by simp) rfl
  | call op =>
    refine ⟨p.mgr.step (.call op), by unfold Plant.step; rw [hl]; rfl, ?_⟩
    exact other_keeps inv (by simp) rfl

theorem Since.runs (hd : d.Good) {as : List (PAct F)} {p : Plant F} (h : Up big m d p) (ha : TameActs as) {log : List Ev} {cs : List (CycleRec F)}
    (hs : Since log cs p) : Since log cs (p.runs big as) := by
  induction as generalizing p with
  | nil => exact hs
  | cons a as ih =>
    refine ih (h.step hd a (fun i hi => ha i (by simp [hi]))).1 (fun i hi => ha i (by simp [hi])) ?_
    by_cases hr : a.isRt = true
    · cases a with
      | rt i => exact hs.rt hd h i (ha i (by simp))
      | nrt => cases hr
      | call op => cases hr
    · obtain ⟨s, e, hk⟩ := other_step hd h (by simpa using hr)
      rw [e]; exact hs.service s hk

/-- from the end of a cycle -/
theorem since_idle (hd : d.Good) {as : List (PAct F)} {p : Plant F} (h : Up big m d p) (ha : TameActs as) (hi : p.mgr.rt = .idle) (hc : 1 ≤ rtCount as) :
    Since p.mgr.log p.cycles (p.runs big as) := by
  induction as generalizing p with
  | nil => simp [rtCount] at hc
  | cons a as ih =>
    have hup := (h.step hd a (fun i hi => ha i (by simp [hi]))).1
    have hta : TameActs as := fun i hi => ha i (by simp [hi])
    by_cases hr : a.isRt = true
    · cases a with
      | rt i =>
        refine Since.runs hd hup hta ?_
        have hl := (C84_survives hd h.reach).1
        have e : p.step big (.rt i) = p.rtStep big i := by unfold Plant.step; rw [hl]; rfl
        have inv := h.mgr.inv.1
        rw [e]
        unfold Plant.rtStep
        rw [hi]
        dsimp only
        refine .before (Or.inl ⟨p.mgr.current, ?_⟩) rfl ?_
        · show (p.mgr.step (.rt ⟨false, false, false⟩)).rt = _
          rw [plantStep_rt inv]; unfold State.rtStep; rw [hi]
        · show _ <+: (p.mgr.step (.rt ⟨false, false, false⟩)).log
          rw [plantStep_rt inv]; unfold State.rtStep; rw [hi]
      | nrt => cases hr
      | call op => cases hr
    · have hr : a.isRt = false := by simpa using hr
      obtain ⟨s, e, hk⟩ := other_step hd h hr
      have := ih hup hta (by rw [e]; dsimp only; rw [hk.rt]; exact hi) (by
        unfold rtCount at hc ⊢
        rwa [List.filter_cons_of_neg (by rw [hr]; simp)] at hc)
      rw [show (p.step big a).mgr.log = p.mgr.log by rw [e]; exact hk.log, show (p.step big a).cycles = p.cycles by rw [e]] at this
      exact this

theorem log_grows {s : State} (inv : Inv s) (i : RtIn) : s.log <+: (s.rtStep i).log := by
  by_cases hp : s.rt = .pre
  · obtain ⟨u, _, he⟩ := rtStep_pre inv i hp
    rw [he]; exact List.prefix_append _ _
  by_cases hc : s.rt.inCycle = false
  · obtain ⟨_, new, he, _⟩ := rtStep_outside inv i hp hc
    rw [he]; exact List.prefix_append _ _
  cases hrt : s.rt with
  | restart k =>
    obtain ⟨u, _, hcase⟩ := rtStep_restart inv i hrt
    rcases hcase with ⟨_, j, x, _, _, _, ⟨_, he⟩ | ⟨_, he⟩⟩ | ⟨_, he⟩ <;> rw [he]
    exact List.prefix_append _ _
  | restartMid k id => rw [rtStep_restartMid inv i hrt]; exact List.prefix_append _ _
  | sweep k =>
    obtain ⟨u, _, hcase⟩ := rtStep_sweep inv i hrt
    rcases hcase with ⟨_, j, x, _, _, _, he⟩ | ⟨_, he⟩ <;> rw [he]
    exact List.prefix_append _ _
  | _ => rw [hrt] at hc; exact absurd rfl hc

theorem cycles_grow (p : Plant F) (i : PlantIn F) : p.cycles <+: (p.rtStep big i).cycles := by
  unfold Plant.rtStep
  split
  · dsimp only; split <;> exact List.prefix_rfl
  · dsimp only
    split
    · split
      · exact List.prefix_rfl
      · exact List.prefix_append _ _
    · split <;> exact List.prefix_rfl
  · dsimp only; split
    · exact List.prefix_rfl
    · split <;> exact List.prefix_rfl
  · exact List.prefix_rfl

theorem grows (hd : d.Good) {as : List (PAct F)} {p : Plant F} (h : Up big m d p) (ha : TameActs as) :
    p.mgr.log <+: (p.runs big as).mgr.log ∧ p.cycles <+: (p.runs big as).cycles := by
  induction as generalizing p with
  | nil => exact ⟨List.prefix_rfl, List.prefix_rfl⟩
  | cons a as ih =>
    obtain ⟨hup, b, _, _, hm⟩ := h.step hd a (fun i hi => ha i (by simp [hi]))
    obtain ⟨h1, h2⟩ := ih hup (fun i hi => ha i (by simp [hi]))
    have key : p.mgr.log <+: (p.step big a).mgr.log ∧ p.cycles <+: (p.step big a).cycles := by
      by_cases hr : a.isRt = true
      · cases a with
        | rt i =>
          have hl := (C84_survives hd h.reach).1
          have e : p.step big (.rt i) = p.rtStep big i := by unfold Plant.step; rw [hl]; rfl
          have hl' := (C84_survives hd hup.reach).1
          rw [e] at hl' ⊢
          obtain ⟨j, hj⟩ := rtStep_mgr big p i hl hl'
          refine ⟨?_, cycles_grow p i⟩
          rw [hj, plantStep_rt h.mgr.inv.1]
          exact log_grows h.mgr.inv.1 j
        | nrt => cases hr
        | call op => cases hr
      · obtain ⟨s, e, hk⟩ := other_step hd h (by simpa using hr)
        rw [e]
        exact ⟨by rw [show ({ p with mgr := s } : Plant F).mgr.log = p.mgr.log from hk.log], List.prefix_rfl⟩
    exact ⟨key.1.trans h1, key.2.trans h2⟩

/-- **C121.** Fresh efforts: within `2 (4 N + R + 13)` steps of the realtime loop, from wherever the machine is and whatever the services, plugins and readings are,
a whole cycle has been made that began after now (its beginning extends today's history), and the actuators have been sent what it computed: `C84` says what that
is. -/
theorem C121_fresh (hd : d.Good) {p : Plant F} (h : Plant.Reach big m d PlantIn.Tame p) (hu : p.mgr.used ≠ none) (N R : Nat) (as : List (PAct F))
    (ha : TameActs as) (hs : PSmall big N R p as) (hc : 2 * (4 * N + R + 13) ≤ rtCount as) :
    ∃ l rest old r more, as = l ++ rest ∧ rtCount l ≤ 2 * (4 * N + R + 13) ∧ (p.runs big l).cycles = p.cycles ++ old ++ r :: more ∧
      p.mgr.log <+: r.begun ∧ r.Faithful big m (p.runs big l).mgr.log := by
  have up : Up big m d p := ⟨h, hu⟩
  obtain ⟨l1, r1, rfl, _, h2, h3⟩ := C121_cycle_ends hd h hu N R as ha hs (by omega)
  rw [rtCount_append] at hc
  have ha1 : TameActs l1 := fun i hi => ha i (by simp [hi])
  have ha2 : TameActs r1 := fun i hi => ha i (by simp [hi])
  have up1 := up.runs hd ha1
  obtain ⟨l2, r2, rfl, h4, h5, h6⟩ := C121_cycle_ends hd up1.reach up1.used N R r1 ha2 hs.drop (by omega)
  have ha3 : TameActs l2 := fun i hi => ha2 i (by simp [hi])
  have up2 := up1.runs hd ha3
  obtain ⟨g1, old, g2⟩ := grows hd up ha1
  rcases since_idle hd up1 ha3 h3 h4 with ⟨hr, _, _⟩ | ⟨hr, _, _⟩ | ⟨r, more, hcy, hl⟩
  · rcases hr with ⟨r, hr⟩ | hr <;> rw [h6] at hr <;> cases hr
  · rw [h6] at hr; cases hr
  · refine ⟨l1 ++ l2, r2, old, r, more, by simp, by rw [rtCount_append]; omega, ?_, g1.trans hl, ?_⟩
    · rw [runs_append, hcy, ← g2]
    · rw [runs_append]
      refine C84_faithful up2.reach r ?_
      rw [hcy]; simp

/-! ## Infinite executions -/

/-- A fair execution of the machine: both threads make infinitely many steps, and a service thread that keeps waiting for the statistics publisher's lock
gets a turn when it is free. -/
structure FairMachine (big : F) (m : Bool) (d : RtData F) (σ : Nat → Plant F) (act : Nat → PAct F) : Prop where
  reach : Plant.Reach big m d PlantIn.Tame (σ 0)
  used : (σ 0).mgr.used ≠ none
  step : ∀ n, σ (n + 1) = (σ n).step big (act n)
  tame : ∀ n i, act n = .rt i → i.Tame
  rt : ∀ n, ∃ k ≥ n, ∃ i, act k = .rt i
  nrt : ∀ n, ∃ k ≥ n, act k = .nrt
  lock : ∀ n, (∀ k ≥ n, ∃ op, (σ k).mgr.nrt = .pubLock op) → ∃ k ≥ n, act k = .nrt ∧ (σ k).mgr.pubLock = none

theorem FairMachine.up (hd : d.Good) {σ : Nat → Plant F} {act : Nat → PAct F} (H : FairMachine big m d σ act) (n : Nat) : Up big m d (σ n) := by
  induction n with
  | zero => exact ⟨H.reach, H.used⟩
  | succ n ih => rw [H.step]; exact (ih.step hd (act n) (H.tame n)).1

theorem FairMachine.fair (hd : d.Good) {σ : Nat → Plant F} {act : Nat → PAct F} (H : FairMachine big m d σ act) :
    ∃ bs : Nat → Act, FairRun m (fun n => (σ n).mgr) bs := by
  have h : ∀ n, ∃ b : Act, b ≠ .shutdown ∧ ((act n).isRt = true → ∃ i, b = .rt i) ∧ (act n = .nrt → b = .nrt) ∧ (σ (n + 1)).mgr = (σ n).mgr.step b := by
    intro n
    have hl := (C84_survives hd (H.up hd n).reach).1
    rw [H.step]
    rcases ha : act n with i | _ | op
    · obtain ⟨_, b, h1, h2, h3⟩ := (H.up hd n).step hd (act n) (H.tame n)
      rw [ha] at h2 h3
      refine ⟨b, h1, fun _ => ?_, by simp, h3⟩
      cases b with
      | rt j => exact ⟨j, rfl⟩
      | _ => cases h2
    · exact ⟨.nrt, by simp, fun h => (by cases h), fun _ => rfl, by unfold Plant.step; rw [hl]; rfl⟩
    · exact ⟨.call op, by simp, fun h => (by cases h), by simp, by unfold Plant.step; rw [hl]; rfl⟩
  choose bs h1 h2 h3 h4 using h
  refine ⟨bs, (H.up hd 0).mgr, h4, h1, ?_, ?_, ?_⟩
  · intro n
    obtain ⟨k, hk, i, hi⟩ := H.rt n
    exact ⟨k, hk, h2 k (by rw [hi]; rfl)⟩
  · intro n
    obtain ⟨k, hk, hi⟩ := H.nrt n
    exact ⟨k, hk, h3 k hi⟩
  · intro n hn
    obtain ⟨k, hk, hi, hl⟩ := H.lock n hn
    exact ⟨k, hk, h3 k hi, hl⟩

/-- **C121, services.** In every fair execution of the machine every service call returns. -/
theorem C121_calls_return (hd : d.Good) {σ : Nat → Plant F} {act : Nat → PAct F} (H : FairMachine big m d σ act) (n : Nat) :
    ∃ k ≥ n, (σ k).mgr.nrt = .idle := by
  obtain ⟨bs, hf⟩ := H.fair hd
  exact C24_calls_finish hf n

end

/-! ## The running system of `Verif.Props.Plant`: a controller is loaded and started by service calls while the realtime loop runs -/

section demo
attribute [local instance] exactCmp demoTrig demoLit

theorem demo_tame : TameActs demoActs := by
  have tame : demoIn.Tame := ⟨fun as => List.forall₂_same.2 fun _ _ => rfl, (springController_tame 4).1⟩
  have : ∀ n i, PAct.rt i ∈ demoBoth n → i = demoIn := by
    intro n i hi
    induction n with
    | zero => cases hi
    | succ n ih =>
      simp only [demoBoth, List.mem_cons, reduceCtorEq, false_or, PAct.rt.injEq] at hi
      exact hi.elim id ih
  intro i hi
  unfold demoActs at hi
  simp only [List.cons_append, List.mem_cons, reduceCtorEq, false_or, List.mem_append] at hi
  rcases hi with hi | hi <;> (rw [this _ i hi]; exact tame)

theorem demo_start : Plant.Reach 1000 false demoRt PlantIn.Tame demoStart := by
  have tame : demoIn.Tame := ⟨fun as => List.forall₂_same.2 fun _ _ => rfl, (springController_tame 4).1⟩
  exact (Plant.Reach.init.rt demoIn tame).rt demoIn tame

theorem demo_small : PSmall 1000 1 1 demoStart demoActs := by
  have h : ∀ l ∈ demoActs.inits, (((Plant.runs 1000 demoStart l).mgr.lists false).length ≤ 1 ∧ ((Plant.runs 1000 demoStart l).mgr.lists true).length ≤ 1) ∧
      (Plant.runs 1000 demoStart l).mgr.stopReq.length + (Plant.runs 1000 demoStart l).mgr.startReq.length ≤ 1 := by decide +kernel
  intro l hl
  obtain ⟨h1, h2⟩ := h l ((List.mem_inits _ _).2 hl)
  exact ⟨fun u => by cases u <;> [exact h1.1; exact h1.2], h2⟩

/-- With one controller and one request at a time: within 36 steps. -/
example : ∃ l rest old r more, demoActs = l ++ rest ∧ rtCount l ≤ 36 ∧ (demoStart.runs 1000 l).cycles = demoStart.cycles ++ old ++ r :: more ∧
    demoStart.mgr.log <+: r.begun ∧ r.Faithful 1000 false (demoStart.runs 1000 l).mgr.log :=
  C121_fresh demoGood demo_start (by decide +kernel) 1 1 demoActs demo_tame demo_small (by decide +kernel)

/-- One load request, then the two threads alternate. -/
def demoFairAct (n : Nat) : PAct ℚ := if n = 0 then .call (.load demoReq) else if n % 2 = 0 then .nrt else .rt demoIn
def demoFair : Nat → Plant ℚ
  | 0 => demoStart
  | n + 1 => (demoFair n).step 1000 (demoFairAct n)

theorem demoFair_tame (n : Nat) : ∀ i, demoFairAct n = .rt i → i.Tame := by
  intro i h
  unfold demoFairAct at h
  have : i = demoIn := by
    split at h
    · cases h
    · split at h <;> cases h; rfl
  rw [this]
  exact ⟨fun as => List.forall₂_same.2 fun _ _ => rfl, (springController_tame 4).1⟩

theorem demoFair_up (n : Nat) : Up 1000 false demoRt (demoFair n) := by
  induction n with
  | zero => exact ⟨demo_start, by decide +kernel⟩
  | succ n ih => exact (ih.step demoGood _ (demoFair_tame n)).1

theorem demoFair_quiet (k : Nat) : (demoFair (60 + k)).mgr.nrt = .idle := by
  induction k with
  | zero =>
    have h : ((demoFair 60).mgr.nrt matches .idle) = true := by decide +kernel
    revert h
    cases (demoFair (60 + 0)).mgr.nrt <;> simp
  | succ k ih =>
    have up := demoFair_up (60 + k)
    have inv := up.mgr.inv.1
    have hl := (C84_survives demoGood up.reach).1
    have he : demoFair (60 + (k + 1)) = (demoFair (60 + k)).step 1000 (demoFairAct (60 + k)) := rfl
    have hup := demoFair_up (60 + (k + 1))
    have hl' := (C84_survives demoGood hup.reach).1
    rw [he] at hl' ⊢
    unfold demoFairAct at hl' ⊢
    rw [if_neg (by omega)] at hl' ⊢
    by_cases hp : (60 + k) % 2 = 0
    · rw [if_pos hp]
      unfold Plant.step
      rw [hl]
      show ((demoFair (60 + k)).mgr.step .nrt).nrt = _
      unfold State.step
      rw [if_neg (by rw [inv.notbad]; simp)]
      dsimp only
      unfold State.nrtStep; rw [ih]; simp only [ih]
    · rw [if_neg hp] at hl' ⊢
      have e : (demoFair (60 + k)).step 1000 (.rt demoIn) = (demoFair (60 + k)).rtStep 1000 demoIn := by unfold Plant.step; rw [hl]; rfl
      rw [e] at hl' ⊢
      obtain ⟨j, hj⟩ := rtStep_mgr 1000 _ demoIn hl hl'
      rw [hj, plantStep_rt inv, (rtStep_nrtSide inv _).1, ih]

theorem demoFair_fair : FairMachine 1000 false demoRt demoFair demoFairAct where
  reach := demo_start
  used := by decide +kernel
  step := fun n => rfl
  tame := demoFair_tame
  rt := by
    intro n
    refine ⟨2 * n + 1, by omega, demoIn, ?_⟩
    unfold demoFairAct
    rw [if_neg (by omega), if_neg (by omega)]
  nrt := by
    intro n
    refine ⟨2 * (n + 1), by omega, ?_⟩
    unfold demoFairAct
    rw [if_neg (by omega), if_pos (by omega)]
  lock := by
    intro n h
    obtain ⟨op, ho⟩ := h (60 + n) (by omega)
    rw [demoFair_quiet n] at ho
    simp at ho

/-- and the controller is loaded -/
example : (demoFair 60).mgr.view.names = ["spring"] := by decide +kernel

end demo

end Pr2
