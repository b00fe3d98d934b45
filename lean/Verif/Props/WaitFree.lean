import Verif.Props.Live

/-!
# C100: how long control cycles and waits take

"Must be realtime safe" (controller_manager.cpp:125): the realtime loop waits for nobody.  The number of its own steps in a control cycle is bounded by the number of
loaded controllers and of controllers named in a switch request, whatever the service threads do, where they stop, and what they hold.
-/

namespace Pr2
set_option linter.unusedVariables false

/-- Is it a step of the realtime loop? -/
def Act.isRt : Act → Bool
  | .rt _ => true
  | _ => false

/-- The number of steps the realtime loop makes in `acts`. -/
def rtSteps (acts : List Act) : Nat := (acts.filter Act.isRt).length

/-- During the execution `acts` from `s` neither list has more than `N` controllers and no more than `R` controllers are to be stopped or started. -/
def Small (N R : Nat) (s : State) (acts : List Act) : Prop :=
  ∀ l, l <+: acts → (∀ u, ((s.run l).lists u).length ≤ N) ∧ (s.run l).stopReq.length + (s.run l).startReq.length ≤ R

theorem rtSteps_cons (a : Act) (l : List Act) : rtSteps (a :: l) = (if a.isRt then 1 else 0) + rtSteps l := by
  unfold rtSteps; by_cases h : a.isRt = true <;> simp [h, Nat.add_comm]

theorem rtSteps_append (a b : List Act) : rtSteps (a ++ b) = rtSteps a + rtSteps b := by simp [rtSteps]

/-- Upper bound on the steps left in the current cycle. -/
def stepsLeft (N R : Nat) (s : State) : Nat := match s.rt with
  | .idle => 4 * N + R + 13
  | .gotCurrent _ => 4 * N + R + 12
  | .pre => 4 * N + R + 11
  | .restart k => 2 * N + R + 10 + 2 * (usedLen s - k)
  | .restartMid k _ => 2 * N + R + 11 + 2 * (usedLen s - (k+1))
  | .sweep k => N + R + 9 + (usedLen s - k)
  | .publish => N + R + 8
  | .pubFill k _ => R + 7 + ((s.lists s.current).length - k)
  | .switchCheck => R + 6
  | .switchStop k => 5 + s.startReq.length + (s.stopReq.length - k)
  | .switchStart k => 4 + (s.startReq.length - k)
  | .switchClear => 3
  | .switchFlag => 2
  | .done => 1

theorem usedLen_le {N : Nat} {s : State} (h : ∀ u, (s.lists u).length ≤ N) : usedLen s ≤ N := by
  unfold usedLen; split
  · exact h _
  · omega

/-- A step of the realtime loop inside a cycle ends the cycle or brings its end nearer. -/
theorem stepsLeft_lt {N R : Nat} {s : State} (h : Inv s) (i : RtIn) (hN : ∀ u, (s.lists u).length ≤ N) (hR : s.stopReq.length + s.startReq.length ≤ R) :
    (s.rtStep i).rt = .idle ∨ stepsLeft N R (s.rtStep i) + 1 ≤ stepsLeft N R s := by
  have hU := usedLen_le hN
  cases hrt : s.rt with
  | idle =>
    have he : s.rtStep i = { s with rt := .gotCurrent s.current } := by unfold State.rtStep; rw [hrt]
    right; rw [he]; unfold stepsLeft; rw [hrt]
  | gotCurrent r =>
    have he : s.rtStep i = { s with used := some r, rt := .pre } := by unfold State.rtStep; rw [hrt]
    right; rw [he]; unfold stepsLeft; rw [hrt]
  | pre =>
    right
    obtain ⟨u, hu, he⟩ := rtStep_pre h i hrt
    have hl := hN u
    unfold stepsLeft usedLen; rw [hrt, he]; simp only [hu]
    by_cases hre : (!i.halted && s.motorsPrev) = true
    · simp only [hre, if_true]; omega
    · simp only [hre, Bool.false_eq_true, if_false]; omega
  | restart k =>
    right
    obtain ⟨u, hu, he⟩ := rtStep_restart h i hrt
    have hl := hN u
    rcases he with ⟨hk, j, e, h1, h2, h3, ⟨hr, he⟩ | ⟨hr, he⟩⟩ | ⟨hk, he⟩ <;> unfold stepsLeft usedLen <;> rw [hrt, he] <;> simp only [hu]
    · omega
    · omega
    · omega
  | restartMid k id =>
    right
    rw [rtStep_restartMid h i hrt]; unfold stepsLeft usedLen; rw [hrt]
    dsimp only; omega
  | sweep k =>
    right
    obtain ⟨u, hu, he⟩ := rtStep_sweep h i hrt
    have hl := hN u
    rcases he with ⟨hk, j, e, h1, h2, h3, he⟩ | ⟨hk, he⟩ <;> unfold stepsLeft usedLen <;> rw [hrt, he] <;> simp only [hu]
    · omega
    · omega
  | publish =>
    right
    have hl := hN s.current
    have hr : stepsLeft N R s = N + R + 8 := by unfold stepsLeft; rw [hrt]
    rw [hr]
    unfold State.rtStep; rw [hrt]; simp only
    split
    · simp only [stepsLeft]; omega
    · simp only [stepsLeft]; omega
  | pubFill k msg =>
    right
    obtain ⟨hu, hn, he⟩ := rtStep_pubFill h i hrt
    rcases he with ⟨e, he1, he⟩ | ⟨hk, he⟩ <;> rw [he] <;> unfold stepsLeft <;> rw [hrt]
    · have := (List.getElem?_eq_some_iff.1 he1).1
      dsimp only; omega
    · dsimp only; omega
  | switchCheck =>
    right
    have hr : stepsLeft N R s = R + 6 := by unfold stepsLeft; rw [hrt]
    rw [hr]
    unfold State.rtStep; rw [hrt]; simp only
    split
    · simp only [stepsLeft]; omega
    · simp only [stepsLeft]; omega
  | switchStop k =>
    right
    rcases rtStep_switchStop h i hrt with ⟨id, hid, _, he⟩ | ⟨hk, he⟩ <;> rw [he] <;> unfold stepsLeft <;> rw [hrt]
    · have := (List.getElem?_eq_some_iff.1 hid).1
      dsimp only [State.setCtrl]; omega
    · dsimp only; omega
  | switchStart k =>
    right
    rcases rtStep_switchStart h i hrt with ⟨id, hid, _, he⟩ | ⟨hk, he⟩ <;> rw [he] <;> unfold stepsLeft <;> rw [hrt]
    · have := (List.getElem?_eq_some_iff.1 hid).1
      dsimp only [State.setCtrl]; omega
    · dsimp only; omega
  | switchClear => right; rw [rtStep_switchClear h i hrt]; unfold stepsLeft; rw [hrt]
  | switchFlag =>
    have he : s.rtStep i = { s with pleaseSwitch := false, rt := .done } := by unfold State.rtStep; rw [hrt]
    right; rw [he]; unfold stepsLeft; rw [hrt]
  | done =>
    have he : s.rtStep i = { s with rt := .idle, log := s.log ++ [.cycleEnd] } := by unfold State.rtStep; rw [hrt]
    left; rw [he]

theorem stepsLeft_keep {N R : Nat} {s s' : State} (h : Inv s) (hk : NrtKeeps s s') : stepsLeft N R s' = stepsLeft N R s := by
  have hlen : usedLen s' = usedLen s := by
    obtain ⟨u, hu⟩ := h.usedSome
    unfold usedLen; rw [hk.used, hu]; simp only [(hk.lists u hu).1]
  have hfl := hk.fills
  have hsw := hk.sw
  have hfu : s.rt.fills = true → s.used = some s.current := fun hf => (h.fillsUsed hf).1
  unfold stepsLeft
  rw [hk.rt]
  cases hrt : s.rt with
  | pubFill k msg =>
    rw [hrt] at hfl hfu
    simp only [hfl rfl, (hk.lists _ (hfu rfl)).1]
  | switchStop k => rw [hrt] at hsw; simp only [(hsw rfl).1, (hsw rfl).2]
  | switchStart k => rw [hrt] at hsw; simp only [(hsw rfl).2]
  | _ => simp only [hlen]

/-- A step that is not the realtime loop's. -/
theorem other_keeps {s : State} (h : Inv s) {a : Act} (ha : a ≠ .shutdown) (hr : a.isRt = false) : NrtKeeps s (s.step a) := by
  have hb := h.notbad
  unfold State.step
  rw [if_neg (by rw [hb]; simp)]
  cases a with
  | rt i => simp [Act.isRt] at hr
  | nrt => exact nrtKeeps h
  | call op => exact callKeeps _ op
  | shutdown => exact absurd rfl ha

theorem rt_step {s : State} (h : Inv s) (i : RtIn) : s.step (.rt i) = s.rtStep i := by
  have hb := h.notbad
  unfold State.step
  rw [if_neg (by rw [hb]; simp)]

theorem run_cons (s : State) (a : Act) (l : List Act) : s.run (a :: l) = (s.step a).run l := rfl
theorem run_append (s : State) (a b : List Act) : s.run (a ++ b) = (s.run a).run b := by simp [State.run]

theorem Small.tail {N R : Nat} {s : State} {a : Act} {l : List Act} (h : Small N R s (a :: l)) : Small N R (s.step a) l := by
  intro l' hl
  exact h (a :: l') ((List.prefix_cons_inj a).2 hl)

theorem Small.drop {N R : Nat} {s : State} {a l : List Act} (h : Small N R s (a ++ l)) : Small N R (s.run a) l := by
  intro l' hl
  rw [← run_append]
  exact h (a ++ l') ((List.prefix_append_right_inj a).2 hl)

/-- **C100.**  The realtime loop is wait-free: while at most `N` controllers are loaded and at most `R` are to be stopped or started, it ends its control cycle within
`4 N + R + 13` steps of its own, whatever the other threads do in between — also if they make no step at all, wherever they are and whatever they hold. -/
theorem C100_wait_free {m : Bool} {s : State} (h : Reachable m s) (N R : Nat) (acts : List Act) (ha : ∀ a ∈ acts, a ≠ .shutdown) (hs : Small N R s acts)
    (hc : 4 * N + R + 13 ≤ rtSteps acts) :
    ∃ l rest, acts = l ++ rest ∧ 1 ≤ rtSteps l ∧ rtSteps l ≤ 4 * N + R + 13 ∧ (s.run l).rt = .idle := by
  have key : ∀ (acts : List Act) (s : State), Reachable m s → (∀ a ∈ acts, a ≠ .shutdown) → Small N R s acts → stepsLeft N R s ≤ rtSteps acts →
      1 ≤ stepsLeft N R s →
      ∃ l rest, acts = l ++ rest ∧ 1 ≤ rtSteps l ∧ rtSteps l ≤ stepsLeft N R s ∧ (s.run l).rt = .idle := by
    intro acts
    induction acts with
    | nil => intro s _ _ _ hc h1; simp [rtSteps] at hc; omega
    | cons a acts ih =>
      intro s h ha hs hc h1
      have hn := Reachable.step h a (ha a (by simp))
      have hsm := hs [] (List.nil_prefix)
      by_cases hr : a.isRt = true
      · obtain ⟨i, rfl⟩ : ∃ i, a = .rt i := by cases a <;> simp [Act.isRt] at hr; exact ⟨_, rfl⟩
        rw [rtSteps_cons, if_pos hr] at hc
        rw [rt_step h.inv.1] at hn
        rcases stepsLeft_lt h.inv.1 i hsm.1 hsm.2 with hi | hlt
        · refine ⟨[.rt i], acts, rfl, le_refl 1, h1, ?_⟩
          rw [run_cons, rt_step h.inv.1]; exact hi
        · have hp : 1 ≤ stepsLeft N R (s.rtStep i) := by unfold stepsLeft; split <;> omega
          have hsm' := hs.tail
          rw [rt_step h.inv.1] at hsm'
          obtain ⟨l, rest, h2, h3, h4, h5⟩ := ih (s.rtStep i) hn (fun b hb => ha b (by simp [hb])) hsm' (by omega) hp
          refine ⟨.rt i :: l, rest, by rw [h2]; rfl, ?_, ?_, ?_⟩
          · rw [rtSteps_cons]; omega
          · rw [rtSteps_cons, if_pos hr]; omega
          · rw [run_cons, rt_step h.inv.1]; exact h5
      · have hr : a.isRt = false := by simpa using hr
        have hk := other_keeps h.inv.1 (ha a (by simp)) hr
        have he : stepsLeft N R (s.step a) = stepsLeft N R s := stepsLeft_keep h.inv.1 hk
        rw [rtSteps_cons, hr] at hc
        obtain ⟨l, rest, h2, h3, h4, h5⟩ := ih (s.step a) hn (fun b hb => ha b (by simp [hb])) hs.tail (by simpa [he] using hc) (by omega)
        refine ⟨a :: l, rest, by rw [h2]; rfl, ?_, ?_, h5⟩
        · rw [rtSteps_cons]; omega
        · rw [rtSteps_cons, hr]; simpa [he] using h4
  have hle : stepsLeft N R s ≤ 4 * N + R + 13 := by
    have hsm := hs [] (List.nil_prefix)
    have h1 : ∀ u, (s.lists u).length ≤ N := hsm.1
    have h2 : s.stopReq.length + s.startReq.length ≤ R := hsm.2
    have hU := usedLen_le h1
    have hC := h1 s.current
    unfold stepsLeft; split <;> omega
  have hp : 1 ≤ stepsLeft N R s := by unfold stepsLeft; split <;> omega
  obtain ⟨l, rest, h1, h2, h3, h4⟩ := key acts s h ha hs (by omega) hp
  exact ⟨l, rest, h1, h2, by omega, h4⟩

/-- A part of an execution that begins outside `done` and ends a cycle passes through `done`, where no switch is pending. -/
theorem through_done {m : Bool} : ∀ (l : List Act) (s : State), Reachable m s → (∀ a ∈ l, a ≠ .shutdown) → s.rt ≠ .done → 1 ≤ rtSteps l →
    (s.run l).rt = .idle → ∃ l' rest, l = l' ++ rest ∧ (s.run l').pleaseSwitch = false := by
  intro l
  have key : ∀ (l : List Act) (s : State), Reachable m s → (∀ a ∈ l, a ≠ .shutdown) → s.rt ≠ .done → s.rt ≠ .idle →
      (s.run l).rt = .idle → ∃ l' rest, l = l' ++ rest ∧ (s.run l').pleaseSwitch = false := by
    intro l
    induction l with
    | nil => intro s _ _ _ hi he; exact absurd he hi
    | cons a l ih =>
      intro s h ha hd hi he
      have hn := Reachable.step h a (ha a (by simp))
      by_cases hr : a.isRt = true
      · obtain ⟨i, rfl⟩ : ∃ i, a = .rt i := by cases a <;> simp [Act.isRt] at hr; exact ⟨_, rfl⟩
        rw [run_cons] at he
        rw [rt_step h.inv.1] at hn he
        obtain ⟨-, -, -, h1, h2, -⟩ := rtStep_nrtSide h.inv.1 i
        by_cases hdn : (s.rtStep i).rt = .done
        · exact ⟨[.rt i], l, rfl, by rw [run_cons, rt_step h.inv.1]; exact h2 hdn⟩
        · obtain ⟨l', rest, h3, h4⟩ := ih (s.rtStep i) hn (fun b hb => ha b (by simp [hb])) hdn (fun hx => hd (h1 hx)) he
          exact ⟨.rt i :: l', rest, by rw [h3]; rfl, by rw [run_cons, rt_step h.inv.1]; exact h4⟩
      · have hr : a.isRt = false := by simpa using hr
        have hk := other_keeps h.inv.1 (ha a (by simp)) hr
        obtain ⟨l', rest, h3, h4⟩ := ih (s.step a) hn (fun b hb => ha b (by simp [hb])) (by rw [hk.rt]; exact hd) (by rw [hk.rt]; exact hi) he
        exact ⟨a :: l', rest, by rw [h3]; rfl, h4⟩
  induction l with
  | nil => intro s _ _ _ h1; simp [rtSteps] at h1
  | cons a l ih =>
    intro s h ha hd h1 he
    by_cases hi : s.rt = .idle
    · have hn := Reachable.step h a (ha a (by simp))
      by_cases hr : a.isRt = true
      · obtain ⟨i, rfl⟩ : ∃ i, a = .rt i := by cases a <;> simp [Act.isRt] at hr; exact ⟨_, rfl⟩
        rw [run_cons] at he
        rw [rt_step h.inv.1] at hn he
        have hst : (s.rtStep i).rt = .gotCurrent s.current := by unfold State.rtStep; rw [hi]
        obtain ⟨l', rest, h3, h4⟩ := key l (s.rtStep i) hn (fun b hb => ha b (by simp [hb])) (by rw [hst]; simp) (by rw [hst]; simp) he
        exact ⟨.rt i :: l', rest, by rw [h3]; rfl, by rw [run_cons, rt_step h.inv.1]; exact h4⟩
      · have hr : a.isRt = false := by simpa using hr
        have hk := other_keeps h.inv.1 (ha a (by simp)) hr
        rw [rtSteps_cons, hr] at h1
        obtain ⟨l', rest, h3, h4⟩ := ih (s.step a) hn (fun b hb => ha b (by simp [hb])) (by rw [hk.rt]; exact hd) (by simpa using h1) he
        exact ⟨a :: l', rest, by rw [h3]; rfl, h4⟩
    · exact key (a :: l) s h ha hd hi he

/-- **C100, switches.**  A switch that is requested is executed within `2 (4 N + R + 13)` steps of the realtime loop (two control cycles): by then its wait is over. -/
theorem C100_switch_soon {m : Bool} {s : State} (h : Reachable m s) (N R : Nat) (acts : List Act) (ha : ∀ a ∈ acts, a ≠ .shutdown) (hs : Small N R s acts)
    (hc : 2 * (4 * N + R + 13) ≤ rtSteps acts) : ∃ l rest, acts = l ++ rest ∧ (s.run l).pleaseSwitch = false := by
  obtain ⟨l1, r1, rfl, -, h2, h3⟩ := C100_wait_free h N R acts ha hs (by omega)
  have hr1 : Reachable m (s.run l1) := h.run l1 (fun a hx => ha a (by simp [hx]))
  rw [rtSteps_append] at hc
  obtain ⟨l2, r2, rfl, h4, -, h5⟩ := C100_wait_free hr1 N R r1 (fun a hx => ha a (by simp [hx])) hs.drop (by omega)
  obtain ⟨l', rest, rfl, h6⟩ := through_done l2 (s.run l1) hr1 (fun a hx => ha a (by simp at hx ⊢; tauto)) (by rw [h3]; simp) h4 h5
  exact ⟨l1 ++ l', rest ++ r2, by simp, by rw [run_append]; exact h6⟩

/-- **C100, switches, the caller.**  Once the switch has been executed the waiting `switch_controller` call returns true with its next step. -/
theorem C100_switch_returns {m : Bool} {s : State} (h : Reachable m s) {op : Op} (hn : s.nrt = .waitSwitch op) (hp : s.pleaseSwitch = false) :
    (s.step .nrt).nrt = .idle ∧ (s.step .nrt).nlog = s.nlog ++ [⟨op, .flag true, s.snap, s.view, s.raced⟩] := by
  have hb := h.inv.1.notbad
  unfold State.step; rw [if_neg (by rw [hb]; simp)]
  unfold State.nrtStep; rw [hn]; simp only [hp, Bool.and_false, Bool.false_eq_true, if_false]
  exact ⟨rfl, rfl⟩

/-- **C100, load and unload.**  Their wait for the realtime loop to leave the old list is over after `4 N + R + 15` steps of the realtime loop (the end of the
current cycle and the beginning of the next). -/
theorem C100_load_soon {m : Bool} {s : State} (h : Reachable m s) {op : Op} {f : Bool} (hn : s.nrt = .wait2 op f) (N R : Nat) (acts : List Act)
    (ha : ∀ a ∈ acts, a.isRt = true) (hs : Small N R s acts) (hc : 4 * N + R + 15 ≤ acts.length) :
    ((s.run acts).step .nrt).nrt = .clear op f := by
  have hall : ∀ (l : List Act), (∀ a ∈ l, a.isRt = true) → rtSteps l = l.length := by
    intro l hl; unfold rtSteps; rw [List.filter_eq_self.2 hl]
  have hns : ∀ a ∈ acts, a ≠ .shutdown := by
    intro a hx hy; have := ha a hx; rw [hy] at this; simp [Act.isRt] at this
  obtain ⟨l1, r1, rfl, -, h2, h3⟩ := C100_wait_free h N R acts hns hs (by rw [hall _ ha]; omega)
  rw [hall l1 (fun a hx => ha a (by simp [hx]))] at h2
  have hf : f = !s.current := (h.inv.1.former f (by rw [hn]; rfl)).1
  -- steps of the realtime loop alone
  have rtOnly : ∀ (l : List Act) (t : State), Reachable m t → (∀ a ∈ l, a.isRt = true) →
      (t.run l).nrt = t.nrt ∧ (t.run l).current = t.current ∧ Reachable m (t.run l) := by
    intro l
    induction l with
    | nil => intro t ht _; exact ⟨rfl, rfl, ht⟩
    | cons a l ih =>
      intro t ht hl
      obtain ⟨i, rfl⟩ : ∃ i, a = .rt i := by
        have := hl a (by simp); cases a <;> simp [Act.isRt] at this; exact ⟨_, rfl⟩
      have hn := Reachable.step ht (.rt i) (by simp)
      rw [rt_step ht.inv.1] at hn
      obtain ⟨h1, -, h3, -, -, -⟩ := rtStep_nrtSide ht.inv.1 i
      rw [run_cons, rt_step ht.inv.1]
      obtain ⟨h4, h5, h6⟩ := ih _ hn (fun b hb => hl b (by simp [hb]))
      exact ⟨h4.trans h1, h5.trans h3, h6⟩
  have usedNow : ∀ (l : List Act) (t : State), Reachable m t → (∀ a ∈ l, a.isRt = true) →
      (t.used = some t.current ∧ (∀ r, t.rt = .gotCurrent r → r = t.current) → (t.run l).used = some (t.run l).current) := by
    intro l
    induction l with
    | nil => intro t _ _ hu; exact hu.1
    | cons a l ih =>
      intro t ht hl hu
      obtain ⟨i, rfl⟩ : ∃ i, a = .rt i := by
        have := hl a (by simp); cases a <;> simp [Act.isRt] at this; exact ⟨_, rfl⟩
      have hn := Reachable.step ht (.rt i) (by simp)
      rw [rt_step ht.inv.1] at hn
      obtain ⟨-, -, h3, -, -, h6⟩ := rtStep_nrtSide ht.inv.1 i
      rw [run_cons, rt_step ht.inv.1]
      refine ih _ hn (fun b hb => hl b (by simp [hb])) ⟨?_, ?_⟩
      · rcases h6 with h6 | ⟨r, h7, h8⟩
        · rw [h6, h3]; exact hu.1
        · rw [h8, h3, hu.2 r h7]
      · intro r hr; rw [h3]; exact rtStep_got ht.inv.1 i r hr
  obtain ⟨h4, h5, h6⟩ := rtOnly l1 s h (fun a hx => ha a (by simp [hx]))
  -- the first two steps of the next cycle
  obtain ⟨a, b, r2, rfl⟩ : ∃ a b r2, r1 = a :: b :: r2 := by
    match r1, hc, h2 with
    | [], hc, h2 => simp at hc; omega
    | [a], hc, h2 => simp at hc; omega
    | a :: b :: r2, _, _ => exact ⟨a, b, r2, rfl⟩
  obtain ⟨i, rfl⟩ : ∃ i, a = .rt i := by
    have := ha a (by simp); cases a <;> simp [Act.isRt] at this; exact ⟨_, rfl⟩
  obtain ⟨j, rfl⟩ : ∃ i, b = .rt i := by
    have := ha b (by simp); cases b <;> simp [Act.isRt] at this; exact ⟨_, rfl⟩
  have e1 : (s.run l1).rtStep i = { s.run l1 with rt := .gotCurrent (s.run l1).current } := by unfold State.rtStep; rw [h3]
  have hn1 := Reachable.step h6 (.rt i) (by simp)
  rw [rt_step h6.inv.1] at hn1
  have e2 : ((s.run l1).rtStep i).rtStep j = { s.run l1 with used := some (s.run l1).current, rt := .pre } := by rw [e1]; unfold State.rtStep; rfl
  have hn2 := Reachable.step hn1 (.rt j) (by simp)
  rw [rt_step hn1.inv.1] at hn2
  have hrun : s.run (l1 ++ .rt i :: .rt j :: r2) = (((s.run l1).rtStep i).rtStep j).run r2 := by
    rw [run_append, run_cons, run_cons, rt_step h6.inv.1, rt_step hn1.inv.1]
  have hr2 : ∀ a ∈ r2, a.isRt = true := fun a hx => ha a (by simp [hx])
  obtain ⟨h7, h8, h9⟩ := rtOnly r2 _ hn2 hr2
  have hu := usedNow r2 _ hn2 hr2 ⟨by rw [e2], by rw [e2]; simp⟩
  rw [hrun]
  have hcur : ((((s.run l1).rtStep i).rtStep j).run r2).current = s.current := by rw [h8, e2]; exact h5
  have hnrt : ((((s.run l1).rtStep i).rtStep j).run r2).nrt = .wait2 op f := by rw [h7, e2]; exact h4.trans hn
  have hb := h9.inv.1.notbad
  unfold State.step; rw [if_neg (by rw [hb]; simp)]
  unfold State.nrtStep; rw [hnrt]; simp only
  rw [hu, hcur, hf]
  rw [if_neg (by cases s.current <;> simp)]

/-! ### The bound is attained -/

/-- One running controller, motors just enabled again, a message to publish and the same controller to be stopped: `N = 1`, `R = 1`. -/
def busyStart : State :=
  ((State.init false).run (firstInputs.map Act.rt)).run
    ([.call (goodLoad "a" [])] ++ serve 7 ++ cycle 12 ++ serve 5 ++ [.call (.switch ["a"] [] STRICT)] ++ serve 4 ++ cycle 14 ++ serve 4 ++
      List.replicate 8 tickH ++ [.call (.switch [] ["a"] STRICT)] ++ serve 3)

/-- **C100, the bound is attained.**  A cycle of exactly `4 · 1 + 1 + 13` steps exists: it restarts and updates the controller, publishes and switches. -/
theorem C100_bound_attained : Reachable false busyStart ∧ busyStart.rt = .idle ∧ Small 1 1 busyStart (List.replicate 18 tickP) ∧
    (busyStart.run (List.replicate 18 tickP)).rt = .idle ∧ ∀ n, 1 ≤ n → n < 18 → (busyStart.run (List.replicate n tickP)).rt ≠ .idle := by
  refine ⟨?_, by decide +kernel, ?_, by decide +kernel, ?_⟩
  · refine reachable_first.run _ ?_
    intro a ha
    have : (([.call (goodLoad "a" [])] ++ serve 7 ++ cycle 12 ++ serve 5 ++ [.call (.switch ["a"] [] STRICT)] ++ serve 4 ++ cycle 14 ++ serve 4 ++
      List.replicate 8 tickH ++ [.call (.switch [] ["a"] STRICT)] ++ serve 3 : List Act).all
        (fun a => match a with | .shutdown => false | _ => true)) = true := by decide +kernel
    have := List.all_eq_true.1 this a ha
    rintro rfl; simp at this
  · intro l hl
    obtain ⟨n, hn, rfl⟩ : ∃ n ≤ 18, l = List.replicate n tickP := by
      obtain ⟨h1, h2⟩ := List.prefix_replicate_iff.1 hl
      exact ⟨l.length, h1, h2⟩
    have key : ∀ n ≤ 18, (∀ u, ((busyStart.run (List.replicate n tickP)).lists u).length ≤ 1) ∧
      (busyStart.run (List.replicate n tickP)).stopReq.length + (busyStart.run (List.replicate n tickP)).startReq.length ≤ 1 := by decide +kernel
    exact key n hn
  · have key : ∀ n < 18, 1 ≤ n → (busyStart.run (List.replicate n tickP)).rt ≠ .idle := by decide +kernel
    exact fun n h1 h2 => key n h2 h1

/-- `Small` for executions of the realtime loop alone, by evaluation. -/
theorem small_replicate (N R k : Nat) (s : State) (h : ∀ n ≤ k, (∀ u, ((s.run (List.replicate n tickP)).lists u).length ≤ N) ∧
    (s.run (List.replicate n tickP)).stopReq.length + (s.run (List.replicate n tickP)).startReq.length ≤ R) : Small N R s (List.replicate k tickP) := by
  intro l hl
  obtain ⟨h1, h2⟩ := List.prefix_replicate_iff.1 hl
  rw [h2]; exact h _ h1

/-- `C100_switch_soon`: a switch is pending, and the hypotheses are met. -/
example : busyStart.pleaseSwitch = true ∧ (busyStart.nrt matches .waitSwitch _) = true ∧ Small 1 1 busyStart (List.replicate 36 tickP) ∧
    2 * (4 * 1 + 1 + 13) ≤ rtSteps (List.replicate 36 tickP) :=
  ⟨by decide +kernel, by decide +kernel, small_replicate _ _ _ _ (by decide +kernel), by decide⟩

/-- `C100_load_soon`: a load is waiting for the realtime loop, which is in the middle of a cycle. -/
def waitingLoad : State := ((State.init false).run (firstInputs.map Act.rt)).run ([.call (goodLoad "a" [])] ++ serve 6)
example : (waitingLoad.nrt matches .wait2 _ _) = true ∧ waitingLoad.used = some false ∧ waitingLoad.current = true ∧
    Small 1 0 waitingLoad (List.replicate 19 tickP) ∧ 4 * 1 + 0 + 15 ≤ (List.replicate 19 tickP).length :=
  ⟨by decide +kernel, by decide +kernel, by decide +kernel, small_replicate _ _ _ _ (by decide +kernel), by decide⟩

end Pr2
