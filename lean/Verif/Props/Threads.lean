import Verif.Lemmas.ThreadsLive
import Mathlib.Data.Nat.Pairing

/-!
# C76-C78: any number of client threads

`SysReach m ndebug direct s`: `s` is reachable in normal operation with any number of client threads issuing service requests and, if `direct`, calling
`loadController`, `unloadController` and `switchController` of the same manager directly.
-/

namespace Pr2
set_option linter.unusedVariables false

theorem ReqHistory.ok {nd : Bool} {v v' : View} {l : List Done} (h : ReqHistory nd v l v') : ∀ d ∈ l, ReqOk nd d := by
  induction h with
  | nil => simp
  | snoc d h hpre hok ih =>
    intro e he
    rcases List.mem_append.1 he with he | he
    · exact ih e he
    · rw [List.mem_singleton] at he; rw [he]; exact hok

/-! ## C76: services -/

/-- **C76.** With any number of threads serving requests, the answered requests form a sequential history from the empty manager: each meets its contract
between the state its predecessor left and the state it leaves, and while no handler is active the manager is in the state the last one left. -/
theorem C76_sequential {m nd : Bool} {s : Sys} (h : SysReach m nd false s) :
    ∃ v, ReqHistory nd View.empty s.done v ∧ (s.srv = none → s.base.view = v) := by
  obtain ⟨v0, hs⟩ := h.serial
  refine ⟨v0, hs.hist, fun hn => ?_⟩
  have hc := ctl_free h.locks hs (fun u hu => by rw [hn] at hu; simp at hu)
  exact (hs.quiet hn).unique (h.locks.reach.histIdle (h.locks.idle hc))

/-- **C76, contracts.** Every answered request meets the contract of its kind, between the state of the manager when the handler took `services_lock_` and
the state when it released it. -/
theorem C76_contract {m nd : Bool} {s : Sys} (h : SysReach m nd false s) {d : Done} (hd : d ∈ s.done) : ReqOk nd d := by
  obtain ⟨v0, hs⟩ := h.serial
  exact hs.hist.ok d hd

/-- **C76, survival.** No mixture of service requests kills the process, except a forced reload of the libraries with controllers loaded in a build with
assertions. -/
theorem C76_survives {m nd : Bool} {s : Sys} (h : SysReach m nd false s) (hd : s.dead = true) :
    nd = false ∧ ∃ t p b pre raced, s.thr t = .run (.reload true) p b pre raced ∧ pre.ctrls ≠ [] := by
  obtain ⟨v0, hs⟩ := h.serial
  exact hs.dead hd

/-- **C76, exclusion.** At most one handler is active at a time. -/
theorem C76_exclusive {m nd d : Bool} {s : Sys} (h : SysReach m nd d s) {t u : Nat} {r r' : Req} {p p' : HProg} {b b' : Bool} {v v' : View} {x x' : Bool}
    (ht : s.thr t = .run r p b v x) (hu : s.thr u = .run r' p' b' v' x') : t = u := by
  have h1 := (h.locks.srv t).2 (by rw [ht]; rfl)
  have h2 := (h.locks.srv u).2 (by rw [hu]; rfl)
  rw [h1, Option.some.injEq] at h2
  exact h2

/-! ## C77: direct callers too -/

/-- **C77.** With service requests and direct calls from any number of threads, the completed load, unload and switch calls form a sequential history from
the empty manager, each meeting its contract; the realtime loop and the threads never touch a destroyed controller or a list being rebuilt, whatever the
schedule (`bad` would record it). -/
theorem C77_sequential {m nd d : Bool} {s : Sys} (h : SysReach m nd d s) :
    s.base.bad = false ∧ Reachable m s.base ∧ ∃ v, History View.empty s.base.nlog v ∧ (s.ctl = none → s.base.view = v) := by
  have hl := h.locks
  refine ⟨hl.reach.inv.1.notbad, hl.reach, ?_⟩
  by_cases hc : s.ctl = none
  · exact ⟨_, hl.reach.histIdle (hl.idle hc), fun _ => rfl⟩
  · have := hl.reach.inv.2.hist
    split at this <;> exact ⟨_, this, fun h => absurd h hc⟩

/-- **C77, exclusion.** At most one thread is inside `loadController`, `unloadController` or `switchController`. -/
theorem C77_exclusive {m nd d : Bool} {s : Sys} (h : SysReach m nd d s) {t u : Nat} (ht : (s.thr t).inOp ≠ none) (hu : (s.thr u).inOp ≠ none) : t = u := by
  have h1 := (h.locks.ctl t).2 ht
  have h2 := (h.locks.ctl u).2 hu
  rw [h1, Option.some.injEq] at h2
  exact h2

/-- **C77, no deadlock, no starvation.** In every fair execution every request and every direct call of every thread finishes: the two mutexes and the
waits for the realtime loop never block each other. -/
theorem C77_finishes {m nd d : Bool} {σ : Nat → Sys} {act : Nat → SAct} (F : FairSys m nd d σ act) (t n : Nat) : ∃ k ≥ n, (σ k).thr t = .idle :=
  F.finish t n

/-- **C77, realtime side.** However many threads issue requests, every control cycle ends. -/
theorem C77_cycles {m nd d : Bool} {σ : Nat → Sys} {act : Nat → SAct} (F : FairSys m nd d σ act) (n : Nat) : ∃ k ≥ n, (σ k).base.rt = .idle :=
  C24_cycles_end F.baseFair n

/-- the thread is handling request `r` -/
def Thr.handles (x : Thr) (r : Req) : Prop := x = .wait r ∨ ∃ p b pre raced, x = .run r p b pre raced

theorem done_grows {nd : Bool} {s : Sys} (a : SAct) : ∃ l, (s.step nd a).done = s.done ++ l := by
  unfold Sys.step
  split
  · exact ⟨[], by simp⟩
  · cases a with
    | rt i => exact ⟨[], by simp⟩
    | request u r => simp only; split <;> exact ⟨[], by simp [Sys.setThr]⟩
    | direct u op => simp only; split <;> exact ⟨[], by simp [Sys.setThr]⟩
    | go u =>
      have hin : ∀ next, (s.inside u next).done = s.done := by
        intro next; unfold Sys.inside; simp only; split <;> rfl
      simp only
      unfold Sys.go
      split <;> first
        | (split <;> exact ⟨[], (List.append_nil _).symm⟩)
        | exact ⟨[], (List.append_nil _).symm⟩
        | exact ⟨[], (hin _).trans (List.append_nil _).symm⟩
        | exact ⟨_, rfl⟩

theorem done_step {nd : Bool} {s : Sys} {t : Nat} {r : Req} (a : SAct) (h : (s.thr t).handles r) :
    ∃ l, (s.step nd a).done = s.done ++ l ∧ (((s.step nd a).thr t).handles r ∨ ∃ d ∈ l, d.thread = t ∧ d.req = r) := by
  have hni : s.thr t ≠ .idle := by rcases h with h | ⟨p, b, pre, raced, h⟩ <;> rw [h] <;> simp
  by_cases ha : a = .go t
  · subst ha
    unfold Sys.step
    split
    · exact ⟨[], by simp, Or.inl h⟩
    · simp only
      have hin : ∀ next, (s.inside t next).done = s.done := by
        intro next; unfold Sys.inside; simp only; split <;> rfl
      have hin2 : ∀ next : CallRec → Thr, (∀ c, (next c).handles r) → ((s.inside t next).thr t).handles r := by
        intro next hn; unfold Sys.inside; simp only; split
        · rw [setThr_self]; exact hn _
        · exact h
      unfold Sys.go
      rcases h with h | ⟨p, b, pre, raced, h⟩
      · rw [h]; simp only
        split
        · exact ⟨[], by simp [Sys.setThr], Or.inl (by rw [setThr_self]; exact Or.inr ⟨_, _, _, _, rfl⟩)⟩
        · exact ⟨[], by simp, Or.inl (by rw [h]; exact Or.inl rfl)⟩
      · have hh : (s.thr t).handles r := Or.inr ⟨p, b, pre, raced, h⟩
        rw [h]
        cases b with
        | true =>
          cases p <;> simp only
          case call op k =>
            refine ⟨[], by rw [hin]; simp, Or.inl (hin2 _ (fun c => Or.inr ⟨_, _, _, _, rfl⟩))⟩
          all_goals exact ⟨[], by simp, Or.inl hh⟩
        | false =>
          cases p <;> simp only
          case ret a => exact ⟨_, rfl, Or.inr ⟨_, List.mem_singleton.2 rfl, rfl, rfl⟩⟩
          case abort => exact ⟨[], by simp, Or.inl hh⟩
          case byName => exact ⟨[], by simp [Sys.setThr], Or.inl (by rw [setThr_self]; exact Or.inr ⟨_, _, _, _, rfl⟩)⟩
          all_goals
            split
            · exact ⟨[], by simp [Sys.setThr], Or.inl (by rw [setThr_self]; exact Or.inr ⟨_, _, _, _, rfl⟩)⟩
            · exact ⟨[], by simp, Or.inl hh⟩
  · obtain ⟨l, hl⟩ := done_grows (nd := nd) (s := s) a
    refine ⟨l, hl, Or.inl ?_⟩
    rw [thr_frame hni ha]; exact h

/-- **C77, answers.** In every fair execution every request a thread is handling is answered later. -/
theorem C77_answers {m nd d : Bool} {σ : Nat → Sys} {act : Nat → SAct} (F : FairSys m nd d σ act) (t n : Nat) (r : Req)
    (h : (σ n).thr t = .wait r) : ∃ k ≥ n, ∃ l, (σ k).done = (σ n).done ++ l ∧ ∃ d ∈ l, d.thread = t ∧ d.req = r := by
  obtain ⟨k, hk, hi⟩ := F.finish t n
  refine ⟨k, hk, ?_⟩
  have key : ∀ k ≥ n, ∃ l, (σ k).done = (σ n).done ++ l ∧ (((σ k).thr t).handles r ∨ ∃ d ∈ l, d.thread = t ∧ d.req = r) := by
    intro k hk
    induction k, hk using Nat.le_induction with
    | base => exact ⟨[], by simp, Or.inl (Or.inl h)⟩
    | succ k hk ih =>
      obtain ⟨l, hl, hh | ⟨d, hd, hd'⟩⟩ := ih
      · obtain ⟨l2, hl2, hh2⟩ := done_step (nd := nd) (act k) hh
        rw [← F.step] at hl2 hh2
        refine ⟨l ++ l2, by rw [hl2, hl, List.append_assoc], ?_⟩
        rcases hh2 with hh2 | ⟨d, hd, hd'⟩
        · exact Or.inl hh2
        · exact Or.inr ⟨d, List.mem_append.2 (Or.inr hd), hd'⟩
      · obtain ⟨l2, hl2⟩ := done_grows (nd := nd) (s := σ k) (act k)
        rw [← F.step] at hl2
        exact ⟨l ++ l2, by rw [hl2, hl, List.append_assoc], Or.inr ⟨d, List.mem_append.2 (Or.inl hd), hd'⟩⟩
  obtain ⟨l, hl, hh | hh⟩ := key k hk
  · rw [hi] at hh
    rcases hh with hh | ⟨p, b, pre, raced, hh⟩ <;> simp at hh
  · exact ⟨l, hl, hh⟩

/-! ## Concrete executions -/

def stick : SAct := .rt ⟨false, false, false⟩
def sticks (n : Nat) : List SAct := List.replicate n stick
def gos (t n : Nat) : List SAct := List.replicate n (.go t)
def sysFirst : Sys := Sys.start ((State.init false).run (firstInputs.map Act.rt))
def goodReq (name : String) : Req := .load ⟨name, true, some "T", goodLoader, ⟨[], [], [], fun bs => some (bs.all id)⟩⟩
def goodOp (name : String) : Op := .load ⟨name, true, some "T", goodLoader, ⟨[], [], [], fun bs => some (bs.all id)⟩⟩

theorem SysReach.run {m nd d : Bool} {s : Sys} (h : SysReach m nd d s) (acts : List SAct) (ha : d = false → ∀ a ∈ acts, ∀ t op, a ≠ .direct t op) :
    SysReach m nd d (s.run nd acts) := by
  induction acts using List.reverseRecOn with
  | nil => exact h
  | append_singleton l a ih =>
    have : s.run nd (l ++ [a]) = (s.run nd l).step nd a := by simp [Sys.run, List.foldl_append]
    rw [this]
    exact SysReach.step (ih (fun hd b hb => ha hd b (by simp [hb]))) a (fun hd => ha hd a (by simp))

theorem sysFirst_reach (nd d : Bool) : SysReach false nd d sysFirst := by
  refine SysReach.start reachable_first ?_ rfl
  have h : (((State.init false).run (firstInputs.map Act.rt)).nrt matches .idle) = true := by decide +kernel
  revert h
  cases ((State.init false).run (firstInputs.map Act.rt)).nrt <;> simp

/-- Threads 0 and 1 load `a` and `b` at the same time, thread 2 lists, thread 3 reloads; all are waiting for `services_lock_` at once. -/
def crowd : List SAct :=
  [.request 0 (goodReq "a"), .request 1 (goodReq "b"), .request 2 .list, .request 3 (.reload false)] ++ gos 1 2 ++ gos 0 2 ++ gos 2 2 ++
  (gos 1 9 ++ sticks 14 ++ gos 1 7 ++ gos 3 3 ++ gos 0 9 ++ gos 2 1 ++ sticks 14 ++ gos 0 7 ++ gos 2 9 ++ gos 3 9)

example : SysReach false false false (sysFirst.run false crowd) := by
  refine (sysFirst_reach false false).run _ ?_
  intro _ a ha
  have : (crowd.all (fun a => match a with | .direct _ _ => false | _ => true)) = true := by decide +kernel
  have := List.all_eq_true.1 this a ha
  rintro t op rfl; simp at this

example : (sysFirst.run false crowd).done.map (fun d => (d.thread, d.ans, d.post.names)) =
    [(1, .flag true, ["b"]), (3, .flag false, ["b"]), (0, .flag true, ["b", "a"]), (2, .listing [("a", false), ("b", false)], ["b", "a"])] := by
  decide +kernel

/-- A forced reload with a controller loaded kills the process (with assertions). -/
def reloadForced : List SAct := [.request 0 (goodReq "a")] ++ gos 0 11 ++ sticks 14 ++ gos 0 7 ++ [.request 0 (.reload true)] ++ gos 0 12 ++ sticks 20 ++
  gos 0 20 ++ sticks 20 ++ gos 0 20

example : (sysFirst.run false reloadForced).dead = true := by decide +kernel
example : (sysFirst.run true reloadForced).dead = false ∧ (sysFirst.run true reloadForced).done.map (fun d => (d.ans, d.post.names)) =
    [(.flag true, ["a"]), (.flag true, [])] := by decide +kernel

/-! A fair execution: `crowd`, and then every thread and the realtime loop take steps for ever. -/

theorem idle_go {nd : Bool} {s : Sys} (h : ∀ t, s.thr t = .idle) (hd : s.dead = false) (t : Nat) : s.step nd (.go t) = s := by
  unfold Sys.step; rw [if_neg (by rw [hd]; simp)]; simp only
  unfold Sys.go; rw [h t]

theorem idle_others {nd : Bool} {s : Sys} {t : Nat} {a : SAct} (h : s.thr t = .idle) (h1 : ∀ r, a ≠ .request t r) (h2 : ∀ op, a ≠ .direct t op) :
    (s.step nd a).thr t = .idle := by
  by_cases hg : a = .go t
  · subst hg
    unfold Sys.step; split
    · exact h
    · simp only; unfold Sys.go; rw [h]; exact h
  · unfold Sys.step
    split
    · exact h
    · cases a with
      | rt i => exact h
      | request u r =>
        have hut : t ≠ u := fun e => h1 r (by rw [e])
        simp only; split
        · rw [setThr_thr, if_neg hut]; exact h
        · exact h
      | direct u op =>
        have hut : t ≠ u := fun e => h2 op (by rw [e])
        simp only; split
        · exact h
        · rw [setThr_thr, if_neg hut]; exact h
        · exact h
      | go u =>
        have hut : t ≠ u := fun e => hg (by rw [e])
        have hs : ∀ (x : Sys) (y : Thr), (x.setThr u y).thr t = x.thr t := by
          intro x y; rw [setThr_thr, if_neg hut]
        have hin : ∀ next, (s.inside u next).thr t = s.thr t := by
          intro next
          unfold Sys.inside
          simp only
          split
          · rw [hs]
          · rfl
        simp only
        rw [← h]
        unfold Sys.go
        split <;> first | rfl | (rw [hs]) | (exact hin _) | (split <;> first | rfl | (rw [hs]))

def busyAct (n : Nat) : SAct := if h : n < crowd.length then crowd[n] else if n % 2 = 0 then stick else .go (n / 2).unpair.1
def busyRun : Nat → Sys
  | 0 => sysFirst
  | n+1 => (busyRun n).step false (busyAct n)

theorem crowd_length : crowd.length = 92 := by decide +kernel

theorem busyRun_crowd : busyRun 92 = sysFirst.run false crowd := by
  have h : ∀ n, n ≤ crowd.length → busyRun n = sysFirst.run false (crowd.take n) := by
    intro n hn
    induction n with
    | zero => rfl
    | succ n ih =>
      rw [List.take_succ_eq_append_getElem (by omega)]
      unfold busyRun
      rw [ih (by omega)]
      unfold busyAct
      rw [dif_pos (by omega)]
      unfold Sys.run
      rw [List.foldl_append]; rfl
  rw [← crowd_length, h _ (le_refl _), List.take_length]

theorem crowd_quiet : (∀ t, (sysFirst.run false crowd).thr t = .idle) ∧ (sysFirst.run false crowd).dead = false := by
  have h : ((sysFirst.run false crowd).dead = false ∧ ((sysFirst.run false crowd).thr 0 matches .idle) = true ∧
    ((sysFirst.run false crowd).thr 1 matches .idle) = true ∧ ((sysFirst.run false crowd).thr 2 matches .idle) = true ∧
    ((sysFirst.run false crowd).thr 3 matches .idle) = true) := by decide +kernel
  have key : ∀ x : Thr, (x matches .idle) = true → x = .idle := by intro x; cases x <;> simp
  refine ⟨fun t => ?_, h.1⟩
  by_cases ht : t < 4
  · have : t = 0 ∨ t = 1 ∨ t = 2 ∨ t = 3 := by omega
    rcases this with rfl | rfl | rfl | rfl
    · exact key _ h.2.1
    · exact key _ h.2.2.1
    · exact key _ h.2.2.2.1
    · exact key _ h.2.2.2.2
  · have hc : (crowd.all (fun a => match a with | .direct _ _ => false | .request u _ => decide (u < 4) | _ => true)) = true := by decide +kernel
    have hc := List.all_eq_true.1 hc
    have gen : ∀ l : List SAct, (∀ a ∈ l, a ∈ crowd) → (sysFirst.run false l).thr t = .idle := by
      intro l
      induction l using List.reverseRecOn with
      | nil => intro _; rfl
      | append_singleton l a ih =>
        intro hl
        have : sysFirst.run false (l ++ [a]) = (sysFirst.run false l).step false a := by simp [Sys.run, List.foldl_append]
        rw [this]
        have ha := hc a (hl a (by simp))
        refine idle_others (ih (fun b hb => hl b (by simp [hb]))) ?_ ?_
        · rintro r rfl
          simp only [decide_eq_true_eq] at ha
          exact ht ha
        · rintro op rfl
          simp at ha
    exact gen crowd (fun a h => h)

theorem busyRun_quiet (d : Nat) : (∀ t, (busyRun (92 + d)).thr t = .idle) ∧ (busyRun (92 + d)).dead = false := by
  induction d with
  | zero => rw [Nat.add_zero, busyRun_crowd]; exact crowd_quiet
  | succ d ih =>
    have he : busyRun (92 + (d+1)) = (busyRun (92 + d)).step false (busyAct (92 + d)) := rfl
    rw [he]
    unfold busyAct
    rw [dif_neg (by rw [crowd_length]; omega)]
    split
    · unfold stick Sys.step
      rw [if_neg (by rw [ih.2]; simp)]
      exact ih
    · rw [idle_go ih.1 ih.2]; exact ih

theorem dead_mono {nd : Bool} {s : Sys} (a : SAct) (h : s.dead = true) : (s.step nd a).dead = true := by
  unfold Sys.step; rw [if_pos h]; exact h

theorem busyRun_alive (n : Nat) : (busyRun n).dead = false := by
  cases hd : (busyRun n).dead with
  | false => rfl
  | true =>
    have : ∀ k, (busyRun (n + k)).dead = true := by
      intro k
      induction k with
      | zero => exact hd
      | succ k ih => exact dead_mono _ ih
    have := this 92
    rw [Nat.add_comm, (busyRun_quiet n).2] at this
    simp at this

theorem busyRun_fair : FairSys false false false busyRun busyAct where
  reach := sysFirst_reach _ _
  step := fun n => rfl
  who := by
    intro _ n t op
    unfold busyAct
    split
    · rename_i hn
      have : (crowd.all (fun a => match a with | .direct _ _ => false | _ => true)) = true := by decide +kernel
      have := List.all_eq_true.1 this _ (List.getElem_mem hn)
      intro he
      rw [he] at this; simp at this
    · split <;> simp [stick]
  alive := busyRun_alive
  rt := by
    intro n
    refine ⟨2 * n + 92, by omega, ⟨false, false, false⟩, ?_⟩
    unfold busyAct
    rw [dif_neg (by rw [crowd_length]; omega), if_pos (by omega)]; rfl
  go := by
    intro t n
    have hp := Nat.right_le_pair t (n + 92)
    refine ⟨2 * Nat.pair t (n + 92) + 1, by omega, ?_⟩
    unfold busyAct
    rw [dif_neg (by rw [crowd_length]; omega), if_neg (by omega)]
    rw [show (2 * Nat.pair t (n + 92) + 1) / 2 = Nat.pair t (n + 92) by omega, Nat.unpair_pair]
  srvLock := by
    intro t n h _
    have := h (92 + n) (by omega)
    rw [(busyRun_quiet n).1 t] at this; simp [Thr.wantsSrv] at this
  ctlLock := by
    intro t n h _
    have := h (92 + n) (by omega)
    rw [(busyRun_quiet n).1 t] at this; simp [Thr.wantsCtl] at this
  pubLock := by
    intro t n h
    have h1 := (h (92 + n) (by omega)).1
    have h2 := ((sysFirst_reach false false).locks)
    have hr : ∀ k, SysReach false false true (busyRun k) := by
      intro k
      induction k with
      | zero => exact sysFirst_reach _ _
      | succ k ih => exact ih.step _ (by simp)
    have := ((hr (92 + n)).locks.ctl t).1 h1
    rw [(busyRun_quiet n).1 t] at this; simp [Thr.inOp] at this

/-! ## C78: list_controllers against direct callers -/

/-- Thread 0 lists the controllers; between taking the names and looking the controller up (which is done without `controllers_lock_`), thread 1 unloads
it. -/
def listUnload : List SAct :=
  [.direct 1 (goodOp "a")] ++ gos 1 8 ++ sticks 14 ++ gos 1 7 ++ [.request 0 .list] ++ gos 0 3 ++
  [.direct 1 (.unload "a")] ++ gos 1 8 ++ sticks 14 ++ gos 1 7 ++ gos 0 1

/-- **C78 (a defect).** `list_controllers` is not safe against another thread of the process unloading a controller directly: the process can die. -/
theorem C78_list_counterexample : ∃ s, SysReach false false true s ∧ s.dead = false ∧ s.base.view.names = [] ∧
    (∃ p b v x, s.thr 0 = .run .list p b v x ∧ v.names = ["a"]) ∧ (s.step false (.go 0)).dead = true := by
  refine ⟨sysFirst.run false listUnload, (sysFirst_reach false true).run _ (by simp), ?_⟩
  have h : ((sysFirst.run false listUnload).dead = false ∧ (sysFirst.run false listUnload).base.view.names = [] ∧
    ((sysFirst.run false listUnload).step false (.go 0)).dead = true) ∧ (match (sysFirst.run false listUnload).thr 0 with
      | .run .list _ _ v _ => v.names == ["a"] | _ => false) = true := by decide +kernel
  generalize sysFirst.run false listUnload = s at h
  refine ⟨h.1.1, h.1.2.1, ?_, h.1.2.2⟩
  have h2 := h.2
  revert h2
  cases s.thr 0 with
  | run r p b v x => cases r <;> simp +contextual
  | _ => simp

end Pr2
