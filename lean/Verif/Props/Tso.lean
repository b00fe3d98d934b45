import Verif.Model.Tso
import Mathlib.Tactic.Common

/-!
# C79, C80: the hand-over protocol is correct with store buffers (x86-TSO)
-/

namespace Pr2.Tso

/-! ## Invariants -/

theorem through_append (l l' : List Wr) (m : Mem) : through (l ++ l') m = through l' (through l m) := List.foldl_append
@[simp] theorem through_nil (m : Mem) : through [] m = m := rfl
@[simp] theorem through_cons (w : Wr) (l : List Wr) (m : Mem) : through (w :: l) m = through l (w.apply m) := rfl

theorem through_proj {α : Type} (f : Mem → α) : ∀ (l : List Wr) (m : Mem), (∀ w ∈ l, ∀ m, f (w.apply m) = f m) → f (through l m) = f m
  | [], _, _ => rfl
  | w :: l, m, h => by
    rw [through_cons, through_proj f l _ (fun w hw => h w (List.mem_cons_of_mem _ hw)), h w List.mem_cons_self]

/-- Stores the realtime thread issues. -/
def RtWr.Ok (e : RtWr) : Prop :=
  match e.wr with
  | .cur _ => False
  | .used b => b = e.lst
  | .please b => b = false ∧ e.sw = true
  | .list _ _ _ => False
  | .req _ _ => e.sw = true
  | .obj _ _ => True

/-- Stores the service thread issues while list `c` is current. -/
def Wr.Ok (c : Bool) (w : Wr) : Prop :=
  match w with
  | .cur _ => False
  | .used _ => False
  | .list b _ _ => b = !c
  | _ => True

/-- The list the realtime thread works with is `c`. -/
def RPc.On (c : Bool) : RPc → Prop
  | .idle => True
  | .got v | .running v | .switching v | .clearing v => v = c

/-- The realtime thread uses list `c` only. -/
structure OnlyUses (s : St) (c : Bool) : Prop where
  used : s.mem.used = some c
  buf : ∀ e ∈ s.rbuf, e.lst = c
  pc : s.rt.On c

/-- No hand-over in progress; list `c` is current. -/
structure Settled (s : St) (c : Bool) : Prop extends OnlyUses s c where
  cur : s.mem.cur = c
  nbuf : ∀ w ∈ s.nbuf, w.Ok c
  list : s.mem.list c = s.handed c

/-- A hand-over from `c` to `!c`, before the store to `current_controllers_list_` has reached memory. -/
structure Pending (s : St) (c : Bool) : Prop extends OnlyUses s c where
  cur : s.mem.cur = c
  list : s.mem.list c = s.handed c
  new : s.nview.list (!c) = s.handed (!c)
  nbuf : ∃ pre, s.nbuf = pre ++ [.cur (!c)] ∧ ∀ w ∈ pre, w.Ok c

/-- The realtime thread's stores of the cycles on list `c` come before those of the cycles on `!c`, which begin with the store to
`used_by_realtime_`. -/
def Turning (s : St) (c : Bool) : Prop :=
  (s.mem.used = some c ∧ (∀ e ∈ s.rbuf, e.lst = c) ∧ (s.rt.On c ∨ s.rt = .got (!c))) ∨
  (s.mem.used = some c ∧ (∃ x y k, s.rbuf = x ++ ⟨.used (!c), !c, k⟩ :: y ∧ (∀ e ∈ x, e.lst = c) ∧ ∀ e ∈ y, e.lst = !c) ∧ s.rt.On (!c)) ∨
  OnlyUses s (!c)

/-- A hand-over from `c` to `!c` whose store has reached memory. -/
structure Handing (s : St) (c : Bool) : Prop where
  cur : s.mem.cur = !c
  nbuf : s.nbuf = []
  list : s.mem.list c = s.handed c
  new : s.mem.list (!c) = s.handed (!c)
  turn : Turning s c

/-- The protocol of the two lists. -/
def ListInv (s : St) : Prop :=
  (∀ e ∈ s.rbuf, e.Ok) ∧
  match s.nrt with
  | .wait2 c => Pending s c ∨ Handing s c
  | .wait1 c | .build c => Settled s c
  | .clear c => Settled s (!c)
  | _ => Settled s s.mem.cur

theorem rview_list {s : St} (h : ∀ e ∈ s.rbuf, e.Ok) : s.rview.list = s.mem.list := by
  refine through_proj (·.list) _ _ ?_
  intro w hw m
  obtain ⟨e, he, rfl⟩ := List.mem_map.1 hw
  have := h e he
  unfold RtWr.Ok at this
  cases hw : e.wr <;> simp_all [Wr.apply]

theorem rview_cur {s : St} (h : ∀ e ∈ s.rbuf, e.Ok) : s.rview.cur = s.mem.cur := by
  refine through_proj (·.cur) _ _ ?_
  intro w hw m
  obtain ⟨e, he, rfl⟩ := List.mem_map.1 hw
  have := h e he
  unfold RtWr.Ok at this
  cases hw : e.wr <;> simp_all [Wr.apply]

theorem nview_used {s : St} {c : Bool} (h : ∀ w ∈ s.nbuf, w.Ok c) : s.nview.used = s.mem.used := by
  refine through_proj (·.used) _ _ ?_
  intro w hw m
  have := h w hw
  cases w <;> simp_all [Wr.apply, Wr.Ok]

theorem nview_used_pending {s : St} {c : Bool} (h : Pending s c) : s.nview.used = s.mem.used := by
  obtain ⟨pre, hp, ho⟩ := h.nbuf
  refine through_proj (·.used) _ _ ?_
  intro w hw m
  rw [hp] at hw
  rcases List.mem_append.1 hw with hw | hw
  · have := ho w hw
    cases w <;> simp_all [Wr.apply, Wr.Ok]
  · simp at hw; subst hw; rfl

/-- A store of the realtime thread leaves the lists and `current_controllers_list_` alone. -/
theorem RtWr.Ok.mem {e : RtWr} (h : e.Ok) (m : Mem) : (e.wr.apply m).list = m.list ∧ (e.wr.apply m).cur = m.cur ∧
    ((e.wr.apply m).used = m.used ∨ (e.wr.apply m).used = some e.lst) := by
  unfold RtWr.Ok at h
  cases hw : e.wr <;> simp_all [Wr.apply]

/-- A store of the service thread other than a hand-over. -/
theorem Wr.Ok.mem {w : Wr} {c : Bool} (h : w.Ok c) (m : Mem) : (w.apply m).list c = m.list c ∧ (w.apply m).cur = m.cur ∧ (w.apply m).used = m.used := by
  unfold Wr.Ok at h
  cases w <;> simp_all [Wr.apply]

/-! ### Steps that change neither the lists' variables nor the service thread -/

theorem OnlyUses.rput {s : St} {c : Bool} (h : OnlyUses s c) (w : Wr) (k : Bool) (pc : RPc) (hp : pc.On c) :
    OnlyUses { s.rput w c k with rt := pc } c :=
  ⟨h.used, by intro e he; rcases List.mem_append.1 he with he | he; exacts [h.buf e he, by simp at he; subst he; rfl], hp⟩

theorem OnlyUses.drain {s : St} {c : Bool} (h : OnlyUses s c) {e : RtWr} {r : List RtWr} (hr : s.rbuf = e :: r) (ho : e.Ok) :
    OnlyUses { s with mem := e.wr.apply s.mem, rbuf := r } c := by
  refine ⟨?_, fun x hx => h.buf x (by rw [hr]; exact List.mem_cons_of_mem _ hx), h.pc⟩
  have := h.buf e (by rw [hr]; exact List.mem_cons_self)
  rcases (ho.mem s.mem).2.2 with h2 | h2
  · exact h2.trans h.used
  · rw [this] at h2; exact h2

/-- The part of the state the realtime thread changes. -/
theorem Turning.drain {s : St} {c : Bool} (h : Turning s c) {e : RtWr} {r : List RtWr} (hr : s.rbuf = e :: r) (ho : e.Ok) :
    Turning { s with mem := e.wr.apply s.mem, rbuf := r } c := by
  rcases h with ⟨h1, h2, h3⟩ | ⟨h1, ⟨x, y, k, hb, hx, hy⟩, h3⟩ | h
  · left
    refine ⟨?_, fun x hx => h2 x (by rw [hr]; exact List.mem_cons_of_mem _ hx), h3⟩
    have := h2 e (by rw [hr]; exact List.mem_cons_self)
    rcases (ho.mem s.mem).2.2 with h4 | h4
    · exact h4.trans h1
    · rw [this] at h4; exact h4
  · cases x with
    | nil =>
      rw [List.nil_append, hr] at hb
      obtain ⟨rfl, rfl⟩ := List.cons.inj hb
      right; right
      exact ⟨rfl, hy, h3⟩
    | cons z x =>
      rw [List.cons_append, hr] at hb
      obtain ⟨rfl, rfl⟩ := List.cons.inj hb
      right; left
      refine ⟨?_, ⟨x, y, k, rfl, fun a ha => hx a (List.mem_cons_of_mem _ ha), hy⟩, h3⟩
      have := hx e List.mem_cons_self
      rcases (ho.mem s.mem).2.2 with h4 | h4
      · exact h4.trans h1
      · rw [this] at h4; exact h4
  · right; right
    exact h.drain hr ho

theorem Turning.rput {s : St} {c v : Bool} (h : Turning s c) (hv : s.rt = .running v ∨ s.rt = .switching v ∨ s.rt = .clearing v) (w : Wr) (k : Bool)
    (pc : RPc) (hp : pc.On v) : Turning { s.rput w v k with rt := pc } c := by
  have key : ∀ d, s.rt.On d → v = d := by intro d hd; rcases hv with hv | hv | hv <;> rw [hv] at hd <;> exact hd
  rcases h with ⟨h1, h2, h3⟩ | ⟨h1, ⟨x, y, j, hb, hx, hy⟩, h3⟩ | h
  · left
    have hvc : v = c := by
      rcases h3 with h3 | h3
      · exact key _ h3
      · rcases hv with hv | hv | hv <;> rw [hv] at h3 <;> cases h3
    subst hvc
    refine ⟨h1, ?_, .inl hp⟩
    intro e he
    rcases List.mem_append.1 he with he | he
    · exact h2 e he
    · simp at he; subst he; rfl
  · right; left
    have hvc := key _ h3
    subst hvc
    refine ⟨h1, ⟨x, y ++ [⟨w, !c, k⟩], j, ?_, hx, ?_⟩, hp⟩
    · change s.rbuf ++ _ = _
      rw [hb]; simp
    · intro e he
      rcases List.mem_append.1 he with he | he
      · exact hy e he
      · simp at he; subst he; rfl
  · right; right
    have hvc := key _ h.pc
    subst hvc
    exact h.rput w k pc hp

theorem Turning.got {s : St} {c v : Bool} (h : Turning s c) (hv : s.rt = .got v) : Turning { s.rput (.used v) v false with rt := .running v } c := by
  rcases h with ⟨h1, h2, h3⟩ | ⟨h1, ⟨x, y, j, hb, hx, hy⟩, h3⟩ | h
  · rcases h3 with h3 | h3
    · left
      rw [hv] at h3
      have hvc : v = c := h3
      subst hvc
      refine ⟨h1, ?_, .inl rfl⟩
      intro e he
      rcases List.mem_append.1 he with he | he
      · exact h2 e he
      · simp at he; subst he; rfl
    · rw [hv] at h3
      cases h3
      right; left
      exact ⟨h1, ⟨s.rbuf, [], false, rfl, h2, by simp⟩, rfl⟩
  · right; left
    rw [hv] at h3
    have hvc : v = !c := h3
    subst hvc
    refine ⟨h1, ⟨x, y ++ [⟨.used (!c), !c, false⟩], j, ?_, hx, ?_⟩, rfl⟩
    · change s.rbuf ++ _ = _
      rw [hb]; simp
    · intro e he
      rcases List.mem_append.1 he with he | he
      · exact hy e he
      · simp at he; subst he; rfl
  · right; right
    have h3 := h.pc
    rw [hv] at h3
    have hvc : v = !c := h3
    subst hvc
    exact h.rput _ _ _ rfl

/-- A change of the realtime thread (program counter, new stores, drained stores) that respects whatever it was doing. -/
structure RtMove (s s' : St) : Prop where
  list : s'.mem.list = s.mem.list
  cur : s'.mem.cur = s.mem.cur
  nbuf : s'.nbuf = s.nbuf
  nrt : s'.nrt = s.nrt
  handed : s'.handed = s.handed
  only : ∀ c, OnlyUses s c → s.mem.cur = c → OnlyUses s' c
  turn : ∀ c, Turning s c → s.mem.cur = !c → Turning s' c

theorem nview_list_of {s s' : St} (h1 : s'.mem.list = s.mem.list) (h2 : s'.nbuf = s.nbuf) : s'.nview.list = s.nview.list := by
  unfold St.nview
  rw [h2]
  generalize s.nbuf = l
  have : ∀ (l : List Wr) (m m' : Mem), m'.list = m.list → (through l m').list = (through l m).list := by
    intro l
    induction l with
    | nil => intro m m' h; exact h
    | cons w l ih =>
      intro m m' h
      rw [through_cons, through_cons]
      apply ih
      cases w <;> simp [Wr.apply, h]
  exact this l _ _ h1

theorem RtMove.inv {s s' : St} (m : RtMove s s') (h : ListInv s) (hok : ∀ e ∈ s'.rbuf, e.Ok) : ListInv s' := by
  have hs : ∀ c, Settled s c → Settled s' c := fun c h => ⟨m.only c h.toOnlyUses h.cur, m.cur.trans h.cur, by rw [m.nbuf]; exact h.nbuf, by rw [m.list, m.handed]; exact h.list⟩
  refine ⟨hok, ?_⟩
  obtain ⟨_, h⟩ := h
  rw [m.nrt]
  cases hn : s.nrt <;> rw [hn] at h <;> dsimp only at h ⊢
  case wait2 c =>
    rcases h with h | h
    · left
      exact ⟨m.only c h.toOnlyUses h.cur, m.cur.trans h.cur, by rw [m.list, m.handed]; exact h.list, by rw [nview_list_of m.list m.nbuf, m.handed]; exact h.new,
        by rw [m.nbuf]; exact h.nbuf⟩
    · right
      exact ⟨m.cur.trans h.cur, m.nbuf.trans h.nbuf, by rw [m.list, m.handed]; exact h.list, by rw [m.list, m.handed]; exact h.new, m.turn c h.turn h.cur⟩
  all_goals first | exact hs _ h | (rw [m.cur]; exact hs _ h)

theorem OnlyUses.setPc {s : St} {c : Bool} (h : OnlyUses s c) (pc : RPc) (hp : pc.On c) (k : Nat) : OnlyUses { s with rt := pc, rounds := k } c := ⟨h.used, h.buf, hp⟩

theorem Turning.setPc {s : St} {c v : Bool} (h : Turning s c) (hv : s.rt = .running v ∨ s.rt = .switching v ∨ s.rt = .clearing v) (pc : RPc) (hp : pc.On v) (k : Nat) :
    Turning { s with rt := pc, rounds := k } c := by
  have key : ∀ d, s.rt.On d → v = d := by intro d hd; rcases hv with hv | hv | hv <;> rw [hv] at hd <;> exact hd
  rcases h with ⟨h1, h2, h3⟩ | ⟨h1, h2, h3⟩ | h
  · left
    have hvc : v = c := by
      rcases h3 with h3 | h3
      · exact key _ h3
      · rcases hv with hv | hv | hv <;> rw [hv] at h3 <;> cases h3
    exact ⟨h1, h2, .inl (hvc ▸ hp)⟩
  · right; left
    exact ⟨h1, h2, key _ h3 ▸ hp⟩
  · right; right
    exact h.setPc pc (key _ h.pc ▸ hp) k

/-- Steps of the realtime thread. -/
theorem rtMove_put {s : St} {v : Bool} (hv : s.rt = .running v ∨ s.rt = .switching v ∨ s.rt = .clearing v) (w : Wr) (k : Bool) (pc : RPc) (hp : pc.On v) :
    RtMove s { s.rput w v k with rt := pc } := by
  refine ⟨rfl, rfl, rfl, rfl, rfl, fun c h _ => ?_, fun c h _ => h.rput hv w k pc hp⟩
  have hvc : v = c := by have := h.pc; rcases hv with hv | hv | hv <;> rw [hv] at this <;> exact this
  subst hvc
  exact h.rput w k pc hp

theorem rtMove_pc {s : St} {v : Bool} (hv : s.rt = .running v ∨ s.rt = .switching v ∨ s.rt = .clearing v) (pc : RPc) (hp : pc.On v) (k : Nat) :
    RtMove s { s with rt := pc, rounds := k } := by
  refine ⟨rfl, rfl, rfl, rfl, rfl, fun c h _ => ?_, fun c h _ => h.setPc hv pc hp k⟩
  have hvc : v = c := by have := h.pc; rcases hv with hv | hv | hv <;> rw [hv] at this <;> exact this
  subst hvc
  exact h.setPc pc hp k

theorem ok_put {s : St} (h : ∀ e ∈ s.rbuf, e.Ok) (w : Wr) (v k : Bool) (hw : (⟨w, v, k⟩ : RtWr).Ok) : ∀ e ∈ (s.rput w v k).rbuf, e.Ok := by
  intro e he
  rcases List.mem_append.1 he with he | he
  · exact h e he
  · simp at he; subst he; exact hw

theorem Settled.nput {s : St} {c : Bool} (h : Settled s c) (w : Wr) (hw : w.Ok c) (pc : NPc) (f : Nat → Nat) (k : Nat) : Settled { s.nput w with nrt := pc, asked := f, rounds := k } c :=
  ⟨⟨h.used, h.buf, h.pc⟩, h.cur, by intro x hx; rcases List.mem_append.1 hx with hx | hx; exacts [h.nbuf x hx, by simp at hx; subst hx; exact hw], h.list⟩

theorem Settled.nput0 {s : St} {c : Bool} (h : Settled s c) (w : Wr) (hw : w.Ok c) : Settled (s.nput w) c := Settled.nput h w hw s.nrt s.asked s.rounds

theorem Settled.setN {s : St} {c : Bool} (h : Settled s c) (pc : NPc) : Settled { s with nrt := pc } c := ⟨⟨h.used, h.buf, h.pc⟩, h.cur, h.nbuf, h.list⟩

theorem Settled.drain {s : St} {c : Bool} (h : Settled s c) {w : Wr} {r : List Wr} (hr : s.nbuf = w :: r) : Settled { s with mem := w.apply s.mem, nbuf := r } c := by
  have ho := h.nbuf w (by rw [hr]; exact List.mem_cons_self)
  obtain ⟨h1, h2, h3⟩ := ho.mem s.mem
  exact ⟨⟨h3.trans h.used, h.buf, h.pc⟩, h2.trans h.cur, fun x hx => h.nbuf x (by rw [hr]; exact List.mem_cons_of_mem _ hx), h1.trans h.list⟩

theorem ListInv.step {s s' : St} {l : Label} (h : ListInv s) (hst : Step s l s') : ListInv s' := by
  have hok := h.1
  cases hst with
  | rtLoadCur hv =>
    refine RtMove.inv (s := s) ⟨rfl, rfl, rfl, rfl, rfl, fun c hc he => ⟨hc.used, hc.buf, ?_⟩, fun c hc he => ?_⟩ h hok
    · change s.rview.cur = c
      rw [rview_cur hok, he]
    · rcases hc with ⟨h1, h2, h3⟩ | ⟨h1, h2, h3⟩ | hc
      · left
        refine ⟨h1, h2, .inr ?_⟩
        change RPc.got s.rview.cur = _
        rw [rview_cur hok, he]
      · right; left
        refine ⟨h1, h2, ?_⟩
        change s.rview.cur = _
        rw [rview_cur hok, he]
      · right; right
        refine ⟨hc.used, hc.buf, ?_⟩
        change s.rview.cur = _
        rw [rview_cur hok, he]
  | rtStoreUsed v hv =>
    refine RtMove.inv (s := s) ⟨rfl, rfl, rfl, rfl, rfl, fun c hc he => ?_, fun c hc he => hc.got hv⟩ h (ok_put hok _ _ _ rfl)
    have h3 := hc.pc
    rw [hv] at h3
    have hvc : v = c := h3
    subst hvc
    exact hc.rput _ _ _ rfl
  | rtReadList v i hv => exact h
  | rtWriteObj v i x hv =>
    have := RtMove.inv (rtMove_put (.inl hv) (.obj i x) false (.running v) rfl) h (ok_put hok _ _ _ trivial)
    rw [← hv] at this; exact this
  | rtNoSwitch v hv hp => exact RtMove.inv (rtMove_pc (.inl hv) .idle trivial s.rounds) h hok
  | rtSwitch v hv hp => exact RtMove.inv (rtMove_pc (.inl hv) (.switching v) rfl _) h hok
  | rtReadReq v i hv => exact h
  | rtSwitchObj v i x hv =>
    have := RtMove.inv (rtMove_put (.inr (.inl hv)) (.obj i x) true (.switching v) rfl) h (ok_put hok _ _ _ trivial)
    rw [← hv] at this; exact this
  | rtClear v hv => exact RtMove.inv (rtMove_pc (.inr (.inl hv)) (.clearing v) rfl s.rounds) h hok
  | rtClearReq v i x hv =>
    have := RtMove.inv (rtMove_put (.inr (.inr hv)) (.req i x) true (.clearing v) rfl) h (ok_put hok _ _ _ rfl)
    rw [← hv] at this; exact this
  | rtDone v hv => exact RtMove.inv (rtMove_put (.inr (.inr hv)) (.please false) true .idle trivial) h (ok_put hok _ _ _ ⟨rfl, rfl⟩)
  | rtDrain e r hr =>
    have he : e.Ok := hok e (by rw [hr]; exact List.mem_cons_self)
    exact RtMove.inv ⟨(he.mem _).1, (he.mem _).2.1, rfl, rfl, rfl, fun c hc _ => hc.drain hr he, fun c hc _ => hc.drain hr he⟩ h
      (fun x hx => hok x (by rw [hr]; exact List.mem_cons_of_mem _ hx))
  | nBegin hn hb =>
    refine ⟨hok, ?_⟩
    have h2 := h.2
    rw [hn] at h2
    have : s.nview.cur = s.mem.cur := by unfold St.nview; rw [hb]; rfl
    change Settled _ s.nview.cur
    rw [this]
    exact Settled.setN h2 _
  | nFree c hn hu =>
    have h2 := h.2
    rw [hn] at h2
    exact ⟨hok, Settled.setN h2 _⟩
  | nBuild c i x hn =>
    have h2 := h.2
    rw [hn] at h2
    refine ⟨hok, ?_⟩
    rw [show (s.nput (.list (!c) i x)).nrt = _ from hn]
    exact Settled.nput0 h2 (.list (!c) i x) rfl
  | nNewObj c i x hn =>
    have h2 := h.2
    rw [hn] at h2
    refine ⟨hok, ?_⟩
    rw [show (s.nput (.obj i x)).nrt = _ from hn]
    exact Settled.nput0 h2 (.obj i x) trivial
  | nFail c hn =>
    have h2 := h.2
    rw [hn] at h2
    have h2 : Settled s c := h2
    refine ⟨hok, ?_⟩
    change Settled _ s.mem.cur
    rw [h2.cur]; exact Settled.setN h2 _
  | nSwap c hn =>
    have h2 := h.2
    rw [hn] at h2
    have h2 : Settled s c := h2
    refine ⟨hok, .inl ⟨⟨h2.used, h2.buf, h2.pc⟩, h2.cur, ?_, ?_, s.nbuf, rfl, h2.nbuf⟩⟩
    · change s.mem.list c = if c = !c then _ else _
      rw [if_neg (by cases c <;> simp)]; exact h2.list
    · change (through (s.nbuf ++ [.cur (!c)]) s.mem).list (!c) = if (!c) = !c then _ else _
      rw [if_pos rfl, through_append]; rfl
  | nSeen c hn hu =>
    have h2 := h.2
    rw [hn] at h2
    refine ⟨hok, ?_⟩
    rcases h2 with h2 | h2
    · rw [nview_used_pending h2] at hu
      exact absurd h2.used hu
    · have : s.nview.used = s.mem.used := by unfold St.nview; rw [h2.nbuf]; rfl
      rw [this] at hu
      rcases h2.turn with ⟨h1, _⟩ | ⟨h1, _⟩ | h3
      · exact absurd h1 hu
      · exact absurd h1 hu
      · exact ⟨⟨h3.used, h3.buf, h3.pc⟩, h2.cur, (by intro w hw; change w ∈ s.nbuf at hw; rw [h2.nbuf] at hw; simp at hw), h2.new⟩
  | nClear c i x hn =>
    have h2 := h.2
    rw [hn] at h2
    refine ⟨hok, ?_⟩
    rw [show (s.nput (.list c i x)).nrt = _ from hn]
    exact Settled.nput0 h2 (.list c i x) (by simp [Wr.Ok])
  | nDestroy c i x hn =>
    have h2 := h.2
    rw [hn] at h2
    refine ⟨hok, ?_⟩
    rw [show (s.nput (.obj i x)).nrt = _ from hn]
    exact Settled.nput0 h2 (.obj i x) trivial
  | nDone c hn =>
    have h2 := h.2
    rw [hn] at h2
    have h2 : Settled s (!c) := h2
    refine ⟨hok, ?_⟩
    change Settled _ s.mem.cur
    rw [h2.cur]; exact Settled.setN h2 _
  | sBegin hn hb =>
    have h2 := h.2
    rw [hn] at h2
    exact ⟨hok, Settled.setN h2 _⟩
  | sReq i x hn =>
    have h2 := h.2
    rw [hn] at h2
    refine ⟨hok, ?_⟩
    rw [show (s.nput (.req i x)).nrt = _ from hn]
    exact Settled.nput0 h2 (.req i x) trivial
  | sFail hn =>
    have h2 := h.2
    rw [hn] at h2
    exact ⟨hok, Settled.setN h2 _⟩
  | sGo hn =>
    have h2 := h.2
    rw [hn] at h2
    exact ⟨hok, Settled.nput (s := s) h2 (.please true) trivial _ _ _⟩
  | sDone hn hp =>
    have h2 := h.2
    rw [hn] at h2
    exact ⟨hok, Settled.setN h2 _⟩
  | sReturn hn =>
    have h2 := h.2
    rw [hn] at h2
    exact ⟨hok, Settled.setN h2 _⟩
  | nDrain w r hr =>
    have h2 := h.2
    refine ⟨hok, ?_⟩
    have hcur : ∀ c, Settled s c → (w.apply s.mem).cur = c := fun c hc => by
      have := (hc.nbuf w (by rw [hr]; exact List.mem_cons_self)).mem s.mem
      exact this.2.1.trans hc.cur
    change match s.nrt with | .wait2 c => _ | .wait1 c | .build c => _ | .clear c => _ | _ => _
    cases hn : s.nrt <;> rw [hn] at h2 <;> dsimp only at h2 ⊢
    case wait2 c =>
      rcases h2 with h2 | h2
      · obtain ⟨pre, hp, ho⟩ := h2.nbuf
        cases pre with
        | nil =>
          rw [List.nil_append, hr] at hp
          obtain ⟨rfl, rfl⟩ := List.cons.inj hp
          right
          refine ⟨rfl, rfl, h2.list, ?_, .inl ⟨h2.used, h2.buf, .inl h2.pc⟩⟩
          have := h2.new
          unfold St.nview at this
          rw [hr] at this
          exact this
        | cons z pre =>
          rw [List.cons_append, hr] at hp
          obtain ⟨rfl, rfl⟩ := List.cons.inj hp
          left
          obtain ⟨e1, e2, e3⟩ := (ho w List.mem_cons_self).mem s.mem
          refine ⟨⟨e3.trans h2.used, h2.buf, h2.pc⟩, e2.trans h2.cur, e1.trans h2.list, ?_, pre, rfl, fun x hx => ho x (List.mem_cons_of_mem _ hx)⟩
          have := h2.new
          unfold St.nview at this ⊢
          rw [hr] at this
          exact this
      · rw [h2.nbuf] at hr; cases hr
    all_goals first
      | (have := Settled.drain h2 hr; rw [hn] at this; exact this)
      | (rw [hcur _ h2]; have := Settled.drain h2 hr; rw [hn] at this; exact this)

theorem Reach.listInv {s : St} (h : Reach s) : ListInv s := by
  induction h with
  | start s h =>
    refine ⟨by rw [h.rbuf]; simp, ?_⟩
    rw [h.nrt]
    exact ⟨⟨h.used, by rw [h.rbuf]; simp, by rw [h.rt]; trivial⟩, rfl, by rw [h.nbuf]; simp, by funext i; rw [h.handed]⟩
  | step s s' l _ hst ih => exact ih.step hst

/-! ## The switch -/

/-- Does the store concern `please_switch_`? -/
def Wr.isPlease : Wr → Bool
  | .please _ => true
  | _ => false
/-- Does the store concern the request vectors? -/
def Wr.isReq : Wr → Bool
  | .req _ _ => true
  | _ => false

/-- Is the realtime thread switching controllers? -/
def RPc.Switching : RPc → Prop
  | .switching _ | .clearing _ => True
  | _ => False

/-- The realtime thread has nothing to do with the request vectors, and none of its stores of a switch are outstanding. -/
structure Calm (s : St) : Prop where
  pc : ¬ s.rt.Switching
  buf : ∀ e ∈ s.rbuf, e.sw = false

/-- No switch is requested. -/
structure Quiet (s : St) : Prop extends Calm s where
  please : s.mem.please = false
  nbuf : ∀ w ∈ s.nbuf, w.isPlease = false

/-- A switch has been requested and the store to `please_switch_` has not reached memory. -/
structure Asking (s : St) : Prop extends Calm s where
  please : s.mem.please = false
  nbuf : ∃ pre, s.nbuf = pre ++ [.please true] ∧ ∀ w ∈ pre, w.isPlease = false
  req : s.nview.req = s.asked
  rounds : s.rounds = 0

/-- The request has reached memory; the realtime thread has not taken notice. -/
structure Asked (s : St) : Prop extends Calm s where
  please : s.mem.please = true
  nbuf : s.nbuf = []
  req : s.mem.req = s.asked
  rounds : s.rounds = 0

/-- The realtime thread is executing the request. -/
structure Executing (s : St) : Prop where
  pc : s.rt.Switching
  please : s.mem.please = true
  nbuf : s.nbuf = []
  rbuf : ∀ e ∈ s.rbuf, e.wr.isPlease = false
  req : (∃ v, s.rt = .switching v) → (∀ e ∈ s.rbuf, e.wr.isReq = false) ∧ s.mem.req = s.asked
  rounds : s.rounds = 1

/-- The realtime thread has executed the request; its store to `please_switch_` has not reached memory. -/
structure Answering (s : St) : Prop where
  pc : ¬ s.rt.Switching
  please : s.mem.please = true
  nbuf : s.nbuf = []
  rbuf : ∃ x y e, s.rbuf = x ++ e :: y ∧ e.wr = .please false ∧ (∀ z ∈ x, z.wr.isPlease = false) ∧ ∀ z ∈ y, z.sw = false
  rounds : s.rounds = 1

/-- The protocol of the request vectors. -/
def SwitchInv (s : St) : Prop :=
  (∀ e ∈ s.rbuf, e.Ok) ∧
  match s.nrt with
  | .waitSwitch => Asking s ∨ Asked s ∨ Executing s ∨ Answering s ∨ (Quiet s ∧ s.rounds = 1)
  | .switched => Quiet s ∧ s.rounds = 1
  | _ => Quiet s

theorem Ok.quiet {e : RtWr} (h : e.Ok) (hs : e.sw = false) : e.wr.isPlease = false ∧ e.wr.isReq = false := by
  unfold RtWr.Ok at h
  cases hw : e.wr <;> simp_all [Wr.isPlease, Wr.isReq]

theorem rview_please_of {s : St} (h : ∀ e ∈ s.rbuf, e.wr.isPlease = false) : s.rview.please = s.mem.please := by
  refine through_proj (·.please) _ _ ?_
  intro w hw m
  obtain ⟨e, he, rfl⟩ := List.mem_map.1 hw
  have := h e he
  cases hw : e.wr <;> simp_all [Wr.apply, Wr.isPlease]

theorem rview_req_of {s : St} (h : ∀ e ∈ s.rbuf, e.wr.isReq = false) : s.rview.req = s.mem.req := by
  refine through_proj (·.req) _ _ ?_
  intro w hw m
  obtain ⟨e, he, rfl⟩ := List.mem_map.1 hw
  have := h e he
  cases hw : e.wr <;> simp_all [Wr.apply, Wr.isReq]

theorem calm_rview {s : St} (hok : ∀ e ∈ s.rbuf, e.Ok) (h : Calm s) : s.rview.please = s.mem.please :=
  rview_please_of (fun e he => (Ok.quiet (hok e he) (h.buf e he)).1)

theorem answering_rview {s : St} (hok : ∀ e ∈ s.rbuf, e.Ok) (h : Answering s) : s.rview.please = false := by
  obtain ⟨x, y, e, hb, he, _, hy⟩ := h.rbuf
  unfold St.rview
  rw [hb, List.map_append, through_append, List.map_cons, through_cons, he]
  rw [through_proj (·.please)]
  · rfl
  · intro w hw m
    obtain ⟨z, hz, rfl⟩ := List.mem_map.1 hw
    have := (Ok.quiet (hok z (by rw [hb]; simp [hz])) (hy z hz)).1
    cases hw : z.wr <;> simp_all [Wr.apply, Wr.isPlease]

/-- Draining a store that does not concern `please_switch_`. -/
theorem apply_please {w : Wr} (h : w.isPlease = false) (m : Mem) : (w.apply m).please = m.please := by
  cases w <;> simp_all [Wr.apply, Wr.isPlease]
theorem apply_req {w : Wr} (h : w.isReq = false) (m : Mem) : (w.apply m).req = m.req := by
  cases w <;> simp_all [Wr.apply, Wr.isReq]

/-- A step of the realtime thread outside a switch. -/
theorem nview_req_of {s s' : St} (h1 : s'.mem.req = s.mem.req) (h2 : s'.nbuf = s.nbuf) : s'.nview.req = s.nview.req := by
  unfold St.nview
  rw [h2]
  generalize s.nbuf = l
  have : ∀ (l : List Wr) (m m' : Mem), m'.req = m.req → (through l m').req = (through l m).req := by
    intro l
    induction l with
    | nil => intro m m' h; exact h
    | cons w l ih =>
      intro m m' h
      rw [through_cons, through_cons]
      apply ih
      cases w <;> simp [Wr.apply, h]
  exact this l _ _ h1

/-- A step of the realtime thread that neither enters nor leaves a switch and issues no store of a switch. -/
structure PlainMove (s s' : St) : Prop where
  nbuf : s'.nbuf = s.nbuf
  nrt : s'.nrt = s.nrt
  asked : s'.asked = s.asked
  rounds : s'.rounds = s.rounds
  pc : s'.rt.Switching → s.rt.Switching
  calm : Calm s → Calm s' ∧ s'.mem.please = s.mem.please ∧ s'.mem.req = s.mem.req
  exec : Executing s → Executing s'
  ans : Answering s → Answering s' ∨ (Quiet s' ∧ s'.rounds = 1)

theorem PlainMove.inv {s s' : St} (m : PlainMove s s') (h : SwitchInv s) (hok : ∀ e ∈ s'.rbuf, e.Ok) : SwitchInv s' := by
  have hq : Quiet s → Quiet s' := fun h => ⟨(m.calm h.toCalm).1, (m.calm h.toCalm).2.1.trans h.please, by rw [m.nbuf]; exact h.nbuf⟩
  refine ⟨hok, ?_⟩
  obtain ⟨_, h⟩ := h
  rw [m.nrt]
  cases hn : s.nrt <;> rw [hn] at h <;> dsimp only at h ⊢
  case waitSwitch =>
    rcases h with h | h | h | h | h
    · left
      obtain ⟨c1, c2, c3⟩ := m.calm h.toCalm
      exact ⟨c1, c2.trans h.please, by rw [m.nbuf]; exact h.nbuf, by rw [nview_req_of c3 m.nbuf, m.asked]; exact h.req, m.rounds.trans h.rounds⟩
    · right; left
      obtain ⟨c1, c2, c3⟩ := m.calm h.toCalm
      exact ⟨c1, c2.trans h.please, m.nbuf.trans h.nbuf, by rw [c3, m.asked]; exact h.req, m.rounds.trans h.rounds⟩
    · right; right; left
      exact m.exec h
    · right; right; right
      rcases m.ans h with h | h
      · exact .inl h
      · exact .inr h
    · right; right; right; right
      exact ⟨hq h.1, m.rounds.trans h.2⟩
  case switched => exact ⟨hq h.1, m.rounds.trans h.2⟩
  all_goals exact hq h

/-- Issuing a store outside a switch. -/
theorem plain_put {s : St} {w : Wr} {v : Bool} {pc : RPc} (hs : ¬ s.rt.Switching) (hp : ¬ pc.Switching) : PlainMove s { s.rput w v false with rt := pc } := by
  refine ⟨rfl, rfl, rfl, rfl, fun h => absurd h hp, fun h => ⟨⟨hp, ?_⟩, rfl, rfl⟩, fun h => absurd h.pc hs, fun h => .inl ?_⟩
  · intro e he
    rcases List.mem_append.1 he with he | he
    · exact h.buf e he
    · simp at he; subst he; rfl
  · obtain ⟨x, y, e, hb, he, hx, hy⟩ := h.rbuf
    refine ⟨hp, h.please, h.nbuf, ⟨x, y ++ [⟨w, v, false⟩], e, ?_, he, hx, ?_⟩, h.rounds⟩
    · change s.rbuf ++ _ = _
      rw [hb]; simp
    · intro z hz
      rcases List.mem_append.1 hz with hz | hz
      · exact hy z hz
      · simp at hz; subst hz; rfl

/-- Changing the program counter outside a switch. -/
theorem plain_pc {s : St} {pc : RPc} (hs : ¬ s.rt.Switching) (hp : ¬ pc.Switching) : PlainMove s { s with rt := pc } :=
  ⟨rfl, rfl, rfl, rfl, fun h => absurd h hp, fun h => ⟨⟨hp, h.buf⟩, rfl, rfl⟩, fun h => absurd h.pc hs,
    fun h => .inl ⟨hp, h.please, h.nbuf, h.rbuf, h.rounds⟩⟩

/-- A store of the realtime thread reaches memory. -/
theorem plain_drain {s : St} {e : RtWr} {r : List RtWr} (hok : ∀ e ∈ s.rbuf, e.Ok) (hr : s.rbuf = e :: r) :
    PlainMove s { s with mem := e.wr.apply s.mem, rbuf := r } := by
  have he : e ∈ s.rbuf := by rw [hr]; exact List.mem_cons_self
  have hsub : ∀ x ∈ r, x ∈ s.rbuf := fun x hx => by rw [hr]; exact List.mem_cons_of_mem _ hx
  refine ⟨rfl, rfl, rfl, rfl, fun h => h, fun h => ?_, fun h => ?_, fun h => ?_⟩
  · have := Ok.quiet (hok e he) (h.buf e he)
    exact ⟨⟨h.pc, fun x hx => h.buf x (hsub x hx)⟩, apply_please this.1 _, apply_req this.2 _⟩
  · refine ⟨h.pc, (apply_please (h.rbuf e he) _).trans h.please, h.nbuf, fun x hx => h.rbuf x (hsub x hx), fun hv => ?_, h.rounds⟩
    obtain ⟨h1, h2⟩ := h.req hv
    exact ⟨fun x hx => h1 x (hsub x hx), (apply_req (h1 e he) _).trans h2⟩
  · obtain ⟨x, y, f, hb, hf, hx, hy⟩ := h.rbuf
    cases x with
    | nil =>
      rw [List.nil_append, hr] at hb
      obtain ⟨rfl, rfl⟩ := List.cons.inj hb
      right
      refine ⟨⟨⟨h.pc, hy⟩, ?_, ?_⟩, h.rounds⟩
      · change (e.wr.apply s.mem).please = false
        rw [hf]; rfl
      · intro w hw
        change w ∈ s.nbuf at hw
        rw [h.nbuf] at hw; cases hw
    | cons z x =>
      rw [List.cons_append, hr] at hb
      obtain ⟨rfl, rfl⟩ := List.cons.inj hb
      left
      exact ⟨h.pc, (apply_please (hx e List.mem_cons_self) _).trans h.please, h.nbuf, ⟨x, y, f, rfl, hf, fun a ha => hx a (List.mem_cons_of_mem _ ha), hy⟩, h.rounds⟩

theorem exec_of_switching {s : St} (h : SwitchInv s) (hs : s.rt.Switching) : s.nrt = .waitSwitch ∧ Executing s := by
  obtain ⟨_, h⟩ := h
  cases hn : s.nrt <;> rw [hn] at h <;> dsimp only at h
  case waitSwitch =>
    rcases h with h | h | h | h | h
    · exact absurd hs h.pc
    · exact absurd hs h.pc
    · exact ⟨rfl, h⟩
    · exact absurd hs h.pc
    · exact absurd hs h.1.pc
  case switched => exact absurd hs h.1.pc
  all_goals exact absurd hs h.pc

theorem quiet_setN {s : St} (h : Quiet s) (pc : NPc) : Quiet { s with nrt := pc } := ⟨⟨h.pc, h.buf⟩, h.please, h.nbuf⟩

theorem quiet_nput {s : St} (h : Quiet s) {w : Wr} (hw : w.isPlease = false) (pc : NPc) (f : Bool → Nat → Nat) : Quiet { s.nput w with nrt := pc, handed := f } :=
  ⟨⟨h.pc, h.buf⟩, h.please, by intro x hx; rcases List.mem_append.1 hx with hx | hx; exacts [h.nbuf x hx, by simp at hx; subst hx; exact hw]⟩

theorem quiet_drain {s : St} (h : Quiet s) {w : Wr} {r : List Wr} (hr : s.nbuf = w :: r) : Quiet { s with mem := w.apply s.mem, nbuf := r } :=
  ⟨⟨h.pc, h.buf⟩, (apply_please (h.nbuf w (by rw [hr]; exact List.mem_cons_self)) _).trans h.please,
    fun x hx => h.nbuf x (by rw [hr]; exact List.mem_cons_of_mem _ hx)⟩

theorem SwitchInv.step {s s' : St} {l : Label} (h : SwitchInv s) (hst : Step s l s') : SwitchInv s' := by
  have hok := h.1
  cases hst with
  | rtLoadCur hv => exact PlainMove.inv (s := s) (plain_pc (by rw [hv]; exact id) id) h hok
  | rtStoreUsed v hv => exact PlainMove.inv (s := s) (plain_put (by rw [hv]; exact id) id) h (ok_put hok _ _ _ rfl)
  | rtReadList v i hv => exact h
  | rtWriteObj v i x hv =>
    have := PlainMove.inv (s := s) (plain_put (w := .obj i x) (v := v) (pc := .running v) (by rw [hv]; exact id) id) h (ok_put hok _ _ _ trivial)
    rw [← hv] at this; exact this
  | rtNoSwitch v hv hp => exact PlainMove.inv (s := s) (plain_pc (by rw [hv]; exact id) id) h hok
  | rtSwitch v hv hp =>
    refine ⟨hok, ?_⟩
    obtain ⟨_, h⟩ := h
    have hns : ¬ s.rt.Switching := by rw [hv]; exact id
    have hq : Quiet s → False := fun q => by rw [calm_rview hok q.toCalm, q.please] at hp; cases hp
    change match s.nrt with | .waitSwitch => _ | .switched => _ | _ => _
    cases hn : s.nrt <;> rw [hn] at h <;> dsimp only at h ⊢
    case waitSwitch =>
      rcases h with h | h | h | h | h
      · rw [calm_rview hok h.toCalm, h.please] at hp; cases hp
      · right; right; left
        refine ⟨trivial, h.please, h.nbuf, fun e he => (Ok.quiet (hok e he) (h.buf e he)).1, fun _ => ⟨fun e he => (Ok.quiet (hok e he) (h.buf e he)).2, h.req⟩, ?_⟩
        change s.rounds + 1 = 1
        rw [h.rounds]
      · exact absurd h.pc hns
      · rw [answering_rview hok h] at hp; cases hp
      · exact (hq h.1).elim
    case switched => exact (hq h.1).elim
    all_goals exact (hq h).elim
  | rtReadReq v i hv => exact h
  | rtSwitchObj v i x hv =>
    obtain ⟨hn, he⟩ := exec_of_switching h (by rw [hv]; trivial)
    refine ⟨ok_put hok _ _ _ trivial, ?_⟩
    rw [show (s.rput (.obj i x) v true).nrt = _ from hn]
    right; right; left
    refine ⟨he.pc, he.please, he.nbuf, ?_, fun hx => ⟨?_, (he.req ⟨v, hv⟩).2⟩, he.rounds⟩
    · intro e hm
      rcases List.mem_append.1 hm with hm | hm
      · exact he.rbuf e hm
      · simp at hm; subst hm; rfl
    · intro e hm
      rcases List.mem_append.1 hm with hm | hm
      · exact (he.req ⟨v, hv⟩).1 e hm
      · simp at hm; subst hm; rfl
  | rtClear v hv =>
    obtain ⟨hn, he⟩ := exec_of_switching h (by rw [hv]; trivial)
    refine ⟨hok, ?_⟩
    rw [show St.nrt { s with rt := .clearing v } = _ from hn]
    right; right; left
    exact ⟨trivial, he.please, he.nbuf, he.rbuf, fun ⟨w, hw⟩ => (by cases hw), he.rounds⟩
  | rtClearReq v i x hv =>
    obtain ⟨hn, he⟩ := exec_of_switching h (by rw [hv]; trivial)
    refine ⟨ok_put hok _ _ _ rfl, ?_⟩
    rw [show (s.rput (.req i x) v true).nrt = _ from hn]
    right; right; left
    refine ⟨he.pc, he.please, he.nbuf, ?_, fun ⟨w, hw⟩ => ?_, he.rounds⟩
    · intro e hm
      rcases List.mem_append.1 hm with hm | hm
      · exact he.rbuf e hm
      · simp at hm; subst hm; rfl
    · change s.rt = _ at hw
      rw [hv] at hw; cases hw
  | rtDone v hv =>
    obtain ⟨hn, he⟩ := exec_of_switching h (by rw [hv]; trivial)
    refine ⟨ok_put hok _ _ _ ⟨rfl, rfl⟩, ?_⟩
    rw [show St.nrt { s.rput (.please false) v true with rt := .idle } = _ from hn]
    right; right; right; left
    exact ⟨id, he.please, he.nbuf, ⟨s.rbuf, [], _, rfl, rfl, he.rbuf, by simp⟩, he.rounds⟩
  | rtDrain e r hr => exact PlainMove.inv (plain_drain hok hr) h (fun x hx => hok x (by rw [hr]; exact List.mem_cons_of_mem _ hx))
  | nBegin hn hb => have h2 := h.2; rw [hn] at h2; exact ⟨hok, quiet_setN h2 _⟩
  | nFree c hn hu => have h2 := h.2; rw [hn] at h2; exact ⟨hok, quiet_setN h2 _⟩
  | nBuild c i x hn => have h2 := h.2; rw [hn] at h2; refine ⟨hok, ?_⟩; rw [show (s.nput (.list (!c) i x)).nrt = _ from hn]; exact quiet_nput (s := s) h2 rfl s.nrt s.handed
  | nNewObj c i x hn => have h2 := h.2; rw [hn] at h2; refine ⟨hok, ?_⟩; rw [show (s.nput (.obj i x)).nrt = _ from hn]; exact quiet_nput (s := s) h2 rfl s.nrt s.handed
  | nFail c hn => have h2 := h.2; rw [hn] at h2; exact ⟨hok, quiet_setN h2 _⟩
  | nSwap c hn => have h2 := h.2; rw [hn] at h2; exact ⟨hok, quiet_nput (s := s) h2 rfl _ _⟩
  | nSeen c hn hu => have h2 := h.2; rw [hn] at h2; exact ⟨hok, quiet_setN h2 _⟩
  | nClear c i x hn => have h2 := h.2; rw [hn] at h2; refine ⟨hok, ?_⟩; rw [show (s.nput (.list c i x)).nrt = _ from hn]; exact quiet_nput (s := s) h2 rfl s.nrt s.handed
  | nDestroy c i x hn => have h2 := h.2; rw [hn] at h2; refine ⟨hok, ?_⟩; rw [show (s.nput (.obj i x)).nrt = _ from hn]; exact quiet_nput (s := s) h2 rfl s.nrt s.handed
  | nDone c hn => have h2 := h.2; rw [hn] at h2; exact ⟨hok, quiet_setN h2 _⟩
  | sBegin hn hb => have h2 := h.2; rw [hn] at h2; exact ⟨hok, quiet_setN h2 _⟩
  | sReq i x hn => have h2 := h.2; rw [hn] at h2; refine ⟨hok, ?_⟩; rw [show (s.nput (.req i x)).nrt = _ from hn]; exact quiet_nput (s := s) h2 rfl s.nrt s.handed
  | sFail hn => have h2 := h.2; rw [hn] at h2; exact ⟨hok, quiet_setN h2 _⟩
  | sGo hn =>
    have h2 := h.2
    rw [hn] at h2
    have h2 : Quiet s := h2
    refine ⟨hok, .inl ⟨⟨h2.pc, h2.buf⟩, h2.please, ⟨s.nbuf, rfl, h2.nbuf⟩, ?_, rfl⟩⟩
    change (through (s.nbuf ++ [.please true]) s.mem).req = (through s.nbuf s.mem).req
    rw [through_append]; rfl
  | sDone hn hp =>
    have h2 := h.2
    rw [hn] at h2
    refine ⟨hok, ?_⟩
    have e0 : s.nbuf = [] → s.nview.please = s.mem.please := fun hb => by unfold St.nview; rw [hb]; rfl
    rcases h2 with h | h | h | h | h
    · obtain ⟨pre, hb, _⟩ := h.nbuf
      unfold St.nview at hp
      rw [hb, through_append] at hp
      cases hp
    · rw [e0 h.nbuf, h.please] at hp; cases hp
    · rw [e0 h.nbuf, h.please] at hp; cases hp
    · rw [e0 h.nbuf, h.please] at hp; cases hp
    · exact ⟨quiet_setN h.1 _, h.2⟩
  | sReturn hn => have h2 := h.2; rw [hn] at h2; exact ⟨hok, quiet_setN h2.1 _⟩
  | nDrain w r hr =>
    have h2 := h.2
    refine ⟨hok, ?_⟩
    have hne : s.nbuf ≠ [] := by rw [hr]; simp
    change match s.nrt with | .waitSwitch => _ | .switched => _ | _ => _
    cases hn : s.nrt <;> rw [hn] at h2 <;> dsimp only at h2 ⊢
    case waitSwitch =>
      rcases h2 with h | h | h | h | h
      · obtain ⟨pre, hb, ho⟩ := h.nbuf
        cases pre with
        | nil =>
          rw [List.nil_append, hr] at hb
          obtain ⟨rfl, rfl⟩ := List.cons.inj hb
          right; left
          refine ⟨⟨h.pc, h.buf⟩, rfl, rfl, ?_, h.rounds⟩
          have := h.req
          unfold St.nview at this
          rw [hr] at this
          exact this
        | cons z pre =>
          rw [List.cons_append, hr] at hb
          obtain ⟨rfl, rfl⟩ := List.cons.inj hb
          left
          refine ⟨⟨h.pc, h.buf⟩, (apply_please (ho w List.mem_cons_self) _).trans h.please, ⟨pre, rfl, fun x hx => ho x (List.mem_cons_of_mem _ hx)⟩, ?_, h.rounds⟩
          have := h.req
          unfold St.nview at this ⊢
          rw [hr] at this
          exact this
      · exact absurd h.nbuf hne
      · exact absurd h.nbuf hne
      · exact absurd h.nbuf hne
      · right; right; right; right
        have hq := quiet_drain h.1 hr
        rw [hn] at hq
        exact ⟨hq, h.2⟩
    case switched =>
      have hq := quiet_drain h2.1 hr
      rw [hn] at hq
      exact ⟨hq, h2.2⟩
    all_goals
      have hq := quiet_drain h2 hr
      rw [hn] at hq
      exact hq

theorem Reach.switchInv {s : St} (h : Reach s) : SwitchInv s := by
  induction h with
  | start s h =>
    refine ⟨by rw [h.rbuf]; simp, ?_⟩
    rw [h.nrt]
    exact ⟨⟨by rw [h.rt]; exact id, by rw [h.rbuf]; simp⟩, h.please, by rw [h.nbuf]; simp⟩
  | step s s' l _ hst ih => exact ih.step hst

/-! ## The theorems -/

/-- **C79.** Whatever the realtime thread loads from the controller list it works with (or its schedule) is what the service thread had put there when it
handed the list over: no half-built, stale or cleared data, although the stores of both threads are buffered. -/
theorem C79_tso_lists {s s' : St} {v : Bool} {i x : Nat} (h : Reach s) (hst : Step s (.rtReadList v i x) s') : x = s.handed v i := by
  obtain ⟨hok, h2⟩ := h.listInv
  cases hst with
  | rtReadList v i hv =>
    rw [rview_list hok]
    have key : ∀ c, s.rt.On c → c = v := fun c hc => by rw [hv] at hc; exact hc.symm
    have hs : ∀ c, Settled s c → s.mem.list v i = s.handed v i := fun c hc => by rw [← key c hc.pc, hc.list]
    cases hn : s.nrt <;> rw [hn] at h2 <;> dsimp only at h2
    case wait2 c =>
      rcases h2 with h2 | h2
      · rw [← key c h2.pc, h2.list]
      · rcases (show v = c ∨ v = !c by cases v <;> cases c <;> simp) with e | e
        · rw [e, h2.list]
        · rw [e, h2.new]
    all_goals exact hs _ h2

/-- **C79.** While the realtime thread works with a list, the service thread neither stores to that list nor has stores to it outstanding. -/
theorem C79_tso_exclusive {s : St} {v : Bool} (h : Reach s) (hv : s.rt = .running v) :
    s.nrt ≠ .build (!v) ∧ s.nrt ≠ .clear v ∧ ∀ i x, Wr.list v i x ∉ s.nbuf := by
  obtain ⟨hok, h2⟩ := h.listInv
  have key : ∀ c, s.rt.On c → c = v := fun c hc => by rw [hv] at hc; exact hc.symm
  have hs : ∀ c, Settled s c → ∀ i x, Wr.list v i x ∉ s.nbuf := fun c hc i x hm => by
    have : v = !c := hc.nbuf _ hm
    rw [key c hc.pc] at this
    cases v <;> simp at this
  refine ⟨fun hn => ?_, fun hn => ?_, ?_⟩
  · rw [hn] at h2
    have := key _ (show Settled s (!v) from h2).pc
    cases v <;> simp at this
  · rw [hn] at h2
    have := key _ (show Settled s (!v) from h2).pc
    cases v <;> simp at this
  · cases hn : s.nrt <;> rw [hn] at h2 <;> dsimp only at h2
    case wait2 c =>
      rcases h2 with h2 | h2
      · intro i x hm
        obtain ⟨pre, hb, ho⟩ := h2.nbuf
        rw [hb] at hm
        rcases List.mem_append.1 hm with hm | hm
        · have : v = !c := ho _ hm
          rw [key c h2.pc] at this
          cases v <;> simp at this
        · simp at hm
      · intro i x hm; rw [h2.nbuf] at hm; cases hm
    all_goals exact hs _ h2

/-- **C79.** When the service thread clears the former list and destroys the controllers on it, the realtime thread is not in a cycle on that list, and all stores
it issued in such cycles — to the controllers and their statistics — have reached memory: none can hit a destroyed controller. -/
theorem C79_tso_no_late_stores {s : St} {c : Bool} (h : Reach s) (hn : s.nrt = .clear c) : s.rt.On (!c) ∧ ∀ e ∈ s.rbuf, e.lst = !c := by
  have h2 := h.listInv.2
  rw [hn] at h2
  have h2 : Settled s (!c) := h2
  exact ⟨h2.pc, h2.buf⟩

/-- **C80.** The requests the realtime thread loads while executing a switch are those the service thread has written. -/
theorem C80_tso_requests {s s' : St} {i x : Nat} (h : Reach s) (hst : Step s (.rtReadReq i x) s') : x = s.asked i ∧ s.nrt = .waitSwitch ∧ s.nbuf = [] := by
  cases hst with
  | rtReadReq v i hv =>
    obtain ⟨hn, he⟩ := exec_of_switching h.switchInv (by rw [hv]; trivial)
    obtain ⟨h1, h2⟩ := he.req ⟨v, hv⟩
    rw [rview_req_of h1, h2]
    exact ⟨rfl, hn, he.nbuf⟩

/-- **C80.** When `switch_controller` returns, the realtime thread has executed the request exactly once, and every store it issued in doing so — the new states of the
controllers, the cleared request vectors — has reached memory; it is not looking at the request vectors any more. -/
theorem C80_tso_switch_done {s s' : St} (h : Reach s) (hst : Step s .switchReturns s') :
    s.rounds = 1 ∧ (∀ e ∈ s.rbuf, e.sw = false) ∧ (∀ v, s.rt ≠ .switching v ∧ s.rt ≠ .clearing v) ∧ s.mem.please = false := by
  have hn : s.nrt = .waitSwitch := by cases hst; assumption
  have h2 := (h.switchInv.step hst).2
  have hn' : s'.nrt = .switched := by cases hst; rfl
  rw [hn'] at h2
  have h2 : Quiet s' ∧ s'.rounds = 1 := h2
  cases hst with
  | sDone _ hp =>
    refine ⟨h2.2, h2.1.buf, fun v => ⟨fun e => h2.1.pc ?_, fun e => h2.1.pc ?_⟩, h2.1.please⟩
    · change s.rt.Switching
      rw [e]; trivial
    · change s.rt.Switching
      rw [e]; trivial

/-- **C80.** The realtime thread never executes a switch nobody is waiting for, and never twice. -/
theorem C80_tso_switch_once {s : St} {v : Bool} (h : Reach s) (hv : s.rt = .switching v ∨ s.rt = .clearing v) : s.nrt = .waitSwitch ∧ s.rounds = 1 := by
  obtain ⟨hn, he⟩ := exec_of_switching h.switchInv (by rcases hv with hv | hv <;> rw [hv] <;> trivial)
  exact ⟨hn, he.rounds⟩

/-! ## Concrete runs -/

/-- Memory after the first cycle on list 0. -/
def exMem : Mem := { cur := false, used := some false, please := false, list := fun _ _ => 0, req := fun _ => 0, obj := fun _ => 0 }

/-- A start state. -/
def exSt : St := { mem := exMem, rbuf := [], nbuf := [], rt := .idle, nrt := .idle, handed := fun _ _ => 0, asked := fun _ => 0, rounds := 0 }

example : Start exSt := ⟨rfl, rfl, rfl, rfl, rfl, rfl, fun _ _ => rfl⟩

/-- A load: the service thread puts 7 on list 1 and publishes the list; both stores reach memory; the realtime thread starts a cycle. -/
theorem exLoad : ∃ s, Reach s ∧ s.rt = .running true ∧ s.nrt = .wait2 false ∧ s.rbuf ≠ [] ∧ s.handed true 0 = 7 ∧ s.nbuf = [] ∧ s.rview.list true 0 = 7 := by
  refine ⟨_, .step _ _ _ (.step _ _ _ (.step _ _ _ (.step _ _ _ (.step _ _ _ (.step _ _ _ (.step _ _ _ (.step _ _ _ (.start exSt ⟨rfl, rfl, rfl, rfl, rfl, rfl, fun _ _ => rfl⟩)
    (.nBegin _ rfl rfl)) (.nFree _ false rfl (by decide))) (.nBuild _ false 0 7 rfl)) (.nSwap _ false rfl)) (.nDrain _ _ _ rfl)) (.nDrain _ _ _ rfl)) (.rtLoadCur _ rfl)) (.rtStoreUsed _ true rfl), rfl, rfl, ?_, rfl, rfl, rfl⟩
  intro h; cases h

/-- The hypotheses of `C79_tso_lists` are met with a value that is not the initial one, while the realtime thread's store of `used_by_realtime_` is still buffered. -/
example : ∃ s s', Reach s ∧ Step s (.rtReadList true 0 7) s' ∧ s.rbuf ≠ [] := by
  obtain ⟨s, h, hr, _, hb, _, _, hv⟩ := exLoad
  refine ⟨s, s, h, ?_, hb⟩
  have := Step.rtReadList s true 0 hr
  rw [hv] at this
  exact this

/-- The hypotheses of `C79_tso_no_late_stores` are met: the store of `used_by_realtime_` reaches memory and the service thread goes on. -/
example : ∃ s, Reach s ∧ s.nrt = .clear false ∧ s.rt = .running true := by
  refine ⟨_, .step _ _ _ (.step _ _ _ (.step _ _ _ (.step _ _ _ (.step _ _ _ (.step _ _ _ (.step _ _ _ (.step _ _ _ (.step _ _ _ (.step _ _ _ (.start exSt ⟨rfl, rfl, rfl, rfl, rfl, rfl, fun _ _ => rfl⟩)
    (.nBegin _ rfl rfl)) (.nFree _ false rfl (by decide))) (.nBuild _ false 0 7 rfl)) (.nSwap _ false rfl)) (.nDrain _ _ _ rfl)) (.nDrain _ _ _ rfl)) (.rtLoadCur _ rfl)) (.rtStoreUsed _ true rfl))
    (.rtDrain _ _ _ rfl)) (.nSeen _ false rfl (by decide)), rfl, rfl⟩

/-- A switch: request 3 in word 0, executed by the realtime thread with a store to a controller. -/
example : ∃ s s', Reach s ∧ Step s (.rtReadReq 0 3) s' := by
  refine ⟨_, _, .step _ _ _ (.step _ _ _ (.step _ _ _ (.step _ _ _ (.step _ _ _ (.step _ _ _ (.step _ _ _ (.step _ _ _ (.start exSt ⟨rfl, rfl, rfl, rfl, rfl, rfl, fun _ _ => rfl⟩)
    (.sBegin _ rfl rfl)) (.sReq _ 0 3 rfl)) (.sGo _ rfl)) (.nDrain _ _ _ rfl)) (.nDrain _ _ _ rfl)) (.rtLoadCur _ rfl)) (.rtStoreUsed _ false rfl)) (.rtSwitch _ false rfl rfl),
    .rtReadReq _ false 0 rfl⟩

/-- … and the call returns while the realtime thread is already in its next cycle, with stores of that cycle buffered. -/
example : ∃ s s', Reach s ∧ Step s .switchReturns s' ∧ s.rbuf ≠ [] ∧ s.mem.obj 5 = 9 := by
  refine ⟨_, _, .step _ _ _ (.step _ _ _ (.step _ _ _ (.step _ _ _ (.step _ _ _ (.step _ _ _ (.step _ _ _ (.step _ _ _ (.step _ _ _ (.step _ _ _ (.step _ _ _ (.step _ _ _ (.step _ _ _ (.step _ _ _ (.step _ _ _ (.step _ _ _ (.step _ _ _ (.step _ _ _ (.start exSt ⟨rfl, rfl, rfl, rfl, rfl, rfl, fun _ _ => rfl⟩)
    (.sBegin _ rfl rfl)) (.sReq _ 0 3 rfl)) (.sGo _ rfl)) (.nDrain _ _ _ rfl)) (.nDrain _ _ _ rfl)) (.rtLoadCur _ rfl)) (.rtStoreUsed _ false rfl)) (.rtSwitch _ false rfl rfl))
    (.rtSwitchObj _ false 5 9 rfl)) (.rtClear _ false rfl)) (.rtClearReq _ false 0 0 rfl)) (.rtDone _ false rfl)) (.rtDrain _ _ _ rfl)) (.rtDrain _ _ _ rfl)) (.rtDrain _ _ _ rfl)) (.rtDrain _ _ _ rfl))
    (.rtLoadCur _ rfl)) (.rtStoreUsed _ false rfl), .sDone _ rfl rfl, ?_, rfl⟩
  intro h; cases h

/-! ## Without store order -/

/-- Two stores to the same location. -/
def Wr.sameLoc : Wr → Wr → Bool
  | .cur _, .cur _ => true
  | .used _, .used _ => true
  | .please _, .please _ => true
  | .list b i _, .list c j _ => b == c && i == j
  | .req i _, .req j _ => i == j
  | .obj i _, .obj j _ => i == j
  | _, _ => false

/-- The same program on a machine (or after a compiler) that keeps the order of stores only per location: a buffered store of the service thread may reach memory
before older stores to other locations. -/
inductive WeakReach : St → Prop
  | start (s : St) : Start s → WeakReach s
  | step (s s' : St) (l : Label) : WeakReach s → Step s l s' → WeakReach s'
  | drain (s : St) (a b : List Wr) (w : Wr) : WeakReach s → s.nbuf = a ++ w :: b → (∀ x ∈ a, x.sameLoc w = false) →
      WeakReach { s with mem := w.apply s.mem, nbuf := a ++ b }

/-- The store order is needed: without it the realtime thread can load from a list that has not been written yet. -/
theorem C79_needs_store_order : ∃ s s' x, WeakReach s ∧ Step s (.rtReadList true 0 x) s' ∧ x ≠ s.handed true 0 := by
  refine ⟨_, _, _, .step _ _ _ (.step _ _ _ (.drain _ [.list true 0 7] [] (.cur true) (.step _ _ _ (.step _ _ _ (.step _ _ _ (.step _ _ _ (.start exSt ⟨rfl, rfl, rfl, rfl, rfl, rfl, fun _ _ => rfl⟩)
    (.nBegin _ rfl rfl)) (.nFree _ false rfl (by decide))) (.nBuild _ false 0 7 rfl)) (.nSwap _ false rfl)) rfl (by decide)) (.rtLoadCur _ rfl)) (.rtStoreUsed _ true rfl),
    .rtReadList _ true 0 rfl, ?_⟩
  decide

/-- … and execute a switch with requests that have not been written yet. -/
theorem C80_needs_store_order : ∃ s s' x, WeakReach s ∧ Step s (.rtReadReq 0 x) s' ∧ x ≠ s.asked 0 := by
  refine ⟨_, _, _, .step _ _ _ (.step _ _ _ (.step _ _ _ (.drain _ [.req 0 3] [] (.please true) (.step _ _ _ (.step _ _ _ (.step _ _ _ (.start exSt ⟨rfl, rfl, rfl, rfl, rfl, rfl, fun _ _ => rfl⟩)
    (.sBegin _ rfl rfl)) (.sReq _ 0 3 rfl)) (.sGo _ rfl)) rfl (by decide)) (.rtLoadCur _ rfl)) (.rtStoreUsed _ false rfl)) (.rtSwitch _ false rfl rfl),
    .rtReadReq _ false 0 rfl, ?_⟩
  decide

end Pr2.Tso
