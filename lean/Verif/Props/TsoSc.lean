import Verif.Model.TsoSc
import Verif.Props.Tso

/-!
# C112: with store buffers the two threads behave as they do without
-/

namespace Pr2.Tso

variable {objs : (Nat → Nat) → Nat → Prop}

/-! ## The named instructions are those of `Step` -/

theorem Fires.step {a : Act} {s s' : St} (h : Fires a s s') : s' = s ∨ ∃ l, Step s l s' := by
  cases h
  case readObj => exact .inl rfl
  case readList v i h => exact .inr ⟨_, .rtReadList s v i h⟩
  case readReq v i h => exact .inr ⟨_, .rtReadReq s v i h⟩
  all_goals
    right
    first
    | exact ⟨_, .rtLoadCur _ ‹_›⟩
    | exact ⟨_, .rtStoreUsed _ _ ‹_›⟩
    | exact ⟨_, .rtWriteObj _ _ _ _ ‹_›⟩
    | exact ⟨_, .rtNoSwitch _ _ ‹_› ‹_›⟩
    | exact ⟨_, .rtSwitch _ _ ‹_› ‹_›⟩
    | exact ⟨_, .rtSwitchObj _ _ _ _ ‹_›⟩
    | exact ⟨_, .rtClear _ _ ‹_›⟩
    | exact ⟨_, .rtClearReq _ _ _ _ ‹_›⟩
    | exact ⟨_, .rtDone _ _ ‹_›⟩
    | exact ⟨_, .rtDrain _ _ _ ‹_›⟩
    | exact ⟨_, .nBegin _ ‹_› ‹_›⟩
    | exact ⟨_, .nFree _ _ ‹_› ‹_›⟩
    | exact ⟨_, .nBuild _ _ _ _ ‹_›⟩
    | exact ⟨_, .nNewObj _ _ _ _ ‹_›⟩
    | exact ⟨_, .nFail _ _ ‹_›⟩
    | exact ⟨_, .nSwap _ _ ‹_›⟩
    | exact ⟨_, .nSeen _ _ ‹_› ‹_›⟩
    | exact ⟨_, .nClear _ _ _ _ ‹_›⟩
    | exact ⟨_, .nDestroy _ _ _ _ ‹_›⟩
    | exact ⟨_, .nDone _ _ ‹_›⟩
    | exact ⟨_, .sBegin _ ‹_› ‹_›⟩
    | exact ⟨_, .sReq _ _ _ ‹_›⟩
    | exact ⟨_, .sFail _ ‹_›⟩
    | exact ⟨_, .sGo _ ‹_›⟩
    | exact ⟨_, .sDone _ ‹_› ‹_›⟩
    | exact ⟨_, .sReturn _ ‹_›⟩
    | exact ⟨_, .nDrain _ _ _ ‹_›⟩

theorem Step.fires {l : Label} {s s' : St} (h : Step s l s') : ∃ a, Fires a s s' := by
  cases h
  case rtLoadCur h => exact ⟨_, .loadCur _ h⟩
  case rtStoreUsed h => exact ⟨_, .storeUsed _ _ h⟩
  case rtReadList v i h => exact ⟨_, .readList s v i h⟩
  case rtWriteObj h => exact ⟨_, .writeObj _ _ _ _ h⟩
  case rtNoSwitch h h1 => exact ⟨_, .noSwitch _ _ h h1⟩
  case rtSwitch h h1 => exact ⟨_, .doSwitch _ _ h h1⟩
  case rtReadReq v i h => exact ⟨_, .readReq s v i h⟩
  case rtSwitchObj h => exact ⟨_, .switchObj _ _ _ _ h⟩
  case rtClear h => exact ⟨_, .toClear _ _ h⟩
  case rtClearReq h => exact ⟨_, .clearReq _ _ _ _ h⟩
  case rtDone h => exact ⟨_, .endSwitch _ _ h⟩
  case rtDrain h => exact ⟨_, .rDrain _ _ _ h⟩
  case nBegin h1 h2 => exact ⟨_, .begin' _ h1 h2⟩
  case nFree h h1 => exact ⟨_, .free _ _ h h1⟩
  case nBuild h => exact ⟨_, .build _ _ _ _ h⟩
  case nNewObj h => exact ⟨_, .newObj _ _ _ _ h⟩
  case nFail h => exact ⟨_, .fail _ _ h⟩
  case nSwap h => exact ⟨_, .swap _ _ h⟩
  case nSeen h h1 => exact ⟨_, .seen _ _ h h1⟩
  case nClear h => exact ⟨_, .clear _ _ _ _ h⟩
  case nDestroy h => exact ⟨_, .destroy _ _ _ _ h⟩
  case nDone h => exact ⟨_, .finish _ _ h⟩
  case sBegin h1 h2 => exact ⟨_, .sBegin _ h1 h2⟩
  case sReq h => exact ⟨_, .sReq _ _ _ h⟩
  case sFail h => exact ⟨_, .sFail _ h⟩
  case sGo h => exact ⟨_, .sGo _ h⟩
  case sDone h1 h2 => exact ⟨_, .sDone _ h1 h2⟩
  case sReturn h => exact ⟨_, .sReturn _ h⟩
  case nDrain h => exact ⟨_, .nDrain _ _ _ h⟩

theorem TsoRun.reach {s0 : St} (h0 : Start s0) {tr : List Act} {t : St} (h : TsoRun objs s0 tr t) : Reach t := by
  induction h with
  | nil => exact .start _ h0
  | snoc _ hf _ ih =>
    rcases hf.step with rfl | ⟨l, hl⟩
    · exact ih
    · exact .step _ _ _ ih hl

/-! ## Ownership of the objects -/

/-- The stores to objects the realtime thread has issued concern objects of the list it was working with. -/
def Own (objs : (Nat → Nat) → Nat → Prop) (t : St) : Prop := ∀ e ∈ t.rbuf, ∀ i x, e.wr = .obj i x → objs (t.mem.list e.lst) i

/-- While stores of the service thread are outstanding the realtime thread works with one list. -/
theorem oneList {t : St} (h : ListInv t) (hb : t.nbuf ≠ []) :
    OnlyUses t t.mem.cur ∧ (∀ w ∈ t.nbuf, w.Ok t.mem.cur ∨ ∃ b, w = .cur b) ∧ (∀ w r, t.nbuf = w :: r → (∃ b, w = .cur b) → r = []) := by
  have hs : ∀ c, Settled t c → OnlyUses t t.mem.cur ∧ (∀ w ∈ t.nbuf, w.Ok t.mem.cur ∨ ∃ b, w = .cur b) ∧
      (∀ w r, t.nbuf = w :: r → (∃ b, w = .cur b) → r = []) := by
    intro c hc
    have hcur := hc.cur
    subst hcur
    refine ⟨hc.toOnlyUses, fun w hw => .inl (hc.nbuf w hw), fun w r hr hw => ?_⟩
    obtain ⟨b, rfl⟩ := hw
    exact (hc.nbuf (.cur b) (by rw [hr]; exact List.mem_cons_self)).elim
  have h2 := h.2
  cases hn : t.nrt <;> rw [hn] at h2 <;> dsimp only at h2
  case wait2 c =>
    rcases h2 with h2 | h2
    · have hcur := h2.cur
      obtain ⟨pre, hp, ho⟩ := h2.nbuf
      subst hcur
      refine ⟨h2.toOnlyUses, fun w hw => ?_, fun w r hr hw => ?_⟩
      · rw [hp] at hw
        rcases List.mem_append.1 hw with hw | hw
        · exact .inl (ho w hw)
        · exact .inr ⟨_, List.mem_singleton.1 hw⟩
      · obtain ⟨b, rfl⟩ := hw
        rw [hp] at hr
        cases pre with
        | nil => exact (List.cons.inj hr).2.symm
        | cons z pre =>
          obtain ⟨rfl, _⟩ := List.cons.inj hr
          exact (ho _ List.mem_cons_self).elim
    · exact (hb h2.nbuf).elim
  all_goals exact hs _ h2

theorem rlist_put {l : List RtWr} {e' : RtWr} {P : RtWr → Prop} (h : ∀ e ∈ l, P e) (h' : P e') : ∀ e ∈ l ++ [e'], P e := by
  intro e he
  rcases List.mem_append.1 he with he | he
  · exact h e he
  · rw [List.mem_singleton.1 he]; exact h'

theorem Own.step {t t' : St} {a : Act} (hl : ListInv t) (h : Own objs t) (hf : Fires a t t') (ho : a.Owned objs t) : Own objs t' := by
  cases hf
  case storeUsed v hv => exact rlist_put h (fun i x e => by cases e)
  case writeObj v i x hv =>
    refine rlist_put h (fun i' x' e => ?_)
    cases e
    have := ho
    unfold Act.Owned at this
    rw [rview_list hl.1] at this
    exact this
  case switchObj v i x hv =>
    refine rlist_put h (fun i' x' e => ?_)
    cases e
    have := ho
    unfold Act.Owned at this
    rw [rview_list hl.1] at this
    exact this
  case clearReq v i x hv => exact rlist_put h (fun i x e => by cases e)
  case endSwitch v hv => exact rlist_put h (fun i x e => by cases e)
  case rDrain e r hr =>
    intro e' he' i x hw
    have := h e' (by rw [hr]; exact List.mem_cons_of_mem _ he') i x hw
    rw [show (e.wr.apply t.mem).list = t.mem.list from ((hl.1 e (by rw [hr]; exact List.mem_cons_self)).mem t.mem).1]
    exact this
  case nDrain w r hr =>
    intro e he i x hw
    obtain ⟨h1, h2, _⟩ := oneList hl (by rw [hr]; simp)
    have hlst := h1.buf e he
    have : (w.apply t.mem).list e.lst = t.mem.list e.lst := by
      rw [hlst]
      rcases h2 w (by rw [hr]; exact List.mem_cons_self) with hw | ⟨b, rfl⟩
      · exact (hw.mem t.mem).1
      · rfl
    show objs ((w.apply t.mem).list e.lst) i
    rw [this]
    exact h e he i x hw
  all_goals exact h

theorem TsoRun.own {s0 : St} (h0 : Start s0) {tr : List Act} {t : St} (h : TsoRun objs s0 tr t) : Own objs t := by
  induction h with
  | nil => intro e he; rw [h0.rbuf] at he; cases he
  | snoc hr hf ho ih => exact ih.step (hr.reach h0).listInv hf ho

/-! ## What the service thread still has to do on the machine without buffers -/

/-- Instructions of the service threads that do not depend on memory, with the stores they issue. -/
inductive NStep : NPc → Act → List Wr → NPc → Prop
  | build (c i x) : NStep (.build c) (.build i x) [.list (!c) i x] (.build c)
  | newObj (c i x) : NStep (.build c) (.newObj c i x) [.obj i x] (.build c)
  | fail (c) : NStep (.build c) .fail [] .idle
  | swap (c) : NStep (.build c) .swap [.cur (!c)] (.wait2 c)
  | clear (c i x) : NStep (.clear c) (.clear i x) [.list c i x] (.clear c)
  | destroy (c i x) : NStep (.clear c) (.destroy c i x) [.obj i x] (.clear c)
  | finish (c) : NStep (.clear c) .finish [] .idle
  | sReq (i x) : NStep .resolve (.sReq i x) [.req i x] .resolve
  | sFail : NStep .resolve .sFail [] .idle
  | sGo : NStep .resolve .sGo [.please true] .waitSwitch
  | sReturn : NStep .switched .sReturn [] .idle

/-- From position `p` the instructions `ps` issue the stores `ws` and lead to position `q`. -/
inductive Lag : NPc → List Act → List Wr → NPc → Prop
  | nil (p) : Lag p [] [] p
  | cons {p a wo p' ps ws q} : NStep p a wo p' → Lag p' ps ws q → Lag p (a :: ps) (wo ++ ws) q

theorem Lag.snoc {p ps ws q a wo q'} (h : Lag p ps ws q) (hn : NStep q a wo q') : Lag p (ps ++ [a]) (ws ++ wo) q' := by
  induction h with
  | nil p => have := Lag.cons hn (.nil q'); simpa using this
  | cons h1 _ ih => have := Lag.cons h1 (ih hn); simpa using this

theorem Lag.idle {ps ws q} (h : Lag .idle ps ws q) : ps = [] ∧ ws = [] ∧ q = .idle := by
  cases h with
  | nil => exact ⟨rfl, rfl, rfl⟩
  | cons h1 _ => cases h1

/-- The oldest store. -/
theorem Lag.head {p ps w ws q} (h : Lag p ps (w :: ws) q) : ∃ a ps' p', ps = a :: ps' ∧ NStep p a [w] p' ∧ Lag p' ps' ws q := by
  generalize e : w :: ws = l at h
  cases h with
  | nil => cases e
  | @cons _ a wo p' ps ws' _ h1 h2 =>
    cases h1
    case fail => obtain ⟨_, rfl, _⟩ := h2.idle; cases e
    case finish => obtain ⟨_, rfl, _⟩ := h2.idle; cases e
    case sFail => obtain ⟨_, rfl, _⟩ := h2.idle; cases e
    case sReturn => obtain ⟨_, rfl, _⟩ := h2.idle; cases e
    all_goals
      obtain ⟨rfl, rfl⟩ := List.cons.inj e
      exact ⟨_, _, _, rfl, by constructor, h2⟩

theorem Lag.last {p ps ws q} (h : Lag p ps ws q) : (ps = [] ∧ ws = [] ∧ p = q) ∨ ∃ p' ws' a wo, NStep p' a wo q ∧ ws = ws' ++ wo := by
  induction h with
  | nil p => exact .inl ⟨rfl, rfl, rfl⟩
  | @cons p a wo p' ps ws q h1 h2 ih =>
    right
    rcases ih with ⟨rfl, rfl, rfl⟩ | ⟨p1, ws1, a1, wo1, h3, rfl⟩
    · exact ⟨p, [], a, wo, h1, by simp⟩
    · exact ⟨p1, wo ++ ws1, a1, wo1, h3, by simp⟩

theorem Lag.wait1 {p ps ws c} (h : Lag p ps ws (.wait1 c)) : ps = [] ∧ ws = [] ∧ p = .wait1 c := by
  rcases h.last with h | ⟨_, _, _, _, h, _⟩
  · exact h
  · cases h

theorem NStep.service {p a wo q} (h : NStep p a wo q) : a.isService = true ∧ a.isRt = false ∧ a.isLoad = false := by cases h <;> exact ⟨rfl, rfl, rfl⟩

theorem NStep.fires {p a wo q} (h : NStep p a wo q) {s : St} (hs : s.nrt = p) :
    ∃ s', Fires a s s' ∧ s'.mem = s.mem ∧ s'.rbuf = s.rbuf ∧ s'.nbuf = s.nbuf ++ wo ∧ s'.rt = s.rt ∧ s'.nrt = q := by
  cases h
  case build c i x => exact ⟨_, .build s c i x hs, rfl, rfl, rfl, rfl, hs⟩
  case newObj c i x => exact ⟨_, .newObj s c i x hs, rfl, rfl, rfl, rfl, hs⟩
  case fail c => exact ⟨_, .fail s c hs, rfl, rfl, by simp, rfl, rfl⟩
  case swap c => exact ⟨_, .swap s c hs, rfl, rfl, rfl, rfl, rfl⟩
  case clear c i x => exact ⟨_, .clear s c i x hs, rfl, rfl, rfl, rfl, hs⟩
  case destroy c i x => exact ⟨_, .destroy s c i x hs, rfl, rfl, rfl, rfl, hs⟩
  case finish c => exact ⟨_, .finish s c hs, rfl, rfl, by simp, rfl, rfl⟩
  case sReq i x => exact ⟨_, .sReq s i x hs, rfl, rfl, rfl, rfl, hs⟩
  case sFail => exact ⟨_, .sFail s hs, rfl, rfl, by simp, rfl, rfl⟩
  case sGo => exact ⟨_, .sGo s hs, rfl, rfl, rfl, rfl, rfl⟩
  case sReturn => exact ⟨_, .sReturn s hs, rfl, rfl, by simp, rfl, rfl⟩

/-- The instructions that have been delayed concern the list in use as they should. -/
def PendOk (objs : (Nat → Nat) → Nat → Prop) (t : St) : Act → Prop
  | .newObj c i _ => c = t.mem.cur ∧ ¬ objs (t.mem.list c) i
  | .destroy c i _ => (!c) = t.mem.cur ∧ ¬ objs (t.mem.list (!c)) i
  | _ => True

theorem PendOk.congr {t t' : St} {a : Act} (h : PendOk objs t a) (h1 : t'.mem.cur = t.mem.cur) (h2 : t'.mem.list t.mem.cur = t.mem.list t.mem.cur) : PendOk objs t' a := by
  cases a <;> try trivial
  case newObj c i x => obtain ⟨rfl, h⟩ := h; exact ⟨h1.symm, by rw [h2]; exact h⟩
  case destroy c i x => obtain ⟨e, h⟩ := h; exact ⟨e.trans h1.symm, by rw [e, h2, ← e]; exact h⟩

/-- State `t` of the machine with buffers and state `s` of the machine without correspond: the memory of the latter is what the realtime thread sees, and the service thread
has yet to execute `ps`. -/
structure Sim (objs : (Nat → Nat) → Nat → Prop) (t s : St) (ps : List Act) : Prop where
  rbuf : s.rbuf = []
  nbuf : s.nbuf = []
  rt : s.rt = t.rt
  mem : s.mem = t.rview
  lag : Lag s.nrt ps t.nbuf t.nrt
  norm : t.nbuf = [] → ps = []
  ok : ∀ a ∈ ps, PendOk objs t a

theorem Sim.nil {t s : St} {ps : List Act} (h : Sim objs t s ps) (hb : t.nbuf = []) : ps = [] ∧ s.nrt = t.nrt := by
  have hp := h.norm hb
  have hl := h.lag
  subst hp
  rw [hb] at hl
  generalize s.nrt = p at hl ⊢
  generalize t.nrt = q at hl ⊢
  cases hl
  exact ⟨rfl, rfl⟩

/-- Stores of the service thread commute with the outstanding stores of the realtime thread. -/
theorem commute {w : Wr} : ∀ (l : List Wr) (m : Mem), (∀ w' ∈ l, ∀ m, w.apply (w'.apply m) = w'.apply (w.apply m)) → through l (w.apply m) = w.apply (through l m)
  | [], _, _ => rfl
  | w' :: l, m, h => by
    rw [through_cons, through_cons, ← h w' List.mem_cons_self, commute l _ (fun x hx => h x (List.mem_cons_of_mem _ hx))]

/-- What is going on. -/
structure Good (objs : (Nat → Nat) → Nat → Prop) (t : St) : Prop where
  list : ListInv t
  switch : SwitchInv t
  own : Own objs t

theorem rview_used {t : St} {c : Bool} (h : OnlyUses t c) (hok : ∀ e ∈ t.rbuf, e.Ok) : t.rview.used = some c := by
  have : ∀ (l : List RtWr) (m : Mem), m.used = some c → (∀ e ∈ l, e.Ok ∧ e.lst = c) → (through (l.map (·.wr)) m).used = some c := by
    intro l
    induction l with
    | nil => intro m h _; exact h
    | cons e l ih =>
      intro m h hl
      rw [List.map_cons, through_cons]
      refine ih _ ?_ (fun e he => hl e (List.mem_cons_of_mem _ he))
      obtain ⟨h1, h2⟩ := hl e List.mem_cons_self
      rcases (h1.mem m).2.2 with h3 | h3
      · exact h3.trans h
      · rw [h3, h2]
  exact this _ _ h.used (fun e he => ⟨hok e he, h.buf e he⟩)

theorem flush_of {s s' : St} {wo : List Wr} (h1 : s'.mem = s.mem) (h2 : s'.rbuf = s.rbuf) (h3 : s'.nbuf = s.nbuf ++ wo) (hr : s.rbuf = []) (hn : s.nbuf = []) :
    s'.flush.mem = through wo s.mem := by
  unfold St.flush
  rw [h2, hr, h3, hn, h1]
  rfl

/-- The service thread executes delayed instructions without stores. -/
theorem catchUp {s0 : St} {ps : List Act} : ∀ {tr : List Act} {s : St} {q : NPc}, ScRun objs s0 tr s → s.rbuf = [] → s.nbuf = [] → Lag s.nrt ps [] q →
    ∃ s', ScRun objs s0 (tr ++ ps) s' ∧ s'.rbuf = [] ∧ s'.nbuf = [] ∧ s'.rt = s.rt ∧ s'.mem = s.mem ∧ s'.nrt = q ∧
      (∀ a ∈ ps, a.isRt = false ∧ a.isLoad = false ∧ a.isService = true) := by
  induction ps with
  | nil =>
    intro tr s q hr h1 h2 hl
    cases hl
    exact ⟨s, by simpa using hr, h1, h2, rfl, rfl, rfl, by simp⟩
  | cons a ps ih =>
    intro tr s q hr h1 h2 hl
    generalize ew : ([] : List Wr) = ws at hl
    cases hl with
    | @cons _ _ wo p' _ ws' _ hn hl =>
      obtain ⟨rfl, rfl⟩ : wo = [] ∧ ws' = [] := List.append_eq_nil_iff.1 ew.symm
      obtain ⟨s', hf, e1, e2, e3, e4, e5⟩ := hn.fires rfl
      have ho : a.Owned objs s := by
        generalize s.nrt = p at hn
        cases hn <;> trivial
      have := ih (s := s'.flush) (hr.snoc hf ho) rfl rfl (q := q) (by rw [show s'.flush.nrt = p' from e5]; exact hl)
      obtain ⟨s'', h3, h4, h5, h6, h7, h8, h9⟩ := this
      refine ⟨s'', by simpa using h3, h4, h5, h6.trans e4, h7.trans (flush_of e1 e2 e3 h1 h2), h8, ?_⟩
      intro b hb
      rcases List.mem_cons.1 hb with rfl | hb
      · exact ⟨hn.service.2.1, hn.service.2.2, hn.service.1⟩
      · exact h9 b hb

/-! ## The simulation, instruction by instruction -/

theorem view_of_empty {s : St} (h1 : s.rbuf = []) (h2 : s.nbuf = []) : s.rview = s.mem ∧ s.nview = s.mem := by
  unfold St.rview St.nview
  rw [h1, h2]
  exact ⟨rfl, rfl⟩

theorem flush_r {s s' : St} {e : RtWr} (h1 : s'.mem = s.mem) (h2 : s'.rbuf = s.rbuf ++ [e]) (h3 : s'.nbuf = s.nbuf) (hr : s.rbuf = []) (hn : s.nbuf = []) :
    s'.flush.mem = e.wr.apply s.mem := by
  unfold St.flush
  rw [h2, hr, h3, hn, h1]
  rfl

theorem rview_put (t : St) (w : Wr) (v k : Bool) : (t.rput w v k).rview = w.apply t.rview := by
  unfold St.rview St.rput
  dsimp only
  rw [List.map_append, through_append]
  rfl

theorem put_mem {s t : St} (w : Wr) (v k : Bool) (h1 : s.rbuf = []) (h2 : s.nbuf = []) (h4 : s.mem = t.rview) : (s.rput w v k).flush.mem = (t.rput w v k).rview := by
  rw [rview_put, ← h4]
  exact flush_r (e := ⟨w, v, k⟩) rfl rfl rfl h1 h2

/-- An instruction of the realtime thread. -/
theorem rt_sim {a : Act} {t t' s : St} (hf : Fires a t t') (ha : a.isRt = true) (h1 : s.rbuf = []) (h2 : s.nbuf = []) (h3 : s.rt = t.rt) (h4 : s.mem = t.rview) :
    ∃ s1, Fires a s s1 ∧ s1.flush.mem = t'.rview ∧ s1.rt = t'.rt ∧ s1.nrt = s.nrt ∧ t'.nbuf = t.nbuf ∧ t'.nrt = t.nrt ∧ t'.mem = t.mem := by
  obtain ⟨hv, -⟩ := view_of_empty h1 h2
  rw [h4] at hv
  have hid : ∀ s1 : St, s1.mem = s.mem → s1.rbuf = s.rbuf → s1.nbuf = s.nbuf → s1.flush.mem = s.mem := by
    intro s1 e1 e2 e3
    unfold St.flush
    rw [e1, e2, e3, h1, h2]
    rfl
  cases hf <;> try (exact absurd ha Bool.false_ne_true)
  case loadCur h =>
    have hf' := Fires.loadCur s (h3.trans h)
    rw [hv] at hf'
    exact ⟨_, hf', (hid _ rfl rfl rfl).trans h4, rfl, rfl, rfl, rfl, rfl⟩
  case storeUsed v h =>
    have hf' := Fires.storeUsed s v (h3.trans h)
    exact ⟨_, hf', put_mem (.used v) v false h1 h2 h4, rfl, rfl, rfl, rfl, rfl⟩
  case readList v i h =>
    refine ⟨s, ?_, (hid _ rfl rfl rfl).trans h4, h3, rfl, rfl, rfl, rfl⟩
    have := Fires.readList s v i (h3.trans h)
    rwa [hv] at this
  case readObj v i h =>
    refine ⟨s, ?_, (hid _ rfl rfl rfl).trans h4, h3, rfl, rfl, rfl, rfl⟩
    have := Fires.readObj s v i (by rw [h3]; exact h)
    rwa [hv] at this
  case writeObj v i x h =>
    have hf' := Fires.writeObj s v i x (h3.trans h)
    exact ⟨_, hf', put_mem (.obj i x) v false h1 h2 h4, h3, rfl, rfl, rfl, rfl⟩
  case noSwitch v h hp => exact ⟨_, .noSwitch s v (h3.trans h) (by rw [hv]; exact hp), (hid _ rfl rfl rfl).trans h4, rfl, rfl, rfl, rfl, rfl⟩
  case doSwitch v h hp => exact ⟨_, .doSwitch s v (h3.trans h) (by rw [hv]; exact hp), (hid _ rfl rfl rfl).trans h4, rfl, rfl, rfl, rfl, rfl⟩
  case readReq v i h =>
    refine ⟨s, ?_, (hid _ rfl rfl rfl).trans h4, h3, rfl, rfl, rfl, rfl⟩
    have := Fires.readReq s v i (h3.trans h)
    rwa [hv] at this
  case switchObj v i x h =>
    have hf' := Fires.switchObj s v i x (h3.trans h)
    exact ⟨_, hf', put_mem (.obj i x) v true h1 h2 h4, h3, rfl, rfl, rfl, rfl⟩
  case toClear v h => exact ⟨_, .toClear s v (h3.trans h), (hid _ rfl rfl rfl).trans h4, rfl, rfl, rfl, rfl, rfl⟩
  case clearReq v i x h =>
    have hf' := Fires.clearReq s v i x (h3.trans h)
    exact ⟨_, hf', put_mem (.req i x) v true h1 h2 h4, h3, rfl, rfl, rfl, rfl⟩
  case endSwitch v h =>
    have hf' := Fires.endSwitch s v (h3.trans h)
    exact ⟨_, hf', put_mem (.please false) v true h1 h2 h4, rfl, rfl, rfl, rfl, rfl⟩

theorem Fires.nstep {a : Act} {t t' : St} (hf : Fires a t t') (ha : a.isService = true) (hl : a.isLoad = false) :
    ∃ wo, NStep t.nrt a wo t'.nrt ∧ t'.nbuf = t.nbuf ++ wo ∧ t'.mem = t.mem ∧ t'.rbuf = t.rbuf ∧ t'.rt = t.rt := by
  cases hf <;> first | exact absurd ha Bool.false_ne_true | exact absurd hl.symm Bool.false_ne_true | skip
  case build c i x h => exact ⟨_, by change NStep t.nrt _ _ t.nrt; rw [h]; exact .build c i x, rfl, rfl, rfl, rfl⟩
  case newObj c i x h => exact ⟨_, by change NStep t.nrt _ _ t.nrt; rw [h]; exact .newObj c i x, rfl, rfl, rfl, rfl⟩
  case fail c h => exact ⟨_, by rw [h]; exact .fail c, by simp, rfl, rfl, rfl⟩
  case swap c h => exact ⟨_, by rw [h]; exact .swap c, rfl, rfl, rfl, rfl⟩
  case clear c i x h => exact ⟨_, by change NStep t.nrt _ _ t.nrt; rw [h]; exact .clear c i x, rfl, rfl, rfl, rfl⟩
  case destroy c i x h => exact ⟨_, by change NStep t.nrt _ _ t.nrt; rw [h]; exact .destroy c i x, rfl, rfl, rfl, rfl⟩
  case finish c h => exact ⟨_, by rw [h]; exact .finish c, by simp, rfl, rfl, rfl⟩
  case sReq i x h => exact ⟨_, by change NStep t.nrt _ _ t.nrt; rw [h]; exact .sReq i x, rfl, rfl, rfl, rfl⟩
  case sFail h => exact ⟨_, by rw [h]; exact .sFail, by simp, rfl, rfl, rfl⟩
  case sGo h => exact ⟨_, by rw [h]; exact .sGo, rfl, rfl, rfl, rfl⟩
  case sReturn h => exact ⟨_, by rw [h]; exact .sReturn, by simp, rfl, rfl, rfl⟩

theorem settled_nview {t : St} {c : Bool} (h : Settled t c) : t.nview.list c = t.mem.list c :=
  through_proj (·.list c) _ _ (fun w hw m => (h.nbuf w hw |>.mem m).1)

theorem pendOk_new {t : St} {a : Act} {wo : List Wr} {q : NPc} (hl : ListInv t) (hn : NStep t.nrt a wo q) (ho : a.Owned objs t) : PendOk objs t a := by
  have h2 := hl.2
  generalize hp : t.nrt = p at hn h2
  cases hn <;> try trivial
  case newObj c i x =>
    have h2 : Settled t c := h2
    refine ⟨h2.cur.symm, ?_⟩
    rw [← settled_nview h2]
    exact ho
  case destroy c i x =>
    have h2 : Settled t (!c) := h2
    refine ⟨h2.cur.symm, ?_⟩
    rw [← settled_nview h2]
    exact ho

/-- What the realtime thread or a load of the service thread does not get in the way of. -/
def Act.sees (a : Act) : Bool := a.isRt || a.isLoad

/-- The oldest store of the service thread and the outstanding stores of the realtime thread concern different words. -/
theorem drain_commutes {t s : St} {ps : List Act} (hg : Good objs t) (h : Sim objs t s ps) {w : Wr} {r : List Wr} (hr : t.nbuf = w :: r) :
    through (t.rbuf.map (·.wr)) (w.apply t.mem) = w.apply t.rview := by
  obtain ⟨h1, h2, -⟩ := oneList hg.list (by rw [hr]; simp)
  have hlag := h.lag
  rw [hr] at hlag
  obtain ⟨a, ps', p', rfl, hn, hl'⟩ := hlag.head
  have hpa := h.ok a List.mem_cons_self
  have calm : (w.isReq = true ∨ w.isPlease = true) → ∀ e ∈ t.rbuf, e.sw = false := by
    intro hw e he
    have h3 := hg.switch.2
    have quiet : Quiet t → e.sw = false := fun q => q.buf e he
    cases hnt : t.nrt <;> rw [hnt] at h3 <;> dsimp only at h3
    case waitSwitch =>
      rcases h3 with h3 | h3 | h3 | h3 | h3
      · exact h3.buf e he
      · exact h3.buf e he
      · rw [h3.nbuf] at hr; cases hr
      · rw [h3.nbuf] at hr; cases hr
      · exact quiet h3.1
    case switched => exact quiet h3.1
    all_goals exact quiet h3
  refine commute _ _ ?_
  intro w' hw' m
  obtain ⟨e, he, rfl⟩ := List.mem_map.1 hw'
  have hok := hg.list.1 e he
  have hlst := h1.buf e he
  unfold RtWr.Ok at hok
  have hown := hg.own e he
  cases hwr : e.wr <;> rw [hwr] at hok hown
  case cur => exact hok.elim
  case list => exact hok.elim
  case used b =>
    cases w <;> try rfl
    rcases h2 _ (by rw [hr]; exact List.mem_cons_self) with h | ⟨_, h⟩
    exacts [h.elim, by cases h]
  case please b =>
    cases w <;> first | rfl | skip
    have := calm (.inr rfl) e he
    rw [hok.2] at this
    cases this
  case req i x =>
    cases w <;> first | rfl | skip
    have := calm (.inl rfl) e he
    rw [show e.sw = true from hok] at this
    cases this
  case obj i x =>
    have ho := hown i x rfl
    rw [hlst] at ho
    have hne : ∀ i' x', w = .obj i' x' → i' ≠ i := by
      rintro i' x' rfl rfl
      generalize s.nrt = p at hn
      cases hn
      case newObj c => exact hpa.2 (by rw [hpa.1]; exact ho)
      case destroy c => exact hpa.2 (by rw [hpa.1]; exact ho)
    cases w <;> first | rfl | skip
    case obj i' x' =>
      have := hne i' x' rfl
      simp only [Wr.apply, Mem.mk.injEq, true_and]
      funext k
      by_cases h1 : k = i'
      · subst h1; simp [this]
      · simp [h1]

theorem Sim.step {s0 : St} {t t' s : St} {a : Act} {ps tr : List Act} (hg : Good objs t) (h : Sim objs t s ps) (hr : ScRun objs s0 tr s) (hf : Fires a t t')
    (ho : a.Owned objs t) : ∃ acts s' ps', ScRun objs s0 (tr ++ acts) s' ∧ Sim objs t' s' ps' ∧ acts.filter Act.sees = [a].filter Act.sees ∧
      acts.filter Act.isService ++ ps' = ps ++ [a].filter Act.isService := by
  obtain ⟨hv, hnv⟩ := view_of_empty h.rbuf h.nbuf
  by_cases hrt : a.isRt = true
  · obtain ⟨s1, h1, h2, h3, h4, h5, h6, h7⟩ := rt_sim hf hrt h.rbuf h.nbuf h.rt h.mem
    have hs : a.isService = false := by cases a <;> first | rfl | cases hrt
    have howned : a.Owned objs s := by
      rw [h.mem] at hv
      cases a <;> try trivial
      case readObj => change objs (s.rview.list _) _; rw [hv]; exact ho
      case writeObj => change objs (s.rview.list _) _; rw [hv]; exact ho
      case switchObj => change objs (s.rview.list _) _; rw [hv]; exact ho
    refine ⟨[a], _, ps, hr.snoc h1 howned, ⟨rfl, rfl, h3, h2, ?_, ?_, fun b hb => ?_⟩, rfl, ?_⟩
    · change Lag s1.nrt _ _ _
      rw [h4, h5, h6]; exact h.lag
    · rw [h5]; exact h.norm
    · exact (h.ok b hb).congr (by rw [h7]) (by rw [h7])
    · simp [hs]
  · by_cases hsv : a.isService = true
    · by_cases hld : a.isLoad = true
      · -- a load
        have hsees : a.sees = true := by simp [Act.sees, hld]
        have fin : ∀ {s1 : St}, Fires a s s1 → a.Owned objs s → t.nbuf = [] → ps = [] → s1.mem = s.mem → s1.rbuf = s.rbuf → s1.nbuf = s.nbuf → s1.rt = s.rt → s1.nrt = t'.nrt →
            t'.mem = t.mem → t'.rbuf = t.rbuf → t'.nbuf = t.nbuf → t'.rt = t.rt → ∃ acts s' ps', ScRun objs s0 (tr ++ acts) s' ∧ Sim objs t' s' ps' ∧
              acts.filter Act.sees = [a].filter Act.sees ∧ acts.filter Act.isService ++ ps' = ps ++ [a].filter Act.isService := by
          intro s1 hfire how hb hps e1 e2 e3 e4 e5 f1 f2 f3 f4
          subst hps
          refine ⟨[a], _, [], hr.snoc hfire how, ⟨rfl, rfl, ?_, ?_, ?_, fun _ => rfl, by simp⟩, rfl, by simp⟩
          · change s1.rt = _
            rw [e4, f4]; exact h.rt
          · have : t'.rview = t.rview := by unfold St.rview; rw [f1, f2]
            rw [this, ← h.mem]
            exact flush_of (wo := []) e1 e2 (by simp [e3]) h.rbuf h.nbuf
          · change Lag s1.nrt _ _ _
            rw [e5, f3, hb]
            exact .nil _
        have hnb : t.nbuf = [] → t.nview = t.mem := fun hb => by unfold St.nview; rw [hb]; rfl
        cases hf <;> first | exact absurd hld Bool.false_ne_true | exact absurd hsv Bool.false_ne_true | skip
        case begin' hi hb =>
          obtain ⟨e1, e2⟩ := h.nil hb
          have hc : s.nview.cur = t.nview.cur := by rw [hnv, hnb hb, h.mem, rview_cur hg.list.1]
          have hf' := Fires.begin' s (e2.trans hi) h.nbuf
          rw [hc] at hf'
          exact fin hf' trivial hb e1 rfl rfl rfl rfl rfl rfl rfl rfl rfl
        case free c hw hu =>
          have hlag := h.lag
          rw [hw] at hlag
          obtain ⟨e1, e2, e3⟩ := hlag.wait1
          have h2 := hg.list.2
          rw [hw] at h2
          have h2 : Settled t c := h2
          refine fin (Fires.free s c e3 ?_) trivial e2 e1 rfl rfl rfl rfl rfl rfl rfl rfl rfl
          rw [hnv, h.mem, rview_used h2.toOnlyUses hg.list.1]
          cases c <;> simp
        case seen c hw hu =>
          have h2 := hg.list.2
          rw [hw] at h2
          have h2 : Pending t c ∨ Handing t c := h2
          rcases h2 with h2 | h2
          · rw [nview_used_pending h2, h2.used] at hu
            exact (hu rfl).elim
          · obtain ⟨e1, e2⟩ := h.nil h2.nbuf
            rw [hnb h2.nbuf] at hu
            have honly : OnlyUses t (!c) := by
              rcases h2.turn with h3 | h3 | h3
              · exact (hu h3.1).elim
              · exact (hu h3.1).elim
              · exact h3
            refine fin (Fires.seen s c (e2.trans hw) ?_) trivial h2.nbuf e1 rfl rfl rfl rfl rfl rfl rfl rfl rfl
            rw [hnv, h.mem, rview_used honly hg.list.1]
            cases c <;> simp
        case sBegin hi hb =>
          obtain ⟨e1, e2⟩ := h.nil hb
          exact fin (Fires.sBegin s (e2.trans hi) h.nbuf) trivial hb e1 rfl rfl rfl rfl rfl rfl rfl rfl rfl
        case sDone hw hp =>
          have hlag := h.lag
          rw [hw] at hlag
          have hb : t.nbuf = [] := by
            rcases hlag.last with h3 | ⟨p', ws', a', wo, hn, hws⟩
            · exact h3.2.1
            · cases hn
              exfalso
              unfold St.nview at hp
              rw [hws, through_append] at hp
              cases hp
          obtain ⟨e1, e2⟩ := h.nil hb
          rw [hnb hb] at hp
          have h2 := hg.switch.2
          rw [hw] at h2
          have h2 : Asking t ∨ Asked t ∨ Executing t ∨ Answering t ∨ (Quiet t ∧ t.rounds = 1) := h2
          have hq : t.rview.please = false := by
            rcases h2 with h2 | h2 | h2 | h2 | h2
            · rw [calm_rview hg.list.1 h2.toCalm]; exact hp
            · rw [calm_rview hg.list.1 h2.toCalm]; exact hp
            · rw [h2.please] at hp; cases hp
            · rw [h2.please] at hp; cases hp
            · rw [calm_rview hg.list.1 h2.1.toCalm]; exact hp
          exact fin (Fires.sDone s (e2.trans hw) (by rw [hnv, h.mem]; exact hq)) trivial hb e1 rfl rfl rfl rfl rfl rfl rfl rfl rfl
      · -- an instruction that does not depend on memory
        have hld : a.isLoad = false := by simpa using hld
        obtain ⟨wo, hn, f1, f2, f3, f4⟩ := hf.nstep hsv hld
        have hrv : t'.rview = t.rview := by unfold St.rview; rw [f2, f3]
        have hlag : Lag s.nrt (ps ++ [a]) t'.nbuf t'.nrt := by rw [f1]; exact h.lag.snoc hn
        have hno : a.sees = false := by simp [Act.sees, hn.service.2.1, hn.service.2.2]
        by_cases hb : t'.nbuf = []
        · rw [hb] at hlag
          obtain ⟨s', g1, g2, g3, g4, g5, g6, g7⟩ := catchUp hr h.rbuf h.nbuf hlag
          refine ⟨ps ++ [a], s', [], g1, ⟨g2, g3, g4.trans (h.rt.trans f4.symm), ?_, ?_, fun _ => rfl, by simp⟩, ?_, ?_⟩
          · rw [g5, hrv, h.mem]
          · rw [g6, hb]; exact .nil _
          · rw [List.filter_eq_nil_iff.2 (fun b hb => by simp [Act.sees, (g7 b hb).1, (g7 b hb).2.1]), List.filter_cons_of_neg (by rw [hno]; simp), List.filter_nil]
          · rw [List.filter_eq_self.2 (fun b hb => (g7 b hb).2.2)]
            simp [hsv]
        · refine ⟨[], s, ps ++ [a], by simpa using hr, ⟨h.rbuf, h.nbuf, h.rt.trans f4.symm, by rw [hrv, h.mem], hlag, fun e => (hb e).elim, ?_⟩, ?_, ?_⟩
          · intro b hbm
            have hpo : PendOk objs t b := by
              rcases List.mem_append.1 hbm with hbm | hbm
              · exact h.ok b hbm
              · rw [List.mem_singleton.1 hbm]; exact pendOk_new hg.list hn ho
            exact hpo.congr (by rw [f2]) (by rw [f2])
          · simp [hno]
          · simp [hsv]
    · -- a store reaching memory
      cases hf <;> first | exact absurd rfl hrt | exact absurd rfl hsv | skip
      case rDrain e r hb =>
        refine ⟨[], s, ps, by simpa using hr, ⟨h.rbuf, h.nbuf, h.rt, ?_, h.lag, h.norm, fun b hbm => ?_⟩, rfl, by simp [Act.isService]⟩
        · rw [h.mem]
          unfold St.rview
          rw [hb]
          rfl
        · obtain ⟨e1, e2, -⟩ := (hg.list.1 e (by rw [hb]; exact List.mem_cons_self)).mem t.mem
          exact (h.ok b hbm).congr e2 (by show (e.wr.apply t.mem).list _ = _; rw [e1])
      case nDrain w r hb =>
        have hcom := drain_commutes hg h hb
        obtain ⟨honly, hkind, hcur⟩ := oneList hg.list (by rw [hb]; simp)
        have hlag := h.lag
        rw [hb] at hlag
        obtain ⟨a, ps', p', rfl, hn, hl'⟩ := hlag.head
        have hpa := h.ok a List.mem_cons_self
        obtain ⟨s1, hf1, e1, e2, e3, e4, e5⟩ := hn.fires rfl
        have how : a.Owned objs s := by
          have hsl : s.nview.list = t.mem.list := by rw [hnv, h.mem, rview_list hg.list.1]
          cases a <;> try trivial
          case newObj c i x => change ¬ objs (s.nview.list c) i; rw [hsl]; exact hpa.2
          case destroy c i x => change ¬ objs (s.nview.list (!c)) i; rw [hsl]; exact hpa.2
          all_goals (generalize s.nrt = p at hn; cases hn)
        have hmem : s1.flush.mem = through (t.rbuf.map (·.wr)) (w.apply t.mem) := by
          rw [hcom, ← h.mem]
          exact flush_of e1 e2 e3 h.rbuf h.nbuf
        have hserv := hn.service
        have hno : a.sees = false := by simp [Act.sees, hserv.2.1, hserv.2.2]
        have hrun := hr.snoc hf1 how
        by_cases hre : r = []
        · subst hre
          obtain ⟨s', g1, g2, g3, g4, g5, g6, g7⟩ := catchUp (q := t.nrt) (ps := ps') hrun rfl rfl (by rw [show s1.flush.nrt = p' from e5]; exact hl')
          refine ⟨a :: ps', s', [], by simpa using g1, ⟨g2, g3, g4.trans (e4.trans h.rt), g5.trans hmem, ?_, fun _ => rfl, by simp⟩, ?_, ?_⟩
          · rw [g6]; exact .nil _
          · rw [List.filter_eq_nil_iff.2, List.filter_eq_nil_iff.2]
            · intro b hb; rw [List.mem_singleton.1 hb]; decide
            · intro b hb
              rcases List.mem_cons.1 hb with rfl | hb
              · rw [hno]; simp
              · simp [Act.sees, (g7 b hb).1, (g7 b hb).2.1]
          · rw [List.filter_eq_self.2]
            · simp [Act.isService]
            · intro b hb
              rcases List.mem_cons.1 hb with rfl | hb
              · exact hserv.1
              · exact (g7 b hb).2.2
        · refine ⟨[a], _, ps', hrun, ⟨rfl, rfl, e4.trans h.rt, hmem, ?_, fun e => (hre e).elim, fun b hbm => ?_⟩, ?_, ?_⟩
          · rw [show s1.flush.nrt = p' from e5]; exact hl'
          · rcases hkind w (by rw [hb]; exact List.mem_cons_self) with hk | hk
            · exact (h.ok b (List.mem_cons_of_mem _ hbm)).congr (hk.mem t.mem).2.1 (hk.mem t.mem).1
            · exact (hre (hcur w r hb hk)).elim
          · rw [List.filter_eq_nil_iff.2, List.filter_eq_nil_iff.2]
            · intro b hb; rw [List.mem_singleton.1 hb]; decide
            · intro b hb; rw [List.mem_singleton.1 hb, hno]; simp
          · rw [List.filter_cons_of_pos hserv.1]; simp [Act.isService]

theorem TsoRun.good {s0 : St} (h0 : Start s0) {tr : List Act} {t : St} (h : TsoRun objs s0 tr t) : Good objs t :=
  ⟨(h.reach h0).listInv, (h.reach h0).switchInv, h.own h0⟩

theorem TsoRun.sim {s0 : St} (h0 : Start s0) {tr : List Act} {t : St} (h : TsoRun objs s0 tr t) : ∃ tr' s ps, ScRun objs s0 tr' s ∧ Sim objs t s ps ∧
    tr'.filter Act.sees = tr.filter Act.sees ∧ tr'.filter Act.isService ++ ps = tr.filter Act.isService := by
  induction h with
  | nil =>
    refine ⟨[], s0, [], .nil, ⟨h0.rbuf, h0.nbuf, rfl, ?_, ?_, fun _ => rfl, by simp⟩, rfl, rfl⟩
    · unfold St.rview; rw [h0.rbuf]; rfl
    · rw [h0.nbuf]; exact .nil _
  | snoc hr hf ho ih =>
    obtain ⟨tr', s, ps, h1, h2, h3, h4⟩ := ih
    obtain ⟨acts, s', ps', g1, g2, g3, g4⟩ := h2.step (hr.good h0) h1 hf ho
    refine ⟨tr' ++ acts, s', ps', g1, g2, ?_, ?_⟩
    · rw [List.filter_append, List.filter_append, h3, g3]
    · rw [List.filter_append, List.append_assoc, g4, ← List.append_assoc, h4, List.filter_append]

/-! ## The theorems -/

/-- **C112.** Whatever happens on the machine with store buffers also happens on a machine with sequentially consistent memory: there is an execution in which
the realtime thread executes the same instructions, loading and storing the same values, the service threads execute the same instructions with the same values (except for the
last few, if their stores have not reached memory yet), and the realtime thread's instructions and those service instructions that depend on memory come in the same order.
In the end memory is what the realtime thread sees; when no store is outstanding, memory is the same. -/
theorem C112_sequential {s0 t : St} {tr : List Act} (h0 : Start s0) (h : TsoRun objs s0 tr t) : ∃ tr' s, ScRun objs s0 tr' s ∧
    tr'.filter (fun a => a.isRt || a.isLoad) = tr.filter (fun a => a.isRt || a.isLoad) ∧
    (∃ late, tr'.filter (·.isService) ++ late = tr.filter (·.isService) ∧ (t.nbuf = [] → late = [])) ∧
    s.rt = t.rt ∧ s.mem = t.rview ∧ (t.nbuf = [] → s.nrt = t.nrt) ∧ (t.rbuf = [] → s.mem = t.mem) := by
  obtain ⟨tr', s, ps, h1, h2, h3, h4⟩ := h.sim h0
  exact ⟨tr', s, h1, h3, ⟨ps, h4, h2.norm⟩, h2.rt, h2.mem, fun hb => (h2.nil hb).2, fun hb => by rw [h2.mem]; unfold St.rview; rw [hb]; rfl⟩

theorem isRt_filter (l : List Act) : (l.filter (fun a => a.isRt || a.isLoad)).filter (·.isRt) = l.filter (·.isRt) := by
  rw [List.filter_filter]
  congr 1
  funext a
  cases a <;> rfl

/-- **C112.** What holds of the realtime thread's instructions in every sequentially consistent execution holds in every execution with store buffers. -/
theorem C112_realtime {s0 t : St} {tr : List Act} (h0 : Start s0) (h : TsoRun objs s0 tr t) (P : List Act → Prop)
    (hP : ∀ tr' s, ScRun objs s0 tr' s → P (tr'.filter (·.isRt))) : P (tr.filter (·.isRt)) := by
  obtain ⟨tr', s, h1, h2, -⟩ := C112_sequential h0 h
  rw [← isRt_filter, ← h2, isRt_filter]
  exact hP tr' s h1

theorem ScRun.empty {s0 : St} (h1 : s0.rbuf = []) (h2 : s0.nbuf = []) {tr : List Act} {s : St} (h : ScRun objs s0 tr s) : s.rbuf = [] ∧ s.nbuf = [] := by
  cases h
  · exact ⟨h1, h2⟩
  · exact ⟨rfl, rfl⟩

theorem flush_cases {a : Act} {s s' : St} (hf : Fires a s s') (h1 : s.rbuf = []) (h2 : s.nbuf = []) :
    a ≠ .rDrain ∧ a ≠ .nDrain ∧ (s'.flush = s' ∨ Fires .rDrain s' s'.flush ∨ Fires .nDrain s' s'.flush) := by
  have hid : ∀ s' : St, s'.rbuf = [] → s'.nbuf = [] → s'.flush = s' := by
    intro s' e1 e2
    unfold St.flush
    rw [e1, e2]
    cases s'
    cases e1
    cases e2
    rfl
  have hr : ∀ (s' : St) e, s'.rbuf = [e] → s'.nbuf = [] → Fires .rDrain s' s'.flush := by
    intro s' e e1 e2
    have := Fires.rDrain s' e [] e1
    have h : s'.flush = { s' with mem := e.wr.apply s'.mem, rbuf := [] } := by
      unfold St.flush
      rw [e1, e2]
      cases s'
      cases e2
      rfl
    rw [h]
    exact this
  have hn : ∀ (s' : St) w, s'.rbuf = [] → s'.nbuf = [w] → Fires .nDrain s' s'.flush := by
    intro s' w e1 e2
    have := Fires.nDrain s' w [] e2
    have h : s'.flush = { s' with mem := w.apply s'.mem, nbuf := [] } := by
      unfold St.flush
      rw [e1, e2]
      cases s'
      cases e1
      rfl
    rw [h]
    exact this
  cases hf
  case rDrain e r hb => rw [h1] at hb; cases hb
  case nDrain e r hb => rw [h2] at hb; cases hb
  case storeUsed v _ => exact ⟨nofun, nofun, .inr (.inl (hr _ ⟨.used v, v, false⟩ (by show s.rbuf ++ _ = _; rw [h1]; rfl) h2))⟩
  case writeObj v i x _ => exact ⟨nofun, nofun, .inr (.inl (hr _ ⟨.obj i x, v, false⟩ (by show s.rbuf ++ _ = _; rw [h1]; rfl) h2))⟩
  case switchObj v i x _ => exact ⟨nofun, nofun, .inr (.inl (hr _ ⟨.obj i x, v, true⟩ (by show s.rbuf ++ _ = _; rw [h1]; rfl) h2))⟩
  case clearReq v i x _ => exact ⟨nofun, nofun, .inr (.inl (hr _ ⟨.req i x, v, true⟩ (by show s.rbuf ++ _ = _; rw [h1]; rfl) h2))⟩
  case endSwitch v _ => exact ⟨nofun, nofun, .inr (.inl (hr _ ⟨.please false, v, true⟩ (by show s.rbuf ++ _ = _; rw [h1]; rfl) h2))⟩
  case build c i x _ => exact ⟨nofun, nofun, .inr (.inr (hn _ (.list (!c) i x) h1 (by show s.nbuf ++ _ = _; rw [h2]; rfl)))⟩
  case newObj c i x _ => exact ⟨nofun, nofun, .inr (.inr (hn _ (.obj i x) h1 (by show s.nbuf ++ _ = _; rw [h2]; rfl)))⟩
  case swap c _ => exact ⟨nofun, nofun, .inr (.inr (hn _ (.cur (!c)) h1 (by show s.nbuf ++ _ = _; rw [h2]; rfl)))⟩
  case clear c i x _ => exact ⟨nofun, nofun, .inr (.inr (hn _ (.list c i x) h1 (by show s.nbuf ++ _ = _; rw [h2]; rfl)))⟩
  case destroy c i x _ => exact ⟨nofun, nofun, .inr (.inr (hn _ (.obj i x) h1 (by show s.nbuf ++ _ = _; rw [h2]; rfl)))⟩
  case sReq i x _ => exact ⟨nofun, nofun, .inr (.inr (hn _ (.req i x) h1 (by show s.nbuf ++ _ = _; rw [h2]; rfl)))⟩
  case sGo _ => exact ⟨nofun, nofun, .inr (.inr (hn _ (.please true) h1 (by show s.nbuf ++ _ = _; rw [h2]; rfl)))⟩
  all_goals exact ⟨nofun, nofun, .inl (hid _ h1 h2)⟩

/-- **C112.** Conversely, every sequentially consistent execution is one of the machine with store buffers (which happens to drain them at once). -/
theorem C112_included {s0 s : St} {tr : List Act} (h0 : Start s0) (h : ScRun objs s0 tr s) :
    ∃ tr', TsoRun objs s0 tr' s ∧ tr'.filter (fun a => a != .rDrain && a != .nDrain) = tr := by
  induction h with
  | nil => exact ⟨[], .nil, rfl⟩
  | @snoc tr s s' a hr hf ho ih =>
    obtain ⟨tr', h1, h2⟩ := ih
    obtain ⟨e1, e2⟩ := hr.empty h0.rbuf h0.nbuf
    obtain ⟨a1, a2, h3⟩ := flush_cases hf e1 e2
    have hrun := h1.snoc hf ho
    have hfl : (tr' ++ [a]).filter (fun a => a != .rDrain && a != .nDrain) = tr ++ [a] := by
      rw [List.filter_append, h2, List.filter_cons_of_pos (by simp [a1, a2]), List.filter_nil]
    rcases h3 with h3 | h3 | h3
    · rw [h3]; exact ⟨_, hrun, hfl⟩
    · exact ⟨_, hrun.snoc h3 trivial, by rw [List.filter_append, hfl, List.filter_cons_of_neg (by simp), List.filter_nil, List.append_nil]⟩
    · exact ⟨_, hrun.snoc h3 trivial, by rw [List.filter_append, hfl, List.filter_cons_of_neg (by simp), List.filter_nil, List.append_nil]⟩

/-! ## Concrete runs -/

/-- In this example a list refers to the objects numbered like its words. -/
def exObjs (l : Nat → Nat) (i : Nat) : Prop := ∃ k, l k = i

theorem Fires.loadCur' (s : St) (v : Bool) (h : s.rt = .idle) (hv : s.rview.cur = v) : Fires (.loadCur v) s { s with rt := .got v } := by
  subst hv; exact .loadCur s h

theorem Fires.begin'' (s : St) (v : Bool) (h : s.nrt = .idle) (hb : s.nbuf = []) (hv : s.nview.cur = v) : Fires (.begin' v) s { s with nrt := .wait1 v } := by
  subst hv; exact .begin' s h hb

/-- A new list is handed over while the realtime thread begins and ends a cycle on the old one: its store of `used_by_realtime_` and a store to an object are
outstanding in one buffer, the new list and `current_controllers_list_` in the other; neither thread has seen the other's stores. -/
theorem exBuffered : ∃ t, TsoRun exObjs exSt [.begin' false, .free, .newObj false 7 1, .build 0 7, .swap, .loadCur false, .storeUsed false, .writeObj false 0 5,
    .noSwitch, .loadCur false] t ∧ t.nbuf = [.obj 7 1, .list true 0 7, .cur true] ∧ t.rbuf.length = 2 ∧ t.rview.cur = false ∧ t.rview.obj 0 = 5 ∧ t.mem.obj 0 = 0 := by
  have r1 := (TsoRun.nil (objs := exObjs) (s0 := exSt)).snoc (Fires.begin'' _ false rfl rfl rfl) trivial
  have r2 := r1.snoc (Fires.free _ false rfl (by decide)) trivial
  have r3 := r2.snoc (Fires.newObj _ false 7 1 rfl) (by rintro ⟨k, hk⟩; cases hk)
  have r4 := r3.snoc (Fires.build _ false 0 7 rfl) trivial
  have r5 := r4.snoc (Fires.swap _ false rfl) trivial
  have r6 := r5.snoc (Fires.loadCur' _ false rfl rfl) trivial
  have r7 := r6.snoc (Fires.storeUsed _ false rfl) trivial
  have r8 := r7.snoc (Fires.writeObj _ false 0 5 rfl) ⟨0, rfl⟩
  have r9 := r8.snoc (Fires.noSwitch _ false rfl rfl) trivial
  have r10 := r9.snoc (Fires.loadCur' _ false rfl rfl) trivial
  exact ⟨_, r10, rfl, rfl, rfl, rfl, rfl⟩

/-- The corresponding sequentially consistent execution. -/
example : ∃ tr' s, ScRun exObjs exSt tr' s ∧ tr'.filter (·.isRt) = [.loadCur false, .storeUsed false, .writeObj false 0 5, .noSwitch, .loadCur false] ∧
    s.mem.cur = false ∧ s.mem.obj 0 = 5 := by
  obtain ⟨t, h, -, -, hc, ho, -⟩ := exBuffered
  obtain ⟨tr', s, h1, h2, -, -, h5, -⟩ := C112_sequential ⟨rfl, rfl, rfl, rfl, rfl, rfl, fun _ _ => rfl⟩ h
  exact ⟨tr', s, h1, by rw [← isRt_filter, h2, isRt_filter]; rfl, by rw [h5]; exact hc, by rw [h5]; exact ho⟩

end Pr2.Tso
