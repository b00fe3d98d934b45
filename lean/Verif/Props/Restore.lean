import Verif.Props.Clients
import Verif.Props.Scheduler

/-!
# C71: `reload-libraries --restore` restores the controllers
-/

namespace Pr2
set_option linter.unusedVariables false
set_option linter.unusedSimpArgs false

/-- What a user can see of a controller. -/
def CtrlView.sig (c : CtrlView) : String × List String × List String × Bool := (c.name, c.before, c.after, c.running)

/-- Loading succeeds whatever else is loaded, and the controller asks for no other one. -/
def LoadReq.Independent (q : LoadReq) : Prop :=
  q.nodeOk = true ∧ q.TypeOk ∧
  ∀ names, q.init.Succeeds names ∧
    (q.init.befores names) = [] ∧ (q.init.afters names) = []

theorem unloadUntilFail_suffix {v v' : View} {b : Bool} (hw : v.WF) (h : unloadUntilFail v.names v b v') :
    v'.WF ∧ ∃ pre, v.ctrls = pre ++ v'.ctrls ∧ ∀ c ∈ pre, c.before = [] ∧ c.after = [] := by
  generalize hl : v.ctrls = l at *
  induction l generalizing v with
  | nil =>
    unfold View.names at h
    rw [hl] at h
    obtain ⟨rfl, rfl⟩ := h
    exact ⟨hw, [], by simp [hl], by simp⟩
  | cons c rest ih =>
    unfold View.names at h
    rw [hl] at h
    obtain ⟨r, v1, h1, h2⟩ := h
    have hn0 : c.before = [] ∧ c.after = [] := by
      have := hw.deps [] c rest hl
      simp only [List.map_nil, List.not_mem_nil, imp_false, not_or] at this
      exact ⟨List.eq_nil_iff_forall_not_mem.2 (fun n => (this n).1), List.eq_nil_iff_forall_not_mem.2 (fun n => (this n).2)⟩
    have hnd := hw.nodup
    unfold View.names at hnd
    rw [hl, List.map_cons, List.nodup_cons] at hnd
    rcases unload_cases h1 with ⟨rfl, hmem, hun, hst, hv, hc⟩ | ⟨rfl, rfl, hno⟩
    · rw [if_pos rfl] at h2
      have hc1 : v1.ctrls = rest := by
        rw [hc, hl, List.filter_cons]
        simp only [bne_self_eq_false, Bool.false_eq_true, if_false]
        rw [List.filter_eq_self]
        intro d hd
        have : d.name ≠ c.name := fun hdc => hnd.1 (List.mem_map.2 ⟨d, hd, hdc⟩)
        simpa using this
      have hw1 : v1.WF := WF.call h1 hw
      have h2' : unloadUntilFail v1.names v1 b v' := by
        unfold View.names; rw [hc1]; exact h2
      obtain ⟨i1, pre, i2, i3⟩ := ih hw1 h2' hc1
      refine ⟨i1, c :: pre, by rw [i2]; rfl, ?_⟩
      intro d hd
      rcases List.mem_cons.1 hd with rfl | hd
      · exact hn0
      · exact i3 d hd
    · rw [if_neg (by simp)] at h2
      obtain ⟨rfl, rfl⟩ := h2
      exact ⟨hw, [], by rw [hl]; rfl, by simp⟩

/-- what any reload leaves: a suffix of the controllers, the removed ones without dependencies; run states may be cleared -/
theorem reload_suffix {ndebug force : Bool} {v v' : View} {out : Outcome} (hw : v.WF) (h : reload ndebug force v out v') :
    v'.WF ∧ ∃ pre suf, v.ctrls = pre ++ suf ∧ (∀ c ∈ pre, c.before = [] ∧ c.after = []) ∧
      (v'.ctrls = suf ∨ v'.ctrls = suf.map (switchOne [] v.names)) := by
  obtain ⟨ns, v1, ⟨rfl, rfl⟩, h⟩ := h
  by_cases h1 : v1.names ≠ [] ∧ force = false
  · rw [if_pos h1] at h
    obtain ⟨_, rfl⟩ := h
    exact ⟨hw, [], v'.ctrls, rfl, by simp, Or.inl rfl⟩
  rw [if_neg h1] at h
  by_cases h2 : v1.names ≠ []
  swap
  · rw [if_neg h2] at h
    obtain ⟨_, rfl⟩ := h
    exact ⟨hw, [], v'.ctrls, rfl, by simp, Or.inl rfl⟩
  rw [if_pos h2] at h
  obtain ⟨r, v2, hc, h⟩ := h
  have hw2 : v2.WF := WF.call hc hw
  rcases hc with ⟨_, hk, _⟩ | ⟨hr, _, hp⟩
  · exact absurd hk (by decide)
  have hr : r = .flag true := hr
  have hp : v2 = { v1 with ctrls := v1.ctrls.map (switchOne [] v1.names) } := hp
  rw [if_neg (by simp [hr])] at h
  obtain ⟨b, v3, h3, h4⟩ := h
  have hn2 : v2.names = v1.names := by rw [hp]; simp [View.names, Function.comp_def, switchOne]
  obtain ⟨hw3, pre, e1, e2⟩ := unloadUntilFail_suffix hw2 (by rw [hn2]; exact h3)
  have hv' : v' = v3 := by
    cases b with
    | false => rw [if_pos rfl] at h4; exact h4.2
    | true =>
      rw [if_neg (by simp)] at h4
      obtain ⟨now, v4, ⟨rfl, rfl⟩, h5⟩ := h4
      split at h5
      · exact h5.2
      · exact h5.2
  subst hv'
  refine ⟨hw3, ?_⟩
  rw [hp] at e1
  dsimp only at e1
  obtain ⟨p, q, e3, e4, e5⟩ := List.map_eq_append_iff.1 e1
  refine ⟨p, q, e3, ?_, Or.inr e5.symm⟩
  intro c hc
  have := e2 (switchOne [] v1.names c) (by rw [← e4]; exact List.mem_map.2 ⟨c, hc, rfl⟩)
  simpa [switchOne] using this

/-- an independent controller that is not loaded can be loaded -/
theorem load_independent {v v' : View} {q : LoadReq} {res : Res} (hw : v.WF) (hq : q.Independent) (hn : q.name ∉ v.names)
    (h : call (.load q) v res v') : ∃ id, v'.ctrls = v.ctrls ++ [⟨q.name, id, [], [], false⟩] := by
  obtain ⟨q1, q2, q3⟩ := hq
  obtain ⟨i1, i2, i3⟩ := q3 v.names
  rcases h with ⟨_, _, _, id, _, hc⟩ | ⟨_, hno, _⟩
  · refine ⟨id, ?_⟩
    dsimp only at hc
    rw [hc, i2, i3]
  · exfalso
    apply hno
    dsimp only
    refine ⟨hn, q1, q2, i1, ?_, ?_⟩
    · rw [afterPresent_snoc]
      refine ⟨?_, ?_⟩
      · obtain ⟨_, o, _, ho, _⟩ := hw.order
        intro pre c post hs a ha
        unfold View.specs at hs
        obtain ⟨p, cq, e1, e2, e3⟩ := List.map_eq_append_iff.1 hs
        obtain ⟨d, t, e4, e5, e6⟩ := List.map_eq_cons_iff.1 e3
        have := hw.deps p d t (by rw [e1, e4]) a (Or.inr (by rw [← e5] at ha; exact ha))
        rw [← e2, List.map_append, List.mem_append]
        left
        obtain ⟨x, hx, hxa⟩ := List.mem_map.1 this
        exact List.mem_map.2 ⟨_, List.mem_map.2 ⟨x, hx, rfl⟩, hxa⟩
      · rw [i3]; simp
    · obtain ⟨_, o, _, ho, _⟩ := hw.order
      refine ⟨o ++ [q.name], ?_, ?_, ?_⟩
      · rw [List.map_append]
        exact ho.perm.append (by simp)
      · intro c hc b hb
        rcases List.mem_append.1 hc with hc | hc
        · obtain ⟨x, y, z, e⟩ := ho.before c hc b hb
          exact ⟨x, y, z ++ [q.name], by rw [e]; simp⟩
        · rw [List.mem_singleton.1 hc] at hb
          dsimp only at hb
          rw [i2] at hb; simp at hb
      · intro c hc b hb
        rcases List.mem_append.1 hc with hc | hc
        · obtain ⟨x, y, z, e⟩ := ho.after c hc b hb
          exact ⟨x, y, z ++ [q.name], by rw [e]; simp⟩
        · rw [List.mem_singleton.1 hc] at hb
          dsimp only at hb
          rw [i3] at hb; simp at hb

/-- loading each of a list of names: the missing ones are added -/
theorem loadEach_spec {req : String → LoadReq} (hname : ∀ n, (req n).name = n) {ns : List String} {v v' : View} (hw : v.WF)
    (hnd : ns.Nodup) (hreq : ∀ n ∈ ns, n ∉ v.names → (req n).Independent)
    (h : callEach (ns.map (fun n => Op.load (req n))) v () v') :
    v'.WF ∧ ∃ news, v'.ctrls = v.ctrls ++ news ∧ news.map (·.name) = ns.filter (fun n => n ∉ v.names) ∧
      ∀ c ∈ news, c.before = [] ∧ c.after = [] ∧ c.running = false := by
  induction ns generalizing v with
  | nil =>
    obtain ⟨_, rfl⟩ := h
    exact ⟨hw, [], by simp, by simp, by simp⟩
  | cons n ns ih =>
    obtain ⟨r, v1, h1, h2⟩ := h
    have hw1 : v1.WF := WF.call h1 hw
    rw [List.nodup_cons] at hnd
    by_cases hn : n ∈ v.names
    · have e : v1 = v := by
        rcases h1 with ⟨_, ho, _⟩ | ⟨_, _, hp⟩
        · exact absurd hn (by have := ho.1; rw [hname] at this; exact this)
        · exact hp
      subst e
      obtain ⟨i1, news, i2, i3, i4⟩ := ih hw hnd.2 (fun m hm => hreq m (by simp [hm])) h2
      refine ⟨i1, news, i2, ?_, i4⟩
      rw [i3, List.filter_cons, if_neg (by simp [hn])]
    · obtain ⟨id, hc⟩ := load_independent hw (hreq n (by simp) hn) (by rw [hname]; exact hn) h1
      have hn1 : v1.names = v.names ++ [n] := by unfold View.names; rw [hc, List.map_append]; simp [hname]
      obtain ⟨i1, news, i2, i3, i4⟩ := ih hw1 hnd.2 (fun m hm hm' => hreq m (by simp [hm]) (fun hx => hm' (by rw [hn1]; simp [hx]))) h2
      refine ⟨i1, ⟨(req n).name, id, [], [], false⟩ :: news, ?_, ?_, ?_⟩
      · rw [i2, hc]; simp
      · rw [List.map_cons, i3, List.filter_cons, if_pos (by simp [hn])]
        simp only [hname, List.cons.injEq, true_and]
        apply List.filter_congr
        intro m hm
        have : m ≠ n := fun e => hnd.1 (e ▸ hm)
        rw [hn1]; simp [this]
      · intro c hc'
        rcases List.mem_cons.1 hc' with rfl | hc'
        · exact ⟨rfl, rfl, rfl⟩
        · exact i4 c hc'

/-- names of the listing are the names of the least admissible order -/
theorem listing_names {v : View} {o : List String} (he : Executes v.specs v.order o) : v.listing.map (·.1) = o := by
  unfold View.listing Executes at *
  generalize v.order = ord at *
  induction ord generalizing o with
  | nil =>
    simp only [List.map_nil] at he
    have : o = [] := by simpa using he.symm
    simp [this]
  | cons j ord ih =>
    cases o with
    | nil => simp at he
    | cons n o =>
      simp only [List.map_cons, List.cons.injEq] at he
      have := ih he.2
      have hj : v.ctrls[j]?.map (·.name) = some n := by
        rw [← he.1]; unfold View.specs; rw [List.getElem?_map]; cases v.ctrls[j]? <;> rfl
      rcases hx : v.ctrls[j]? with _ | c
      · rw [hx] at hj; simp at hj
      · rw [hx] at hj
        simp only [Option.map_some, Option.some.injEq] at hj
        rw [List.filterMap_cons, hx]
        simp only [Option.map_some, List.map_cons, hj, List.cons.injEq, true_and]
        exact this

theorem listing_nodup {v : View} (hw : v.WF) : (v.listing.map (·.1)).Nodup ∧ (v.listing.map (·.1)).Perm v.names := by
  obtain ⟨_, o, he, ho, _⟩ := hw.order
  rw [listing_names he]
  have hp := ho.perm
  rw [vspecs_names] at hp
  exact ⟨hp.nodup_iff.2 hw.nodup, hp⟩

theorem eq_of_map_fst {l l' : List (String × Bool)} (hnd : (l.map (·.1)).Nodup) (hm : l.map (·.1) = l'.map (·.1)) (h : ∀ p ∈ l', p ∈ l) : l' = l := by
  induction l generalizing l' with
  | nil =>
    have := congrArg List.length hm
    simp at this
    exact List.eq_nil_of_length_eq_zero this.symm
  | cons a l ih =>
    cases l' with
    | nil => simp at hm
    | cons b l' =>
      simp only [List.map_cons, List.cons.injEq, List.nodup_cons] at hm hnd
      have hb : b = a := by
        rcases List.mem_cons.1 (h b (by simp)) with hb | hb
        · exact hb
        · exact absurd (List.mem_map.2 ⟨b, hb, hm.1.symm⟩) hnd.1
      subst hb
      congr 1
      refine ih hnd.2 hm.2 ?_
      intro p hp
      rcases List.mem_cons.1 (h p (by simp [hp])) with e | e
      · exfalso
        apply hnd.1
        rw [hm.2]
        exact List.mem_map.2 ⟨p, hp, by rw [e]⟩
      · exact e

/-- The listing is determined by what the user can see of the controllers, in whatever order they were loaded. -/
theorem listing_of_perm {v v' : View} (hw : v.WF) (hw' : v'.WF) (h : (v'.ctrls.map CtrlView.sig).Perm (v.ctrls.map CtrlView.sig)) :
    v'.listing = v.listing := by
  have hs : v'.specs.Perm v.specs := by
    have := h.map (fun s : String × List String × List String × Bool => (⟨s.1, s.2.1, s.2.2.1⟩ : SchedSpec String))
    simpa [View.specs, CtrlView.sig, Function.comp_def] using this
  obtain ⟨_, o, he, ho, hmin⟩ := hw.order
  obtain ⟨_, o', he', ho', hmin'⟩ := hw'.order
  have e : o' = o := le_antisymm (hmin' o (admissible_perm hs.symm ho)) (hmin o' (admissible_perm hs ho'))
  subst e
  refine eq_of_map_fst (listing_nodup hw).1 (by rw [listing_names he, listing_names he']) ?_
  intro p hp
  rw [listing_mem hw'] at hp
  rw [listing_mem hw]
  obtain ⟨c, hc, rfl⟩ := hp
  have := h.mem_iff.1 (List.mem_map.2 ⟨c, hc, rfl⟩)
  obtain ⟨d, hd, e⟩ := List.mem_map.1 this
  refine ⟨d, hd, ?_⟩
  simp only [CtrlView.sig, Prod.mk.injEq] at e
  rw [e.1, e.2.2.2]

/-- **C71.**  `reload-libraries --restore`, unless the manager aborts, leaves the same controllers loaded, with the same dependencies and run
states, and the same answer to `list_controllers`, as there were before — whether the reload succeeded, was refused or failed half way —
provided each controller without dependencies can be loaded again and nobody else uses the manager meanwhile. -/
theorem C71_restore {l : List CallRec} {v v' : View} (hv : History View.empty l v) {ndebug force : Bool} {req : String → LoadReq} {out : Outcome}
    (hname : ∀ n, (req n).name = n)
    (hreq : ∀ c ∈ v.ctrls, c.before = [] → c.after = [] → (req c.name).Independent)
    (h : reloadRestore ndebug force req v out v') (ho : out ≠ .aborted) :
    (v'.ctrls.map CtrlView.sig).Perm (v.ctrls.map CtrlView.sig) ∧ v'.listing = v.listing := by
  have hw := WF.history hv WF.empty
  obtain ⟨r, v0, h1, h2⟩ := h
  obtain ⟨li, e1, e2, e3, _⟩ := h1
  dsimp only at e1 e2 e3
  have e3 := e3 rfl
  subst e1 e2 e3
  dsimp only at h2
  obtain ⟨out1, v1, h3, h4⟩ := h2
  by_cases hab : out1 = .aborted
  · rw [if_pos hab] at h4
    exact absurd (h4.1.trans hab) ho
  rw [if_neg hab] at h4
  obtain ⟨_, v2, h5, _, v3, h6, rfl, rfl⟩ := h4
  obtain ⟨hw1, pre, suf, c1, c2, c3⟩ := reload_suffix hw h3
  obtain ⟨l1, l2⟩ := listing_nodup hw
  have hnames1 : v1.names = suf.map (·.name) := by
    unfold View.names
    rcases c3 with c3 | c3 <;> rw [c3]
    simp [Function.comp_def, switchOne]
  have hmap : (v0.listing.map (fun p => Op.load (req p.1))) = (v0.listing.map (·.1)).map (fun n => Op.load (req n)) := by
    rw [List.map_map]; rfl
  rw [hmap] at h5
  have hnd0 : (pre.map (·.name) ++ suf.map (·.name)).Nodup := by
    have := hw.nodup
    unfold View.names at this
    rw [c1, List.map_append] at this
    exact this
  obtain ⟨hw2, news, n1, n2, n3⟩ := loadEach_spec hname hw1 l1 (by
    intro n hn hn'
    have : n ∈ v0.names := l2.mem_iff.1 hn
    obtain ⟨c, hc, rfl⟩ := List.mem_map.1 this
    rw [c1, List.mem_append] at hc
    rcases hc with hc | hc
    · exact hreq c (by rw [c1]; simp [hc]) (c2 c hc).1 (c2 c hc).2
    · exact absurd (by rw [hnames1]; exact List.mem_map.2 ⟨c, hc, rfl⟩) hn') h5
  have hw3 : v'.WF := WF.call h6 hw2
  have e6 : v' = { v2 with ctrls := v2.ctrls.map (switchOne ((v0.listing.filter (·.2)).map (·.1)) []) } := by
    rcases h6 with ⟨_, hk, _⟩ | ⟨_, _, hp⟩
    · exact absurd hk (by decide)
    · exact hp
  -- which controllers are started
  have hst : ∀ c ∈ v0.ctrls, c.name ∈ (v0.listing.filter (·.2)).map (·.1) ↔ c.running = true := by
    intro c hc
    constructor
    · intro hx
      obtain ⟨p, hp, e⟩ := List.mem_map.1 hx
      obtain ⟨hp1, hp2⟩ := List.mem_filter.1 hp
      obtain ⟨d, hd, rfl⟩ := (listing_mem hw).1 hp1
      have : d = c := List.inj_on_of_nodup_map hw.nodup hd hc e
      rw [← this]; exact hp2
    · intro hx
      exact List.mem_map.2 ⟨(c.name, c.running), List.mem_filter.2 ⟨(listing_mem hw).2 ⟨c, hc, rfl⟩, hx⟩, rfl⟩
  have hperm : (v'.ctrls.map CtrlView.sig).Perm (v0.ctrls.map CtrlView.sig) := by
    rw [e6]
    dsimp only
    rw [n1, c1, List.map_append, List.map_append, List.map_append]
    refine (List.perm_append_comm).trans ?_
    refine List.Perm.append ?_ ?_
    · -- the new ones are the removed ones
      have f1 : (news.map (·.name)).Perm (pre.map (·.name)) := by
        rw [n2]
        refine (l2.filter _).trans ?_
        have : v0.names = pre.map (·.name) ++ suf.map (·.name) := by unfold View.names; rw [c1, List.map_append]
        rw [this, List.filter_append, hnames1]
        have g1 : (pre.map (·.name)).filter (fun n => decide (n ∉ suf.map (·.name))) = pre.map (·.name) := by
          rw [List.filter_eq_self]
          intro n hn
          simp only [decide_eq_true_eq]
          intro hs
          exact (List.nodup_append.1 hnd0).2.2 _ hn _ hs rfl
        have g2 : (suf.map (·.name)).filter (fun n => decide (n ∉ suf.map (·.name))) = [] := by
          rw [List.filter_eq_nil_iff]
          intro n hn; simp only [decide_eq_true_eq]; exact fun hx => hx hn
        rw [g1, g2, List.append_nil]
      have f2 : ((news.map (switchOne ((v0.listing.filter (·.2)).map (·.1)) [])).map CtrlView.sig) =
          (news.map (·.name)).map (fun n => (n, ([] : List String), ([] : List String), decide (n ∈ (v0.listing.filter (·.2)).map (·.1)))) := by
        rw [List.map_map, List.map_map]
        apply List.map_congr_left
        intro c hc
        obtain ⟨a, b, r⟩ := n3 c hc
        simp only [Function.comp, CtrlView.sig, switchOne, a, b, r, List.not_mem_nil, if_false]
        by_cases hx : c.name ∈ (v0.listing.filter (·.2)).map (·.1)
        · simp only [if_pos hx, decide_eq_true hx]
        · simp only [if_neg hx, decide_eq_false hx]
      have f3 : pre.map CtrlView.sig =
          (pre.map (·.name)).map (fun n => (n, ([] : List String), ([] : List String), decide (n ∈ (v0.listing.filter (·.2)).map (·.1)))) := by
        rw [List.map_map]
        apply List.map_congr_left
        intro c hc
        obtain ⟨a, b⟩ := c2 c hc
        have hx := hst c (by rw [c1]; simp [hc])
        simp only [Function.comp, CtrlView.sig, a, b, hx]
        cases c.running <;> simp
      rw [f2, f3]
      exact f1.map _
    · -- the kept ones
      have : (v1.ctrls.map (switchOne ((v0.listing.filter (·.2)).map (·.1)) [])).map CtrlView.sig = suf.map CtrlView.sig := by
        rcases c3 with c3 | c3
        · rw [c3, List.map_map]
          apply List.map_congr_left
          intro c hc
          have hx := hst c (by rw [c1]; simp [hc])
          simp only [Function.comp, CtrlView.sig, switchOne, hx, List.not_mem_nil, if_false]
          cases c.running <;> simp
        · rw [c3, List.map_map, List.map_map]
          apply List.map_congr_left
          intro c hc
          have hx := hst c (by rw [c1]; simp [hc])
          have hn : c.name ∈ v0.names := by unfold View.names; rw [c1]; simp [List.mem_map]; exact Or.inr ⟨c, hc, rfl⟩
          simp only [Function.comp, CtrlView.sig, switchOne, hx, List.not_mem_nil, if_false, hn, if_true]
          cases c.running <;> simp
      rw [this]
  exact ⟨hperm, listing_of_perm hw hw3 hperm⟩

end Pr2
