import Verif.Props.Restore
import Verif.Props.ClientsTotal

/-! # C62 continued: `pr2_controller_manager spawn a b c` and `kill a b c` -/

namespace Pr2
set_option linter.unusedVariables false

/-- controller `c` needs `n`: it wants it to run before or after it -/
def CtrlView.Needs (c : CtrlView) (n : String) : Prop := n ∈ c.before ∨ n ∈ c.after

/-- the run flags after starting the controllers `ns` -/
def CtrlView.started (ns : List String) (c : CtrlView) : CtrlView := { c with running := c.running || decide (c.name ∈ ns) }
/-- the run flags after stopping the controllers `ns` -/
def CtrlView.halted (ns : List String) (c : CtrlView) : CtrlView := { c with running := c.running && !decide (c.name ∈ ns) }

theorem strict_one_start {v v' : View} {res : Res} {n : String} (h : call (.switch [n] [] STRICT) v res v') :
    v'.ctrls = v.ctrls.map (CtrlView.started [n]) := by
  by_cases hn : n ∈ v.names
  · obtain ⟨_, rfl⟩ := switch_ok h (by simpa using hn)
    refine List.map_congr_left fun c _ => ?_
    unfold switchOne CtrlView.started
    by_cases hc : c.name = n <;> simp [hc]
  · rcases h with ⟨_, _, _, h⟩ | ⟨_, h, _⟩
    · dsimp only at h
      subst h
      symm
      conv_rhs => rw [← List.map_id v'.ctrls]
      refine List.map_congr_left fun c hc => ?_
      have : c.name ≠ n := fun e => hn (List.mem_map.2 ⟨c, hc, e⟩)
      simp [CtrlView.started, this]
    · exact absurd ⟨rfl, n, by simp, hn⟩ h

theorem strict_one_stop {v v' : View} {res : Res} {n : String} (h : call (.switch [] [n] STRICT) v res v') :
    v'.ctrls = v.ctrls.map (CtrlView.halted [n]) := by
  by_cases hn : n ∈ v.names
  · obtain ⟨_, rfl⟩ := switch_ok h (by simpa using hn)
    refine List.map_congr_left fun c _ => ?_
    unfold switchOne CtrlView.halted
    by_cases hc : c.name = n <;> simp [hc]
  · rcases h with ⟨_, _, _, h⟩ | ⟨_, h, _⟩
    · dsimp only at h
      subst h
      symm
      conv_rhs => rw [← List.map_id v'.ctrls]
      refine List.map_congr_left fun c hc => ?_
      have : c.name ≠ n := fun e => hn (List.mem_map.2 ⟨c, hc, e⟩)
      simp [CtrlView.halted, this]
    · exact absurd ⟨rfl, n, by simp, hn⟩ h

theorem each_start {ns : List String} {v v' : View} (h : callEach (ns.map (fun n => Op.switch [n] [] STRICT)) v () v') :
    v'.ctrls = v.ctrls.map (CtrlView.started ns) := by
  induction ns generalizing v with
  | nil =>
    obtain ⟨_, rfl⟩ := h
    symm
    conv_rhs => rw [← List.map_id v'.ctrls]
    exact List.map_congr_left fun c _ => by simp [CtrlView.started]
  | cons n ns ih =>
    obtain ⟨r, v1, h1, h2⟩ := h
    rw [ih h2, strict_one_start h1, List.map_map]
    refine List.map_congr_left fun c _ => ?_
    simp only [Function.comp, CtrlView.started, List.mem_cons, List.not_mem_nil, or_false]
    by_cases h1 : c.name = n <;> by_cases h2 : c.name ∈ ns <;> simp [h1, h2]

theorem each_stop {ns : List String} {v v' : View} (h : callEach (ns.map (fun n => Op.switch [] [n] STRICT)) v () v') :
    v'.ctrls = v.ctrls.map (CtrlView.halted ns) := by
  induction ns generalizing v with
  | nil =>
    obtain ⟨_, rfl⟩ := h
    symm
    conv_rhs => rw [← List.map_id v'.ctrls]
    exact List.map_congr_left fun c _ => by simp [CtrlView.halted]
  | cons n ns ih =>
    obtain ⟨r, v1, h1, h2⟩ := h
    rw [ih h2, strict_one_stop h1, List.map_map]
    refine List.map_congr_left fun c _ => ?_
    simp only [Function.comp, CtrlView.halted, List.mem_cons, List.not_mem_nil, or_false]
    by_cases h1 : c.name = n <;> by_cases h2 : c.name ∈ ns <;> simp [h1, h2]

/-- unloading stopped controllers one after the other -/
theorem each_unload {ns : List String} {v v' : View} (hs : ∀ c ∈ v.ctrls, c.name ∈ ns → c.running = false)
    (h : callEach (ns.map Op.unload) v () v') :
    ∃ gone : List String, gone ⊆ ns ∧ v'.ctrls = v.ctrls.filter (fun c => c.name ∉ gone) ∧
      (∀ n ∈ gone, ∀ c ∈ v'.ctrls, ¬ c.Needs n) ∧ (∀ n ∈ ns, n ∈ v'.names → ∃ c ∈ v.ctrls, c.Needs n) := by
  induction ns generalizing v with
  | nil =>
    obtain ⟨_, rfl⟩ := h
    exact ⟨[], by simp, by simp, by simp, by simp⟩
  | cons n ns ih =>
    obtain ⟨r, v1, h1, h2⟩ := h
    rcases unload_cases h1 with ⟨_, k1, k2, _, _, k4⟩ | ⟨_, k1, k2⟩
    · obtain ⟨gone, g1, g2, g3, g4⟩ := ih (fun c hc hcn => hs c (by rw [k4] at hc; exact (List.mem_filter.1 hc).1) (by simp [hcn])) h2
      refine ⟨n :: gone, ?_, ?_, ?_, ?_⟩
      · intro x hx
        rcases List.mem_cons.1 hx with rfl | hx
        · simp
        · exact List.mem_cons_of_mem _ (g1 hx)
      · rw [g2, k4, List.filter_filter]
        refine List.filter_congr fun c _ => ?_
        by_cases e1 : c.name = n <;> by_cases e2 : c.name ∈ gone <;> simp [e1, e2]
      · intro x hx c hc
        rcases List.mem_cons.1 hx with rfl | hx
        · rw [g2, k4] at hc
          have := k2 c (List.mem_filter.1 (List.mem_filter.1 hc).1).1
          rintro (h | h)
          · exact this.1 h
          · exact this.2 h
        · exact g3 x hx c hc
      · intro m hm hmv
        rcases List.mem_cons.1 hm with rfl | hm
        · exfalso
          unfold View.names at hmv
          rw [g2, k4] at hmv
          obtain ⟨c, hc, hcn⟩ := List.mem_map.1 hmv
          have := (List.mem_filter.1 (List.mem_filter.1 hc).1).2
          simp [hcn] at this
        · obtain ⟨c, hc, hcn⟩ := g4 m hm hmv
          rw [k4] at hc
          exact ⟨c, (List.mem_filter.1 hc).1, hcn⟩
    · subst k1
      obtain ⟨gone, g1, g2, g3, g4⟩ := ih (fun c hc hcn => hs c hc (by simp [hcn])) h2
      refine ⟨gone, fun x hx => List.mem_cons_of_mem _ (g1 hx), g2, g3, ?_⟩
      intro m hm hmv
      rcases List.mem_cons.1 hm with rfl | hm
      · have hin : m ∈ v1.names := by
          unfold View.names at hmv ⊢
          rw [g2] at hmv
          obtain ⟨c, hc, hcn⟩ := List.mem_map.1 hmv
          exact List.mem_map.2 ⟨c, (List.mem_filter.1 hc).1, hcn⟩
        by_contra hcon
        push Not at hcon
        exact k2 ⟨⟨hin, fun c hc => ⟨fun hb => hcon c hc (Or.inl hb), fun hb => hcon c hc (Or.inr hb)⟩⟩, fun c hc hcn => hs c hc (by simp [hcn])⟩
      · exact g4 m hm hmv

theorem halted_stops (ns : List String) {l : List CtrlView} : ∀ c ∈ l.map (CtrlView.halted ns), c.name ∈ ns → c.running = false := by
  intro c hc hn
  obtain ⟨d, hd, rfl⟩ := List.mem_map.1 hc
  have : d.name ∈ ns := hn
  simp [CtrlView.halted, this]

theorem halted_needs {ns : List String} {c : CtrlView} {n : String} : (c.halted ns).Needs n ↔ c.Needs n := Iff.rfl

/-- **C62.** `pr2_controller_manager kill n₁ n₂ …`, from any state, with any names: all controllers named are stopped; only controllers named are unloaded, and only
such as nobody loaded needs afterwards; one that stays was needed by a loaded controller; nothing else changes. -/
theorem C62_kill {ns : List String} {v v' : View} (h : cliKill ns v () v') :
    ∃ gone : List String, gone ⊆ ns ∧ v'.ctrls = (v.ctrls.filter (fun c => c.name ∉ gone)).map (CtrlView.halted ns) ∧
      (∀ n ∈ gone, ∀ c ∈ v'.ctrls, ¬ c.Needs n) ∧ (∀ n ∈ ns, n ∈ v'.names → ∃ c ∈ v.ctrls, c.Needs n) := by
  obtain ⟨_, v1, h1, h2⟩ := h
  have e1 := each_stop h1
  obtain ⟨gone, g1, g2, g3, g4⟩ := each_unload (by rw [e1]; exact halted_stops ns) h2
  refine ⟨gone, g1, ?_, g3, ?_⟩
  · rw [g2, e1, List.filter_map]; rfl
  · intro n hn hv
    obtain ⟨c, hc, hcn⟩ := g4 n hn hv
    rw [e1] at hc
    obtain ⟨d, hd, rfl⟩ := List.mem_map.1 hc
    exact ⟨d, hd, hcn⟩

/-- **C62.** If every controller that needs one of those named is named before it, exactly the named ones are gone, and nothing else changes. -/
theorem C62_kill_all {ns : List String} {v v' : View} (h : cliKill ns v () v')
    (ho : ∀ pre n post, ns = pre ++ n :: post → ∀ c ∈ v.ctrls, c.Needs n → c.name ∈ pre) :
    v'.ctrls = v.ctrls.filter (fun c => c.name ∉ ns) := by
  obtain ⟨_, v1, h1, h2⟩ := h
  have e1 := each_stop h1
  have key : ∀ (ns : List String) (v v' : View), (∀ c ∈ v.ctrls, c.name ∈ ns → c.running = false) →
      (∀ pre n post, ns = pre ++ n :: post → ∀ c ∈ v.ctrls, c.Needs n → c.name ∈ pre) → callEach (ns.map Op.unload) v () v' →
      v'.ctrls = v.ctrls.filter (fun c => c.name ∉ ns) := by
    intro ns
    induction ns with
    | nil => intro v v' _ _ h; obtain ⟨_, rfl⟩ := h; simp
    | cons n ns ih =>
      intro v v' hs ho h
      obtain ⟨r, v1, h1, h2⟩ := h
      have hno : ∀ c ∈ v.ctrls, n ∉ c.before ∧ n ∉ c.after := fun c hc =>
        ⟨fun hb => absurd (ho [] n ns rfl c hc (Or.inl hb)) (by simp), fun hb => absurd (ho [] n ns rfl c hc (Or.inr hb)) (by simp)⟩
      have hv1 : v1.ctrls = v.ctrls.filter (fun c => c.name != n) := by
        rcases unload_cases h1 with ⟨_, _, _, _, _, k4⟩ | ⟨_, k1, k2⟩
        · exact k4
        · subst k1
          symm
          rw [List.filter_eq_self]
          intro c hc
          have : n ∉ v1.names := fun hn => k2 ⟨⟨hn, hno⟩, fun c hc hcn => hs c hc (by simp [hcn])⟩
          have : c.name ≠ n := fun e => this (List.mem_map.2 ⟨c, hc, e⟩)
          simpa using this
      have hsub : ∀ c ∈ v1.ctrls, c ∈ v.ctrls ∧ c.name ≠ n := by
        intro c hc
        rw [hv1] at hc
        obtain ⟨a, b⟩ := List.mem_filter.1 hc
        exact ⟨a, by simpa using b⟩
      rw [ih v1 v' (fun c hc hcn => hs c (hsub c hc).1 (by simp [hcn])) ?_ h2, hv1, List.filter_filter]
      · refine List.filter_congr fun c _ => ?_
        by_cases e1 : c.name = n <;> by_cases e2 : c.name ∈ ns <;> simp [e1, e2]
      · intro pre m post he c hc hcm
        have := ho (n :: pre) m post (by rw [he]; rfl) c (hsub c hc).1 hcm
        rcases List.mem_cons.1 this with h | h
        · exact absurd h (hsub c hc).2
        · exact h
  rw [key ns v1 v' (by rw [e1]; exact halted_stops ns) ?_ h2, e1, List.filter_map]
  · have : ((fun c : CtrlView => decide (c.name ∉ ns)) ∘ CtrlView.halted ns) = (fun c => decide (c.name ∉ ns)) := rfl
    rw [this]
    conv_rhs => rw [← List.map_id (v.ctrls.filter _)]
    refine List.map_congr_left fun c hc => ?_
    have := (List.mem_filter.1 hc).2
    simp only [decide_eq_true_eq] at this
    simp [CtrlView.halted, this]
  · intro pre n post he c hc hcn
    rw [e1] at hc
    obtain ⟨d, hd, rfl⟩ := List.mem_map.1 hc
    exact ho pre n post he d hd hcn

theorem callEach_append {a b : List Op} {v v' : View} : callEach (a ++ b) v () v' ↔ ∃ u, callEach a v () u ∧ callEach b u () v' := by
  induction a generalizing v with
  | nil => exact ⟨fun h => ⟨v, ⟨rfl, rfl⟩, h⟩, fun ⟨u, ⟨_, hu⟩, h⟩ => by subst hu; exact h⟩
  | cons o a ih =>
    constructor
    · rintro ⟨r, v1, h1, h2⟩
      obtain ⟨u, h3, h4⟩ := ih.1 h2
      exact ⟨u, ⟨r, v1, h1, h3⟩, h4⟩
    · rintro ⟨u, ⟨r, v1, h1, h3⟩, h4⟩
      exact ⟨r, v1, h1, ih.2 ⟨u, h3, h4⟩⟩

theorem names_filter {v v' : View} {gone : List String} (h : v'.ctrls = v.ctrls.filter (fun c => c.name ∉ gone)) (n : String) :
    n ∈ v'.names ↔ n ∈ v.names ∧ n ∉ gone := by
  unfold View.names
  rw [h]
  simp only [List.mem_map, List.mem_filter, decide_eq_true_eq]
  constructor
  · rintro ⟨c, ⟨h1, h2⟩, rfl⟩; exact ⟨⟨c, h1, rfl⟩, h2⟩
  · rintro ⟨⟨c, h1, rfl⟩, h2⟩; exact ⟨c, ⟨h1, h2⟩, rfl⟩

/-- **C62.** Exactly which controllers `kill` leaves, if no name is given twice: one stays if and only if a controller needs it that is not named before it, or stays
itself. -/
theorem C62_kill_exact {ns : List String} (hnd : ns.Nodup) {v v' : View} (h : cliKill ns v () v') {pre post : List String} {n : String}
    (hs : ns = pre ++ n :: post) (hn : n ∈ v.names) :
    n ∈ v'.names ↔ ∃ c ∈ v.ctrls, c.Needs n ∧ (c.name ∈ pre → c.name ∈ v'.names) := by
  obtain ⟨_, v1, h1, h2⟩ := h
  have e1 := each_stop h1
  have hnames : v1.names = v.names := by unfold View.names; rw [e1, List.map_map]; rfl
  have hst := halted_stops ns (l := v.ctrls)
  rw [← e1] at hst
  rw [hs, List.map_append, List.map_cons] at h2
  obtain ⟨u, k1, r, w, k2, k3⟩ := callEach_append.1 h2
  obtain ⟨g, g1, g2, _, _⟩ := each_unload (fun c hc hcn => hst c hc (by rw [hs]; simp [hcn])) k1
  have hu : ∀ c ∈ u.ctrls, c ∈ v1.ctrls := fun c hc => by rw [g2] at hc; exact (List.mem_filter.1 hc).1
  have hust : ∀ c ∈ u.ctrls, c.name ∈ ns → c.running = false := fun c hc hcn => hst c (hu c hc) hcn
  have hw : ∃ g', g' ⊆ [n] ∧ w.ctrls = u.ctrls.filter (fun c => c.name ∉ g') ∧ (n ∈ w.names ↔ n ∈ u.names ∧ ∃ c ∈ u.ctrls, c.Needs n) := by
    rcases unload_cases k2 with ⟨_, m1, m2, _, _, m4⟩ | ⟨_, m1, m2⟩
    · have e : w.ctrls = u.ctrls.filter (fun c => c.name ∉ [n]) := by
        rw [m4]; refine List.filter_congr fun c _ => ?_
        by_cases hc : c.name = n <;> simp [hc]
      refine ⟨[n], by simp, e, ?_⟩
      rw [names_filter e]
      simp only [List.mem_singleton, not_true_eq_false, and_false, false_iff, not_and, not_exists]
      rintro _ c hc (hb | hb)
      · exact (m2 c hc).1 hb
      · exact (m2 c hc).2 hb
    · subst m1
      refine ⟨[], by simp, by simp, ⟨fun hx => ⟨hx, ?_⟩, fun hx => hx.1⟩⟩
      by_contra hcon
      push Not at hcon
      exact m2 ⟨⟨hx, fun c hc => ⟨fun hb => hcon c hc (Or.inl hb), fun hb => hcon c hc (Or.inr hb)⟩⟩, fun c hc hcn => hust c hc (by rw [hs, hcn]; simp)⟩
  obtain ⟨g', g1', g2', hwn⟩ := hw
  have hwst : ∀ c ∈ w.ctrls, c.name ∈ post → c.running = false := fun c hc hcn => by
    rw [g2'] at hc; exact hust c (List.mem_filter.1 hc).1 (by rw [hs]; simp [hcn])
  obtain ⟨g'', g1'', g2'', _, _⟩ := each_unload hwst k3
  rw [hs] at hnd
  have hd := List.nodup_append.1 hnd
  have hd2 := List.nodup_cons.1 hd.2.1
  have hnpre : n ∉ pre := fun hx => hd.2.2 n hx n (by simp) rfl
  have hpp : ∀ x ∈ pre, x ∉ post ∧ x ≠ n := fun x hx => ⟨fun hp => hd.2.2 x hx x (by simp [hp]) rfl, fun e => hnpre (e ▸ hx)⟩
  have a1 : n ∈ v'.names ↔ n ∈ w.names := by
    rw [names_filter g2'']; exact ⟨fun x => x.1, fun x => ⟨x, fun y => hd2.1 (g1'' y)⟩⟩
  have a2 : n ∈ u.names := by
    rw [names_filter g2, hnames]; exact ⟨hn, fun y => hnpre (g1 y)⟩
  have a3 : ∀ x ∈ pre, (x ∈ v'.names ↔ x ∈ u.names) := by
    intro x hx
    rw [names_filter g2'', names_filter g2']
    refine ⟨fun y => y.1.1, fun y => ⟨⟨y, fun z => ?_⟩, fun z => (hpp x hx).1 (g1'' z)⟩⟩
    have := g1' z
    simp only [List.mem_singleton] at this
    exact (hpp x hx).2 this
  rw [a1, hwn]
  constructor
  · rintro ⟨_, c, hc, hcn⟩
    have hc1 := hu c hc
    rw [e1] at hc1
    obtain ⟨d, hd, rfl⟩ := List.mem_map.1 hc1
    refine ⟨d, hd, hcn, fun hx => ?_⟩
    rw [a3 _ hx]
    exact List.mem_map.2 ⟨_, hc, rfl⟩
  · rintro ⟨c, hc, hcn, hx⟩
    refine ⟨a2, c.halted ns, ?_, hcn⟩
    rw [g2, e1]
    refine List.mem_filter.2 ⟨List.mem_map.2 ⟨c, hc, rfl⟩, ?_⟩
    simp only [decide_eq_true_eq]
    intro hg
    have hp : c.name ∈ pre := g1 hg
    have := (a3 _ hp).1 (hx hp)
    exact ((names_filter g2 c.name).1 this).2 hg

/-- loading one after the other -/
theorem each_load {qs : List LoadReq} {v v' : View} (h : callEach (qs.map Op.load) v () v') :
    ∃ new : List CtrlView, v'.ctrls = v.ctrls ++ new ∧ (new.map (·.name)).Sublist (qs.map (·.name)) ∧
      (∀ c ∈ new, c.name ∉ v.names ∧ c.running = false) ∧
      (∀ q ∈ qs, q.name ∈ v'.names ∨ ∃ (u : View) (k : Nat), u.ctrls = v.ctrls ++ new.take k ∧ ¬ LoadOk u q) := by
  induction qs generalizing v with
  | nil =>
    obtain ⟨_, rfl⟩ := h
    exact ⟨[], by simp, by simp, by simp, by simp⟩
  | cons q qs ih =>
    obtain ⟨r, v1, h1, h2⟩ := h
    obtain ⟨new, n1, n2, n3, n4⟩ := ih h2
    rcases h1 with ⟨_, hq, _, id, _, hc⟩ | ⟨_, hno, hp⟩
    · dsimp only at hc hq
      refine ⟨_ :: new, by rw [n1, hc, List.append_assoc]; rfl, ?_, ?_, ?_⟩
      · exact n2.cons_cons q.name
      · intro c hc'
        rcases List.mem_cons.1 hc' with rfl | hc'
        · exact ⟨hq.1, rfl⟩
        · refine ⟨fun hx => (n3 c hc').1 ?_, (n3 c hc').2⟩
          unfold View.names at hx ⊢
          rw [hc, List.map_append, List.mem_append]; exact Or.inl hx
      · intro p hp
        rcases List.mem_cons.1 hp with rfl | hp
        · left; unfold View.names; rw [n1, hc]; simp
        · rcases n4 p hp with h | ⟨u, k, h, hl⟩
          · exact Or.inl h
          · exact Or.inr ⟨u, k + 1, by rw [h, hc, List.append_assoc]; rfl, hl⟩
    · dsimp only at hno hp
      subst hp
      refine ⟨new, n1, n2.cons q.name, n3, ?_⟩
      intro p hp
      rcases List.mem_cons.1 hp with rfl | hp
      · exact Or.inr ⟨v1, 0, by simp, hno⟩
      · exact n4 p hp

/-- **C62.** `pr2_controller_manager spawn n₁ n₂ …`, from any state, with any names: controllers are only added, only ones named, behind those that were there; all
controllers named that are loaded afterwards run (also those loaded before); one that is not loaded afterwards could not be loaded when its turn came; nothing else
changes. -/
theorem C62_spawn {qs : List LoadReq} {v v' : View} (h : cliSpawn qs v () v') :
    ∃ new : List CtrlView, v'.ctrls = (v.ctrls ++ new).map (CtrlView.started (qs.map (·.name))) ∧ (new.map (·.name)).Sublist (qs.map (·.name)) ∧
      (∀ c ∈ new, c.name ∉ v.names) ∧
      (∀ q ∈ qs, q.name ∈ v'.names ∨ ∃ (u : View) (k : Nat), u.ctrls = v.ctrls ++ new.take k ∧ ¬ LoadOk u q) := by
  obtain ⟨_, v1, h1, h2⟩ := h
  obtain ⟨new, n1, n2, n3, n4⟩ := each_load h1
  have e : qs.map (fun q => Op.switch [q.name] [] STRICT) = (qs.map (·.name)).map (fun n => Op.switch [n] [] STRICT) := by
    rw [List.map_map]; rfl
  rw [e] at h2
  have e2 := each_start h2
  have e3 : v'.names = v1.names := by
    unfold View.names; rw [e2, List.map_map]; rfl
  exact ⟨new, by rw [e2, n1], n2, fun c hc => (n3 c hc).1, by rw [e3]; exact n4⟩

/-- **C62.** Controllers that need no others: if their configurations are right they are all loaded and running afterwards. -/
theorem C62_spawn_all {l : List CallRec} {qs : List LoadReq} {v v' : View} (hv : History View.empty l v) (h : cliSpawn qs v () v')
    (hi : ∀ q ∈ qs, q.Independent) : ∀ q ∈ qs, ∃ c ∈ v'.ctrls, c.name = q.name ∧ c.running = true := by
  have hw := WF.history hv WF.empty
  have hload : ∀ (qs : List LoadReq) (v v' : View), v.WF → callEach (qs.map Op.load) v () v' → (∀ q ∈ qs, q.Independent) →
      (∀ n ∈ v.names, n ∈ v'.names) ∧ ∀ q ∈ qs, q.name ∈ v'.names := by
    intro qs
    induction qs with
    | nil => intro v v' _ h _; obtain ⟨_, rfl⟩ := h; exact ⟨fun n hn => hn, by simp⟩
    | cons q qs ih =>
      intro v v' hw h hi
      obtain ⟨r, v1, h1, h2⟩ := h
      have hw1 : v1.WF := WF.call h1 hw
      obtain ⟨i1, i2⟩ := ih v1 v' hw1 h2 (fun p hp => hi p (by simp [hp]))
      have key : (∀ n ∈ v.names, n ∈ v1.names) ∧ q.name ∈ v1.names := by
        by_cases hq : q.name ∈ v.names
        · rcases h1 with ⟨_, hok, _⟩ | ⟨_, _, hp⟩
          · exact absurd hq hok.1
          · dsimp only at hp; subst hp; exact ⟨fun n hn => hn, hq⟩
        · obtain ⟨id, hc⟩ := load_independent hw (hi q (by simp)) hq h1
          unfold View.names
          rw [hc]
          exact ⟨fun n hn => by rw [List.map_append, List.mem_append]; exact Or.inl hn, by simp⟩
      exact ⟨fun n hn => i1 n (key.1 n hn), fun p hp => by
        rcases List.mem_cons.1 hp with rfl | hp
        · exact i1 _ key.2
        · exact i2 p hp⟩
  intro q hq
  obtain ⟨_, v1, h1, h2⟩ := h
  have hin := (hload qs v v1 hw h1 hi).2 q hq
  have e : qs.map (fun q => Op.switch [q.name] [] STRICT) = (qs.map (·.name)).map (fun n => Op.switch [n] [] STRICT) := by
    rw [List.map_map]; rfl
  rw [e] at h2
  have e2 := each_start h2
  obtain ⟨c, hc, hcn⟩ := List.mem_map.1 hin
  refine ⟨c.started (qs.map (·.name)), by rw [e2]; exact List.mem_map.2 ⟨c, hc, rfl⟩, hcn, ?_⟩
  have : c.name ∈ qs.map (·.name) := by rw [hcn]; exact List.mem_map.2 ⟨q, hq, rfl⟩
  simp only [CtrlView.started, this, decide_true, Bool.or_true]

/-! ## The hypotheses are met; the order of the names matters -/

/-- With `a` and `b` loaded, where `b` needs `a`: `kill b a` unloads both, `kill a b` leaves `a`. -/
example : ∃ l v, History View.empty l v ∧ v.names = ["a", "b"] ∧ (∃ v', cliKill ["b", "a"] v () v' ∧ v'.names = []) ∧
    ∃ v', cliKill ["a", "b"] v () v' ∧ "a" ∈ v'.names ∧ "b" ∉ v'.names := by
  obtain ⟨v, hv, he⟩ := manager_history reloadMid_reachable
  have he := he (by decide +kernel)
  have hw := WF.history hv WF.empty
  have hns : v.names = ["a", "b"] := by rw [← he]; decide +kernel
  have hneed : (v.ctrls.map (fun c => (c.name, c.before, c.after))) = [("a", [], []), ("b", ["a"], [])] := by rw [← he]; decide +kernel
  have hc : ∀ c ∈ v.ctrls, (c.name = "a" ∧ c.before = [] ∧ c.after = []) ∨ (c.name = "b" ∧ c.before = ["a"] ∧ c.after = []) := by
    intro c hc
    have : (c.name, c.before, c.after) ∈ [("a", ([] : List String), ([] : List String)), ("b", ["a"], [])] := by
      rw [← hneed]; exact List.mem_map.2 ⟨c, hc, rfl⟩
    simpa using this
  have hb : ∃ c ∈ v.ctrls, c.name = "b" ∧ c.before = ["a"] := by
    have : ("b", ["a"], ([] : List String)) ∈ v.ctrls.map (fun c => (c.name, c.before, c.after)) := by rw [hneed]; simp
    obtain ⟨c, h1, h2⟩ := List.mem_map.1 this
    simp only [Prod.mk.injEq] at h2
    exact ⟨c, h1, h2.1, h2.2.1⟩
  obtain ⟨_, _, _, _, tk, _⟩ := clients_total
  refine ⟨_, v, hv, hns, ?_, ?_⟩
  · obtain ⟨⟨⟩, v', hk, _⟩ := tk ["b", "a"] v hw
    refine ⟨v', hk, ?_⟩
    have := C62_kill_all hk (by
      intro pre n post hs c hcv hn
      rcases hc c hcv with ⟨h1, h2, h3⟩ | ⟨h1, h2, h3⟩
      · unfold CtrlView.Needs at hn; rw [h2, h3] at hn; simp at hn
      · unfold CtrlView.Needs at hn; rw [h2, h3] at hn
        have hna : n = "a" := by simpa using hn
        subst hna
        match pre, hs with
        | [], hs => simp at hs
        | p :: pre, hs => simp at hs; rw [h1, hs.1]; simp)
    unfold View.names
    rw [this, List.map_eq_nil_iff, List.filter_eq_nil_iff]
    intro c hcv
    rcases hc c hcv with ⟨h1, _⟩ | ⟨h1, _⟩ <;> simp [h1]
  · obtain ⟨⟨⟩, v', hk, _⟩ := tk ["a", "b"] v hw
    refine ⟨v', hk, ?_, ?_⟩
    · rw [C62_kill_exact (by simp) hk (pre := []) (n := "a") (post := ["b"]) rfl (by rw [hns]; simp)]
      obtain ⟨c, h1, h2, h3⟩ := hb
      exact ⟨c, h1, Or.inl (by rw [h3]; simp), by simp⟩
    · rw [C62_kill_exact (by simp) hk (pre := ["a"]) (n := "b") (post := []) rfl (by rw [hns]; simp)]
      rintro ⟨c, h1, h2, _⟩
      unfold CtrlView.Needs at h2
      rcases hc c h1 with ⟨_, e2, e3⟩ | ⟨_, e2, e3⟩ <;> rw [e2, e3] at h2 <;> simp at h2

end Pr2
