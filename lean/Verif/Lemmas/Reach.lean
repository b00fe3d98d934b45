import Verif.Lemmas.ServiceNrt

namespace Pr2
set_option linter.unusedVariables false
set_option linter.unusedSimpArgs false

theorem Inv.call {s : State} (h : Inv s) (op : Op) : Inv (s.call op) := by
  unfold State.call
  split
  · rename_i hn
    have hr := h.req0 (by rw [hn]; rfl)
    have hp := h.pleaseOff (by rw [hn]; rfl)
    cases op <;>
      refine h.nrtFrame rfl rfl rfl rfl rfl rfl rfl rfl rfl rfl rfl rfl rfl rfl (by rw [hn]; rfl) (by intro f hf; simp [NrtPc.clearing] at hf)
        (by simp [NrtPc.built]) (by rw [hn]; rfl) (by rw [hn]; rfl) (by rw [hp]; simp) (fun _ => hr) rfl (fun _ _ => hr)
  · exact h

theorem Inv2.call {s : State} (h : Inv s) (h2 : Inv2 s) (op : Op) : Inv2 (s.call op) := by
  unfold State.call
  split
  · rename_i hn
    have hh := h2.hist
    rw [hn] at hh
    cases op with
    | load r => exact ⟨hh, rfl, rfl⟩
    | unload r => exact ⟨hh, rfl, rfl⟩
    | switch a b c => exact ⟨hh, rfl⟩
    | list => exact ⟨hh, rfl, fun _ => rfl, List.Forall₂.nil⟩
  · exact h2

theorem Inv.step {s : State} (h : Inv s) {a : Act} (ha : a ≠ .shutdown) : Inv (s.step a) := by
  unfold State.step
  rw [if_neg (by rw [h.notbad]; simp)]
  cases a with
  | rt i => exact h.rtStep i
  | nrt => exact h.nrtStep
  | call op => exact h.call op
  | shutdown => exact absurd rfl ha

theorem Inv2.step {s : State} (h : Inv s) (h2 : Inv2 s) {a : Act} (ha : a ≠ .shutdown) : Inv2 (s.step a) := by
  unfold State.step
  rw [if_neg (by rw [h.notbad]; simp)]
  cases a with
  | rt i => exact h2.rtStep h i
  | nrt => exact h2.nrtStep h
  | call op => exact h2.call h op
  | shutdown => exact absurd rfl ha

/-- the state in which the realtime loop first announces the list it uses -/
theorem inv_first (m : Bool) : Inv { State.init m with used := some false, rt := .pre } := by
  refine ⟨rfl, rfl, good_nil _ _, Or.inl rfl, ?_, ?_, ?_, ?_, ?_, ?_, rfl, ?_, ?_, ?_, ?_, ?_, ?_, rfl⟩ <;>
    simp [State.init, RtPc.reg, NrtPc.former, NrtPc.clearing, NrtPc.built, NrtPc.holdsPub, RtPc.fills, RtPc.mid, RtPc.inSwitch, NrtPc.waitsSwitch]

theorem inv2_first (m : Bool) : Inv2 { State.init m with used := some false, rt := .pre } :=
  ⟨History.nil _, trivial⟩

/-- the realtime loop alone, before it announced its list -/
theorem start_cases (m : Bool) (first : List RtIn) {P : State → Prop}
    (h0 : P { State.init m with used := some false, rt := .pre })
    (hs : ∀ s i, Inv s → P s → P (s.rtStep i)) :
    let s := (State.init m).run (first.map Act.rt)
    s = State.init m ∨ s = { State.init m with rt := .gotCurrent false } ∨ (Inv s ∧ P s) := by
  induction first using List.reverseRecOn with
  | nil => left; rfl
  | append_singleton l i ih =>
    intro s
    have hs' : s = ((State.init m).run (l.map Act.rt)).step (.rt i) := by
      simp [s, State.run, List.foldl_append]
    simp only at ih
    rcases ih with ih | ih | ⟨ih, ih2⟩
    · right; left
      rw [hs', ih]; rfl
    · right; right
      rw [hs', ih]
      exact ⟨inv_first m, h0⟩
    · right; right
      rw [hs']
      refine ⟨ih.step (by simp), ?_⟩
      unfold State.step
      rw [if_neg (by rw [ih.notbad]; simp)]
      exact hs _ i ih ih2

theorem reach_induct (m : Bool) {P : State → Prop}
    (h0 : P { State.init m with used := some false, rt := .pre })
    (hrt : ∀ s i, Inv s → P s → P (s.rtStep i))
    (hn : ∀ s, Inv s → P s → P s.nrtStep)
    (hc : ∀ s op, Inv s → P s → P (s.call op)) {s : State} (h : Reachable m s) : Inv s ∧ P s := by
  induction h with
  | start first h =>
    rcases start_cases m first h0 hrt with h1 | h1 | h1
    · rw [h1] at h; exact absurd rfl h
    · rw [h1] at h; exact absurd rfl h
    · exact h1
  | step hs a ha ih =>
    refine ⟨ih.1.step ha, ?_⟩
    unfold State.step
    rw [if_neg (by rw [ih.1.notbad]; simp)]
    cases a with
    | rt i => exact hrt _ i ih.1 ih.2
    | nrt => exact hn _ ih.1 ih.2
    | call op => exact hc _ op ih.1 ih.2
    | shutdown => exact absurd rfl ha

theorem Reachable.inv {m : Bool} {s : State} (h : Reachable m s) : Inv s ∧ Inv2 s :=
  reach_induct m (inv2_first m) (fun s i h h2 => h2.rtStep h i) (fun s h h2 => h2.nrtStep h) (fun s op h h2 => h2.call h op) h

end Pr2
