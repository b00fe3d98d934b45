import Verif.Model.Robot
import Mathlib.Data.List.Forall2

/-! # Facts about the initialisation monad -/

namespace Pr2
open Init

/-- The second list of actuators is the first with some more actuators enabled. -/
def EnableOnly {F : Type} (s s' : List (Actuator F)) : Prop := List.Forall₂ (fun a b => b = a ∨ b = { a with enable := true }) s s'

/-- The first actuator called `n` exists and is enabled. -/
def EnabledAct {F : Type} (s : List (Actuator F)) (n : String) : Prop := ∃ a, s.find? (fun a => a.name == n) = some a ∧ a.enable = true

variable {F α β : Type}

theorem EnableOnly.refl (s : List (Actuator F)) : EnableOnly s s := List.forall₂_refl_of (fun a => Or.inl rfl) s
where List.forall₂_refl_of {R : Actuator F → Actuator F → Prop} (h : ∀ a, R a a) : ∀ s, List.Forall₂ R s s
  | [] => .nil
  | a :: s => .cons (h a) (List.forall₂_refl_of h s)

theorem EnableOnly.trans {s t u : List (Actuator F)} (h : EnableOnly s t) (k : EnableOnly t u) : EnableOnly s u := by
  induction h generalizing u with
  | nil => cases k; exact .nil
  | cons h _ ih =>
    cases k with
    | cons k ks =>
      refine .cons ?_ (ih ks)
      rcases h with rfl | rfl <;> rcases k with rfl | rfl <;> simp

theorem EnableOnly.names {s t : List (Actuator F)} (h : EnableOnly s t) : t.map (·.name) = s.map (·.name) := by
  induction h with
  | nil => rfl
  | cons h _ ih => rcases h with rfl | rfl <;> simp [ih]

theorem EnableOnly.length {s t : List (Actuator F)} (h : EnableOnly s t) : t.length = s.length := (List.Forall₂.length_eq h).symm

theorem EnableOnly.enabled {s t : List (Actuator F)} (h : EnableOnly s t) {n : String} (e : EnabledAct s n) : EnabledAct t n := by
  obtain ⟨a, ha, he⟩ := e
  induction h with
  | nil => simp at ha
  | @cons x y s t h _ ih =>
    by_cases hx : x.name = n
    · have : a = x := by simpa [List.find?_cons, hx, eq_comm] using ha
      subst this
      refine ⟨y, ?_, ?_⟩
      · rcases h with rfl | rfl <;> simp [hx]
      · rcases h with rfl | rfl <;> simp [he]
    · have hy : (y.name == n) = false := by rcases h with rfl | rfl <;> simpa using hx
      have hx' : (x.name == n) = false := by simpa using hx
      rw [List.find?_cons, hx'] at ha
      obtain ⟨b, hb, hbe⟩ := ih ha
      exact ⟨b, by rw [List.find?_cons, hy]; exact hb, hbe⟩

/-- `m` changes actuators only by enabling them, and how it ends depends only on which actuators there are. -/
structure Tame (m : Init F α) : Prop where
  frame : ∀ s, EnableOnly s (m s).1
  indep : ∀ s s', s.map (·.name) = s'.map (·.name) → (m s).2 = (m s').2

theorem bind_def (m : Init F α) (f : α → Init F β) (s : List (Actuator F)) : (m >>= f) s =
    match m s with
    | (s', .ok a) => f a s'
    | (s', .fail) => (s', .fail)
    | (s', .crash) => (s', .crash) := rfl

theorem tame_pure (a : α) : Tame (pure a : Init F α) := ⟨fun s => .refl s, fun _ _ _ => rfl⟩

theorem tame_need (o : Option α) : Tame (need o : Init F α) := by
  cases o <;> exact ⟨fun s => .refl s, fun _ _ _ => rfl⟩

theorem tame_deref (o : Option α) : Tame (deref o : Init F α) := by
  cases o <;> exact ⟨fun s => .refl s, fun _ _ _ => rfl⟩

theorem findIdx_names (s s' : List (Actuator F)) (n : String) (h : s.map (·.name) = s'.map (·.name)) :
    s.findIdx? (fun a => a.name == n) = s'.findIdx? (fun a => a.name == n) := by
  have key : ∀ s : List (Actuator F), s.findIdx? (fun a => a.name == n) = (s.map (·.name)).findIdx? (· == n) := by
    intro s; rw [List.findIdx?_map]; rfl
  rw [key, key, h]

theorem enableOnly_modify (s : List (Actuator F)) (i : Nat) : EnableOnly s (s.modify i (fun a => { a with enable := true })) := by
  induction s generalizing i with
  | nil => cases i <;> exact .nil
  | cons a s ih =>
    cases i with
    | zero => exact .cons (Or.inr rfl) (EnableOnly.refl s)
    | succ i => simp only [List.modify_succ_cons]; exact .cons (Or.inl rfl) (ih i)

theorem tame_enable (n : String) : Tame (enable n : Init F Unit) where
  frame s := by
    unfold enable
    split
    · exact enableOnly_modify _ _
    · exact .refl _
  indep s s' h := by
    unfold enable
    rw [findIdx_names s s' n h]
    split <;> rfl

theorem Tame.bind {m : Init F α} {f : α → Init F β} (hm : Tame m) (hf : ∀ a, Tame (f a)) : Tame (m >>= f) where
  frame s := by
    rw [bind_def]
    have := hm.frame s
    rcases hms : m s with ⟨s', _ | _ | a⟩ <;> rw [hms] at this
    · exact this
    · exact this
    · exact this.trans ((hf a).frame s')
  indep s s' h := by
    rw [bind_def, bind_def]
    have h1 := hm.indep s s' h
    have f1 := hm.frame s
    have f2 := hm.frame s'
    rcases hms : m s with ⟨t, _ | _ | a⟩ <;> rcases hms' : m s' with ⟨t', _ | _ | a'⟩ <;> rw [hms] at h1 f1 <;> rw [hms'] at h1 f2 <;>
      first | rfl | cases h1
    exact (hf a).indep _ _ (by rw [f1.names, f2.names, h])

theorem tame_attempt {m : Init F α} (hm : Tame m) : Tame (attempt m) where
  frame s := by
    unfold attempt
    have := hm.frame s
    rcases hms : m s with ⟨s', _ | _ | a⟩ <;> rw [hms] at this <;> exact this
  indep s s' h := by
    unfold attempt
    have h1 := hm.indep s s' h
    rcases hms : m s with ⟨t, _ | _ | a⟩ <;> rcases hms' : m s' with ⟨t', _ | _ | a'⟩ <;> rw [hms] at h1 <;> rw [hms'] at h1 <;>
      first | rfl | cases h1
    rfl

theorem tame_foldlM {γ : Type} (f : β → γ → Init F β) (hf : ∀ b c, Tame (f b c)) (l : List γ) (b : β) : Tame (l.foldlM f b) := by
  induction l generalizing b with
  | nil => exact tame_pure b
  | cons c l ih => rw [List.foldlM_cons]; exact (hf b c).bind (fun b => ih b)

theorem tame_forM {γ : Type} (f : γ → Init F Unit) (hf : ∀ c, Tame (f c)) (l : List γ) : Tame (l.forM f) := by
  induction l with
  | nil => exact tame_pure _
  | cons c l ih => exact (hf c).bind (fun _ => ih)

/-! ## Inversion of successful runs -/

theorem bind_ok {m : Init F α} {f : α → Init F β} {s s' : List (Actuator F)} {b : β} :
    (m >>= f) s = (s', .ok b) ↔ ∃ s1 a, m s = (s1, .ok a) ∧ f a s1 = (s', .ok b) := by
  rw [bind_def]
  rcases hms : m s with ⟨t, _ | _ | a⟩
  · simp
  · simp
  · simp only [Prod.mk.injEq, InitR.ok.injEq]
    constructor
    · intro h; exact ⟨t, a, ⟨rfl, rfl⟩, h⟩
    · rintro ⟨_, _, ⟨rfl, rfl⟩, h⟩; exact h

theorem pure_ok {a b : α} {s s' : List (Actuator F)} : (pure a : Init F α) s = (s', .ok b) ↔ s' = s ∧ b = a := by
  change (s, InitR.ok a) = _ ↔ _
  simp only [Prod.mk.injEq, InitR.ok.injEq]
  exact and_congr eq_comm eq_comm

theorem need_ok {o : Option α} {b : α} {s s' : List (Actuator F)} : need o s = (s', .ok b) ↔ s' = s ∧ o = some b := by
  cases o <;> simp [need, eq_comm]

theorem deref_ok {o : Option α} {b : α} {s s' : List (Actuator F)} : deref o s = (s', .ok b) ↔ s' = s ∧ o = some b := by
  cases o <;> simp [deref, eq_comm]

theorem enable_ok {n : String} {u : Unit} {s s' : List (Actuator F)} (h : enable n s = (s', .ok u)) :
    EnabledAct s' n := by
  unfold enable at h
  split at h
  · rename_i i hi
    simp only [Prod.mk.injEq] at h
    rw [← h.1]
    clear h
    induction s generalizing i with
    | nil => simp at hi
    | cons a s ih =>
      rw [List.findIdx?_cons] at hi
      by_cases ha : (a.name == n) = true
      · rw [if_pos ha] at hi
        cases hi
        exact ⟨{ a with enable := true }, by simp [List.modify_zero_cons, ha], rfl⟩
      · rw [if_neg ha] at hi
        rcases hj : s.findIdx? (fun a => a.name == n) with _ | j
        · rw [hj] at hi; cases hi
        · rw [hj] at hi; cases hi
          obtain ⟨b, hb, hbe⟩ := ih j hj
          refine ⟨b, ?_, hbe⟩
          simp only [List.modify_succ_cons]
          rw [List.find?_cons]
          simp only [Bool.not_eq_true] at ha
          rw [ha]; exact hb
  · simp at h

theorem foldlM_ok {γ : Type} (f : β → γ → Init F β) (I : List γ → β → Prop)
    (step : ∀ done c b b' s s', I done b → f b c s = (s', .ok b') → I (done ++ [c]) b') :
    ∀ (l done : List γ) (b b' : β) (s s' : List (Actuator F)), I done b → l.foldlM f b s = (s', .ok b') → I (done ++ l) b' := by
  intro l
  induction l with
  | nil =>
    intro done b b' s s' h hr
    obtain ⟨_, rfl⟩ := pure_ok.1 hr
    simpa using h
  | cons c l ih =>
    intro done b b' s s' h hr
    rw [List.foldlM_cons] at hr
    obtain ⟨s1, b1, h1, h2⟩ := bind_ok.1 hr
    have := ih (done ++ [c]) b1 b' s1 s' (step _ _ _ _ _ _ h h1) h2
    simpa using this

theorem forM_ok {γ : Type} (f : γ → Init F Unit) (P : γ → Prop) (hf : ∀ c s s' u, f c s = (s', .ok u) → P c) (l : List γ)
    (s s' : List (Actuator F)) (u : Unit) (h : l.forM f s = (s', .ok u)) : ∀ c ∈ l, P c := by
  induction l generalizing s with
  | nil => simp
  | cons c l ih =>
    obtain ⟨s1, u1, h1, h2⟩ := bind_ok.1 h
    intro d hd
    rcases List.mem_cons.1 hd with rfl | hd
    · exact hf _ _ _ _ h1
    · exact ih _ h2 d hd

/-! ## Inversion of crashes -/

theorem bind_crash {m : Init F α} {f : α → Init F β} {s : List (Actuator F)} :
    ((m >>= f) s).2 = .crash ↔ (m s).2 = .crash ∨ ∃ s1 a, m s = (s1, .ok a) ∧ (f a s1).2 = .crash := by
  rw [bind_def]
  rcases hms : m s with ⟨t, _ | _ | a⟩
  · simp
  · simp
  · simp only [Prod.mk.injEq, InitR.ok.injEq, reduceCtorEq, false_or]
    constructor
    · intro h; exact ⟨t, a, ⟨rfl, rfl⟩, h⟩
    · rintro ⟨_, _, ⟨rfl, rfl⟩, h⟩; exact h

theorem need_crash {o : Option α} {s : List (Actuator F)} : (need o s).2 = .crash ↔ False := by cases o <;> simp [need]
theorem deref_crash {o : Option α} {s : List (Actuator F)} : (deref o s).2 = .crash ↔ o = none := by cases o <;> simp [deref]
theorem pure_crash {a : α} {s : List (Actuator F)} : ((pure a : Init F α) s).2 = .crash ↔ False := by
  change InitR.ok a = .crash ↔ _; simp
theorem enable_crash {n : String} {s : List (Actuator F)} : (enable n s).2 = .crash ↔ False := by
  unfold enable; split <;> simp

theorem foldlM_crash {γ : Type} (f : β → γ → Init F β) (hf : ∀ b c s, (f b c s).2 ≠ .crash) (l : List γ) (b : β) (s : List (Actuator F)) :
    (l.foldlM f b s).2 ≠ .crash := by
  induction l generalizing b s with
  | nil => exact fun h => pure_crash.1 h
  | cons c l ih =>
    rw [List.foldlM_cons]
    intro h
    rcases bind_crash.1 h with h | ⟨s1, a, _, h⟩
    · exact hf _ _ _ h
    · exact ih _ _ h

theorem forM_crash {γ : Type} (f : γ → Init F Unit) (hf : ∀ c s, (f c s).2 ≠ .crash) (l : List γ) (s : List (Actuator F)) :
    (l.forM f s).2 ≠ .crash := by
  induction l generalizing s with
  | nil => exact fun h => pure_crash.1 h
  | cons c l ih =>
    intro h
    rcases bind_crash.1 h with h | ⟨s1, a, _, h⟩
    · exact hf _ _ h
    · exact ih _ h

/-- Number of actuators and joints the `propagate` functions of a transmission ask for (their assertions). -/
def Body.Wants : Body F → Nat → Nat → Prop
  | .simple t, na, nj => na = 1 ∧ nj = if t.useSim then 2 else 1
  | .wrist _, na, nj => na = 2 ∧ nj = 2
  | .gripper t, na, nj => na = 1 ∧ nj = 1 + t.passive.length + if t.hasPassive then 2 else 1
  | .belt _, na, nj => na = 1 ∧ nj = 1

end Pr2
