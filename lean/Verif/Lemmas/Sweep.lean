import Verif.Lemmas.Init
import Mathlib.Data.List.Forall2
import Mathlib.Data.List.Nodup

/-! # Gathering, scattering and sweeps over transmissions -/

namespace Pr2

section
variable {α : Type}

theorem gather_cons (l : List α) (i : Nat) (is : List Nat) (h : i < l.length) : gather l (i :: is) = l[i] :: gather l is := by
  unfold gather
  rw [List.filterMap_cons, List.getElem?_eq_getElem h]

theorem gather_length (l : List α) (is : List Nat) (h : ∀ i ∈ is, i < l.length) : (gather l is).length = is.length := by
  induction is with
  | nil => rfl
  | cons i is ih =>
    rw [gather_cons l i is (h i (by simp)), List.length_cons, List.length_cons, ih (fun j hj => h j (by simp [hj]))]

theorem scatter_length (is : List Nat) (as l : List α) : (scatter is as l).length = l.length := by
  induction is generalizing as l with
  | nil => rfl
  | cons i is ih =>
    cases as with
    | nil => rfl
    | cons a as => rw [scatter, ih, List.length_set]

theorem scatter_get_notin (is : List Nat) (as l : List α) (i : Nat) (h : i ∉ is) : (scatter is as l)[i]? = l[i]? := by
  induction is generalizing as l with
  | nil => rfl
  | cons j is ih =>
    cases as with
    | nil => rfl
    | cons a as =>
      simp only [List.mem_cons, not_or] at h
      rw [scatter, ih _ _ h.2, List.getElem?_set_ne (Ne.symm h.1)]

theorem gather_congr (l l' : List α) (is : List Nat) (h : ∀ i ∈ is, l'[i]? = l[i]?) : gather l' is = gather l is := by
  unfold gather
  induction is with
  | nil => rfl
  | cons i is ih =>
    rw [List.filterMap_cons, List.filterMap_cons, h i (by simp), ih (fun j hj => h j (by simp [hj]))]

theorem gather_scatter_disj (is js : List Nat) (as l : List α) (h : ∀ i ∈ js, i ∉ is) : gather (scatter is as l) js = gather l js :=
  gather_congr _ _ _ (fun i hi => scatter_get_notin is as l i (h i hi))

theorem gather_scatter_self (is : List Nat) (as l : List α) (hn : is.Nodup) (hl : as.length = is.length) (hr : ∀ i ∈ is, i < l.length) :
    gather (scatter is as l) is = as := by
  induction is generalizing as l with
  | nil => cases as with
    | nil => rfl
    | cons a as => simp at hl
  | cons i is ih =>
    cases as with
    | nil => simp at hl
    | cons a as =>
      rw [List.nodup_cons] at hn
      have hi : i < l.length := hr i (by simp)
      have h1 : (scatter is as (l.set i a))[i]? = some a := by
        rw [scatter_get_notin _ _ _ _ hn.1, List.getElem?_set_self hi]
      have h2 := ih as (l.set i a) hn.2 (by simpa using hl) (fun j hj => by rw [List.length_set]; exact hr j (by simp [hj]))
      unfold gather at h2 ⊢
      rw [scatter, List.filterMap_cons, h1]
      dsimp only
      rw [h2]

theorem scatter_gather (is : List Nat) (l : List α) (hr : ∀ i ∈ is, i < l.length) : scatter is (gather l is) l = l := by
  induction is with
  | nil => rfl
  | cons i is ih =>
    rw [gather_cons l i is (hr i (by simp)), scatter, List.set_getElem_self]
    exact ih (fun j hj => hr j (by simp [hj]))

/-- Pointwise relation through a write. -/
theorem scatter_rel (R : α → α → Prop) (hrefl : ∀ a, R a a) (htrans : ∀ a b c, R a b → R b c → R a c) (is : List Nat) (as l : List α)
    (hn : is.Nodup) (h : List.Forall₂ R (gather l is) as) (hr : ∀ i ∈ is, i < l.length) : List.Forall₂ R l (scatter is as l) := by
  have hlen : as.length = is.length := by rw [← gather_length l is hr]; exact (List.Forall₂.length_eq h).symm
  rw [List.forall₂_iff_get]
  refine ⟨(scatter_length _ _ _).symm, ?_⟩
  intro k h1 h2
  simp only [List.get_eq_getElem]
  by_cases hk : k ∈ is
  · obtain ⟨p, hp, rfl⟩ := List.getElem_of_mem hk
    have hs := gather_scatter_self is as l hn hlen hr
    have g1 : (gather l is)[p]? = some l[is[p]] := gather_get l is hr p hp
    have g2 := gather_get (scatter is as l) is (fun i hi => by rw [scatter_length]; exact hr i hi) p hp
    rw [hs] at g2
    rw [List.forall₂_iff_get] at h
    obtain ⟨_, h⟩ := h
    have hp1 : p < (gather l is).length := by rw [gather_length l is hr]; exact hp
    have hp2 : p < as.length := by rw [hlen]; exact hp
    have := h p hp1 hp2
    simp only [List.get_eq_getElem] at this
    rw [List.getElem?_eq_getElem hp1] at g1
    rw [List.getElem?_eq_getElem hp2] at g2
    rw [Option.some.inj g1, Option.some.inj g2] at this
    exact this
  · have := scatter_get_notin is as l k hk
    rw [List.getElem?_eq_getElem h1, List.getElem?_eq_getElem h2] at this
    rw [Option.some.inj this]
    exact hrefl _
where
  gather_get (l : List α) (is : List Nat) (hr : ∀ i ∈ is, i < l.length) (p : Nat) (hp : p < is.length) :
      (gather l is)[p]? = some (l[is[p]]'(hr _ (List.getElem_mem hp))) := by
    induction is generalizing p with
    | nil => simp at hp
    | cons i is ih =>
      rw [gather_cons l i is (hr i (by simp))]
      cases p with
      | zero => rfl
      | succ p => simpa using ih (fun j hj => hr j (by simp [hj])) p (by simpa using hp)

theorem gather_get (l : List α) (is : List Nat) (hr : ∀ i ∈ is, i < l.length) (p : Nat) (hp : p < is.length) :
    (gather l is)[p]? = some (l[is[p]]'(hr _ (List.getElem_mem hp))) := scatter_rel.gather_get l is hr p hp

end

/-! ## Sweeps -/

/-- A propagation function. -/
abbrev Prop' (F : Type) := Body F → List (Actuator F) → List (JState F) → Option (Body F × List (Actuator F) × List (JState F))

/-- The indices of all connections are in range and no joint state is connected twice. -/
structure Wired {F : Type} (conns : List (Conn F)) (na nj : Nat) : Prop where
  ins : ∀ c ∈ conns, ∀ i ∈ c.ins, i < na
  outs : ∀ c ∈ conns, ∀ i ∈ c.outs, i < nj
  nodup : (conns.flatMap (·.outs)).Nodup

/-- No actuator is connected twice. -/
def Unshared {F : Type} (conns : List (Conn F)) : Prop := (conns.flatMap (·.ins)).Nodup

variable {F : Type}

theorem Wired.tail {c : Conn F} {cs : List (Conn F)} {na nj : Nat} (h : Wired (c :: cs) na nj) : Wired cs na nj :=
  ⟨fun d hd => h.ins d (by simp [hd]), fun d hd => h.outs d (by simp [hd]), by
    have := h.nodup
    rw [List.flatMap_cons, List.nodup_append] at this
    exact this.2.1⟩

theorem flatMap_disj {f : Conn F → List Nat} {c : Conn F} {cs : List (Conn F)} (h : ((c :: cs).flatMap f).Nodup) :
    (f c).Nodup ∧ ∀ d ∈ cs, ∀ i ∈ f d, i ∉ f c := by
  rw [List.flatMap_cons, List.nodup_append] at h
  refine ⟨h.1, fun d hd i hi hc => h.2.2 i hc i (List.mem_flatMap.2 ⟨d, hd, hi⟩) rfl⟩

/-- What a propagation function may do: keep the numbers of actuators and joints. -/
def KeepsLen (f : Prop' F) : Prop := ∀ b as js r, f b as js = some r → r.2.1.length = as.length ∧ r.2.2.length = js.length

/-- **Transmissions do not interfere.**  If no transmission's inputs are changed by the others, each sees the state before the sweep,
and its results are there after the sweep. -/
theorem sweep_local (f : Prop' F) (hk : KeepsLen f) (conns : List (Conn F)) (as : List (Actuator F)) (js : List (JState F))
    (hw : Wired conns as.length js.length)
    (hA : (∀ b as js r, f b as js = some r → r.2.1 = as) ∨ Unshared conns)
    {conns' : List (Conn F)} {as' : List (Actuator F)} {js' : List (JState F)} (h : sweep f conns as js = some (conns', as', js')) :
    as'.length = as.length ∧ js'.length = js.length ∧
    (∀ i, (∀ c ∈ conns, i ∉ c.ins) → as'[i]? = as[i]?) ∧ (∀ i, (∀ c ∈ conns, i ∉ c.outs) → js'[i]? = js[i]?) ∧
    List.Forall₂ (fun c c' => ∃ r, f c.trans.body (gather as c.ins) (gather js c.outs) = some r ∧
      c' = { c with trans := { c.trans with body := r.1 } } ∧ gather as' c.ins = r.2.1 ∧ gather js' c.outs = r.2.2) conns conns' := by
  induction conns generalizing as js conns' as' js' with
  | nil =>
    cases h
    exact ⟨rfl, rfl, fun _ _ => rfl, fun _ _ => rfl, .nil⟩
  | cons c cs ih =>
    unfold sweep at h
    rcases hr : f c.trans.body (gather as c.ins) (gather js c.outs) with _ | r
    · rw [hr] at h; cases h
    rw [hr] at h
    rcases hs : sweep f cs (scatter c.ins r.2.1 as) (scatter c.outs r.2.2 js) with _ | ⟨cs', as2, js2⟩
    · simp only [hs, Option.bind_eq_bind, Option.bind_some, Option.bind_none] at h; cases h
    simp only [hs, Option.bind_eq_bind, Option.bind_some, Option.some.injEq, Prod.mk.injEq] at h
    obtain ⟨rfl, rfl, rfl⟩ := h
    obtain ⟨la, lj⟩ := hk _ _ _ _ hr
    have rin : ∀ i ∈ c.ins, i < as.length := hw.ins c (by simp)
    have rout : ∀ i ∈ c.outs, i < js.length := hw.outs c (by simp)
    rw [gather_length _ _ rin] at la
    rw [gather_length _ _ rout] at lj
    obtain ⟨no, dj⟩ := flatMap_disj hw.nodup
    have sA : scatter c.ins r.2.1 as = as ∨ (c.ins.Nodup ∧ ∀ d ∈ cs, ∀ i ∈ d.ins, i ∉ c.ins) := by
      rcases hA with hA | hA
      · left; rw [hA _ _ _ _ hr]; exact scatter_gather _ _ rin
      · right; exact flatMap_disj hA
    have hA' : (∀ b as js r, f b as js = some r → r.2.1 = as) ∨ Unshared cs := by
      rcases hA with hA | hA
      · exact Or.inl hA
      · right; unfold Unshared at hA ⊢; rw [List.flatMap_cons, List.nodup_append] at hA; exact hA.2.1
    have hw' : Wired cs (scatter c.ins r.2.1 as).length (scatter c.outs r.2.2 js).length := by
      rw [scatter_length, scatter_length]; exact hw.tail
    obtain ⟨i1, i2, i3, i4, i5⟩ := ih _ _ hw' hA' hs
    rw [scatter_length] at i1 i2
    refine ⟨i1, i2, ?_, ?_, .cons ⟨r, hr, rfl, ?_, ?_⟩ ?_⟩
    · intro i hi
      rw [i3 i (fun d hd => hi d (by simp [hd])), scatter_get_notin _ _ _ _ (hi c (by simp))]
    · intro i hi
      rw [i4 i (fun d hd => hi d (by simp [hd])), scatter_get_notin _ _ _ _ (hi c (by simp))]
    · rcases hA with hA | hA
      · have e : scatter c.ins r.2.1 as = as := by rw [hA _ _ _ _ hr]; exact scatter_gather _ _ rin
        have all : as2 = as := sweep_acts f hA cs _ _ (by rw [scatter_length]; exact hw.tail.ins) hs |>.trans e
        rw [all]; exact (hA _ _ _ _ hr).symm
      · obtain ⟨n, d⟩ := flatMap_disj hA
        rw [← gather_scatter_self c.ins r.2.1 as n la rin]
        exact gather_congr _ _ _ (fun i hi => i3 i (fun e he hie => d e he i hie hi))
    · rw [← gather_scatter_self c.outs r.2.2 js no lj rout]
      exact gather_congr _ _ _ (fun i hi => i4 i (fun e he hie => dj e he i hie hi))
    · refine forall2_imp_mem i5 (fun d hd d' h => ?_)
      obtain ⟨r', h1, h2, h3, h4⟩ := h
      refine ⟨r', ?_, h2, h3, h4⟩
      rw [← h1]
      congr 1
      · rcases sA with e | ⟨_, e⟩
        · rw [e]
        · exact (gather_scatter_disj _ _ _ _ (e d hd)).symm
      · exact (gather_scatter_disj _ _ _ _ (dj d hd)).symm
where
  sweep_acts (f : Prop' F) (hA : ∀ b as js r, f b as js = some r → r.2.1 = as) (conns : List (Conn F)) (as : List (Actuator F)) (js : List (JState F))
      (hi : ∀ c ∈ conns, ∀ i ∈ c.ins, i < as.length)
      {conns' : List (Conn F)} {as' : List (Actuator F)} {js' : List (JState F)} (h : sweep f conns as js = some (conns', as', js')) : as' = as := by
    induction conns generalizing as js conns' as' js' with
    | nil => cases h; rfl
    | cons c cs ih =>
      unfold sweep at h
      rcases hr : f c.trans.body (gather as c.ins) (gather js c.outs) with _ | r
      · rw [hr] at h; cases h
      rw [hr] at h
      rcases hs : sweep f cs (scatter c.ins r.2.1 as) (scatter c.outs r.2.2 js) with _ | ⟨cs', as2, js2⟩
      · simp only [hs, Option.bind_eq_bind, Option.bind_some, Option.bind_none] at h; cases h
      simp only [hs, Option.bind_eq_bind, Option.bind_some, Option.some.injEq, Prod.mk.injEq] at h
      obtain ⟨rfl, rfl, rfl⟩ := h
      have e : scatter c.ins r.2.1 as = as := by rw [hA _ _ _ _ hr]; exact scatter_gather _ _ (hi c (by simp))
      rw [e] at hs
      exact ih as _ (fun d hd => hi d (by simp [hd])) hs
  forall2_imp_mem {R S : Conn F → Conn F → Prop} {l l' : List (Conn F)} (h : List.Forall₂ R l l') (hi : ∀ c ∈ l, ∀ c', R c c' → S c c') :
      List.Forall₂ S l l' := by
    induction h with
    | nil => exact .nil
    | cons h _ ih => exact .cons (hi _ (by simp) _ h) (ih (fun c hc => hi c (by simp [hc])))

theorem sweep_acts (f : Prop' F) (hA : ∀ b as js r, f b as js = some r → r.2.1 = as) (conns : List (Conn F)) (as : List (Actuator F)) (js : List (JState F))
    (hi : ∀ c ∈ conns, ∀ i ∈ c.ins, i < as.length)
    {conns' : List (Conn F)} {as' : List (Actuator F)} {js' : List (JState F)} (h : sweep f conns as js = some (conns', as', js')) : as' = as :=
  sweep_local.sweep_acts f hA conns as js hi h

theorem sweep_joints (f : Prop' F) (hJ : ∀ b as js r, f b as js = some r → r.2.2 = js) (conns : List (Conn F)) (as : List (Actuator F)) (js : List (JState F))
    (hi : ∀ c ∈ conns, ∀ i ∈ c.outs, i < js.length)
    {conns' : List (Conn F)} {as' : List (Actuator F)} {js' : List (JState F)} (h : sweep f conns as js = some (conns', as', js')) : js' = js := by
  induction conns generalizing as js conns' as' js' with
  | nil => cases h; rfl
  | cons c cs ih =>
    unfold sweep at h
    rcases hr : f c.trans.body (gather as c.ins) (gather js c.outs) with _ | r
    · rw [hr] at h; cases h
    rw [hr] at h
    rcases hs : sweep f cs (scatter c.ins r.2.1 as) (scatter c.outs r.2.2 js) with _ | ⟨cs', as2, js2⟩
    · simp only [hs, Option.bind_eq_bind, Option.bind_some, Option.bind_none] at h; cases h
    simp only [hs, Option.bind_eq_bind, Option.bind_some, Option.some.injEq, Prod.mk.injEq] at h
    obtain ⟨rfl, rfl, rfl⟩ := h
    have e : scatter c.outs r.2.2 js = js := by rw [hJ _ _ _ _ hr]; exact scatter_gather _ _ (hi c (by simp))
    rw [e] at hs
    exact ih _ js (fun d hd => hi d (by simp [hd])) hs

/-- What does not change about the connections. -/
theorem sweep_conns (f : Prop' F) (conns : List (Conn F)) (as : List (Actuator F)) (js : List (JState F))
    {conns' : List (Conn F)} {as' : List (Actuator F)} {js' : List (JState F)} (h : sweep f conns as js = some (conns', as', js')) :
    List.Forall₂ (fun c c' => ∃ b, c' = { c with trans := { c.trans with body := b } }) conns conns' ∧
    as'.length = as.length ∧ js'.length = js.length := by
  induction conns generalizing as js conns' as' js' with
  | nil => cases h; exact ⟨.nil, rfl, rfl⟩
  | cons c cs ih =>
    unfold sweep at h
    rcases hr : f c.trans.body (gather as c.ins) (gather js c.outs) with _ | r
    · rw [hr] at h; cases h
    rw [hr] at h
    rcases hs : sweep f cs (scatter c.ins r.2.1 as) (scatter c.outs r.2.2 js) with _ | ⟨cs', as2, js2⟩
    · simp only [hs, Option.bind_eq_bind, Option.bind_some, Option.bind_none] at h; cases h
    simp only [hs, Option.bind_eq_bind, Option.bind_some, Option.some.injEq, Prod.mk.injEq] at h
    obtain ⟨rfl, rfl, rfl⟩ := h
    obtain ⟨i1, i2, i3⟩ := ih _ _ hs
    exact ⟨.cons ⟨r.1, rfl⟩ i1, by rw [i2, scatter_length], by rw [i3, scatter_length]⟩

theorem Wired.of_conns {conns conns' : List (Conn F)} {na nj : Nat} (h : Wired conns na nj)
    (hc : List.Forall₂ (fun c c' => ∃ b, c' = { c with trans := { c.trans with body := b } }) conns conns') : Wired conns' na nj := by
  have h1 : conns'.map (·.ins) = conns.map (·.ins) := by
    clear h
    induction hc with
    | nil => rfl
    | cons e _ ih => obtain ⟨b, rfl⟩ := e; simp [ih]
  have h2 : conns'.map (·.outs) = conns.map (·.outs) := by
    clear h h1
    induction hc with
    | nil => rfl
    | cons e _ ih => obtain ⟨b, rfl⟩ := e; simp [ih]
  refine ⟨fun c hcm i hi => ?_, fun c hcm i hi => ?_, ?_⟩
  · have : c.ins ∈ conns.map (·.ins) := h1 ▸ List.mem_map.2 ⟨c, hcm, rfl⟩
    obtain ⟨d, hd, e⟩ := List.mem_map.1 this
    exact h.ins d hd i (e ▸ hi)
  · have : c.outs ∈ conns.map (·.outs) := h2 ▸ List.mem_map.2 ⟨c, hcm, rfl⟩
    obtain ⟨d, hd, e⟩ := List.mem_map.1 this
    exact h.outs d hd i (e ▸ hi)
  · have := h.nodup
    rw [List.flatMap_def] at this ⊢
    rw [h2]; exact this

/-- A relation between the actuators before and after, if it holds for each transmission. -/
theorem sweep_rel_acts (f : Prop' F) (R : Actuator F → Actuator F → Prop) (hrefl : ∀ a, R a a) (htrans : ∀ a b c, R a b → R b c → R a c)
    (hf : ∀ b as js r, f b as js = some r → List.Forall₂ R as r.2.1)
    (conns : List (Conn F)) (as : List (Actuator F)) (js : List (JState F)) (hi : ∀ c ∈ conns, ∀ i ∈ c.ins, i < as.length)
    {conns' : List (Conn F)} {as' : List (Actuator F)} {js' : List (JState F)} (h : sweep f conns as js = some (conns', as', js')) :
    List.Forall₂ R as as' := by
  have hscat : ∀ (is : List Nat) (l l' : List (Actuator F)) (bs : List (Actuator F)), (∀ i ∈ is, i < l.length) → List.Forall₂ R l l' →
      List.Forall₂ R (gather l is) bs → List.Forall₂ R l (scatter is bs l') := by
    intro is
    induction is with
    | nil => intro l l' bs _ h1 h2; exact h1
    | cons i is ih =>
      intro l l' bs hr h1 h2
      have hi : i < l.length := hr i (by simp)
      rw [gather_cons l i is hi] at h2
      cases h2 with
      | @cons _ b _ bs hb h2 =>
        rw [scatter]
        refine ih l (l'.set i b) bs (fun j hj => hr j (by simp [hj])) ?_ h2
        rw [List.forall₂_iff_get] at h1 ⊢
        obtain ⟨e, h1⟩ := h1
        refine ⟨by rw [List.length_set]; exact e, fun k k1 k2 => ?_⟩
        simp only [List.get_eq_getElem] at h1 ⊢
        rw [List.getElem_set]
        split
        · rename_i hk; subst hk; exact hb
        · exact h1 k k1 (by rw [List.length_set] at k2; exact k2)
  induction conns generalizing as js conns' as' js' with
  | nil => cases h; exact List.forall₂_same.2 (fun a _ => hrefl a)
  | cons c cs ih =>
    unfold sweep at h
    rcases hr : f c.trans.body (gather as c.ins) (gather js c.outs) with _ | r
    · rw [hr] at h; cases h
    rw [hr] at h
    rcases hs : sweep f cs (scatter c.ins r.2.1 as) (scatter c.outs r.2.2 js) with _ | ⟨cs', as2, js2⟩
    · simp only [hs, Option.bind_eq_bind, Option.bind_some, Option.bind_none] at h; cases h
    simp only [hs, Option.bind_eq_bind, Option.bind_some, Option.some.injEq, Prod.mk.injEq] at h
    obtain ⟨rfl, rfl, rfl⟩ := h
    have h1 := hscat c.ins as as r.2.1 (hi c (by simp)) (List.forall₂_same.2 (fun a _ => hrefl a)) (hf _ _ _ _ hr)
    have h2 := ih _ _ (fun d hd => by rw [scatter_length]; exact hi d (by simp [hd])) hs
    refine forall2_trans h1 h2
where
  forall2_trans {l l' l'' : List (Actuator F)} (h : List.Forall₂ R l l') (k : List.Forall₂ R l' l'') : List.Forall₂ R l l'' := by
    induction h generalizing l'' with
    | nil => cases k; exact .nil
    | cons h _ ih => cases k with
      | cons k ks => exact .cons (htrans _ _ _ h k) (ih ks)

/-- How the transmission objects change. -/
theorem sweep_bodies (f : Prop' F) (conns : List (Conn F)) (as : List (Actuator F)) (js : List (JState F))
    {conns' : List (Conn F)} {as' : List (Actuator F)} {js' : List (JState F)} (h : sweep f conns as js = some (conns', as', js')) :
    List.Forall₂ (fun c c' => ∃ as js r, f c.trans.body as js = some r ∧ c' = { c with trans := { c.trans with body := r.1 } }) conns conns' := by
  induction conns generalizing as js conns' as' js' with
  | nil => cases h; exact .nil
  | cons c cs ih =>
    unfold sweep at h
    rcases hr : f c.trans.body (gather as c.ins) (gather js c.outs) with _ | r
    · rw [hr] at h; cases h
    rw [hr] at h
    rcases hs : sweep f cs (scatter c.ins r.2.1 as) (scatter c.outs r.2.2 js) with _ | ⟨cs', as2, js2⟩
    · simp only [hs, Option.bind_eq_bind, Option.bind_some, Option.bind_none] at h; cases h
    simp only [hs, Option.bind_eq_bind, Option.bind_some, Option.some.injEq, Prod.mk.injEq] at h
    obtain ⟨rfl, rfl, rfl⟩ := h
    exact .cons ⟨_, _, r, hr, rfl⟩ (ih _ _ hs)

/-- A sweep succeeds if every transmission gets the numbers of actuators and joints it asks for. -/
theorem sweep_some (f : Prop' F) (hw : ∀ b as js, b.Wants as.length js.length → (f b as js).isSome)
    (conns : List (Conn F)) (as : List (Actuator F)) (js : List (JState F)) (hi : ∀ c ∈ conns, ∀ i ∈ c.ins, i < as.length)
    (ho : ∀ c ∈ conns, ∀ i ∈ c.outs, i < js.length) (hc : ∀ c ∈ conns, c.trans.body.Wants c.ins.length c.outs.length) :
    (sweep f conns as js).isSome := by
  induction conns generalizing as js with
  | nil => rfl
  | cons c cs ih =>
    unfold sweep
    have h1 := hw c.trans.body (gather as c.ins) (gather js c.outs) (by
      rw [gather_length _ _ (hi c (by simp)), gather_length _ _ (ho c (by simp))]; exact hc c (by simp))
    obtain ⟨r, hr⟩ := Option.isSome_iff_exists.1 h1
    have h2 := ih (scatter c.ins r.2.1 as) (scatter c.outs r.2.2 js) (fun d hd => by rw [scatter_length]; exact hi d (by simp [hd]))
      (fun d hd => by rw [scatter_length]; exact ho d (by simp [hd])) (fun d hd => hc d (by simp [hd]))
    obtain ⟨r2, hr2⟩ := Option.isSome_iff_exists.1 h2
    simp only [hr, hr2, Option.bind_eq_bind, Option.bind_some, Option.isSome_some]

/-- What every write to the connected actuators guarantees and later transmissions keep. -/
theorem sweep_established (f : Prop' F) (P : Actuator F → Prop) (Q : Body F → Prop)
    (keep : ∀ b as js r, f b as js = some r → List.Forall₂ (fun a a' => P a → P a') as r.2.1)
    (make : ∀ b as js r, Q b → f b as js = some r → ∀ a ∈ r.2.1, P a)
    (conns : List (Conn F)) (as : List (Actuator F)) (js : List (JState F)) (hi : ∀ c ∈ conns, ∀ i ∈ c.ins, i < as.length)
    {conns' : List (Conn F)} {as' : List (Actuator F)} {js' : List (JState F)} (h : sweep f conns as js = some (conns', as', js')) :
    ∀ c ∈ conns, Q c.trans.body → ∀ i ∈ c.ins, ∀ a, as'[i]? = some a → P a := by
  induction conns generalizing as js conns' as' js' with
  | nil => simp
  | cons c cs ih =>
    unfold sweep at h
    rcases hr : f c.trans.body (gather as c.ins) (gather js c.outs) with _ | r
    · rw [hr] at h; cases h
    rw [hr] at h
    rcases hs : sweep f cs (scatter c.ins r.2.1 as) (scatter c.outs r.2.2 js) with _ | ⟨cs', as2, js2⟩
    · simp only [hs, Option.bind_eq_bind, Option.bind_some, Option.bind_none] at h; cases h
    simp only [hs, Option.bind_eq_bind, Option.bind_some, Option.some.injEq, Prod.mk.injEq] at h
    obtain ⟨rfl, rfl, rfl⟩ := h
    have hi' : ∀ d ∈ cs, ∀ i ∈ d.ins, i < (scatter c.ins r.2.1 as).length := fun d hd => by rw [scatter_length]; exact hi d (by simp [hd])
    have hcs := ih _ _ hi' hs
    intro d hd hq
    rcases List.mem_cons.1 hd with rfl | hd
    · have hk := keep _ _ _ _ hr
      have hlen : r.2.1.length = d.ins.length := by
        rw [← gather_length as d.ins (hi d (by simp))]; exact (List.Forall₂.length_eq hk).symm
      have hm := make _ _ _ _ hq hr
      -- every written actuator satisfies `P`
      have hset : ∀ (is : List Nat) (bs l : List (Actuator F)), bs.length = is.length → (∀ b ∈ bs, P b) →
          ∀ i ∈ is, ∀ a, (scatter is bs l)[i]? = some a → P a := by
        intro is
        induction is with
        | nil => simp
        | cons j is ih2 =>
          intro bs l hl hb i hi a ha
          cases bs with
          | nil => simp at hl
          | cons b bs =>
            rw [scatter] at ha
            by_cases him : i ∈ is
            · exact ih2 bs _ (by simpa using hl) (fun b hb' => hb b (by simp [hb'])) i him a ha
            · rw [scatter_get_notin _ _ _ _ him] at ha
              rcases List.mem_cons.1 hi with rfl | hi
              · rw [List.getElem?_set] at ha
                simp only [if_true] at ha
                split at ha
                · cases ha; exact hb _ (by simp)
                · cases ha
              · exact (him hi).elim
      have hrel := sweep_rel_acts f (fun a a' => P a → P a') (fun _ h => h) (fun _ _ _ h k p => k (h p)) keep cs _ _ hi' hs
      intro i hii a ha
      rw [List.forall₂_iff_get] at hrel
      obtain ⟨e, hrel⟩ := hrel
      obtain ⟨ha1, ha2⟩ := List.getElem?_eq_some_iff.1 ha
      have hb1 : i < (scatter d.ins r.2.1 as).length := by rw [e]; exact ha1
      have := hrel i hb1 ha1
      simp only [List.get_eq_getElem] at this
      rw [ha2] at this
      exact this (hset d.ins r.2.1 as hlen hm i hii _ (List.getElem?_eq_getElem hb1))
    · exact hcs d hd hq

end Pr2
