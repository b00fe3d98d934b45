import Verif.Spec.Threads
import Verif.Lemmas.Lifecycle
import Verif.Props.Clients

namespace Pr2
set_option linter.unusedVariables false
set_option linter.unusedSimpArgs false

/-! ## What a handler can do with nobody else around -/

/-- Result (`none`: the process dies) and final state of a handler executed alone, from a given state of the manager; anything after a call through a
dangling pointer.  `R`: may some `isRunning()` be
read in the middle of a restart? -/
def HProg.den (R : Bool) : HProg → View → Option Ans → View → Prop
  | .ret a, v, o, v' => o = some a ∧ v' = v
  | .abort, v, o, v' => o = none ∧ v' = v
  | .call op k, v, o, v' => ∃ res raced v1, (raced = true → R = true) ∧ CallOk ⟨op, res, v, v1, raced⟩ ∧ (k res.ok).den R v1 o v'
  | .names k, v, o, v' => (k v.names).den R v o v'
  | .schedule k, v, o, v' => (k v.order).den R v o v'
  | .byName n k, v, o, v' => (k ((v.ctrls.find? (fun c => c.name == n)).map (·.id))).den R v o v'
  | .running id k, v, o, v' =>
    (∀ c ∈ v.ctrls, c.id ≠ id) ∨
    ∃ c ∈ v.ctrls, c.id = id ∧ ∃ b, (b = true → c.running = true) ∧ (R = false → b = c.running) ∧ (k b).den R v o v'

theorem CallOk.flag {op : Op} {res : Res} {v v' : View} {raced : Bool} (h : CallOk ⟨op, res, v, v', raced⟩) (hop : op ≠ .list) : res = .flag res.ok := by
  cases op with
  | load q => rcases h with ⟨h, _⟩ | ⟨h, _⟩ <;> (dsimp only at h; rw [h]; rfl)
  | unload n => rcases h with ⟨h, _⟩ | ⟨h, _⟩ <;> (dsimp only at h; rw [h]; rfl)
  | switch a b k => rcases h with ⟨h, _⟩ | ⟨h, _⟩ <;> (dsimp only at h; rw [h]; rfl)
  | list => exact absurd rfl hop

/-- what is known of the states between requests -/
structure View.WF' (v : View) : Prop where
  wf : v.WF
  ids : (v.ctrls.map (·.id)).Nodup

theorem CallOk.ids {r : CallRec} (h : CallOk r) (hw : (r.pre.ctrls.map (·.id)).Nodup) : (r.post.ctrls.map (·.id)).Nodup := by
  obtain ⟨op, res, pre, post, raced⟩ := r
  cases op with
  | load q =>
    rcases h with ⟨_, _, _, id, hid, hc⟩ | ⟨_, _, hp⟩
    · dsimp only at *
      rw [hc, List.map_append, List.nodup_append]
      refine ⟨hw, by simp, ?_⟩
      intro a ha b hb
      obtain ⟨c, hc', rfl⟩ := List.mem_map.1 ha
      simp only [List.map_cons, List.map_nil, List.mem_singleton] at hb
      rw [hb]; exact hid c hc'
    · dsimp only at *; rw [hp]; exact hw
  | unload n =>
    rcases h with ⟨_, _, _, _, hc⟩ | ⟨_, _, hp⟩
    · dsimp only at *
      rw [hc]
      exact (List.Sublist.map _ List.filter_sublist).nodup hw
    · dsimp only at *; rw [hp]; exact hw
  | switch a b k =>
    rcases h with ⟨_, _, _, hp⟩ | ⟨_, _, hp⟩
    · dsimp only at *; rw [hp]; exact hw
    · dsimp only at *
      rw [hp]
      simpa [Function.comp_def, switchOne] using hw
  | list =>
    obtain ⟨l, _, hp, _⟩ := h
    dsimp only at *; rw [hp]; exact hw

theorem WF'.call {r : CallRec} (h : CallOk r) (hw : r.pre.WF') : r.post.WF' := ⟨WF.call h hw.wf, h.ids hw.ids⟩

theorem WF'.empty : View.empty.WF' := ⟨WF.empty, by simp [View.empty]⟩

theorem WF'.history {v v' : View} {l : List CallRec} (h : History v l v') (hv : v.WF') : v'.WF' := by
  induction h with
  | nil => exact hv
  | snoc r h hpre hok ih => exact WF'.call hok (hpre ▸ ih)

/-! ## The handlers -/

theorem listLoop_den {R : Bool} {v v' : View} {o : Option Ans} (hw : v.WF') (js : List Nat) (hj : ∀ j ∈ js, j < v.ctrls.length)
    (acc : List (String × Bool)) (h : (listLoop v.names js acc).den R v o v') :
    v' = v ∧ ∃ l, o = some (.listing (acc ++ l)) ∧
      (R = false → l = js.filterMap (fun j => v.ctrls[j]?.map (fun c => (c.name, c.running)))) ∧
      List.Forall₂ (fun a b => a.1 = b.1 ∧ (a.2 = true → b.2 = true)) l (js.filterMap (fun j => v.ctrls[j]?.map (fun c => (c.name, c.running)))) := by
  induction js generalizing acc with
  | nil =>
    obtain ⟨rfl, rfl⟩ := h
    exact ⟨rfl, [], by simp, fun _ => rfl, List.Forall₂.nil⟩
  | cons j js ih =>
    have hlt := hj j (by simp)
    have hg : v.ctrls[j]? = some v.ctrls[j] := List.getElem?_eq_getElem hlt
    have hn : v.names[j]? = some v.ctrls[j].name := by unfold View.names; rw [List.getElem?_map, hg]; rfl
    unfold listLoop at h
    rw [hn] at h
    have hfind : v.ctrls.find? (fun c => c.name == v.ctrls[j].name) = some v.ctrls[j] := by
      cases hf : v.ctrls.find? (fun c => c.name == v.ctrls[j].name) with
      | none =>
        rw [List.find?_eq_none] at hf
        exact absurd (hf v.ctrls[j] (List.getElem_mem hlt)) (by simp)
      | some d =>
        have h1 := List.find?_some hf
        have h2 := List.mem_of_find?_eq_some hf
        rw [Option.some.injEq]
        have hnd := hw.wf.nodup
        unfold View.names at hnd
        exact List.inj_on_of_nodup_map hnd h2 (List.getElem_mem hlt) (by simpa using h1)
    simp only [HProg.den, hfind, Option.map_some] at h
    rcases h with hno | ⟨c, hc, hid, b, hb1, hb2, h⟩
    · exact absurd rfl (hno _ (List.getElem_mem hlt))
    · have : c = v.ctrls[j] := List.inj_on_of_nodup_map hw.ids hc (List.getElem_mem hlt) hid
      subst this
      obtain ⟨hv, l, ho, h1, h2⟩ := ih (fun j hj' => hj j (by simp [hj'])) _ h
      refine ⟨hv, (v.ctrls[j].name, b) :: l, ?_, ?_, ?_⟩
      · rw [ho]; simp
      · intro hR
        rw [List.filterMap_cons, hg]
        simp only [Option.map_some]
        rw [← h1 hR, hb2 hR]
      · rw [List.filterMap_cons, hg]
        simp only [Option.map_some]
        exact List.Forall₂.cons ⟨rfl, hb1⟩ h2

theorem order_lt {v : View} (hw : v.WF') : ∀ j ∈ v.order, j < v.ctrls.length := by
  intro j hj
  have := hw.wf.order.1.mem_iff.1 hj
  simpa using this

theorem list_den {R : Bool} {v v' : View} {o : Option Ans} (hw : v.WF') (h : listProg.den R v o v') :
    ∃ l, o = some (.listing l) ∧ CallOk ⟨.list, .listing l, v, v', R⟩ := by
  unfold listProg at h
  simp only [HProg.den] at h
  have hl : v.names.length = v.order.length := by
    have := hw.wf.order.1.length_eq
    unfold View.names
    rw [this]; simp
  rw [if_neg (by simp [hl])] at h
  obtain ⟨rfl, l, rfl, h1, h2⟩ := listLoop_den hw _ (order_lt hw) [] h
  exact ⟨l, by simp, l, rfl, rfl, h1, h2⟩

/-- a call of a stopped controller's unload needs no proviso about races -/
theorem unload_unraced {v v1 : View} {n : String} {ok raced : Bool} (hs : v.AllStopped) (h : CallOk ⟨.unload n, .flag ok, v, v1, raced⟩) :
    call (.unload n) v (.flag ok) v1 := by
  rcases h with ⟨h1, h2, h3, h4, h5⟩ | h
  · exact Or.inl ⟨h1, h2, fun _ c hc _ => hs c hc, h4, h5⟩
  · exact Or.inr h

theorem stopped_unload {v v1 : View} {n : String} {ok raced : Bool} (hs : v.AllStopped) (h : CallOk ⟨.unload n, .flag ok, v, v1, raced⟩) :
    v1.AllStopped := by
  rcases h with ⟨h1, h2, h3, h4, h5⟩ | ⟨_, _, h5⟩
  · intro c hc
    dsimp only at h5
    rw [h5] at hc
    exact hs c (List.mem_of_mem_filter hc)
  · dsimp only at h5; rw [h5]; exact hs

theorem unloadLoop_den {R : Bool} {v v' : View} {o : Option Ans} (ns : List String) (k : Bool → HProg) (hs : v.AllStopped)
    (h : (unloadLoop ns k).den R v o v') : ∃ b v1, unloadUntilFail ns v b v1 ∧ (k b).den R v1 o v' := by
  induction ns generalizing v with
  | nil => exact ⟨true, v, ⟨rfl, rfl⟩, h⟩
  | cons n ns ih =>
    obtain ⟨res, raced, v1, _, hc, h⟩ := h
    have hfl := hc.flag (by simp)
    generalize res.ok = ok at hfl h
    subst hfl
    have hcall := unload_unraced hs hc
    have hs1 := stopped_unload hs hc
    beta_reduce at h
    cases ok with
    | false =>
      rw [if_neg (by simp)] at h
      refine ⟨false, v1, ⟨_, v1, hcall, ?_⟩, h⟩
      beta_reduce
      rw [if_neg (by simp)]; exact ⟨rfl, rfl⟩
    | true =>
      rw [if_pos rfl] at h
      obtain ⟨b, v2, h1, h2⟩ := ih hs1 h
      refine ⟨b, v2, ⟨_, v1, hcall, ?_⟩, h2⟩
      beta_reduce
      rw [if_pos rfl]; exact h1

theorem reload_den {R ndebug force : Bool} {v v' : View} {o : Option Ans} (h : (reloadProg ndebug force).den R v o v') :
    (∃ ok, o = some (.flag ok) ∧ reload ndebug force v (.reply ok) v') ∨
    (o = none ∧ ndebug = false ∧ force = true ∧ v.ctrls ≠ [] ∧ reload ndebug force v .aborted v') := by
  unfold reloadProg at h
  simp only [HProg.den] at h
  have hne : v.names = [] ↔ v.ctrls = [] := by simp [View.names]
  have red : ∀ out, (if v.names ≠ [] ∧ force = false then pure (.reply false) else if v.names ≠ [] then do
      let r ← call (.switch [] v.names BEST_EFFORT)
      if r ≠ .flag true then pure (.reply false)
      else do
        let done ← unloadUntilFail v.names
        if done = false then pure (.reply false)
        else do
          let now ← loadedNames
          if (v.names ++ now) ≠ [] ∧ ndebug = false then pure .aborted
          else pure (.reply true)
    else pure (.reply true) : Client Outcome) v out v' → reload ndebug force v out v' := fun out h => ⟨_, v, ⟨rfl, rfl⟩, h⟩
  by_cases h1 : v.names ≠ [] ∧ force = false
  · rw [if_pos h1] at h
    obtain ⟨rfl, rfl⟩ := h
    left
    refine ⟨false, rfl, red _ ?_⟩
    rw [if_pos h1]; exact ⟨rfl, rfl⟩
  · rw [if_neg h1] at h
    by_cases h2 : v.names ≠ []
    · rw [if_pos h2] at h
      have hf : force = true := by
        cases force
        · exact absurd ⟨h2, rfl⟩ h1
        · rfl
      obtain ⟨res, raced, v1, _, hc, h⟩ := h
      have hfl := hc.flag (by simp)
      generalize res.ok = ok at hfl h
      subst hfl
      have hcall : call (.switch [] v.names BEST_EFFORT) v (.flag ok) v1 := hc
      rcases hc with ⟨_, hk, _⟩ | ⟨hok, _, hv1⟩
      · exact absurd hk (by decide)
      · dsimp only at hok hv1
        rw [Res.flag.injEq] at hok
        subst hok
        beta_reduce at h
        rw [if_pos rfl] at h
        have hs : v1.AllStopped := by
          intro c hc
          rw [hv1] at hc
          obtain ⟨d, hd, rfl⟩ := List.mem_map.1 hc
          unfold switchOne
          have : d.name ∈ v.names := List.mem_map.2 ⟨d, hd, rfl⟩
          simp [this]
        obtain ⟨b, v2, hu, h⟩ := unloadLoop_den _ _ hs h
        beta_reduce at h
        cases b with
        | false =>
          rw [if_neg (by simp)] at h
          obtain ⟨rfl, rfl⟩ := h
          left
          refine ⟨false, rfl, red _ ?_⟩
          rw [if_neg h1, if_pos h2]
          refine ⟨_, v1, hcall, ?_⟩
          beta_reduce
          rw [if_neg (by simp)]
          refine ⟨_, v', hu, ?_⟩
          beta_reduce
          rw [if_pos rfl]; exact ⟨rfl, rfl⟩
        | true =>
          rw [if_pos rfl] at h
          simp only [HProg.den] at h
          by_cases h3 : v.names ++ v2.names ≠ [] ∧ ndebug = false
          · rw [if_pos h3] at h
            obtain ⟨rfl, rfl⟩ := h
            right
            refine ⟨rfl, h3.2, hf, fun hc => h2 (hne.2 hc), red _ ?_⟩
            rw [if_neg h1, if_pos h2]
            refine ⟨_, v1, hcall, ?_⟩
            beta_reduce
            rw [if_neg (by simp)]
            refine ⟨_, v', hu, ?_⟩
            beta_reduce
            rw [if_neg (by simp)]
            refine ⟨_, v', ⟨rfl, rfl⟩, ?_⟩
            beta_reduce
            rw [if_pos h3]; exact ⟨rfl, rfl⟩
          · rw [if_neg h3] at h
            obtain ⟨rfl, rfl⟩ := h
            left
            refine ⟨true, rfl, red _ ?_⟩
            rw [if_neg h1, if_pos h2]
            refine ⟨_, v1, hcall, ?_⟩
            beta_reduce
            rw [if_neg (by simp)]
            refine ⟨_, v', hu, ?_⟩
            beta_reduce
            rw [if_neg (by simp)]
            refine ⟨_, v', ⟨rfl, rfl⟩, ?_⟩
            beta_reduce
            rw [if_neg h3]; exact ⟨rfl, rfl⟩
    · rw [if_neg h2] at h
      obtain ⟨rfl, rfl⟩ := h
      left
      refine ⟨true, rfl, red _ ?_⟩
      rw [if_neg h1, if_neg h2]; exact ⟨rfl, rfl⟩

theorem CallOk.weaken {op : Op} {res : Res} {v v' : View} {r R : Bool} (hr : r = true → R = true) (h : CallOk ⟨op, res, v, v', r⟩) :
    CallOk ⟨op, res, v, v', R⟩ := by
  have hR : R = false → r = false := by
    intro h1; cases r
    · rfl
    · rw [hr rfl] at h1; simp at h1
  cases op with
  | load q => exact h
  | unload n =>
    rcases h with ⟨h1, h2, h3, h4⟩ | h
    · exact Or.inl ⟨h1, h2, fun hh => h3 (hR hh), h4⟩
    · exact Or.inr h
  | switch a b k => exact h
  | list =>
    obtain ⟨l, h1, h2, h3, h4⟩ := h
    exact ⟨l, h1, h2, fun hh => h3 (hR hh), h4⟩

/-- what a handler executed alone can answer -/
theorem req_den {R ndebug : Bool} {r : Req} {v v' : View} {a : Ans} (t : Nat) (hw : v.WF') (h : (r.prog ndebug).den R v (some a) v') :
    ReqOk ndebug ⟨t, r, a, v, v', R⟩ := by
  cases r with
  | load q =>
    obtain ⟨res, raced, v1, hR, hc, ha, rfl⟩ := h
    rw [Option.some.injEq] at ha
    have hfl := hc.flag (by simp)
    generalize res.ok = ok at hfl ha
    subst hfl
    exact ⟨ok, ha, hc.weaken hR⟩
  | unload n =>
    obtain ⟨res, raced, v1, hR, hc, ha, rfl⟩ := h
    rw [Option.some.injEq] at ha
    have hfl := hc.flag (by simp)
    generalize res.ok = ok at hfl ha
    subst hfl
    exact ⟨ok, ha, hc.weaken hR⟩
  | switch a b k =>
    obtain ⟨res, raced, v1, hR, hc, ha, rfl⟩ := h
    rw [Option.some.injEq] at ha
    have hfl := hc.flag (by simp)
    generalize res.ok = ok at hfl ha
    subst hfl
    exact ⟨ok, ha, hc.weaken hR⟩
  | list =>
    obtain ⟨l, ha, hc⟩ := list_den hw h
    rw [Option.some.injEq] at ha
    exact ⟨l, ha, hc⟩
  | types l =>
    obtain ⟨ha, rfl⟩ := h
    rw [Option.some.injEq] at ha
    exact ⟨ha, rfl⟩
  | reload force =>
    rcases reload_den h with ⟨ok, ha, hr⟩ | ⟨ha, _⟩
    · rw [Option.some.injEq] at ha
      exact ⟨ok, ha, hr⟩
    · simp at ha

/-- a handler executed alone dies only in `reload_controller_libraries` with `force_kill` and controllers loaded -/
theorem req_den_dead {R ndebug : Bool} {r : Req} {v v' : View} (hw : v.WF') (h : (r.prog ndebug).den R v none v') :
    ndebug = false ∧ r = .reload true ∧ v.ctrls ≠ [] := by
  cases r with
  | load q => obtain ⟨ok, raced, v1, hR, hc, ha, rfl⟩ := h; simp at ha
  | unload n => obtain ⟨ok, raced, v1, hR, hc, ha, rfl⟩ := h; simp at ha
  | switch a b k => obtain ⟨ok, raced, v1, hR, hc, ha, rfl⟩ := h; simp at ha
  | list => obtain ⟨l, ha, hc⟩ := list_den hw h; simp at ha
  | types l => obtain ⟨ha, rfl⟩ := h; simp at ha
  | reload force =>
    rcases reload_den h with ⟨ok, ha, hr⟩ | ⟨_, h1, h2, h3, _⟩
    · simp at ha
    · exact ⟨h1, by rw [h2], h3⟩

end Pr2
