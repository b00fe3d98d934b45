import Verif.Model.Scripts

/-! # C82, C83: spawner and unspawner, killed at any point, with arbitrary replies -/

namespace Pr2

/-! ## Specification -/

/-- Names of the controllers that the process has loaded: load calls that were answered with success. -/
def loadedBy (t : List SEv) : List String :=
  t.filterMap (fun e => match e with | .called (.load q) (some (.flag true)) => some q.name | _ => none)

/-- Names the process has asked to unload, in order. -/
def unloadedBy (t : List SEv) : List String := t.filterMap (fun e => match e with | .called (.unload n) _ => some n | _ => none)

/-- The process has asked to stop controller `n`. -/
def AskedStop (t : List SEv) (n : String) : Prop := ∃ start stop strict r, SEv.called (.switch start stop strict) r ∈ t ∧ n ∈ stop

/-- The process has asked to start controller `n`. -/
def AskedStart (t : List SEv) (n : String) : Prop := ∃ start stop strict r, SEv.called (.switch start stop strict) r ∈ t ∧ n ∈ start

/-! ## The scripts agree with the client programs of C60 and C61 -/

theorem Script.den_bind {α β : Type} (env : Client Unit) (s : Script α) (f : α → Script β) :
    (s.bind f).den env = (do let a ← s.den env; (f a).den env : Client β) := by
  induction s with
  | ret a =>
    funext v b v'
    apply propext
    constructor
    · intro h; exact ⟨a, v, ⟨rfl, rfl⟩, h⟩
    · rintro ⟨_, _, ⟨rfl, rfl⟩, h⟩; exact h
  | call op k ih =>
    funext v b v'
    apply propext
    change (∃ r v1, Pr2.call op v r v1 ∧ ((k r).bind f).den env v1 b v') ↔ ∃ a v2, (∃ r v1, Pr2.call op v r v1 ∧ (k r).den env v1 a v2) ∧ (f a).den env v2 b v'
    constructor
    · rintro ⟨r, v1, h1, h2⟩
      rw [ih] at h2
      obtain ⟨a, v2, h3, h4⟩ := h2
      exact ⟨a, v2, ⟨r, v1, h1, h3⟩, h4⟩
    · rintro ⟨a, v2, ⟨r, v1, h1, h3⟩, h4⟩
      refine ⟨r, v1, h1, ?_⟩
      rw [ih]
      exact ⟨a, v2, h3, h4⟩
  | note ns k ih => exact ih
  | wait k ih =>
    funext v b v'
    apply propext
    change (∃ r v1, env v r v1 ∧ (k.bind f).den env v1 b v') ↔ ∃ a v2, (∃ r v1, env v r v1 ∧ k.den env v1 a v2) ∧ (f a).den env v2 b v'
    constructor
    · rintro ⟨r, v1, h1, h2⟩
      rw [ih] at h2
      obtain ⟨a, v2, h3, h4⟩ := h2
      exact ⟨a, v2, ⟨r, v1, h1, h3⟩, h4⟩
    · rintro ⟨a, v2, ⟨r, v1, h1, h3⟩, h4⟩
      refine ⟨r, v1, h1, ?_⟩
      rw [ih]
      exact ⟨a, v2, h3, h4⟩

theorem loadAllS_den (env : Client Unit) (qs : List LoadReq) (loaded : List String) : (loadAllS qs loaded).den env = loadAll qs loaded := by
  induction qs generalizing loaded with
  | nil => rfl
  | cons q qs ih =>
    unfold loadAllS loadAll Script.den
    congr 1
    funext r
    beta_reduce
    by_cases h : r = .flag true
    · rw [if_pos h, if_pos h]; exact ih _
    · rw [if_neg h, if_neg h]; exact ih _

/-- The spawner's script means the client program of C60. -/
theorem spawnS_den (env : Client Unit) (autostart : Bool) (qs : List LoadReq) : (spawnS autostart qs).den env = spawn autostart qs := by
  unfold spawnS spawn
  rw [Script.den_bind, loadAllS_den]
  congr 1
  funext loaded
  cases autostart <;> rfl

theorem unloadEachS_den (env : Client Unit) (ns : List String) : (unloadEachS ns).den env = unloadEach ns := by
  induction ns with
  | nil => rfl
  | cons n ns ih => unfold unloadEachS unloadEach Script.den; beta_reduce; rw [ih]

/-- The spawner's clean-up means the client program of C60. -/
theorem spawnerShutdownS_den (env : Client Unit) (loaded : List String) : (spawnerShutdownS loaded).den env = spawnerShutdown loaded := by
  unfold spawnerShutdownS spawnerShutdown Script.den; beta_reduce; rw [unloadEachS_den]

/-! ## The spawner -/

theorem noted_append (a b : List SEv) : noted (a ++ b) = noted a ++ noted b := by simp [noted]
theorem loadedBy_append (a b : List SEv) : loadedBy (a ++ b) = loadedBy a ++ loadedBy b := by simp [loadedBy]

theorem Script.Trace.of_bind {α β : Type} {s : Script α} {f : α → Script β} {t : List SEv} {o : Option β} (h : (s.bind f).Trace t o) :
    (∃ a t1 t2, s.Trace t1 (some a) ∧ (f a).Trace t2 o ∧ t = t1 ++ t2) ∨ (s.Trace t none ∧ o = none) := by
  induction s generalizing t o with
  | ret a => exact .inl ⟨a, [], t, .ret a, h, rfl⟩
  | call op k ih =>
    change Trace (.call op (fun r => (k r).bind f)) t o at h
    cases h with
    | killed => exact .inr ⟨.killed _, rfl⟩
    | lost => exact .inr ⟨.lost op k, rfl⟩
    | call _ _ r t _ h =>
      rcases ih r h with ⟨a, t1, t2, h1, h2, rfl⟩ | ⟨h1, rfl⟩
      · exact .inl ⟨a, _ :: t1, t2, .call op k r t1 _ h1, h2, rfl⟩
      · exact .inr ⟨.call op k r t _ h1, rfl⟩
  | note ns k ih =>
    change Trace (.note ns (k.bind f)) t o at h
    cases h with
    | killed => exact .inr ⟨.killed _, rfl⟩
    | note _ _ t _ h =>
      rcases ih h with ⟨a, t1, t2, h1, h2, rfl⟩ | ⟨h1, rfl⟩
      · exact .inl ⟨a, _ :: t1, t2, .note ns k t1 _ h1, h2, rfl⟩
      · exact .inr ⟨.note ns k t _ h1, rfl⟩
  | wait k ih =>
    change Trace (.wait (k.bind f)) t o at h
    cases h with
    | killed => exact .inr ⟨.killed _, rfl⟩
    | wait _ t _ h =>
      rcases ih h with ⟨a, t1, t2, h1, h2, rfl⟩ | ⟨h1, rfl⟩
      · exact .inl ⟨a, t1, t2, .wait k t1 _ h1, h2, rfl⟩
      · exact .inr ⟨.wait k t _ h1, rfl⟩

/-- What happens while loading: only load calls of the given controllers; the record is what has been loaded, except perhaps the last. -/
theorem loadAllS_trace (qs : List LoadReq) (l0 : List String) {t : List SEv} {o : Option (List String)} (h : (loadAllS qs l0).Trace t o) :
    (∀ e ∈ t, (∃ q r, e = .called (.load q) r ∧ q ∈ qs) ∨ ∃ ns, e = .noted ns) ∧
    (noted t = loadedBy t ∨ (o = none ∧ ∃ n, loadedBy t = noted t ++ [n])) ∧
    (∀ l, o = some l → l = l0 ++ noted t ∧ noted t = loadedBy t) := by
  induction qs generalizing l0 t o with
  | nil =>
    cases h with
    | ret => exact ⟨by simp, .inl rfl, by intro l h; cases h; simp [noted, loadedBy]⟩
    | killed => exact ⟨by simp, .inl rfl, by intro l h; cases h⟩
  | cons q qs ih =>
    unfold loadAllS at h
    cases h with
    | killed => exact ⟨by simp, .inl rfl, by intro l h; cases h⟩
    | lost => exact ⟨by simp, .inl rfl, by intro l h; cases h⟩
    | call _ _ r t _ h =>
      by_cases hr : r = .flag true
      · subst hr
        simp only [if_true] at h
        cases h with
        | killed => exact ⟨by simp, .inr ⟨rfl, q.name, rfl⟩, by intro l h; cases h⟩
        | note _ _ t _ h =>
          obtain ⟨h1, h2, h3⟩ := ih _ h
          have e1 : noted (SEv.called (.load q) (some (.flag true)) :: SEv.noted [q.name] :: t) = q.name :: noted t := rfl
          have e2 : loadedBy (SEv.called (.load q) (some (.flag true)) :: SEv.noted [q.name] :: t) = q.name :: loadedBy t := rfl
          rw [e1, e2]
          refine ⟨?_, ?_, ?_⟩
          · intro e he
            rcases List.mem_cons.1 he with rfl | he
            · exact .inl ⟨q, _, rfl, by simp⟩
            rcases List.mem_cons.1 he with rfl | he
            · exact .inr ⟨_, rfl⟩
            rcases h1 e he with ⟨q', r, rfl, hq⟩ | h
            · exact .inl ⟨q', r, rfl, List.mem_cons_of_mem _ hq⟩
            · exact .inr h
          · rcases h2 with h2 | ⟨h2, n, h4⟩
            · exact .inl (by rw [h2])
            · exact .inr ⟨h2, n, by rw [h4]; rfl⟩
          · intro l hl
            obtain ⟨rfl, h5⟩ := h3 l hl
            exact ⟨by simp, by rw [h5]⟩
      · simp only [if_neg hr] at h
        obtain ⟨h1, h2, h3⟩ := ih _ h
        have e1 : noted (SEv.called (.load q) (some r) :: t) = noted t := rfl
        have e2 : loadedBy (SEv.called (.load q) (some r) :: t) = loadedBy t := by
          unfold loadedBy
          rw [List.filterMap_cons]
          rcases r with (_ | _) | _
          · rfl
          · exact (hr rfl).elim
          · rfl
        rw [e1, e2]
        refine ⟨?_, h2, h3⟩
        intro e he
        rcases List.mem_cons.1 he with rfl | he
        · exact .inl ⟨q, _, rfl, by simp⟩
        rcases h1 e he with ⟨q', r, rfl, hq⟩ | h
        · exact .inl ⟨q', r, rfl, List.mem_cons_of_mem _ hq⟩
        · exact .inr h

theorem spawnS_trace (autostart : Bool) (qs : List LoadReq) {t : List SEv} {o : Option (List String)} (h : (spawnS autostart qs).Trace t o) :
    (∀ e ∈ t, (∃ q r, e = .called (.load q) r ∧ q ∈ qs) ∨ (∃ ns, e = .noted ns) ∨ ∃ r, e = .called (.switch (loadedBy t) [] 2) r) ∧
    (noted t = loadedBy t ∨ (o = none ∧ ∃ n, loadedBy t = noted t ++ [n])) := by
  rcases Script.Trace.of_bind h with ⟨loaded, t1, t2, h1, h2, rfl⟩ | ⟨h1, rfl⟩
  · obtain ⟨a1, _, a3⟩ := loadAllS_trace qs [] h1
    obtain ⟨rfl, a4⟩ := a3 _ rfl
    rw [List.nil_append] at h2
    have key : (t2 = [] ∨ ∃ r, t2 = [.called (.switch (noted t1) [] 2) r]) := by
      cases autostart
      · rw [if_neg (by simp)] at h2
        cases h2 <;> exact .inl rfl
      · rw [if_pos rfl] at h2
        cases h2 with
        | killed => exact .inl rfl
        | lost => exact .inr ⟨_, rfl⟩
        | call _ _ r t _ h => cases h <;> exact .inr ⟨_, rfl⟩
    have e1 : noted t2 = [] := by rcases key with rfl | ⟨r, rfl⟩ <;> rfl
    have e2 : loadedBy t2 = [] := by rcases key with rfl | ⟨r, rfl⟩ <;> rfl
    rw [noted_append, loadedBy_append, e1, e2, List.append_nil, List.append_nil]
    refine ⟨?_, .inl a4⟩
    intro e he
    rcases List.mem_append.1 he with he | he
    · rcases a1 e he with h | h
      · exact .inl h
      · exact .inr (.inl h)
    · rcases key with rfl | ⟨r, rfl⟩
      · cases he
      · simp at he; subst he
        rw [a4]
        exact .inr (.inr ⟨r, rfl⟩)
  · obtain ⟨a1, a2, _⟩ := loadAllS_trace qs [] h1
    refine ⟨fun e he => ?_, a2⟩
    rcases a1 e he with h | h
    · exact .inl h
    · exact .inr (.inl h)

theorem unloadEachS_trace (ns : List String) {t : List SEv} {o : Option Unit} (h : (unloadEachS ns).Trace t o) :
    (∀ e ∈ t, ∃ n r, e = .called (.unload n) r) ∧ unloadedBy t <+: ns ∧ (o = some () → unloadedBy t = ns) := by
  induction ns generalizing t o with
  | nil => cases h <;> exact ⟨by simp, by simp [unloadedBy], by simp [unloadedBy]⟩
  | cons n ns ih =>
    unfold unloadEachS at h
    cases h with
    | killed => exact ⟨by simp, by simp [unloadedBy], by simp⟩
    | lost =>
      refine ⟨fun e he => ?_, ?_, by simp⟩
      · simp at he; exact ⟨_, _, he⟩
      · change [n] <+: n :: ns
        simp
    | call _ _ r t _ h =>
      obtain ⟨h1, h2, h3⟩ := ih h
      have e : unloadedBy (SEv.called (.unload n) (some r) :: t) = n :: unloadedBy t := rfl
      rw [e]
      refine ⟨?_, (List.prefix_cons_inj n).2 h2, fun ho => by rw [h3 ho]⟩
      intro e he
      rcases List.mem_cons.1 he with rfl | he
      · exact ⟨_, _, rfl⟩
      · exact h1 e he

theorem spawnerShutdownS_trace (ns : List String) {t : List SEv} {o : Option Unit} (h : (spawnerShutdownS ns).Trace t o) :
    t = [] ∧ o = none ∨ ∃ r t', t = .called (.switch [] ns STRICT) r :: t' ∧ (∀ e ∈ t', ∃ n r, e = .called (.unload n) r) ∧
      unloadedBy t' <+: ns.reverse ∧ (o = some () → unloadedBy t' = ns.reverse) := by
  unfold spawnerShutdownS at h
  cases h with
  | killed => exact .inl ⟨rfl, rfl⟩
  | lost => exact .inr ⟨none, [], rfl, by simp, by simp [unloadedBy], by simp⟩
  | call _ _ r t _ h => exact .inr ⟨some r, t, rfl, unloadEachS_trace _ h⟩

/-- **C82.**  Whatever the manager answers and whenever the spawner is killed, it stops, starts and unloads only controllers that it has itself loaded
successfully; while running it neither stops nor unloads anything. -/
theorem C82_only_own (autostart : Bool) (qs : List LoadReq) (t1 t2 : List SEv) (done : Option (List String)) (cleaned : Option Unit)
    (h : Process (spawnS autostart qs) spawnerShutdownS t1 t2 done cleaned) :
    (∀ n ∈ loadedBy (t1 ++ t2), ∃ q ∈ qs, q.name = n) ∧
    (∀ n, AskedStop (t1 ++ t2) n ∨ AskedStart (t1 ++ t2) n ∨ n ∈ unloadedBy (t1 ++ t2) → n ∈ loadedBy t1) ∧
    (∀ n, ¬ AskedStop t1 n) ∧ unloadedBy t1 = [] := by
  obtain ⟨h1, h2⟩ := h
  obtain ⟨a1, a2⟩ := spawnS_trace autostart qs h1
  have sub : ∀ n ∈ noted t1, n ∈ loadedBy t1 := by
    intro n hn
    rcases a2 with e | ⟨_, m, e⟩
    · rw [← e]; exact hn
    · rw [e]; exact List.mem_append_left _ hn
  have hun : unloadedBy t1 = [] := by
    rw [unloadedBy, List.filterMap_eq_nil_iff]
    intro e he
    rcases a1 e he with ⟨q, r, rfl, _⟩ | ⟨ns, rfl⟩ | ⟨r, rfl⟩ <;> rfl
  have hst : ∀ n, ¬ AskedStop t1 n := by
    rintro n ⟨a, b, c, r, he, hn⟩
    rcases a1 _ he with ⟨q, r, h, _⟩ | ⟨ns, h⟩ | ⟨r, h⟩
    · cases h
    · cases h
    · cases h; cases hn
  have hl2 : loadedBy t2 = [] := by
    rw [loadedBy, List.filterMap_eq_nil_iff]
    intro e he
    rcases spawnerShutdownS_trace _ h2 with ⟨rfl, _⟩ | ⟨r, t', rfl, b1, _⟩
    · cases he
    · rcases List.mem_cons.1 he with rfl | he
      · rfl
      · obtain ⟨n, r, rfl⟩ := b1 e he
        rfl
  refine ⟨?_, ?_, hst, hun⟩
  · intro n hn
    rw [loadedBy_append, hl2, List.append_nil] at hn
    obtain ⟨e, he, hx⟩ := List.mem_filterMap.1 hn
    rcases a1 e he with ⟨q, r, rfl, hq⟩ | ⟨ns, rfl⟩ | ⟨r, rfl⟩
    · refine ⟨q, hq, ?_⟩
      rcases r with _ | (_ | _) | _ <;> cases hx
      rfl
    · cases hx
    · cases hx
  · rintro n (⟨a, b, c, r, he, hn⟩ | ⟨a, b, c, r, he, hn⟩ | hn)
    · rcases List.mem_append.1 he with he | he
      · exact (hst n ⟨a, b, c, r, he, hn⟩).elim
      · rcases spawnerShutdownS_trace _ h2 with ⟨rfl, _⟩ | ⟨r, t', rfl, b1, _⟩
        · cases he
        · rcases List.mem_cons.1 he with he | he
          · cases he; exact sub n hn
          · obtain ⟨_, _, h⟩ := b1 _ he; cases h
    · rcases List.mem_append.1 he with he | he
      · rcases a1 _ he with ⟨q, r, h, _⟩ | ⟨ns, h⟩ | ⟨r, h⟩
        · cases h
        · cases h
        · cases h; exact hn
      · rcases spawnerShutdownS_trace _ h2 with ⟨rfl, _⟩ | ⟨r, t', rfl, b1, _⟩
        · cases he
        · rcases List.mem_cons.1 he with he | he
          · cases he; cases hn
          · obtain ⟨_, _, h⟩ := b1 _ he; cases h
    · have : unloadedBy (t1 ++ t2) = unloadedBy t2 := by
        have : unloadedBy (t1 ++ t2) = unloadedBy t1 ++ unloadedBy t2 := by simp [unloadedBy]
        rw [this, hun]; rfl
      rw [this] at hn
      rcases spawnerShutdownS_trace _ h2 with ⟨rfl, _⟩ | ⟨r, t', rfl, b1, b2, _⟩
      · cases hn
      · exact sub n (List.mem_reverse.1 (b2.subset hn))

/-- **C82.**  If the spawner was not interrupted while it was loading and its clean-up is not interrupted, it asks to stop all it has loaded and then
to unload each of them, last loaded first. -/
theorem C82_cleans_up (autostart : Bool) (qs : List LoadReq) (t1 t2 : List SEv) (loaded : List String)
    (h : Process (spawnS autostart qs) spawnerShutdownS t1 t2 (some loaded) (some ())) :
    ∃ r t', t2 = .called (.switch [] (loadedBy t1) STRICT) r :: t' ∧ unloadedBy t2 = (loadedBy t1).reverse := by
  obtain ⟨h1, h2⟩ := h
  obtain ⟨_, a2⟩ := spawnS_trace autostart qs h1
  rcases a2 with e | ⟨h, _⟩
  · rcases spawnerShutdownS_trace _ h2 with ⟨_, h⟩ | ⟨r, t', rfl, _, _, b3⟩
    · cases h
    · rw [e] at b3 ⊢
      exact ⟨r, t', rfl, b3 rfl⟩
  · cases h

/-- **C82.**  Wherever the spawner is killed, a complete clean-up unloads all it has loaded except possibly the last. -/
theorem C82_leaves_at_most_one (autostart : Bool) (qs : List LoadReq) (t1 t2 : List SEv) (done : Option (List String))
    (h : Process (spawnS autostart qs) spawnerShutdownS t1 t2 done (some ())) :
    unloadedBy t2 = (loadedBy t1).reverse ∨ ∃ n, loadedBy t1 = (unloadedBy t2).reverse ++ [n] := by
  obtain ⟨h1, h2⟩ := h
  obtain ⟨_, a2⟩ := spawnS_trace autostart qs h1
  rcases spawnerShutdownS_trace _ h2 with ⟨_, h⟩ | ⟨r, t', rfl, _, _, b3⟩
  · cases h
  · have e : unloadedBy (SEv.called (.switch [] (noted t1) STRICT) r :: t') = unloadedBy t' := rfl
    rw [e, b3 rfl]
    rcases a2 with e | ⟨_, n, e⟩
    · exact .inl (by rw [e])
    · exact .inr ⟨n, by rw [e, List.reverse_reverse]⟩

/-- **C82.**  … and that one can indeed be left behind: killed between the reply and `loaded.append`. -/
theorem C82_leak_counterexample (q : LoadReq) :
    ∃ t1 t2, Process (spawnS true [q]) spawnerShutdownS t1 t2 none (some ()) ∧ loadedBy t1 = [q.name] ∧ unloadedBy (t1 ++ t2) = [] := by
  refine ⟨[.called (.load q) (some (.flag true))], [.called (.switch [] [] STRICT) (some (.flag true))], ⟨?_, ?_⟩, rfl, rfl⟩
  · exact .call _ _ _ _ _ (.killed _)
  · exact .call _ _ _ _ _ (.ret _)

/-! ## The unspawner -/

/-- The controllers a listing reports as running. -/
def runningIn (l : List (String × Bool)) : List String := (l.filter (·.2)).map (·.1)

/-- The meaning of the unspawner's script is the client program of C61. -/
theorem unspawnerS_den (env : Client Unit) (toInhibit : List String) (n : Nat) (i0 : List String) :
    (inhibitRoundsS toInhibit n i0).den env = inhibitRounds env toInhibit n i0 := by
  induction n generalizing i0 with
  | zero => rfl
  | succ n ih =>
    unfold inhibitRoundsS inhibitRounds inhibitRoundS inhibitRound
    funext v b v'
    apply propext
    constructor
    · rintro ⟨r, v1, h1, h2⟩
      rcases r with ok | l
      · obtain ⟨_, v2, h3, h4⟩ := h2
        rw [ih] at h4
        exact ⟨i0, v1, ⟨_, _, h1, rfl, rfl⟩, _, v2, h3, h4⟩
      · dsimp only at h2
        by_cases hs : (l.filter (fun p => toInhibit.contains p.1 && p.2)).map (·.1) = []
        · rw [if_pos hs] at h2
          obtain ⟨_, v2, h3, h4⟩ := h2
          rw [ih] at h4
          refine ⟨i0, v1, ⟨_, _, h1, ?_⟩, _, v2, h3, h4⟩
          dsimp only
          rw [if_pos hs]
          exact ⟨rfl, rfl⟩
        · rw [if_neg hs] at h2
          obtain ⟨r2, v2, h3, _, v3, h4, h5⟩ := h2
          rw [ih] at h5
          refine ⟨_, v2, ⟨_, _, h1, ?_⟩, _, v3, h4, h5⟩
          dsimp only
          rw [if_neg hs]
          exact ⟨_, _, h3, rfl, rfl⟩
    · rintro ⟨i, v2, ⟨r, v1, h1, h2⟩, _, v3, h3, h4⟩
      refine ⟨r, v1, h1, ?_⟩
      rcases r with ok | l
      · obtain ⟨rfl, rfl⟩ := h2
        refine ⟨_, v3, h3, ?_⟩
        rw [ih]; exact h4
      · dsimp only at h2 ⊢
        by_cases hs : (l.filter (fun p => toInhibit.contains p.1 && p.2)).map (·.1) = []
        · rw [if_pos hs] at h2 ⊢
          obtain ⟨rfl, rfl⟩ := h2
          refine ⟨_, v3, h3, ?_⟩
          rw [ih]; exact h4
        · rw [if_neg hs] at h2 ⊢
          obtain ⟨r2, v4, h5, rfl, rfl⟩ := h2
          refine ⟨r2, _, h5, _, v3, h3, ?_⟩
          rw [ih]; exact h4

/-- One round: nothing, a listing without effect, or a listing followed by a stop call and the record. -/
inductive RoundEvs (toInhibit : List String) : List SEv → Prop
  | quiet (r : Res) : RoundEvs toInhibit [.called .list (some r)]
  | stop (l : List (String × Bool)) (ns : List String) (r : Res) (h : ∀ n ∈ ns, n ∈ toInhibit ∧ (n, true) ∈ l) :
      RoundEvs toInhibit [.called .list (some (.listing l)), .called (.switch [] ns BEST_EFFORT) (some r), .noted ns]

/-- A round that was interrupted. -/
inductive PartEvs (toInhibit : List String) : List SEv → Prop
  | nil : PartEvs toInhibit []
  | lost : PartEvs toInhibit [.called .list none]
  | listed (r : Res) : PartEvs toInhibit [.called .list (some r)]
  | stop (l : List (String × Bool)) (ns : List String) (r : Option Res) (h : ∀ n ∈ ns, n ∈ toInhibit ∧ (n, true) ∈ l) :
      PartEvs toInhibit [.called .list (some (.listing l)), .called (.switch [] ns BEST_EFFORT) r]

theorem toStop_mem {toInhibit : List String} {l : List (String × Bool)} {n : String}
    (h : n ∈ (l.filter (fun p => toInhibit.contains p.1 && p.2)).map (·.1)) : n ∈ toInhibit ∧ (n, true) ∈ l := by
  obtain ⟨⟨a, b⟩, hp, rfl⟩ := List.mem_map.1 h
  obtain ⟨h1, h2⟩ := List.mem_filter.1 hp
  simp only [Bool.and_eq_true, List.contains_iff_mem] at h2
  obtain ⟨h2, rfl⟩ := h2
  exact ⟨h2, h1⟩

theorem inhibit_trace (toInhibit : List String) (n : Nat) (i0 : List String) {t : List SEv} {o : Option (List String)}
    (h : (inhibitRoundsS toInhibit n i0).Trace t o) :
    ∃ (rounds : List (List SEv)) (last : List SEv), t = rounds.flatten ++ last ∧ (∀ e ∈ rounds, RoundEvs toInhibit e) ∧ PartEvs toInhibit last ∧ (o ≠ none → last = []) := by
  induction n generalizing i0 t o with
  | zero => cases h <;> exact ⟨[], [], rfl, by simp, .nil, fun _ => rfl⟩
  | succ n ih =>
    unfold inhibitRoundsS inhibitRoundS at h
    cases h with
    | killed => exact ⟨[], [], rfl, by simp, .nil, fun _ => rfl⟩
    | lost => exact ⟨[], _, rfl, by simp, .lost, by simp⟩
    | call _ _ r t _ h =>
      have quiet : ∀ i, (Script.wait (inhibitRoundsS toInhibit n i)).Trace t o →
          ∃ (rounds : List (List SEv)) (last : List SEv), SEv.called .list (some r) :: t = rounds.flatten ++ last ∧ (∀ e ∈ rounds, RoundEvs toInhibit e) ∧ PartEvs toInhibit last ∧ (o ≠ none → last = []) := by
        intro i h
        cases h with
        | killed => exact ⟨[], _, rfl, by simp, .listed r, by simp⟩
        | wait _ _ _ h =>
          obtain ⟨rounds, last, rfl, h1, h2, h3⟩ := ih i h
          refine ⟨[.called .list (some r)] :: rounds, last, rfl, ?_, h2, h3⟩
          intro e he
          rcases List.mem_cons.1 he with rfl | he
          · exact .quiet r
          · exact h1 e he
      rcases r with ok | l
      · exact quiet _ h
      · dsimp only at h
        by_cases hs : (l.filter (fun p => toInhibit.contains p.1 && p.2)).map (·.1) = []
        · rw [if_pos hs] at h
          exact quiet _ h
        · rw [if_neg hs] at h
          cases h with
          | killed => exact ⟨[], _, rfl, by simp, .listed _, by simp⟩
          | lost => exact ⟨[], _, rfl, by simp, .stop l _ none (fun n => toStop_mem), by simp⟩
          | call _ _ r t _ h =>
            cases h with
            | killed => exact ⟨[], _, rfl, by simp, .stop l _ (some r) (fun n => toStop_mem), by simp⟩
            | note _ _ t _ h =>
              have fin : ∀ (rounds : List (List SEv)) (last : List SEv), t = rounds.flatten ++ last → (∀ e ∈ rounds, RoundEvs toInhibit e) → PartEvs toInhibit last → (o ≠ none → last = []) →
                  ∃ (rounds : List (List SEv)) (last : List SEv), SEv.called .list (some (.listing l)) :: SEv.called (.switch [] ((l.filter (fun p => toInhibit.contains p.1 && p.2)).map (·.1)) BEST_EFFORT) (some r) ::
                    SEv.noted ((l.filter (fun p => toInhibit.contains p.1 && p.2)).map (·.1)) :: t = rounds.flatten ++ last ∧
                    (∀ e ∈ rounds, RoundEvs toInhibit e) ∧ PartEvs toInhibit last ∧ (o ≠ none → last = []) := by
                rintro rounds last rfl h1 h2 h3
                refine ⟨[_, _, _] :: rounds, last, rfl, ?_, h2, h3⟩
                intro e he
                rcases List.mem_cons.1 he with rfl | he
                · exact .stop l _ r (fun n => toStop_mem)
                · exact h1 e he
              cases h with
              | killed => exact fin [] [] rfl (by simp) .nil (fun _ => rfl)
              | wait _ _ _ h =>
                obtain ⟨rounds, last, e, h1, h2, h3⟩ := ih _ h
                exact fin rounds last e h1 h2 h3

theorem finally_trace (i : List String) {t : List SEv} {o : Option Unit} (h : (unspawnerFinallyS i).Trace t o) :
    (t = [] ∧ o = none) ∨ ∃ r, t = [.called (.switch i [] BEST_EFFORT) r] := by
  unfold unspawnerFinallyS at h
  cases h with
  | killed => exact .inl ⟨rfl, rfl⟩
  | lost => exact .inr ⟨_, rfl⟩
  | call _ _ r _ _ h => cases h <;> exact .inr ⟨_, rfl⟩

theorem noted_flatten_mem {toInhibit : List String} {rounds : List (List SEv)} (h : ∀ e ∈ rounds, RoundEvs toInhibit e) (n : String) :
    n ∈ noted rounds.flatten ↔ AskedStop rounds.flatten n := by
  unfold noted AskedStop
  rw [List.mem_flatMap]
  constructor
  · rintro ⟨e, he, hn⟩
    obtain ⟨r, hr, he⟩ := List.mem_flatten.1 he
    cases h r hr with
    | quiet q => simp at he; subst he; cases hn
    | stop l ns q hq =>
      simp only [List.mem_cons, List.not_mem_nil, or_false] at he
      rcases he with rfl | rfl | rfl
      · cases hn
      · cases hn
      · exact ⟨[], ns, BEST_EFFORT, some q, List.mem_flatten.2 ⟨_, hr, by simp⟩, hn⟩
  · rintro ⟨a, b, c, q, he, hn⟩
    obtain ⟨r, hr, he⟩ := List.mem_flatten.1 he
    cases h r hr with
    | quiet q => simp at he
    | stop l ns q' hq =>
      simp at he
      obtain ⟨⟨_, rfl, _⟩, _⟩ := he
      exact ⟨.noted b, List.mem_flatten.2 ⟨_, hr, by simp⟩, hn⟩

theorem noted_part {toInhibit : List String} {last : List SEv} (h : PartEvs toInhibit last) : noted last = [] := by cases h <;> rfl

/-- **C83.**  Whatever the manager answers and whenever the unspawner is killed: it never loads or unloads; a controller it asks to stop is one of those
given on the command line and was reported as running in the answer to the listing immediately before; it starts only controllers it has asked to stop. -/
theorem C83_only_own (toInhibit : List String) (n : Nat) (t1 t2 : List SEv) (done : Option (List String)) (cleaned : Option Unit)
    (h : Process (inhibitRoundsS toInhibit n []) unspawnerFinallyS t1 t2 done cleaned) :
    (∀ q r, SEv.called (.load q) r ∉ t1 ++ t2) ∧ unloadedBy (t1 ++ t2) = [] ∧
    (∀ a b start stop strict r c, t1 ++ t2 = a ++ .called (.switch start stop strict) r :: b → c ∈ stop →
      ∃ a' l, a = a' ++ [.called .list (some (.listing l))] ∧ c ∈ toInhibit ∧ (c, true) ∈ l) ∧
    (∀ c, AskedStart (t1 ++ t2) c → AskedStop t1 c) := by
  obtain ⟨h1, h2⟩ := h
  obtain ⟨rounds, last, rfl, r1, r2, r3⟩ := inhibit_trace toInhibit n [] h1
  rw [noted_append, noted_part r2, List.append_nil] at h2
  have ev : ∀ e ∈ rounds.flatten ++ last ++ t2, (∃ r, e = .called .list r) ∨ (∃ ns r, e = .called (.switch [] ns BEST_EFFORT) r) ∨ (∃ ns, e = .noted ns) ∨
      ∃ r, e = .called (.switch (noted rounds.flatten) [] BEST_EFFORT) r := by
    intro e he
    rcases List.mem_append.1 he with he | he
    · rcases List.mem_append.1 he with he | he
      · obtain ⟨r, hr, he⟩ := List.mem_flatten.1 he
        cases r1 r hr with
        | quiet q => simp at he; exact .inl ⟨_, he⟩
        | stop l ns q hq =>
          simp only [List.mem_cons, List.not_mem_nil, or_false] at he
          rcases he with rfl | rfl | rfl
          · exact .inl ⟨_, rfl⟩
          · exact .inr (.inl ⟨_, _, rfl⟩)
          · exact .inr (.inr (.inl ⟨_, rfl⟩))
      · cases r2 with
        | nil => cases he
        | lost => simp at he; exact .inl ⟨_, he⟩
        | listed q => simp at he; exact .inl ⟨_, he⟩
        | stop l ns q hq =>
          simp only [List.mem_cons, List.not_mem_nil, or_false] at he
          rcases he with rfl | rfl
          · exact .inl ⟨_, rfl⟩
          · exact .inr (.inl ⟨_, _, rfl⟩)
    · rcases finally_trace _ h2 with ⟨rfl, _⟩ | ⟨r, rfl⟩
      · cases he
      · simp at he; exact .inr (.inr (.inr ⟨r, he⟩))
  refine ⟨?_, ?_, ?_, ?_⟩
  · intro q r he
    rcases ev _ he with ⟨_, h⟩ | ⟨_, _, h⟩ | ⟨_, h⟩ | ⟨_, h⟩ <;> cases h
  · rw [unloadedBy, List.filterMap_eq_nil_iff]
    intro e he
    rcases ev e he with ⟨_, rfl⟩ | ⟨_, _, rfl⟩ | ⟨_, rfl⟩ | ⟨_, rfl⟩ <;> rfl
  · intro a b start stop strict r c e hc
    -- where the stop call is
    have loc : ∀ (rounds : List (List SEv)) (rest : List SEv), (∀ e ∈ rounds, RoundEvs toInhibit e) →
        (∀ a b start stop strict r, rest = a ++ SEv.called (.switch start stop strict) r :: b → c ∈ stop →
          ∃ a' l, a = a' ++ [SEv.called .list (some (.listing l))] ∧ c ∈ toInhibit ∧ (c, true) ∈ l) →
        ∀ a b start stop strict r, rounds.flatten ++ rest = a ++ SEv.called (.switch start stop strict) r :: b → c ∈ stop →
          ∃ a' l, a = a' ++ [SEv.called .list (some (.listing l))] ∧ c ∈ toInhibit ∧ (c, true) ∈ l := by
      intro rounds rest
      induction rounds with
      | nil => intro _ hrest; simpa using hrest
      | cons x xs ih =>
        intro hr hrest a b start stop strict r e hc
        have ih' := ih (fun e he => hr e (List.mem_cons_of_mem _ he)) hrest
        rw [List.flatten_cons, List.append_assoc] at e
        cases hr x List.mem_cons_self with
        | quiet q =>
          cases a with
          | nil => cases e
          | cons y a =>
            simp only [List.cons_append, List.nil_append, List.cons.injEq] at e
            obtain ⟨rfl, e⟩ := e
            obtain ⟨a', l, rfl, h⟩ := ih' a b start stop strict r e hc
            exact ⟨_ :: a', l, rfl, h⟩
        | stop l ns q hq =>
          cases a with
          | nil => cases e
          | cons y a =>
            simp only [List.cons_append, List.nil_append, List.cons.injEq] at e
            obtain ⟨rfl, e⟩ := e
            cases a with
            | nil =>
              simp only [List.nil_append, List.cons.injEq, SEv.called.injEq, Op.switch.injEq] at e
              obtain ⟨⟨⟨_, rfl, _⟩, _⟩, _⟩ := e
              exact ⟨[], l, rfl, hq c hc⟩
            | cons z a =>
              simp only [List.cons_append, List.cons.injEq] at e
              obtain ⟨rfl, e⟩ := e
              cases a with
              | nil => cases e
              | cons w a =>
                simp only [List.cons_append, List.cons.injEq] at e
                obtain ⟨rfl, e⟩ := e
                obtain ⟨a', l', rfl, h⟩ := ih' a b start stop strict r e hc
                exact ⟨_ :: _ :: _ :: a', l', rfl, h⟩
    rw [List.append_assoc] at e
    refine loc rounds (last ++ t2) r1 ?_ a b start stop strict r e hc
    intro a b start stop strict r e hc
    have ht2 : ∀ a b start stop strict r, t2 = a ++ SEv.called (.switch start stop strict) r :: b → c ∈ stop → False := by
      intro a b start stop strict r e hc
      rcases finally_trace _ h2 with ⟨rfl, _⟩ | ⟨q, rfl⟩
      · cases a <;> cases e
      · cases a with
        | nil => simp only [List.nil_append, List.cons.injEq, SEv.called.injEq, Op.switch.injEq] at e; obtain ⟨⟨⟨_, rfl, _⟩, _⟩, _⟩ := e; cases hc
        | cons y a => simp only [List.cons_append, List.cons.injEq] at e; cases a <;> cases e.2
    cases r2 with
    | nil => exact (ht2 a b start stop strict r e hc).elim
    | lost =>
      cases a with
      | nil => cases e
      | cons y a => simp only [List.cons_append, List.nil_append, List.cons.injEq] at e; exact (ht2 a b start stop strict r e.2 hc).elim
    | listed q =>
      cases a with
      | nil => cases e
      | cons y a => simp only [List.cons_append, List.nil_append, List.cons.injEq] at e; exact (ht2 a b start stop strict r e.2 hc).elim
    | stop l ns q hq =>
      cases a with
      | nil => cases e
      | cons y a =>
        simp only [List.cons_append, List.nil_append, List.cons.injEq] at e
        obtain ⟨rfl, e⟩ := e
        cases a with
        | nil =>
          simp only [List.nil_append, List.cons.injEq, SEv.called.injEq, Op.switch.injEq] at e
          obtain ⟨⟨⟨_, rfl, _⟩, _⟩, _⟩ := e
          exact ⟨[], l, rfl, hq c hc⟩
        | cons z a => simp only [List.cons_append, List.cons.injEq] at e; exact (ht2 a b start stop strict r e.2 hc).elim
  · rintro c ⟨start, stop, strict, r, he, hc⟩
    rcases ev _ he with ⟨_, h⟩ | ⟨_, _, h⟩ | ⟨_, h⟩ | ⟨_, h⟩
    · cases h
    · cases h; cases hc
    · cases h
    · cases h
      obtain ⟨a, b, d, q, h3, h4⟩ := (noted_flatten_mem r1 c).1 hc
      exact ⟨a, b, d, q, List.mem_append_left _ h3, h4⟩

/-- **C83.**  When the unspawner's `finally` block runs, it asks to start every controller it has asked to stop, except possibly those of a stop call that was the
last thing it did. -/
theorem C83_restarts (toInhibit : List String) (n : Nat) (t1 t2 : List SEv) (done : Option (List String))
    (h : Process (inhibitRoundsS toInhibit n []) unspawnerFinallyS t1 t2 done (some ())) (c : String) (hc : AskedStop t1 c) :
    AskedStart t2 c ∨ (done = none ∧ ∃ a ns r, t1 = a ++ [.called (.switch [] ns BEST_EFFORT) r] ∧ c ∈ ns) := by
  obtain ⟨h1, h2⟩ := h
  obtain ⟨rounds, last, rfl, r1, r2, r3⟩ := inhibit_trace toInhibit n [] h1
  rw [noted_append, noted_part r2, List.append_nil] at h2
  obtain ⟨a, b, d, q, he, hb⟩ := hc
  rcases List.mem_append.1 he with he | he
  · left
    rcases finally_trace _ h2 with ⟨_, h⟩ | ⟨r, rfl⟩
    · cases h
    · exact ⟨_, _, _, r, List.mem_singleton.2 rfl, (noted_flatten_mem r1 c).2 ⟨a, b, d, q, he, hb⟩⟩
  · right
    refine ⟨?_, ?_⟩
    · by_contra hd
      rw [r3 hd] at he; cases he
    · cases r2 with
      | nil => cases he
      | lost => simp at he
      | listed => simp at he
      | stop l ns q' hq =>
        simp at he
        obtain ⟨⟨rfl, rfl, rfl⟩, rfl⟩ := he
        exact ⟨rounds.flatten ++ [.called .list (some (.listing l))], b, q, by simp, hb⟩

/-- **C83.**  … and those can indeed stay stopped. -/
theorem C83_left_stopped_counterexample :
    ∃ t1 t2, Process (inhibitRoundsS ["arm"] 1 []) unspawnerFinallyS t1 t2 none (some ()) ∧ AskedStop t1 "arm" ∧ ¬ AskedStart t2 "arm" := by
  refine ⟨[.called .list (some (.listing [("arm", true)])), .called (.switch [] ["arm"] BEST_EFFORT) (some (.flag true))],
    [.called (.switch [] [] BEST_EFFORT) (some (.flag true))], ⟨?_, ?_⟩, ?_, ?_⟩
  · exact .call _ _ _ _ _ (.call _ _ _ _ _ (.killed _))
  · exact .call _ _ _ _ _ (.ret _)
  · exact ⟨_, _, _, _, List.mem_cons_of_mem _ List.mem_cons_self, by simp⟩
  · rintro ⟨a, b, c, r, h, hn⟩
    simp at h
    rw [h.1.1] at hn; cases hn

/-! ## Concrete cases -/

/-- A spawner that loads two of three controllers, starts them and is then ended. -/
example (q1 q2 q3 : LoadReq) : Process (spawnS true [q1, q2, q3]) spawnerShutdownS
    [.called (.load q1) (some (.flag true)), .noted [q1.name], .called (.load q2) (some (.flag false)), .called (.load q3) (some (.flag true)), .noted [q3.name],
      .called (.switch [q1.name, q3.name] [] 2) (some (.flag true))]
    [.called (.switch [] [q1.name, q3.name] STRICT) (some (.flag true)), .called (.unload q3.name) (some (.flag true)), .called (.unload q1.name) (some (.flag true))]
    (some [q1.name, q3.name]) (some ()) := by
  constructor
  · exact .call _ _ _ _ _ (.note _ _ _ _ (.call _ _ _ _ _ (.call _ _ _ _ _ (.note _ _ _ _ (.call _ _ _ _ _ (.ret _))))))
  · exact .call _ _ _ _ _ (.call _ _ _ _ _ (.call _ _ _ _ _ (.ret _)))

/-- An unspawner that stops one controller in its first round, nothing in its second, and is ended. -/
example : Process (inhibitRoundsS ["arm", "head"] 2 []) unspawnerFinallyS
    [.called .list (some (.listing [("arm", true), ("base", true), ("head", false)])), .called (.switch [] ["arm"] BEST_EFFORT) (some (.flag true)), .noted ["arm"],
      .called .list (some (.listing [("arm", false)]))]
    [.called (.switch ["arm"] [] BEST_EFFORT) (some (.flag true))] (some ["arm"]) (some ()) := by
  constructor
  · exact .call _ _ _ _ _ (.call _ _ _ _ _ (.note _ _ _ _ (.wait _ _ _ (.call _ _ _ _ _ (.wait _ _ _ (.ret _))))))
  · exact .call _ _ _ _ _ (.ret _)

/-! ## A signal after which the spawner goes on -/

theorem Script.Trace.prefix {α : Type} {s : Script α} {t1 t3 : List SEv} {o : Option α} (h : s.Trace (t1 ++ t3) o) : t3 = [] ∨ s.Trace t1 none := by
  generalize ht : t1 ++ t3 = t at h
  induction h generalizing t1 with
  | ret => exact .inl (by simp at ht; exact ht.2)
  | killed => exact .inl (by simp at ht; exact ht.2)
  | lost op k =>
    rcases t1 with _ | ⟨e, t1⟩
    · exact .inr (.killed _)
    · simp at ht; exact .inl ht.2.2
  | call op k r t o h ih =>
    rcases t1 with _ | ⟨e, t1⟩
    · exact .inr (.killed _)
    · simp only [List.cons_append, List.cons.injEq] at ht
      obtain ⟨rfl, ht⟩ := ht
      rcases ih ht with h' | h'
      · exact .inl h'
      · exact .inr (.call _ _ _ _ _ h')
  | note ns k t o h ih =>
    rcases t1 with _ | ⟨e, t1⟩
    · exact .inr (.killed _)
    · simp only [List.cons_append, List.cons.injEq] at ht
      obtain ⟨rfl, ht⟩ := ht
      rcases ih ht with h' | h'
      · exact .inl h'
      · exact .inr (.note _ _ _ _ h')
  | wait k t o h ih =>
    rcases ih ht with h' | h'
    · exact .inl h'
    · exact .inr (.wait _ _ _ h')

theorem unloadedBy_append (a b : List SEv) : unloadedBy (a ++ b) = unloadedBy a ++ unloadedBy b := by simp [unloadedBy]

theorem unloadedBy_nil {t : List SEv} (h : ∀ e ∈ t, (∃ q r, e = .called (.load q) r) ∨ ∃ ns, e = .noted ns) : unloadedBy t = [] := by
  unfold unloadedBy
  rw [List.filterMap_eq_nil_iff]
  intro e he
  rcases h e he with ⟨q, r, rfl⟩ | ⟨ns, rfl⟩ <;> rfl

/-- **C82.**  If the spawner goes on after the signal that made it clean up, it asks to unload, after the signal, exactly what it had recorded before it, last first; what it loads
afterwards it never unloads.  After its clean-up it stops nothing, and it asks to start only what it has just unloaded. -/
theorem C82_signalled (autostart : Bool) (qs : List LoadReq) (t1 t2 t3 : List SEv) (h : Signalled autostart qs t1 t2 t3) :
    (∃ late, (late = [] ∨ ∃ n, late = [n]) ∧ loadedBy (t1 ++ t3) = (unloadedBy t2).reverse ++ late ++ loadedBy t3) ∧
    unloadedBy (t1 ++ t3) = [] ∧ (∀ n, ¬ AskedStop t3 n) ∧ ∀ n, AskedStart t3 n → n ∈ unloadedBy t2 := by
  have hclean : ∀ {ns t2}, (spawnerShutdownS ns).Trace t2 (some ()) → unloadedBy t2 = ns.reverse := by
    intro ns t2 h
    rcases spawnerShutdownS_trace ns h with ⟨_, h⟩ | ⟨r, t', rfl, _, _, h⟩
    · cases h
    · exact h rfl
  cases h with
  | loading _ _ _ o hm hc =>
    obtain ⟨a1, a2, a3⟩ := loadAllS_trace qs [] hm
    rw [hclean hc, List.reverse_reverse]
    have hev : ∀ e ∈ t1 ++ t3, (∃ q r, e = SEv.called (.load q) r) ∨ ∃ ns, e = .noted ns := by
      intro e he
      rcases a1 e he with ⟨q, r, rfl, _⟩ | h
      · exact .inl ⟨q, r, rfl⟩
      · exact .inr h
    refine ⟨?_, unloadedBy_nil hev, ?_, ?_⟩
    · rw [loadedBy_append]
      have : noted t1 = loadedBy t1 ∨ ∃ n, loadedBy t1 = noted t1 ++ [n] := by
        rcases hm.prefix with rfl | hp
        · rw [List.append_nil] at a2
          rcases a2 with h | ⟨_, h⟩
          · exact .inl h
          · exact .inr h
        · rcases (loadAllS_trace qs [] hp).2.1 with h | ⟨_, h⟩
          · exact .inl h
          · exact .inr h
      rcases this with h | ⟨n, h⟩
      · exact ⟨[], .inl rfl, by rw [← h]; simp⟩
      · exact ⟨[n], .inr ⟨n, rfl⟩, by rw [h]⟩
    · rintro n ⟨_, _, _, _, hs, _⟩
      rcases hev _ (List.mem_append_right _ hs) with ⟨q, r, h⟩ | ⟨ns, h⟩ <;> cases h
    · rintro n ⟨_, _, _, _, hs, _⟩
      rcases hev _ (List.mem_append_right _ hs) with ⟨q, r, h⟩ | ⟨ns, h⟩ <;> cases h
  | loaded ta tb _ _ l o hl hm hc =>
    obtain ⟨a1, _, a3⟩ := loadAllS_trace qs [] hl
    obtain ⟨rfl, a4⟩ := a3 _ rfl
    rw [List.nil_append] at hm
    have key : tb ++ t3 = [] ∨ ∃ r, tb ++ t3 = [.called (.switch (noted ta) [] 2) r] := by
      cases autostart
      · rw [if_neg (by simp)] at hm
        generalize tb ++ t3 = t at hm
        cases hm <;> exact .inl rfl
      · rw [if_pos rfl] at hm
        generalize tb ++ t3 = t at hm
        cases hm with
        | killed => exact .inl rfl
        | lost => exact .inr ⟨_, rfl⟩
        | call _ _ r t _ h => cases h <;> exact .inr ⟨_, rfl⟩
    have hq : ∀ e, e ∈ tb ∨ e ∈ t3 → ∃ r, e = .called (.switch (noted ta) [] 2) r := by
      intro e he
      have he : e ∈ tb ++ t3 := List.mem_append.2 he
      rcases key with h | ⟨r, h⟩
      · rw [h] at he; cases he
      · rw [h] at he; simp at he; exact ⟨r, he⟩
    have none_of : ∀ {α : Type} (f : SEv → Option α) (t : List SEv), (∀ r, f (.called (.switch (noted ta) [] 2) r) = none) → (∀ e ∈ t, e ∈ tb ∨ e ∈ t3) → t.filterMap f = [] := by
      intro α f t hf ht
      rw [List.filterMap_eq_nil_iff]
      intro e he
      obtain ⟨r, rfl⟩ := hq e (ht e he)
      exact hf r
    have n1 : noted tb = [] := by
      unfold noted
      rw [List.flatMap_eq_nil_iff]
      intro e he
      obtain ⟨r, rfl⟩ := hq e (.inl he)
      rfl
    have l1 : loadedBy tb = [] := none_of _ tb (fun _ => rfl) (fun _ h => .inl h)
    have l3 : loadedBy t3 = [] := none_of _ t3 (fun _ => rfl) (fun _ h => .inr h)
    have u1 : unloadedBy tb = [] := none_of _ tb (fun _ => rfl) (fun _ h => .inl h)
    have u3 : unloadedBy t3 = [] := none_of _ t3 (fun _ => rfl) (fun _ h => .inr h)
    have u0 : unloadedBy ta = [] := unloadedBy_nil fun e he => by
      rcases a1 e he with ⟨q, r, rfl, _⟩ | h
      · exact .inl ⟨q, r, rfl⟩
      · exact .inr h
    rw [noted_append, n1, List.append_nil] at hc
    refine ⟨⟨[], .inl rfl, ?_⟩, ?_, ?_, ?_⟩
    · rw [hclean hc, loadedBy_append, loadedBy_append, l1, l3, a4]; simp
    · rw [unloadedBy_append, unloadedBy_append, u0, u1, u3]; rfl
    · rintro n ⟨a, b, c, d, hs, hn⟩
      obtain ⟨r, hr⟩ := hq _ (.inr hs)
      cases hr; cases hn
    · rintro n ⟨a, b, c, d, hs, hn⟩
      obtain ⟨r, hr⟩ := hq _ (.inr hs)
      cases hr
      rw [hclean hc]
      exact List.mem_reverse.2 hn

/-- **C82.**  So it can leave everything but its first controller loaded. -/
theorem C82_signalled_counterexample (q : LoadReq) (qs : List LoadReq) :
    ∃ t1 t2 t3, Signalled true (q :: qs) t1 t2 t3 ∧ unloadedBy (t1 ++ t2 ++ t3) = [q.name] ∧ loadedBy t3 = qs.map (·.name) := by
  have all : ∀ (qs : List LoadReq) (l : List String), ∃ t, (loadAllS qs l).Trace t (some (l ++ qs.map (·.name))) ∧ loadedBy t = qs.map (·.name) ∧ unloadedBy t = [] := by
    intro qs
    induction qs with
    | nil => intro l; exact ⟨[], by rw [List.map_nil, List.append_nil]; exact .ret l, rfl, rfl⟩
    | cons q qs ih =>
      intro l
      obtain ⟨t, h1, h2, h3⟩ := ih (l ++ [q.name])
      rw [List.append_assoc] at h1
      refine ⟨.called (.load q) (some (.flag true)) :: .noted [q.name] :: t, ?_, ?_, h3⟩
      · exact .call _ _ _ _ _ (.note _ _ _ _ h1)
      · change q.name :: loadedBy t = _
        rw [h2]; rfl
  obtain ⟨t, h1, h2, h3⟩ := all qs [q.name]
  refine ⟨[.called (.load q) (some (.flag true)), .noted [q.name]], [.called (.switch [] [q.name] STRICT) (some (.flag true)), .called (.unload q.name) (some (.flag true))], t,
    .loading _ _ _ (some ([q.name] ++ qs.map (·.name))) ?_ ?_, ?_, h2⟩
  · exact .call _ _ _ _ _ (.note _ _ _ _ h1)
  · exact .call _ _ _ _ _ (.call _ _ _ _ _ (.ret _))
  · rw [unloadedBy_append, h3]; rfl

end Pr2
