import Verif.Model.SimStamps
import Verif.Props.TimeRange

/-! # C107: resetting the clock of a simulation -/

namespace Pr2

theorem SimRun32.det {period last : Int} {cs : List SimClock} {ss : List SimStep} {r r' : Option (List (Option (List Int)))}
    (h : SimRun32 period cs last ss r) (h' : SimRun32 period cs last ss r') : r = r' := by
  induction h generalizing r' with
  | nil => cases h'; rfl
  | clock h1 =>
    cases h' with
    | clock _ => rfl
    | stamp _ _ => rfl
    | quiet h2 _ => exact absurd (h1.det h2).2 (by simp)
    | publish h2 _ _ => exact absurd (h1.det h2).2 (by simp)
  | quiet h1 _ ih =>
    cases h' with
    | clock h2 => exact absurd (h1.det h2).2 (by simp)
    | stamp h2 _ => exact absurd (h1.det h2).2 (by simp)
    | quiet h2 h3 => have e := (h1.det h2).2; cases e; rw [ih h3]
    | publish h2 _ _ => exact absurd (h1.det h2).2 (by simp)
  | stamp h1 h1' =>
    cases h' with
    | clock _ => rfl
    | stamp _ _ => rfl
    | quiet h2 _ => exact absurd (h1.det h2).2 (by simp)
    | publish h2 h3 _ => rw [h1'] at h3; cases h3
  | publish h1 h1' _ ih =>
    cases h' with
    | clock h2 => exact absurd (h1.det h2).2 (by simp)
    | stamp h2 h3 => rw [h1'] at h3; cases h3
    | quiet h2 _ => exact absurd (h1.det h2).2 (by simp)
    | publish h2 h3 h4 => have e := (h1.det h2).2; cases e; rw [h1'] at h3; cases h3; rw [ih h4]

theorem mapM_rosTime_const {t : Int} (h0 : 0 ≤ t) (h1 : t < timeEnd) (cs : List SimClock) (f : SimClock → Int) (hf : ∀ c ∈ cs, f c = t) :
    (cs.map f).mapM rosTime = some (List.replicate cs.length t) := by
  induction cs with
  | nil => rfl
  | cons c cs ih =>
    rw [List.map_cons, List.mapM_cons, hf c (by simp), ih (fun c hc => hf c (by simp [hc]))]
    have : rosTime t = some t := if_pos ⟨h0, h1⟩
    rw [this]; rfl

/-- the time of the first step with ROS started, after one more step -/
def firstStart (first : Option Int) (s : SimStep) : Option Int := match first with | some f => some f | none => if s.started then some s.now else none

/-- time since the first step with ROS started; zero before -/
def since (first : Option Int) (now : Int) : Int := match first with | none => 0 | some f => now - f

/-- The stamps the published messages of a run must have: in each step either nothing is published or every motor is stamped with the time since `first`,
the time of the first step with ROS started. -/
def StampsOf (motors : Nat) : Option Int → List SimStep → List (Option (List Int)) → Prop
  | _, [], out => out = []
  | first, s :: ss, out => ∃ o rest, out = o :: rest ∧
      (o = none ∨ ∃ t, o = some (List.replicate motors t) ∧ 0 ≤ t ∧ t = since first s.now) ∧
      StampsOf motors (firstStart first s) ss rest

private theorem simRun_key {period : Int} (hp : 0 < period) : ∀ (ss : List SimStep) (cs : List SimClock) (last : Int) (first : Option Int), 0 ≤ last → last + period < timeEnd →
    (∀ s ∈ ss, 0 ≤ s.now ∧ s.now + period < timeEnd) →
    (match first with
      | none => (∀ c ∈ cs, c.inited = false) ∧ (∀ s, ss.find? (·.started) = some s → s.free = true ∨ s.now ≤ last + period)
      | some f => 0 ≤ f ∧ f ≤ last + period ∧ ∀ c ∈ cs, c = ⟨true, f⟩) →
    ∃ out, SimRun32 period cs last ss (some out) ∧ StampsOf cs.length first ss out := by
  intro ss
  induction ss with
  | nil => intro cs last first _ _ _ _; exact ⟨[], .nil, rfl⟩
  | cons s ss ih =>
    intro cs last first h0 h1 hs hinv
    obtain ⟨hn0, hn1⟩ := hs s (by simp)
    obtain ⟨n, l, b, e1, -, e3, e4, e5, e6⟩ := pubTick32_run (now := s.now) hp (last := last) s.free h0 h1 hn1
    have hnp : (0 : Int) ≤ n * period := Int.mul_nonneg (by omega) hp.le
    have hl : l + period < timeEnd := by
      rcases Nat.eq_zero_or_pos n with rfl | hn
      · simp at e3; omega
      · have := e5 hn; omega
    have hbf : b = false → s.free = true → s.now ≤ l + period := by
      intro hb hf
      have hn := e4 hb
      subst hn hb
      have hl' : l = last := by simpa using e3
      subst hl'
      have : ∀ r : Option (Int × Bool), r = some (l, false) → PubTick32 period s.now s.free l 0 r → s.now ≤ l + period := by
        intro r hr hk
        cases hk with
        | throws _ => cases hr
        | early ht hle =>
          rw [timeAdd_some (by omega) h1] at ht
          cases ht
          omega
        | busy _ _ hf' => rw [hf] at hf'; cases hf'
        | publish _ _ _ _ => rename_i q _ _ _ _; cases q <;> simp at hr
      exact this _ rfl e1
    have hpub : b = true → last + period < s.now := by
      intro hb
      subst hb
      have : ∀ r : Option (Int × Bool), r = some (l, true) → PubTick32 period s.now s.free last n r → last + period < s.now := by
        intro r hr hk
        cases hk with
        | throws _ => cases hr
        | early _ _ => simp at hr
        | busy _ _ _ => simp at hr
        | publish ht hlt _ _ =>
          rw [timeAdd_some (by omega) h1] at ht
          cases ht
          exact hlt
      exact this _ rfl e1
    -- the next state
    have next : ∃ out, SimRun32 period (cs.map (·.tick s.env)) l ss (some out) ∧
        StampsOf cs.length (firstStart first s) ss out := by
      have := ih (cs.map (·.tick s.env)) l (firstStart first s) (by omega) hl
        (fun x hx => hs x (by simp [hx])) ?_
      · simpa using this
      · cases first with
        | some f =>
          obtain ⟨g0, g1, g2⟩ := hinv
          refine ⟨g0, by omega, ?_⟩
          intro c hc
          obtain ⟨c', hc', rfl⟩ := List.mem_map.1 hc
          rw [g2 c' hc']; rfl
        | none =>
          obtain ⟨g1, g2⟩ := hinv
          cases hst : s.started with
          | false =>
            have e : firstStart none s = none := by simp [firstStart, hst]
            rw [e]
            refine ⟨?_, ?_⟩
            · intro c hc
              obtain ⟨c', hc', rfl⟩ := List.mem_map.1 hc
              have := g1 c' hc'
              simp [SimClock.tick, SimStep.env, hst, this]
            · intro x hx
              have := g2 x (by simp [hst, hx])
              rcases this with h | h
              · exact .inl h
              · exact .inr (by omega)
          | true =>
            have e : firstStart none s = some s.now := by simp [firstStart, hst]
            rw [e]
            have hfree := g2 s (by simp [hst])
            refine ⟨hn0, ?_, ?_⟩
            · rcases hfree with h | h
              · cases hb : b with
                | false => exact hbf hb h
                | true => exact e6 hb
              · omega
            · intro c hc
              obtain ⟨c', hc', rfl⟩ := List.mem_map.1 hc
              have := g1 c' hc'
              simp [SimClock.tick, SimStep.env, hst, this]
    obtain ⟨out, ho, hst⟩ := next
    cases b with
    | false => exact ⟨none :: out, .quiet e1 ho, none, out, rfl, .inl rfl, hst⟩
    | true =>
      have hlast := hpub rfl
      -- the stamp is in range
      obtain ⟨t, ht0, ht1, htm, hte⟩ : ∃ t, 0 ≤ t ∧ t < timeEnd ∧ (∀ c ∈ cs, c.stamp s.now = t) ∧ t = since first s.now := by
        cases first with
        | none =>
          refine ⟨0, le_refl _, by decide, ?_, rfl⟩
          intro c hc
          simp [SimClock.stamp, hinv.1 c hc]
        | some f =>
          obtain ⟨g0, g1, g2⟩ := hinv
          refine ⟨s.now - f, by omega, by omega, ?_, rfl⟩
          intro c hc
          rw [g2 c hc]; rfl
      exact ⟨some (List.replicate cs.length t) :: out, .publish e1 (mapM_rosTime_const ht0 ht1 cs _ htm) ho, _, out, rfl, .inr ⟨t, rfl, ht0, hte⟩, hst⟩

/-- **C107.**  Whatever the clock of the simulation does (set back, stopped, set forward), no exception leaves the realtime loop, and every published message
stamps every motor with the non-negative time since the first step, provided the transmissions' clocks are unset at the beginning and the statistics
message was free in that first step (or no message was due). -/
theorem C107_reset_safe {period : Int} (hp : 0 < period) {last : Int} (h0 : 0 ≤ last) (h1 : last + period < timeEnd) (cs : List SimClock)
    (hcs : ∀ c ∈ cs, c.inited = false) (ss : List SimStep) (hs : ∀ s ∈ ss, 0 ≤ s.now ∧ s.now + period < timeEnd)
    (hfirst : ∀ s, ss.find? (·.started) = some s → s.free = true ∨ s.now ≤ last + period) :
    ∃ out, SimRun32 period cs last ss (some out) ∧ StampsOf cs.length none ss out ∧ ∀ r, SimRun32 period cs last ss r → r = some out := by
  obtain ⟨out, h2, h3⟩ := simRun_key hp ss cs last none h0 h1 hs ⟨hcs, hfirst⟩
  exact ⟨out, h2, h3, fun r hr => hr.det h2⟩

/-- the clock goes back to zero, then forward again -/
def resetRun : List SimStep := [⟨false, 500, false⟩, ⟨true, 2500, true⟩, ⟨true, 3000, true⟩, ⟨true, 0, true⟩, ⟨true, 1500, true⟩, ⟨true, 3200, true⟩, ⟨true, 3700, true⟩]

/-- the hypotheses of `C107_reset_safe` are met by a run with a reset, and its messages are as computed -/
example : SimRun32 1000 [⟨false, 0⟩, ⟨false, 77⟩] 0 resetRun
    (some [none, some [0, 0], none, none, none, some [700, 700], none]) ∧ (∀ s, resetRun.find? (·.started) = some s → s.free = true ∨ s.now ≤ 0 + 1000) := by
  refine ⟨?_, by decide⟩
  have T : ∀ a b : Int, 0 ≤ a + b → a + b < timeEnd → timeAdd a b = some (a + b) := fun a b => timeAdd_some
  have q : ∀ {cs : List SimClock} {last l : Int} {s : SimStep} {ss : List SimStep} {n : Nat} {r : List (Option (List Int))},
      PubTick32 1000 s.now s.free last n (some (l, false)) → SimRun32 1000 (cs.map (·.tick s.env)) l ss (some r) → SimRun32 1000 cs last (s :: ss) (some (none :: r)) :=
    fun h1 h2 => .quiet h1 h2
  have p : ∀ {cs : List SimClock} {last l : Int} {s : SimStep} {ss : List SimStep} {n : Nat} {ts : List Int} {r : List (Option (List Int))},
      PubTick32 1000 s.now s.free last n (some (l, true)) → (cs.map (·.stamp s.now)).mapM rosTime = some ts →
      SimRun32 1000 (cs.map (·.tick s.env)) l ss (some r) → SimRun32 1000 cs last (s :: ss) (some (some ts :: r)) := fun h1 h2 h3 => .publish h1 h2 h3
  have c1 : CatchUp32 1000 2500 0 2 (some 2000) :=
    .step (T 0 1000 (by decide) (by decide)) (by decide) (T 0 1000 (by decide) (by decide))
      (.step (T 1000 1000 (by decide) (by decide)) (by decide) (T 1000 1000 (by decide) (by decide)) (.done (T 2000 1000 (by decide) (by decide)) (by decide)))
  have c2 : CatchUp32 1000 3200 2000 1 (some 3000) :=
    .step (T 2000 1000 (by decide) (by decide)) (by decide) (T 2000 1000 (by decide) (by decide)) (.done (T 3000 1000 (by decide) (by decide)) (by decide))
  refine q (.early (T 0 1000 (by decide) (by decide)) (by decide)) ?_
  refine p (l := 2000) (n := 2) (.publish (T 0 1000 (by decide) (by decide)) (by decide) rfl c1) (by decide) ?_
  refine q (.early (T 2000 1000 (by decide) (by decide)) (by decide)) ?_
  refine q (.early (T 2000 1000 (by decide) (by decide)) (by decide)) ?_
  refine q (.early (T 2000 1000 (by decide) (by decide)) (by decide)) ?_
  refine p (l := 3000) (n := 1) (.publish (T 2000 1000 (by decide) (by decide)) (by decide) rfl c2) (by decide) ?_
  refine q (.early (T 3000 1000 (by decide) (by decide)) (by decide)) .nil

/-- **C107, limits.**  Nothing is published until the clock has passed the old time again: as long as it reads at most one period more than the time of the last
publication, no message is published, for however many steps. -/
theorem C107_silent {period last : Int} (cs : List SimClock) (ss : List SimStep) (h0 : 0 ≤ last + period) (h1 : last + period < timeEnd)
    (hs : ∀ s ∈ ss, s.now ≤ last + period) (r : Option (List (Option (List Int)))) (h : SimRun32 period cs last ss r) :
    r = some (List.replicate ss.length none) := by
  have key : ∀ (ss : List SimStep) (cs : List SimClock), (∀ s ∈ ss, s.now ≤ last + period) → SimRun32 period cs last ss (some (List.replicate ss.length none)) := by
    intro ss
    induction ss with
    | nil => intro cs _; exact .nil
    | cons s ss ih =>
      intro cs hs
      exact .quiet (.early (timeAdd_some h0 h1) (by have := hs s (by simp); omega)) (ih _ (fun x hx => hs x (by simp [hx])))
  exact h.det (key ss cs hs)

/-- **C107, limits.**  If the message was in use in the first step (a controller was being loaded) and the clock is set back before the next one, the exception
of a negative time stamp ends the process. -/
theorem C107_busy_counterexample : ∃ (cs : List SimClock) (ss : List SimStep), (∀ c ∈ cs, c.inited = false) ∧ (∀ s ∈ ss, 0 ≤ s.now ∧ s.now + 1000 < timeEnd) ∧
    SimRun32 1000 cs 0 ss none := by
  have T : ∀ a b : Int, 0 ≤ a + b → a + b < timeEnd → timeAdd a b = some (a + b) := fun a b => timeAdd_some
  refine ⟨[⟨false, 0⟩], [⟨true, 2500, false⟩, ⟨true, 1500, true⟩], by decide, by decide, ?_⟩
  have c1 : CatchUp32 1000 1500 0 1 (some 1000) :=
    .step (T 0 1000 (by decide) (by decide)) (by decide) (T 0 1000 (by decide) (by decide)) (.done (T 1000 1000 (by decide) (by decide)) (by decide))
  exact .quiet (r := none) (.busy (T 0 1000 (by decide) (by decide)) (by decide) rfl)
    (.stamp (l := 1000) (n := 1) (.publish (T 0 1000 (by decide) (by decide)) (by decide) rfl c1) (by decide))

/-- **C107, limits.**  The transmissions' flag has no initial value: if it happens to be set, with a start time in the future, the first message ends the process
although the clock only moves forward. -/
theorem C107_uninitialised_counterexample : ∃ (cs : List SimClock) (ss : List SimStep), ss.Pairwise (fun a b => a.now ≤ b.now) ∧
    (∀ s ∈ ss, s.started = true ∧ s.free = true ∧ 0 ≤ s.now ∧ s.now + 1000 < timeEnd) ∧ SimRun32 1000 cs 0 ss none := by
  have T : ∀ a b : Int, 0 ≤ a + b → a + b < timeEnd → timeAdd a b = some (a + b) := fun a b => timeAdd_some
  refine ⟨[⟨true, 5000⟩], [⟨true, 1500, true⟩], by decide, by decide, ?_⟩
  have c1 : CatchUp32 1000 1500 0 1 (some 1000) :=
    .step (T 0 1000 (by decide) (by decide)) (by decide) (T 0 1000 (by decide) (by decide)) (.done (T 1000 1000 (by decide) (by decide)) (by decide))
  exact .stamp (l := 1000) (n := 1) (.publish (T 0 1000 (by decide) (by decide)) (by decide) rfl c1) (by decide)

end Pr2
