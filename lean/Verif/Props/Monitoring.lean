import Verif.Props.PlantPublish
import Verif.Props.Diagnostics

/-!
# C102: from the motors to the diagnostics

The running system (`Plant`, C83-C90) and the diagnostics node (C55-C58), joined: what the node publishes is related to what the robot did, through the statistics
messages.  Messages may be lost, delivered several times and in any order.
-/

namespace Pr2
set_option linter.unusedVariables false
set_option linter.unusedSectionVars false

section
variable {F : Type} [FCmp F] [Zero F] [Add F] [Sub F] [Mul F] [iDiv : Div F] [Neg F] [FLit F] [iTrig : FTrig F]

/-! ## Specification -/

/-- A statistics message `m` as the diagnostics node gets it, with the step of the running system that filled it: after the steps `before`, in state `p`, the realtime
loop made the step with the inputs `i`. -/
structure Receipt (F : Type) where
  before : List (Plant F × PAct F)
  p : Plant F
  i : PlantIn F
  m : MechMsg F

/-- The message was filled in the course of the execution `l`: in that step one was due, and its rows are the ones written in that step. -/
structure Receipt.From (big : F) (l : List (Plant F × PAct F)) (r : Receipt F) : Prop where
  step : ∃ after, l = r.before ++ (r.p, .rt r.i) :: after
  publish : r.p.mgr.rt = .publish
  due : r.p.StatsDue r.i
  rows : r.m.joints.map (·.1) = (r.p.step big (.rt r.i)).data.statPub.msg.1

/-- Joint `k` as it was when the message was filled. -/
def Receipt.Joint (k : Nat) (r : Receipt F) (j : JState F) : Prop := r.p.data.robot.joints[k]? = some j

/-- The cycles of joint `k` the message is about: those since the one before it (except for the very first cycle of all). -/
noncomputable def Receipt.cycles (big : F) (k : Nat) (r : Receipt F) : List (JSample F) := sinceReset (statHistory big k r.before).tail

/-- The node processed the row of joint `k` at time `t`. -/
def Receipt.At (k : Nat) (r : Receipt F) (t : Int) : Prop := ∃ row, r.m.joints[k]? = some (row, t)

/-! ## Lemmas -/

theorem Plant.Trace.prefix {big : F} {m : Bool} {d : RtData F} {ok : PlantIn F → Prop} {l : List (Plant F × PAct F)} {p : Plant F}
    (h : Plant.Trace big m d ok l p) : ∀ (l1 l2 : List (Plant F × PAct F)) (q : Plant F) (a : PAct F), l = l1 ++ (q, a) :: l2 → Plant.Trace big m d ok l1 q := by
  induction h with
  | init => intro l1 l2 q a e; simp at e
  | @step l p h a ha ih =>
    intro l1 l2 q b e
    rcases List.eq_nil_or_concat l2 with rfl | ⟨l3, x, rfl⟩
    · obtain ⟨e1, e2⟩ := List.append_inj' e rfl
      simp only [List.cons.injEq, Prod.mk.injEq, and_true] at e2
      rw [← e1, ← e2.1]; exact h
    · have : l ++ [(p, a)] = (l1 ++ (q, b) :: l3) ++ [x] := by simpa using e
      obtain ⟨e1, _⟩ := List.append_inj' this rfl
      exact ih _ _ _ _ e1

theorem filter_unique {A B : Type} [BEq B] [LawfulBEq B] (f : A → B) : ∀ (l : List A) (k : Nat) (a : A), (l.map f).Nodup → l[k]? = some a →
    l.filter (fun x => f x == f a) = [a]
  | [], k, a, _, h => by simp at h
  | b :: l, 0, a, hn, h => by
    simp only [List.getElem?_cons_zero, Option.some.injEq] at h
    subst h
    rw [List.map_cons, List.nodup_cons] at hn
    rw [List.filter_cons_of_pos (by simp), List.filter_eq_nil_iff.2]
    intro x hx hx'
    exact hn.1 ((beq_iff_eq.1 hx') ▸ List.mem_map_of_mem hx)
  | b :: l, k + 1, a, hn, h => by
    rw [List.map_cons, List.nodup_cons] at hn
    have hl : l[k]? = some a := by simpa using h
    have hb : ¬ (f b == f a) = true := by
      intro e
      exact hn.1 ((beq_iff_eq.1 e) ▸ List.mem_map_of_mem (List.mem_of_getElem? hl))
    rw [List.filter_cons_of_neg (p := fun x => f x == f a) hb]
    exact filter_unique f l k a hn.2 hl

theorem shows_get {now : Int} {rows : List (SRow F)} {js : List (JState F)} (h : List.Forall₂ (fun row j => row.Shows now j) rows js) (k : Nat) {j : JState F}
    (hj : js[k]? = some j) : ∃ row, rows[k]? = some row ∧ row.Shows now j := by
  induction h generalizing k with
  | nil => simp at hj
  | cons h1 _ ih =>
    cases k with
    | zero => simp at hj; subst hj; exact ⟨_, rfl, h1⟩
    | succ k => exact ih k (by simpa using hj)

theorem shows_names {now : Int} {rows : List (SRow F)} {js : List (JState F)} (h : List.Forall₂ (fun row j => row.Shows now j) rows js) :
    rows.map (·.name) = js.map (·.joint.name) := by
  induction h with
  | nil => rfl
  | cons h1 _ ih => simp [h1.name, ih]

theorem same_names {js js' : List (JState F)} (h : List.Forall₂ (fun j j' => j'.joint = j.joint) js js') :
    js'.map (·.joint.name) = js.map (·.joint.name) := by
  induction h with
  | nil => rfl
  | cons h1 _ ih => simp [h1, ih]

theorem forall2_at {A B : Type} {R : A → B → Prop} {l : List A} {l' : List B} (h : List.Forall₂ R l l') (k : Nat) {a : A} (ha : l[k]? = some a) :
    ∃ b, l'[k]? = some b ∧ R a b := by
  induction h generalizing k with
  | nil => simp at ha
  | cons h1 _ ih =>
    cases k with
    | zero => simp at ha; subst ha; exact ⟨_, rfl, h1⟩
    | succ k => exact ih k (by simpa using ha)

/-- The row of joint `k` in a received message. -/
theorem Receipt.row {big : F} {m : Bool} {d : RtData F} (hd : d.Good) {ok : PlantIn F → Prop} (hok : ∀ i, ok i → i.Tame) {l : List (Plant F × PAct F)}
    {p : Plant F} (h : Plant.Trace big m d ok l p) (hn : (d.robot.joints.map (·.joint.name)).Nodup) (k : Nat) (j0 : JState F)
    (hk : d.robot.joints[k]? = some j0) {r : Receipt F} (hr : r.From big l) :
    ∃ row t j, r.m.joints[k]? = some (row, t) ∧ r.Joint k j ∧ row.Shows r.i.statNow j ∧ (r.p.step big (.rt r.i)).data.statPub.msg.1[k]? = some row ∧
      r.m.joints.filter (fun x => x.1.name == j0.joint.name) = [(row, t)] := by
  obtain ⟨after, he⟩ := hr.step
  have ht := h.prefix _ _ _ _ he
  have hreach := ht.reach.mono (ok' := PlantIn.Tame) hok
  obtain ⟨c, hc, hdue', _⟩ := C89_statistics hd hreach hr.publish r.i
  obtain ⟨c', hc', hs'⟩ := hreach.lastSent hr.publish
  rw [hc] at hc'; cases hc'
  have hrows := (hdue' hr.due).1
  rw [← hs'] at hrows
  have hsame := (C84_survives hd hreach).2.2.joints
  obtain ⟨j, hj, hjj⟩ := forall2_at hsame k hk
  obtain ⟨row, hrow, hsh⟩ := shows_get hrows k hj
  have hnames : (r.m.joints.map (fun x => x.1.name)).Nodup := by
    have : r.m.joints.map (fun x => x.1.name) = (r.m.joints.map (·.1)).map (·.name) := by simp
    rw [this, hr.rows, shows_names hrows, same_names hsame]
    exact hn
  have hx : ∃ x, r.m.joints[k]? = some x ∧ x.1 = row := by
    have : (r.m.joints.map (·.1))[k]? = some row := by rw [hr.rows]; exact hrow
    rw [List.getElem?_map, Option.map_eq_some_iff] at this
    exact this
  obtain ⟨⟨row', t⟩, hx1, rfl⟩ := hx
  refine ⟨row', t, j, hx1, hj, hsh, hrow, ?_⟩
  have := filter_unique (fun x : SRow F × Int => x.1.name) r.m.joints k (row', t) hnames hx1
  rw [show (row', t).1.name = j0.joint.name by rw [hsh.name, hjj]] at this
  exact this

theorem sinceReset_mono (h : List (StatEv F)) : ∀ (xs ys : List (JSample F)), (∀ x ∈ xs, x ∈ ys) →
    ∀ x ∈ h.foldl (fun xs e => match e with | .sample x => xs ++ [x] | .reset => []) xs,
      x ∈ h.foldl (fun xs e => match e with | .sample x => xs ++ [x] | .reset => []) ys := by
  induction h with
  | nil => intro xs ys h; exact h
  | cons e h ih =>
    intro xs ys hh
    rw [List.foldl_cons, List.foldl_cons]
    refine ih _ _ ?_
    cases e with
    | sample y =>
      intro x hx
      rcases List.mem_append.1 hx with hx | hx
      · exact List.mem_append_left _ (hh x hx)
      · exact List.mem_append_right _ hx
    | reset => exact fun x hx => hx

theorem sinceReset_tail (h : List (StatEv F)) : ∀ x ∈ sinceReset h.tail, x ∈ sinceReset h := by
  cases h with
  | nil => exact fun x hx => hx
  | cons e h =>
    unfold sinceReset
    rw [List.tail_cons, List.foldl_cons]
    exact sinceReset_mono h _ _ (by intro x hx; cases hx)

/-- What a joint experiences of a batch of messages with one row each. -/
theorem jointObs_batch (n : String) (rs : List (Receipt F)) (row : Receipt F → SRow F × Int)
    (h : ∀ r ∈ rs, r.m.joints.filter (fun x => x.1.name == n) = [row r]) :
    jointObs n (rs.map (fun r => .msg r.m)) = (rs.map row).map (fun u => .upd u.1 u.2) := by
  induction rs with
  | nil => rfl
  | cons r rs ih =>
    have ih := ih fun r hr => h r (List.mem_cons_of_mem _ hr)
    unfold jointObs at ih ⊢
    rw [List.map_cons, List.flatMap_cons, ih]
    dsimp only
    rw [h r (by simp)]
    rfl

theorem jointObs_pubs (n : String) (cs : List PubClock) : jointObs (F := F) n (cs.map .pub) = (cs.map (fun c => c.joint n)).map .rep := by
  induction cs with
  | nil => rfl
  | cons c cs ih => unfold jointObs at ih ⊢; rw [List.map_cons, List.flatMap_cons, ih]; rfl

theorem jointObs_append (n : String) (h h' : List (DEv F)) : jointObs n (h ++ h') = jointObs n h ++ jointObs n h' := by
  unfold jointObs; rw [List.flatMap_append]

end

section
variable {F : Type} [FCmp F] [Zero F] [Add F] [Sub F] [Mul F] [iDiv : Div F] [Neg F] [FLit F] [iTrig : FTrig F] [FNormal F]

theorem toDiag_name (d : DJoint F) (now : Int) : (d.toDiag now).1.name = "Joint (" ++ d.name ++ ")" := by
  unfold DJoint.toDiag DJoint.summaries
  dsimp only
  have h1 : ∀ (st : DStatus F) l m, (st.summary l m).name = st.name := fun _ _ _ => rfl
  have h2 : ∀ (st : DStatus F) k v, (st.add k v).name = st.name := fun _ _ _ => rfl
  simp only [h2, apply_ite DStatus.name, h1, ite_self]

/-- The status of a joint is published. -/
theorem joint_published (big : F) (sim dis : Bool) (h : List (DEv F)) (c : PubClock) (n : String) (js : SRow F) (t : Int) (hl : LastJoint n h js t) :
    jointStatus big n (jointObs n h) (c.joint n) ∈ (((DiagNode.fresh F sim dis).after big h).publishDiag c).1 := by
  obtain ⟨joints, ctrls, -, -, hj, -, st, -, he⟩ := C58_published big sim dis h c
  rw [he]
  refine List.mem_append_left _ (List.mem_append_left _ ?_)
  exact List.mem_map.2 ⟨n, (hj n).2 ⟨js, t, hl⟩, rfl⟩

theorem lookup_others (d : DJoint F) (now : Int) :
    (d.toDiag now).1.values.lookup "Position" = some (.num d.position) ∧
    (d.toDiag now).1.values.lookup "Velocity" = some (.num d.velocity) ∧
    (d.toDiag now).1.values.lookup "Measured Effort" = some (.num d.measured) ∧
    (d.toDiag now).1.values.lookup "Commanded Effort" = some (.num d.commanded) ∧
    (d.toDiag now).1.values.lookup "Calibrated" = some (.bool d.calibrated) ∧
    (d.toDiag now).1.values.lookup "Odometer" = some (.num d.odometer) ∧
    (d.toDiag now).1.values.lookup "Limits Hit" = some (.bool d.violated) := by
  have hv : (d.summaries now).values = [] := by
    unfold DJoint.summaries
    dsimp only
    have h1 : ∀ (st : DStatus F) l m, (st.summary l m).values = st.values := fun _ _ _ => rfl
    have h2 : (DStatus.fresh F).values = [] := rfl
    simp only [apply_ite DStatus.values, h1, ite_self, h2]
  unfold DJoint.toDiag
  generalize d.summaries now = st at hv
  obtain ⟨l, m, nm, vs⟩ := st
  simp only at hv
  subst hv
  cases d.calibrated <;> exact ⟨rfl, rfl, rfl, rfl, rfl, rfl, rfl⟩

/-- The last message decides what is shown of the joint's present state. -/
theorem last_receipt {big : F} {m : Bool} {d : RtData F} (hd : d.Good) {ok : PlantIn F → Prop} (hok : ∀ i, ok i → i.Tame) {l : List (Plant F × PAct F)}
    {p : Plant F} (h : Plant.Trace big m d ok l p) (hn : (d.robot.joints.map (·.joint.name)).Nodup) (k : Nat) (j0 : JState F)
    (hk : d.robot.joints[k]? = some j0) {r : Receipt F} (hr : r.From big l) (h0 : List (DEv F)) (cs : List PubClock) :
    ∃ row t j, r.m.joints[k]? = some (row, t) ∧ r.Joint k j ∧ row.Shows r.i.statNow j ∧ (r.p.step big (.rt r.i)).data.statPub.msg.1[k]? = some row ∧
      LastJoint j0.joint.name (h0 ++ [.msg r.m] ++ cs.map .pub) row t := by
  obtain ⟨row, t, j, h1, h2, h3, h4, h5⟩ := Receipt.row hd hok h hn k j0 hk hr
  refine ⟨row, t, j, h1, h2, h3, h4, jointObs j0.joint.name h0, (cs.map (fun c => c.joint j0.joint.name)).map .rep, ?_, ?_⟩
  · rw [jointObs_append, jointObs_append, jointObs_pubs]
    have : jointObs j0.joint.name [DEv.msg r.m] = [.upd row t] := by
      unfold jointObs
      rw [List.flatMap_singleton]
      dsimp only
      rw [h5]; rfl
    rw [this]; simp
  · intro o ho
    obtain ⟨τ, _, rfl⟩ := List.mem_map.1 ho
    exact ⟨τ, rfl⟩

/-- **C102.**  For IEEE-like arithmetic.  Whatever was loaded, switched and published before: if the node published since it got the message `r`, its status for joint `k`
shows the position, velocity and efforts of the cycle before the message was filled, and is an error exactly if one of them is neither zero nor a normal
number or the message was processed more than three seconds ago. -/
theorem C102_level [IeeeLike F] [IeeeNormal F] {big : F} {m : Bool} {d : RtData F} (hd : d.Good) {l : List (Plant F × PAct F)}
    {p : Plant F} (h : Plant.Trace big m d PlantIn.Tame l p) (hn : (d.robot.joints.map (·.joint.name)).Nodup) (k : Nat) (j0 : JState F)
    (hk : d.robot.joints[k]? = some j0) {r : Receipt F} (hr : r.From big l) (h0 : List (DEv F)) (cs : List PubClock) (sim dis : Bool) (c : PubClock) :
    ∃ t rec j, r.At k t ∧ r.p.cycles.getLast? = some rec ∧ rec.sent.joints[k]? = some j ∧ j.joint = j0.joint ∧
      ∃ st ∈ (((DiagNode.fresh F sim dis).after big (h0 ++ [.msg r.m] ++ cs.map .pub)).publishDiag c).1,
        st.name = "Joint (" ++ j0.joint.name ++ ")" ∧
        (st.level = .error ↔ ¬ (Healthy j.position ∧ Healthy j.velocity ∧ Healthy j.measured ∧ Healthy j.commanded) ∨
          c.joint j0.joint.name - t > 3000000000) ∧
        (st.level = .ok → j.calibrated = true) ∧
        st.values.lookup "Position" = some (.num j.position) ∧ st.values.lookup "Velocity" = some (.num j.velocity) ∧
        st.values.lookup "Measured Effort" = some (.num j.measured) ∧ st.values.lookup "Commanded Effort" = some (.num j.commanded) ∧
        st.values.lookup "Calibrated" = some (.bool j.calibrated) := by
  obtain ⟨row, t, j, h1, h2, h3, h4, h5⟩ := last_receipt hd (fun _ h => h) h hn k j0 hk hr h0 cs
  obtain ⟨after, he⟩ := hr.step
  have hreach := (h.prefix _ _ _ _ he).reach
  obtain ⟨rec, hrec, hs⟩ := hreach.lastSent hr.publish
  have hjj : j.joint = j0.joint := by
    obtain ⟨j', hj', e⟩ := forall2_at (C84_survives hd hreach).2.2.joints k hk
    have h2' : r.p.data.robot.joints[k]? = some j := h2
    rw [h2'] at hj'; cases hj'; exact e
  refine ⟨t, rec, j, ⟨row, h1⟩, hrec, by rw [← hs]; exact h2, hjj, _, joint_published big sim dis _ c _ _ _ h5, ?_⟩
  obtain ⟨a1, a2, -, a4, -⟩ := C55_level big _ _ _ _ (c.joint j0.joint.name) h5
  obtain ⟨b1, b2, b3, b4, b5, -, -, -⟩ := joint_after_last big _ _ _ _ h5
  obtain ⟨c1, c2, c3, c4, c5, -, -⟩ := lookup_others ((DJoint.fresh big j0.joint.name).after big
    (jointObs j0.joint.name (h0 ++ [.msg r.m] ++ cs.map .pub))) (c.joint j0.joint.name)
  rw [h3.position, h3.velocity, h3.measured, h3.commanded] at a2
  refine ⟨a1, a2, fun e => ?_, ?_, ?_, ?_, ?_, ?_⟩
  · have := (a4.1 e).2.2; rwa [h3.calibrated] at this
  · refine c1.trans ?_; rw [b1, h3.position]
  · refine c2.trans ?_; rw [b2, h3.velocity]
  · refine c3.trans ?_; rw [b3, h3.measured]
  · refine c4.trans ?_; rw [b4, h3.commanded]
  · refine c5.trans ?_; rw [b5, h3.calibrated]

/-! ## Controllers -/

/-- The controllers' part of the message `m` was filled in state `p` (durations are rounded on the way and not compared here). -/
structure CtrlFrom (low : ℝ) (p : Plant F) (u : Bool) (m : MechMsg F) : Prop where
  filling : ∃ k msg, p.mgr.rt = .pubFill k msg
  used : p.mgr.used = some u
  rows : ∃ now, List.Forall₂ (fun (x : CRow × Int) (row : CtrlRow) => x.1.name = row.name ∧ x.1.running = row.running ∧ x.1.overruns = row.overruns ∧
    x.1.lastOverrun = row.lastOverrun) m.ctrls (ctrlRows low now p.data.stats (p.listed u))

/-- **C102.**  Of a controller loaded when a message was filled, whose entry was processed at time `t` and was no older than three seconds in the publications since:
the node publishes a status, which is a warning exactly if warnings are enabled, the controller ever took more than a millisecond for an update since it was
loaded, and its last such update ended less than 30 seconds ago; otherwise it is OK.  It shows the number of such updates.  (Fewer than 2³¹ of them.) -/
theorem C102_controller {big : F} {m : Bool} {d : RtData F} {ok : PlantIn F → Prop} (hd : ∀ id, d.stats id = CStat.fresh) {p : Plant F}
    (h : Plant.Reach big m d ok p) (low : ℝ) (u : Bool) (msg : MechMsg F) (hm : CtrlFrom low p u msg) (j : Nat) (e : Entry)
    (hj : (p.mgr.lists u)[j]? = some e) (hfew : p.timings.countP (·.overran e.id) < 2 ^ 31)
    (h0 : List (DEv F)) (cs : List PubClock) (t : Int) (ht : ∃ row, msg.ctrls[j]? = some (row, t)) (hcs : ∀ c ∈ cs, c.discard e.name - t ≤ 3000000000)
    (sim dis : Bool) (c : PubClock) :
    ∃ st ∈ (((DiagNode.fresh F sim dis).after big (h0 ++ [.msg msg] ++ cs.map .pub)).publishDiag c).1,
      st.name = "Controller (" ++ e.name ++ ")" ∧
      (st.level = .warn ↔ sim = false ∧ dis = false ∧
        ∃ x, (p.timings.filter (·.overran e.id)).getLast? = some x ∧ c.ctrl e.name - x.fin < 30000000000) ∧
      (st.level ≠ .warn → st.level = .ok) ∧
      ((∀ x ∈ p.timings, x.overran e.id = false) → st.message = if p.mgr.isRunning e.id then "Running" else "Stopped") ∧
      st.values.lookup "Number of Control Loop Overruns" = some (.int (p.timings.countP (·.overran e.id))) := by
  obtain ⟨⟨k, ms, hf⟩, hu, now, hrows⟩ := hm
  have hR : Reachable m p.mgr := h.pinv.mgr.reach (by rw [hu]; simp)
  have g := hR.inv.1.goodUsed hu
  obtain ⟨row, hrow⟩ := ht
  have hs := C85_statistics hd h e.id
  have hget : (ctrlRows low now p.data.stats (p.listed u))[j]? = some (ctrlRow low now p.data.stats ⟨e.name, e.id, p.mgr.isRunning e.id⟩) := by
    unfold ctrlRows Plant.listed
    rw [List.map_map, List.getElem?_map, hj]; rfl
  obtain ⟨row', hrow', e1, e2, e3, e4⟩ := forall2_at hrows j hrow
  rw [hget] at hrow'
  cases hrow'
  change row.name = e.name at e1
  change row.running = p.mgr.isRunning e.id at e2
  change row.overruns = (p.data.stats e.id).overruns at e3
  change row.lastOverrun = (p.data.stats e.id).lastOverrun at e4
  rw [hs.overruns] at e3
  rw [hs.last] at e4
  have hnames : (msg.ctrls.map (fun x => x.1.name)).Nodup := by
    have : msg.ctrls.map (fun x => x.1.name) = (ctrlRows low now p.data.stats (p.listed u)).map (·.name) := by
      generalize ctrlRows low now p.data.stats (p.listed u) = l at hrows
      generalize msg.ctrls = l' at hrows
      clear hrow hget
      induction hrows with
      | nil => rfl
      | cons a _ ih => simp [a.1, ih]
    rw [this]
    have : (ctrlRows low now p.data.stats (p.listed u)).map (·.name) = (p.mgr.lists u).map (·.name) := by
      unfold ctrlRows Plant.listed
      rw [List.map_map, List.map_map]; rfl
    rw [this]
    exact g.distinct
  have hfil := filter_unique (fun x : CRow × Int => x.1.name) msg.ctrls j (row, t) hnames hrow
  have hlive : LiveCtrl e.name (h0 ++ [.msg msg] ++ cs.map .pub) row t := by
    refine ⟨ctrlObs e.name h0, cs.map (fun c => .pub (c.discard e.name)), ?_, ?_⟩
    · have a1 : ∀ (a b : List (DEv F)), ctrlObs e.name (a ++ b) = ctrlObs e.name a ++ ctrlObs e.name b := by
        intro a b; unfold ctrlObs; rw [List.flatMap_append]
      have a2 : ctrlObs (F := F) e.name (cs.map .pub) = cs.map (fun c => .pub (c.discard e.name)) := by
        unfold ctrlObs
        clear hcs
        induction cs with
        | nil => rfl
        | cons c cs ih => rw [List.map_cons, List.flatMap_cons, ih]; rfl
      have a3 : ctrlObs e.name [DEv.msg msg] = [.upd row t] := by
        unfold ctrlObs
        rw [List.flatMap_singleton]
        dsimp only
        rw [← e1]
        rw [hfil]; rfl
      rw [a1, a1, a2, a3]; simp
    · intro o ho
      obtain ⟨c', hc', rfl⟩ := List.mem_map.1 ho
      exact ⟨_, rfl, hcs c' hc'⟩
  obtain ⟨joints, ctrls, -, -, -, hc, st, hst, he⟩ := C58_published big sim dis (h0 ++ [.msg msg] ++ cs.map .pub) c
  have hmem : e.name ∈ ctrls := (hc _).2 ⟨_, _, hlive⟩
  have hste := hst _ hmem _ _ hlive
  obtain ⟨l1, l2, l3, l4⟩ := C57_level (F := F) sim dis row t (c.ctrl e.name)
  have hcount : row.overruns.toNat = p.timings.countP (·.overran e.id) := by
    rw [e3, UInt32.toNat_ofNat']
    exact Nat.mod_eq_of_lt (by omega)
  refine ⟨st e.name, ?_, ?_, ?_, ?_, ?_, ?_⟩
  · rw [he]
    exact List.mem_append_left _ (List.mem_append_right _ (List.mem_map.2 ⟨_, hmem, rfl⟩))
  · rw [hste, l1, e1]
  · rw [hste, l2, hcount, e4]
    have hpos : 0 < p.timings.countP (·.overran e.id) ↔ ∃ x, (p.timings.filter (·.overran e.id)).getLast? = some x := by
      rw [List.countP_eq_length_filter]
      cases hx : (p.timings.filter (·.overran e.id)).getLast? with
      | none => rw [List.getLast?_eq_none_iff] at hx; rw [hx]; simp
      | some x =>
        have : p.timings.filter (·.overran e.id) ≠ [] := by intro e; rw [e] at hx; cases hx
        exact ⟨fun _ => ⟨x, rfl⟩, fun _ => List.length_pos_of_ne_nil this⟩
    rw [hpos]
    cases hx : (p.timings.filter (·.overran e.id)).getLast? with
    | none => simp
    | some x =>
      constructor
      · rintro ⟨a1, a2, -, -, a3⟩; exact ⟨a1, a2, x, rfl, a3⟩
      · rintro ⟨a1, a2, y, hy, a3⟩; cases hy; exact ⟨a1, a2, ⟨x, rfl⟩, hfew, a3⟩
  · rw [hste]; exact l3
  · intro hno
    rw [hste, l4, e2]
    rw [e3, List.countP_eq_zero.2 fun x hx => by rw [hno x hx]; simp]; rfl
  · rw [hste]
    have hv : toInt32 row.overruns = (p.timings.countP (·.overran e.id) : Int) := by
      unfold toInt32
      rw [hcount, if_pos hfew]
    rw [← hv]
    unfold DCtrl.toDiag ctrlOf
    dsimp only
    generalize hg : (if (!(sim || dis)) && decide (toInt32 row.overruns > 0) then _ else _ : DStatus F) = S
    have : S.values = [] := by
      rw [← hg]
      have h1 : ∀ (st : DStatus F) l m, (st.summary l m).values = st.values := fun _ _ _ => rfl
      have h2 : (DStatus.fresh F).values = [] := rfl
      simp only [apply_ite DStatus.values, h1, ite_self, h2]
    obtain ⟨a1, a2, a3, vs⟩ := S
    simp only at this
    subst this
    rfl

end

section exact
variable {F : Type} [Field F] [LinearOrder F] [IsStrictOrderedRing F] [FLit F] [iTrig : FTrig F] [FNormal F]
attribute [local instance] exactCmp

/-- **C102.**  Exact arithmetic.  The node got, since its last publication with news (or since it started), the messages `rs`, filled by the running system - in any order,
some of them perhaps twice and others not at all - the last of them when the joint was calibrated.  Then what it publishes next shows as largest speed and
effort of joint `k` exactly the largest of all cycles these messages are about in which the joint was calibrated, as position range one that covers those
cycles from above, as odometer the distance the joint had travelled when the last message was filled, and "Limits Hit" exactly if in a cycle the last message
is about the commanded effort exceeded the measured one. -/
theorem C102_extremes {big : F} {m : Bool} {d : RtData F} (hd : d.Good) {l : List (Plant F × PAct F)}
    {p : Plant F} (h : Plant.Trace big m d PlantIn.Reports l p) (hn : (d.robot.joints.map (·.joint.name)).Nodup) (k : Nat) (j0 : JState F)
    (hk : d.robot.joints[k]? = some j0) (old : F) (hf : j0.stats = JStats.fresh old)
    (h0 : List (DEv F)) (hh0 : h0 = [] ∨ ∃ h' c', h0 = h' ++ [.pub c']) (rs : List (Receipt F)) (last : Receipt F) (cs : List PubClock)
    (hrs : ∀ r ∈ rs ++ [last], r.From big l)
    (hcal : ∃ j, last.Joint k j ∧ j.calibrated = true)
    (hbig : 0 ≤ big) (hpos : ∀ r ∈ rs ++ [last], ∀ x ∈ sinceReset (statHistory big k r.before), -big ≤ x.position)
    (sim dis : Bool) (c : PubClock) :
    ∃ st ∈ (((DiagNode.fresh F sim dis).after big (h0 ++ (rs ++ [last]).map (fun r => .msg r.m) ++ cs.map .pub)).publishDiag c).1,
      st.name = "Joint (" ++ j0.joint.name ++ ")" ∧
      ∃ M V E, st.values.lookup "Max Position" = some (.num M) ∧ st.values.lookup "Max Abs. Velocity" = some (.num V) ∧
        st.values.lookup "Max Abs. Effort" = some (.num E) ∧
        (∀ r ∈ rs ++ [last], ∀ j, r.Joint k j → j.calibrated = true → ∀ x ∈ r.cycles big k, x.position ≤ M ∧ |x.velocity| ≤ V ∧ |x.measured| ≤ E) ∧
        (V = 0 ∨ ∃ r ∈ rs ++ [last], (∃ j, r.Joint k j ∧ j.calibrated = true) ∧ ∃ x ∈ r.cycles big k, |x.velocity| = V) ∧
        (E = 0 ∨ ∃ r ∈ rs ++ [last], (∃ j, r.Joint k j ∧ j.calibrated = true) ∧ ∃ x ∈ r.cycles big k, |x.measured| = E) ∧
        st.values.lookup "Odometer" = some (.num (travelled (sampled (statHistory big k last.before)))) ∧
        ∃ b, st.values.lookup "Limits Hit" = some (.bool b) ∧
          (b = true ↔ ∃ x ∈ last.cycles big k, x.guarded = true ∧ |x.measured| < |x.commanded|) := by
  have key : ∀ r ∈ rs ++ [last], ∃ u : SRow F × Int, r.m.joints.filter (fun x => x.1.name == j0.joint.name) = [u] ∧
      (∃ j, r.Joint k j ∧ u.1.calibrated = j.calibrated) ∧
      u.1.odometer = travelled (sampled (statHistory big k r.before)) ∧
      IsMaxOf u.1.maxVel ((r.cycles big k).map (fun x => |x.velocity|)) ∧
      IsMaxOf u.1.maxEff ((r.cycles big k).map (fun x => |x.measured|)) ∧
      (u.1.violated = true ↔ ∃ x ∈ r.cycles big k, x.guarded = true ∧ |x.measured| < |x.commanded|) ∧
      (∀ x ∈ sinceReset (statHistory big k r.before), u.1.minPos ≤ x.position ∧ x.position ≤ u.1.maxPos) ∧
      sinceReset (statHistory big k r.before) ≠ [] := by
    intro r hr
    obtain ⟨row, t, j, h1, h2, h3, h4, h5⟩ := Receipt.row hd (fun i (hi : i.Reports) => hi.tame) h hn k j0 hk (hrs r hr)
    obtain ⟨after, he⟩ := (hrs r hr).step
    obtain ⟨row', e1, e2, e3, e4, e5, e6, e7, e8⟩ := C90_report hd (h.prefix _ _ _ _ he) (hrs r hr).publish r.i (hrs r hr).due k j0 hk old hf
    rw [h4] at e1; cases e1
    exact ⟨(row, t), h5, ⟨j, h2, h3.calibrated⟩, e3, e4, e5, e6, e7, e8⟩
  have : Nonempty (SRow F × Int) := let ⟨v, _⟩ := key last (by simp); ⟨v⟩
  choose! u hu using key
  have hobs : jointObs j0.joint.name (h0 ++ (rs ++ [last]).map (fun r => .msg r.m) ++ cs.map .pub) =
      jointObs j0.joint.name h0 ++ ((rs ++ [last]).map u).map (fun v => .upd v.1 v.2) ++ (cs.map (fun c => c.joint j0.joint.name)).map .rep := by
    rw [jointObs_append, jointObs_append, jointObs_pubs, jointObs_batch _ _ u fun r hr => (hu r hr).1]
  have hlast : last ∈ rs ++ [last] := by simp
  have hcal' : (u last).1.calibrated = true := by
    obtain ⟨⟨j, hj, e⟩, -⟩ := (hu last hlast).2
    obtain ⟨j', hj', e'⟩ := hcal
    unfold Receipt.Joint at hj hj'
    rw [hj] at hj'; cases hj'
    rw [e, e']
  have hmaxnn : ∀ (y : F) (xs : List F), (∀ x ∈ xs, 0 ≤ x) → IsMaxOf y xs → 0 ≤ y := by
    rintro y xs hx (⟨-, rfl⟩ | ⟨hy, -⟩)
    · exact le_refl _
    · exact hx y hy
  have habs : ∀ (f : JSample F → F) (xs : List (JSample F)), ∀ x ∈ xs.map (fun y => |f y|), 0 ≤ x := by
    intro f xs x hx
    obtain ⟨y, _, rfl⟩ := List.mem_map.1 hx
    exact abs_nonneg _
  have hmax : ∀ (y : F) (xs : List F), IsMaxOf y xs → ∀ x ∈ xs, x ≤ y := by
    rintro y xs (⟨rfl, -⟩ | ⟨-, hy⟩) x hx
    · cases hx
    · exact hy x hx
  have hb : ∀ v ∈ (rs ++ [last]).map u, v.1.calibrated = true → -big ≤ v.1.maxPos ∧ -big ≤ v.1.maxVel ∧ -big ≤ v.1.maxEff := by
    intro v hv _
    obtain ⟨r, hr, rfl⟩ := List.mem_map.1 hv
    obtain ⟨-, -, -, e4, e5, -, e7, e8⟩ := hu r hr
    have hneg : -big ≤ 0 := neg_nonpos.2 hbig
    refine ⟨?_, hneg.trans (hmaxnn _ _ (habs _ _) e4), hneg.trans (hmaxnn _ _ (habs _ _) e5)⟩
    obtain ⟨x, hx⟩ := List.exists_mem_of_ne_nil _ e8
    exact (hpos r hr x hx).trans (e7 x hx).2
  have hpre : jointObs j0.joint.name h0 = [] ∨ ∃ q τ, jointObs j0.joint.name h0 = q ++ [.rep τ] := by
    rcases hh0 with rfl | ⟨h', c', rfl⟩
    · exact Or.inl rfl
    · exact Or.inr ⟨jointObs j0.joint.name h', c'.joint j0.joint.name, by rw [jointObs_append]; rfl⟩
  have hus : (rs ++ [last]).map u = rs.map u ++ [((u last).1, (u last).2)] := by simp
  obtain ⟨M, V, E, l1, l2, l3, -, g1, g2, g3⟩ := C56_extremes big _ _ _ _ _ _ _ _ (c.joint j0.joint.name) hobs hpre hus hcal' hb
  have hlj : LastJoint j0.joint.name (h0 ++ (rs ++ [last]).map (fun r => .msg r.m) ++ cs.map .pub) (u last).1 (u last).2 := by
    refine ⟨jointObs j0.joint.name h0 ++ (rs.map u).map (fun v => .upd v.1 v.2), (cs.map (fun c => c.joint j0.joint.name)).map .rep, ?_, ?_⟩
    · rw [hobs, hus]; simp
    · intro o ho
      obtain ⟨τ, _, rfl⟩ := List.mem_map.1 ho
      exact ⟨τ, rfl⟩
  refine ⟨_, joint_published big sim dis _ c _ _ _ hlj, ?_, M, V, E, l1, l2, l3, ?_, ?_, ?_, ?_, ?_⟩
  · unfold jointStatus
    rw [toDiag_name, joint_after_name]
  · intro r hr j hj hc x hx
    obtain ⟨-, ⟨j', hj', e⟩, -, e4, e5, -, e7, e8⟩ := hu r hr
    unfold Receipt.Joint at hj hj'
    rw [hj] at hj'; cases hj'
    have hm : u r ∈ (rs ++ [last]).map u := List.mem_map_of_mem hr
    exact ⟨((e7 x (sinceReset_tail _ x hx)).2).trans (g1.2 ⟨_, hm, e.trans hc, rfl⟩),
      (hmax _ _ e4 _ (List.mem_map_of_mem hx)).trans (g2.2 ⟨_, hm, e.trans hc, rfl⟩),
      (hmax _ _ e5 _ (List.mem_map_of_mem hx)).trans (g3.2 ⟨_, hm, e.trans hc, rfl⟩)⟩
  · obtain ⟨v, hv, hc, e⟩ := g2.1
    obtain ⟨r, hr, rfl⟩ := List.mem_map.1 hv
    obtain ⟨-, ⟨j', hj', ec⟩, -, e4, -⟩ := hu r hr
    rcases e4 with ⟨-, e0⟩ | ⟨hm, -⟩
    · left; rw [← e, e0]
    · obtain ⟨x, hx, e'⟩ := List.mem_map.1 hm
      exact Or.inr ⟨r, hr, ⟨j', hj', ec ▸ hc⟩, x, hx, e'.trans e⟩
  · obtain ⟨v, hv, hc, e⟩ := g3.1
    obtain ⟨r, hr, rfl⟩ := List.mem_map.1 hv
    obtain ⟨-, ⟨j', hj', ec⟩, -, -, e4, -⟩ := hu r hr
    rcases e4 with ⟨-, e0⟩ | ⟨hm, -⟩
    · left; rw [← e, e0]
    · obtain ⟨x, hx, e'⟩ := List.mem_map.1 hm
      exact Or.inr ⟨r, hr, ⟨j', hj', ec ▸ hc⟩, x, hx, e'.trans e⟩
  · obtain ⟨-, -, -, -, -, -, b7, -⟩ := joint_after_last big _ _ _ _ hlj
    refine (lookup_others _ _).2.2.2.2.2.1.trans ?_
    rw [b7, (hu last hlast).2.2.1]
  · obtain ⟨-, -, -, -, -, b6, -, -⟩ := joint_after_last big _ _ _ _ hlj
    refine ⟨_, (lookup_others _ _).2.2.2.2.2.2, ?_⟩
    rw [b6]
    exact (hu last hlast).2.2.2.2.2.1

end exact

/-! ## A concrete execution meeting the hypotheses -/

section demo
attribute [local instance] exactCmp demoTrig demoLit

instance demoNormal : FNormal ℚ := ⟨fun x => decide (x ≠ 0)⟩

/-- A controller that calibrates the joints. -/
def calController (s : RState ℚ) : RState ℚ := { s with joints := s.joints.map (fun j => { j with calibrated := true }) }
def calIn : PlantIn ℚ := { demoIn with plug := calController }
def calBoth : Nat → List (PAct ℚ)
  | 0 => []
  | n + 1 => .nrt :: .rt calIn :: calBoth n
/-- It is loaded, started and runs for some cycles; another one has just sent its commands. -/
def calActs : List (PAct ℚ) :=
  [.rt calIn, .rt calIn] ++ (.call (.load demoReq) :: calBoth 20 ++ .call (.switch ["spring"] [] 2) :: calBoth 27)
/-- And a message is due. -/
def calLast : PlantIn ℚ := { calIn with statNow := 11, turn := true }

theorem calReports : calIn.Reports := by
  refine ⟨⟨fun as => List.forall₂_same.2 fun _ _ => rfl, fun s => ⟨List.forall₂_same.2 (fun c _ => ⟨c.trans.body, rfl, fun _ _ => Iff.rfl⟩), rfl, ?_,
    List.forall₂_same.2 (fun _ _ => rfl)⟩⟩, fun s => ?_⟩
  · change List.Forall₂ _ s.joints (s.joints.map _)
    rw [List.forall₂_map_right_iff]
    exact List.forall₂_same.2 fun _ _ => rfl
  · change List.Forall₂ _ s.joints (s.joints.map _)
    rw [List.forall₂_map_right_iff]
    exact List.forall₂_same.2 fun _ _ => rfl

theorem calTrace (ok : PlantIn ℚ → Prop) (hok : ok calIn) : Plant.Reach 1000 false demoRt ok (Plant.runs 1000 (Plant.init false demoRt) calActs) := by
  have h : Plant.Reach 1000 false demoRt ok (Plant.runs 1000 (Plant.init false demoRt) [.rt calIn, .rt calIn]) :=
    (Plant.Reach.init.rt calIn hok).rt calIn hok
  have e : Plant.runs 1000 (Plant.init false demoRt) calActs =
      Plant.runs 1000 (Plant.runs 1000 (Plant.init false demoRt) [.rt calIn, .rt calIn])
        (.call (.load demoReq) :: calBoth 20 ++ .call (.switch ["spring"] [] 2) :: calBoth 27) := by
    unfold Plant.runs calActs
    rw [List.foldl_append]
  rw [e]
  have h2 : ∀ pre ∈ (.call (.load demoReq) :: calBoth 20 ++ .call (.switch ["spring"] [] 2) :: calBoth 27).inits,
      (Plant.runs 1000 (Plant.runs 1000 (Plant.init false demoRt) [.rt calIn, .rt calIn]) pre).mgr.used.isSome = true := by decide +kernel
  refine h.runs (h2 [] (by simp)) ?_ (fun pre hpre => h2 pre ((List.mem_inits _ _).2 hpre))
  have : ∀ n i, PAct.rt i ∈ calBoth n → i = calIn := by
    intro n i hi
    induction n with
    | zero => cases hi
    | succ n ih =>
      simp only [calBoth, List.mem_cons, reduceCtorEq, false_or, PAct.rt.injEq] at hi
      exact hi.elim id ih
  intro i hi
  simp only [List.cons_append, List.mem_cons, reduceCtorEq, false_or, List.mem_append] at hi
  rcases hi with hi | hi <;> (rw [this _ i hi]; exact hok)

/-- C102: the message, delivered twice, is what `C102_extremes` is about, and once, what `C102_level` is about. -/
example : ∃ (l : List (Plant ℚ × PAct ℚ)) (p : Plant ℚ) (r : Receipt ℚ) (j0 : JState ℚ), demoRt.Good ∧ Plant.Trace 1000 false demoRt PlantIn.Reports l p ∧
    demoRt.robot.joints[0]? = some j0 ∧ j0.stats = JStats.fresh 0 ∧ (demoRt.robot.joints.map (·.joint.name)).Nodup ∧
    (∀ x ∈ [r] ++ [r], x.From 1000 l) ∧ ∃ j, r.Joint 0 j ∧ j.calibrated = true := by
  obtain ⟨l, hl⟩ := (calTrace PlantIn.Reports calReports).trace
  have hlast : calLast.Reports := ⟨⟨calReports.tame.1, calReports.tame.2⟩, calReports.plug⟩
  have hpub : (Plant.runs 1000 (Plant.init false demoRt) calActs).mgr.rt = .publish := by decide +kernel
  have hdue : (Plant.runs 1000 (Plant.init false demoRt) calActs).StatsDue calLast := ⟨by decide +kernel, rfl, by decide +kernel⟩
  have hcal : ((Plant.runs 1000 (Plant.init false demoRt) calActs).data.robot.joints[0]?.map (·.calibrated)) = some true := by decide +kernel
  generalize Plant.runs 1000 (Plant.init false demoRt) calActs = q at *
  have htr := hl.step (.rt calLast) hlast
  let r : Receipt ℚ := ⟨l, q, calLast, ⟨(q.step 1000 (.rt calLast)).data.statPub.msg.1.map (fun r => (r, 5)), []⟩⟩
  have hfrom : r.From 1000 (l ++ [(q, .rt calLast)]) := ⟨⟨[], rfl⟩, hpub, hdue, by
    change List.map _ (List.map _ _) = _
    rw [List.map_map]; exact List.map_id _⟩
  obtain ⟨j, hj, hjc⟩ := Option.map_eq_some_iff.1 hcal
  refine ⟨_, _, r, _, demoGood, htr, rfl, rfl, by decide +kernel, ?_, j, hj, hjc⟩
  intro x hx
  simp only [List.cons_append, List.nil_append, List.mem_cons, List.not_mem_nil, or_false, or_self] at hx
  rw [hx]; exact hfrom

/-- And of controllers: the spring controller of `Verif.Props.PlantStats` has overrun five times when the message is filled. -/
example : ∃ p : Plant ℚ, Plant.Reach 1000 false demoRt PlantIn.Tame p ∧ (∀ id, demoRt.stats id = CStat.fresh) ∧
    ∃ u e, (p.mgr.lists u)[0]? = some e ∧ e.name = "spring" ∧ ∃ low msg, CtrlFrom low p u msg ∧ ∃ row, msg.ctrls[0]? = some (row, 7) ∧ row.name = "spring" := by
  have tame : ({ demoIn with statNow := 11, turn := true } : PlantIn ℚ).Tame := ⟨fun as => List.forall₂_same.2 fun _ _ => rfl, (springController_tame 4).1⟩
  have h := fills_next demoGood demoReach2 (by decide +kernel) tame rfl (by decide +kernel) (by decide +kernel)
  have hr := demoReach2.rt _ tame
  have : ((demoStart.runs 1000 demoPublish).mgr.used.bind (fun u => (((demoStart.runs 1000 demoPublish).mgr.lists u)[0]?).map (·.name))) = some "spring" := by decide +kernel
  generalize demoStart.runs 1000 demoPublish = q at *
  generalize q.step 1000 (.rt { demoIn with statNow := 11, turn := true }) = p at *
  rcases hu : q.mgr.used with _ | u
  · rw [hu] at this; cases this
  · rw [hu] at this
    simp only [Option.bind_some, Option.map_eq_some_iff] at this
    obtain ⟨e, h1, h2⟩ := this
    have h1' : (p.mgr.lists u)[0]? = some e := by rw [h.2.1]; exact h1
    refine ⟨p, hr, fun _ => rfl, u, e, h1', h2, 0,
      ⟨[], (ctrlRows 0 0 p.data.stats (p.listed u)).map (fun row => (⟨row.name, 0, row.running, 0, 0, 0, row.overruns, row.lastOverrun⟩, 7))⟩,
      ⟨⟨0, [], h.1⟩, h.2.2.trans hu, 0, ?_⟩, ?_⟩
    · rw [List.forall₂_map_left_iff]
      exact List.forall₂_same.2 fun _ _ => ⟨rfl, rfl, rfl, rfl⟩
    · unfold ctrlRows Plant.listed
      rw [List.getElem?_map, List.map_map, List.getElem?_map, h1']
      exact ⟨_, rfl, h2⟩

end demo

end Pr2
