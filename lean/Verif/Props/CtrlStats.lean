import Verif.Model.CtrlStats
import Verif.Props.Cycle
import Mathlib.Tactic.FieldSimp
import Mathlib.Tactic.Ring
import Mathlib.Tactic.Linarith

/-! # C81: the controllers' time statistics -/

namespace Pr2

/-! ## Specification -/

/-- Maximum, mean and standard deviation of the times `ds`. -/
structure TimesOf (ds : List ℝ) (max mean sd : ℝ) : Prop where
  attained : max ∈ ds
  max_le : ∀ d ∈ ds, d ≤ max
  mean_eq : mean * ds.length = ds.sum
  nonneg : 0 ≤ sd
  sd_eq : sd ^ 2 * ds.length = (ds.map (fun d => (d - mean) ^ 2)).sum

/-- The durations, in seconds, of the updates of controller `id` in a history. -/
noncomputable def durations (id : Nat) (h : List UpdateRec) : List ℝ := (h.filter (fun u => u.id == id)).map (fun u => ((u.fin - u.start : Int) : ℝ) / 1000000000)

/-! ## The accumulator -/

theorem sum_sq_shift (ds : List ℝ) (m c : ℝ) :
    (ds.map (fun d => (d - c) ^ 2)).sum = (ds.map (fun d => (d - m) ^ 2)).sum + 2 * (m - c) * (ds.sum - ds.length * m) + ds.length * (m - c) ^ 2 := by
  induction ds with
  | nil => simp
  | cons d ds ih =>
    simp only [List.map_cons, List.sum_cons, List.length_cons, Nat.cast_add, Nat.cast_one]
    rw [ih]; ring

/-- What the accumulator holds after the samples `ds`. -/
structure AccOf (low : ℝ) (ds : List ℝ) (a : Acc) : Prop where
  count : a.count = ds.length
  max : (ds = [] ∧ a.max = low) ∨ (a.max ∈ ds ∧ ∀ d ∈ ds, d ≤ a.max)
  sum : a.sum = ds.sum
  mean : a.imean * ds.length = ds.sum
  var : a.var * ds.length = (ds.map (fun d => (d - a.imean) ^ 2)).sum
  zero : ds.length ≤ 1 → a.var = 0

theorem AccOf.add {low : ℝ} {ds : List ℝ} {a : Acc} (h : AccOf low ds a) (x : ℝ) (hl : low ≤ x) : AccOf low (ds ++ [x]) (a.add x) := by
  have hn : ((ds.length : ℝ) + 1) ≠ 0 := by positivity
  have hm : (a.add x).imean * ((ds.length : ℝ) + 1) = ds.sum + x := by
    change (a.imean * (((a.count + 1 : ℕ) : ℝ) - 1) + x) / ((a.count + 1 : ℕ) : ℝ) * _ = _
    rw [h.count, Nat.cast_add, Nat.cast_one, div_mul_cancel₀ _ hn, add_sub_cancel_right, h.mean]
  have hmax : (a.add x).max = if a.max < x then x else a.max := rfl
  refine ⟨?_, .inr ?_, ?_, ?_, ?_, ?_⟩
  · change a.count + 1 = _; rw [h.count]; simp
  · rw [hmax]
    rcases h.max with ⟨rfl, e⟩ | ⟨h1, h2⟩
    · rw [e]
      by_cases hx : low < x
      · simp [hx]
      · rw [if_neg hx]
        have : low = x := le_antisymm hl (not_lt.1 hx)
        simp [this]
    · by_cases hx : a.max < x
      · rw [if_pos hx]
        refine ⟨by simp, fun d hd => ?_⟩
        rcases List.mem_append.1 hd with hd | hd
        · exact (h2 d hd).trans hx.le
        · simp at hd; exact hd.le
      · rw [if_neg hx]
        refine ⟨by simp [h1], fun d hd => ?_⟩
        rcases List.mem_append.1 hd with hd | hd
        · exact h2 d hd
        · simp at hd; rw [hd]; exact not_lt.1 hx
  · change a.sum + x = _; rw [h.sum]; simp
  · simp only [List.length_append, List.length_singleton, Nat.cast_add, Nat.cast_one, List.sum_append, List.sum_singleton]
    exact hm
  · simp only [List.length_append, List.length_singleton, Nat.cast_add, Nat.cast_one, List.map_append, List.map_singleton, List.sum_append, List.sum_singleton]
    rw [sum_sq_shift ds a.imean (a.add x).imean, ← h.var, ← h.mean]
    rw [← h.mean] at hm
    have hv : (a.add x).var = if a.count + 1 > 1 then a.var * (((a.count + 1 : ℕ) : ℝ) - 1) / ((a.count + 1 : ℕ) : ℝ) +
        (x - (a.add x).imean) * (x - (a.add x).imean) / (((a.count + 1 : ℕ) : ℝ) - 1) else a.var := rfl
    rw [hv, h.count, Nat.cast_add, Nat.cast_one, add_sub_cancel_right]
    generalize (a.add x).imean = m at hm ⊢
    by_cases h0 : ds.length = 0
    · rw [h0] at hm ⊢
      simp only [Nat.cast_zero, mul_zero, zero_add, mul_one] at hm ⊢
      rw [if_neg (by simp), h.zero (by omega), hm]; ring
    · rw [if_pos (by omega)]
      have hk : (ds.length : ℝ) ≠ 0 := Nat.cast_ne_zero.2 h0
      generalize (ds.length : ℝ) = n at hm hn hk ⊢
      have hx : x = m * (n + 1) - a.imean * n := by linarith
      subst hx
      field_simp
      ring
  · intro hle
    have h0 : ds.length = 0 := by simp at hle; simp [hle]
    change (if a.count + 1 > 1 then _ else a.var) = 0
    rw [if_neg (by rw [h.count, h0]; simp), h.zero (by omega)]

theorem accOf_foldl {low : ℝ} (ds' : List ℝ) (hl : ∀ d ∈ ds', low ≤ d) : ∀ (ds : List ℝ) (a : Acc), AccOf low ds a → AccOf low (ds ++ ds') (ds'.foldl Acc.add a) := by
  induction ds' with
  | nil => intro ds a h; simpa using h
  | cons x ds' ih =>
    intro ds a h
    have := ih (fun d hd => hl d (List.mem_cons_of_mem _ hd)) (ds ++ [x]) (a.add x) (h.add x (hl x List.mem_cons_self))
    simpa using this

theorem accOf (low : ℝ) (ds : List ℝ) (hl : ∀ d ∈ ds, low ≤ d) : AccOf low ds (ds.foldl Acc.add (Acc.new low)) := by
  have := accOf_foldl ds hl [] (Acc.new low) ⟨rfl, .inl ⟨rfl, rfl⟩, by simp [Acc.new], by simp [Acc.new], by simp [Acc.new], fun _ => rfl⟩
  simpa using this

/-- the entry of a controller whose statistics reflect a history with at least one update -/
theorem ctrlRow_times (low : ℝ) (now : Int) (st : Nat → CStat) (c : Listed) (H : List UpdateRec) (hst : StatOf c.id H (st c.id))
    (hm : ∃ u ∈ H, u.id = c.id) (hl : ∀ t ∈ durations c.id H, low ≤ t) :
    ∃ mean, (ctrlRow low now st c).meanTime = some mean ∧ TimesOf (durations c.id H) (ctrlRow low now st c).maxTime mean (ctrlRow low now st c).varTime := by
  have hd : (st c.id).samples.map toSec = durations c.id H := by
    rw [hst.samples]; unfold durations toSec; simp
  have ha := accOf low _ hl
  rw [← hd] at ha
  have hne : durations c.id H ≠ [] := by
    obtain ⟨u, hu, e⟩ := hm
    have : u ∈ H.filter (fun u => u.id == c.id) := by
      rw [List.mem_filter]
      exact ⟨hu, by simp [e]⟩
    unfold durations
    intro e
    rw [List.map_eq_nil_iff] at e
    rw [e] at this; cases this
  rw [hd] at ha
  have hacc : (st c.id).acc low = (durations c.id H).foldl Acc.add (Acc.new low) := by unfold CStat.acc; rw [hd]
  rw [← hacc] at ha
  have hn : ((durations c.id H).length : ℝ) ≠ 0 := Nat.cast_ne_zero.2 (fun e => hne (List.length_eq_zero_iff.1 e))
  have hpos : (0 : ℝ) < (durations c.id H).length := lt_of_le_of_ne (Nat.cast_nonneg _) (Ne.symm hn)
  have him : ((st c.id).acc low).imean = (durations c.id H).sum / (durations c.id H).length := by
    rw [← ha.mean, mul_div_cancel_right₀ _ hn]
  have hv0 : 0 ≤ ((st c.id).acc low).var := by
    have h1 : 0 ≤ ((st c.id).acc low).var * (durations c.id H).length := by
      rw [ha.var]
      apply List.sum_nonneg
      intro x hx
      obtain ⟨y, _, rfl⟩ := List.mem_map.1 hx
      exact sq_nonneg _
    exact nonneg_of_mul_nonneg_left h1 hpos
  refine ⟨(durations c.id H).sum / (durations c.id H).length, ?_, ?_, ?_, ?_, ?_, ?_⟩
  · change (if ((st c.id).acc low).count = 0 then none else some (((st c.id).acc low).sum / ((st c.id).acc low).count)) = _
    rw [ha.count, ha.sum, if_neg (fun e => hne (List.length_eq_zero_iff.1 e))]
  · rcases ha.max with ⟨e, _⟩ | h
    · exact (hne e).elim
    · exact h.1
  · rcases ha.max with ⟨e, _⟩ | h
    · exact (hne e).elim
    · exact h.2
  · exact div_mul_cancel₀ _ hn
  · exact Real.sqrt_nonneg _
  · change Real.sqrt ((st c.id).acc low).var ^ 2 * _ = _
    rw [Real.sq_sqrt hv0, ha.var, him]

section
variable {F : Type} [FCmp F] [Zero F] [Add F] [Sub F] [Mul F] [iDiv : Div F] [Neg F] [FLit F] [iTrig : FTrig F]

/-- **C81.**  After any number of cycles, the entry of a controller that has been updated at least once reports its name and run flag, the maximum, the
mean and the standard deviation of the durations of all its updates, and its overruns; `h` is the history of its updates before these cycles. -/
theorem C81_controller_times (low : ℝ) (bigF : F) (d : RtData F) (is : List (CycleIn F)) (sent : List (RState F)) (d' : RtData F)
    (hr : d.run bigF is = some (sent, d')) (now : Int) (listed : List Listed) (k : Nat) (c : Listed) (hk : listed[k]? = some c)
    (h : List UpdateRec) (hs : StatOf c.id h (d.stats c.id))
    (hm : ∃ i ∈ is, c.id ∈ i.controllers.map (·.id))
    (hl : ∀ t ∈ durations c.id (h ++ is.flatMap (fun i => i.controllers.map (·.rec'))), low ≤ t) :
    ∃ r mean, (ctrlRows low now d'.stats listed)[k]? = some r ∧ r.meanTime = some mean ∧ r.name = c.name ∧ r.running = c.running ∧ r.timestamp = now ∧
      TimesOf (durations c.id (h ++ is.flatMap (fun i => i.controllers.map (·.rec')))) r.maxTime mean r.varTime ∧
      r.overruns = (d'.stats c.id).overruns ∧ r.lastOverrun = (d'.stats c.id).lastOverrun := by
  have hst := C26_overruns bigF d is sent d' hr c.id h hs
  obtain ⟨mean, h1, h2⟩ := ctrlRow_times low now d'.stats c _ hst (by
    obtain ⟨i, hi, hc⟩ := hm
    obtain ⟨u, hu, e⟩ := List.mem_map.1 hc
    exact ⟨u.rec', List.mem_append_right _ (List.mem_flatMap.2 ⟨i, hi, List.mem_map.2 ⟨u, hu, rfl⟩⟩), e⟩) hl
  refine ⟨ctrlRow low now d'.stats c, mean, ?_, h1, rfl, rfl, rfl, h2, rfl, rfl⟩
  unfold ctrlRows; rw [List.getElem?_map, hk]; rfl

end

/-- Two updates of 1 ms and 3 ms: maximum 3 ms, mean 2 ms, standard deviation 1 ms. -/
example : TimesOf (durations 4 [⟨4, 0, 1000000⟩, ⟨5, 0, 7000000⟩, ⟨4, 10000000, 13000000⟩]) (3 / 1000) (2 / 1000) (1 / 1000) := by
  have : durations 4 [⟨4, 0, 1000000⟩, ⟨5, 0, 7000000⟩, ⟨4, 10000000, 13000000⟩] = [1 / 1000, 3 / 1000] := by
    unfold durations; norm_num
  rw [this]
  constructor <;> norm_num

/-- … which the accumulator computes. -/
example : (ctrlRow (-1000) 20 (fun _ => (CStat.fresh.record 0 1000000).record 10000000 13000000) ⟨"c", 4, true⟩).maxTime = 3 / 1000 ∧
    (ctrlRow (-1000) 20 (fun _ => (CStat.fresh.record 0 1000000).record 10000000 13000000) ⟨"c", 4, true⟩).meanTime = some (2 / 1000) := by
  have : (((CStat.fresh.record 0 1000000).record 10000000 13000000)).samples = [1000000, 3000000] := rfl
  constructor
  · simp only [ctrlRow, CStat.acc, this, toSec, List.map, List.foldl, Acc.add, Acc.new]; norm_num
  · simp only [ctrlRow, CStat.acc, this, toSec, List.map, List.foldl, Acc.add, Acc.new]; norm_num

end Pr2
