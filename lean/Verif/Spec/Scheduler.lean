import Verif.Model.Scheduler

/-! # Specification: what an execution order of controllers must satisfy.  Independent of the algorithm. -/

namespace Pr2
variable {N : Type}

/-- `a` occurs strictly before `b` in `order`. -/
def Precedes (order : List N) (a b : N) : Prop := ∃ l₁ l₂ l₃, order = l₁ ++ a :: l₂ ++ b :: l₃

/-- `order` lists every controller exactly once, and honours every BEFORE_ME and AFTER_ME request. -/
structure Admissible (cs : List (SchedSpec N)) (order : List N) : Prop where
  perm : order.Perm (cs.map (·.name))
  before : ∀ c ∈ cs, ∀ b ∈ c.before, Precedes order b c.name
  after : ∀ c ∈ cs, ∀ a ∈ c.after, Precedes order c.name a

/-- Every AFTER_ME name was in the list already when its requester was added. -/
def AfterPresent (cs : List (SchedSpec N)) : Prop :=
  ∀ pre c post, cs = pre ++ c :: post → ∀ a ∈ c.after, a ∈ (pre ++ [c]).map (·.name)

/-- No two controllers share a name. -/
def DistinctNames (cs : List (SchedSpec N)) : Prop := (cs.map (·.name)).Nodup

/-- `schedule` (indices) executes the controllers in the order of names `order`. -/
def Executes (cs : List (SchedSpec N)) (schedule : List Nat) (order : List N) : Prop :=
  schedule.map (fun i => cs[i]?.map (·.name)) = order.map some

end Pr2
