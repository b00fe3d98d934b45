import Mathlib.Order.Defs.LinearOrder

/-!
# Model of `pr2_controller_manager/src/scheduler.cpp`

Controller names are elements of an arbitrary linearly ordered type `N`; for the C++ this is `std::string`
with its byte-wise `operator<`, and `Verif.Model.Manager` instantiates `N := String`.
-/

namespace Pr2

/-- What the scheduler reads of a loaded controller.
pr2_controller_manager/include/pr2_controller_manager/controller_spec.h:63-71 (`name`) and
pr2_controller_interface/include/pr2_controller_interface/controller.h:164 (`before_list_`, `after_list_`).
The C++ spec also holds the controller pointer itself and timing statistics, which the scheduler ignores. -/
structure SchedSpec (N : Type) where
  name : N
  before : List N
  after : List N
deriving Repr, DecidableEq

/-- `typedef map<string, list<string> > schedGraph` (scheduler.cpp:35).  A `std::map` is modelled as an
association list kept sorted by key, which is also its iteration order. -/
abbrev Graph (N : Type) := List (N × List N)

section
variable {N : Type} [LinearOrder N]

/-- `graph[k]` on a `std::map`: inserts an empty list when `k` is absent (scheduler.cpp:76). -/
def Graph.touch : Graph N → N → Graph N
  | [], k => [(k, [])]
  | (k', ds) :: g, k =>
    if k < k' then (k, []) :: (k', ds) :: g
    else if k = k' then (k', ds) :: g
    else (k', ds) :: Graph.touch g k

/-- `it->second.push_back(v)` for the entry with key `k` (scheduler.cpp:78, 82). -/
def Graph.push : Graph N → N → N → Graph N
  | [], _, _ => []
  | (k', ds) :: g, k, v =>
    if k = k' then (k', ds ++ [v]) :: g else (k', ds) :: Graph.push g k v

/-- `graph.find(k) != graph.end()` (scheduler.cpp:80-81). -/
def Graph.has (g : Graph N) (k : N) : Bool := g.any (fun e => e.1 == k)

/-- The search and erase part of `getNextController` (scheduler.cpp:42-48): the first entry, in key order,
with an empty list, and the map without that entry. -/
def Graph.popFree : Graph N → Option (N × Graph N)
  | [] => none
  | (k, ds) :: g =>
    if ds.isEmpty then some (k, g)
    else match Graph.popFree g with
      | none => none
      | some (c, g') => some (c, (k, ds) :: g')

/-- `getNextController` (scheduler.cpp:40-63).  Lines 49-58 erase the chosen name from every list. -/
def getNextController (g : Graph N) : Option (N × Graph N) :=
  match g.popFree with
  | none => none
  | some (c, g') => some (c, g'.map (fun e => (e.1, e.2.filter (fun d => d != c))))

/-- One controller of the graph building loop (scheduler.cpp:75-84); `none` is the `return false` of line 81. -/
def addToGraph (g : Graph N) (c : SchedSpec N) : Option (Graph N) :=
  let g := g.touch c.name
  let g := c.before.foldl (fun g b => g.push c.name b) g
  c.after.foldlM (fun g a => if g.has a then some (g.push a c.name) else none) g

/-- The graph building loop (scheduler.cpp:74-84). -/
def buildGraph (cs : List (SchedSpec N)) : Option (Graph N) := cs.foldlM addToGraph []

/-- Outcome of `scheduleControllers`: the value returned and the final contents of the output vector, or
undefined behaviour because an element outside a vector was accessed. (scheduler.cpp:67-106) -/
inductive SchedResult where
  | ub
  | ret (ok : Bool) (schedule : List Nat)
deriving Repr, DecidableEq

/-- `std::vector<size_t>::resize(n)`: keeps old contents, pads with zero (scheduler.cpp:72). -/
def resizeVec {α : Type} (d : α) (v : List α) (n : Nat) : List α := v.take n ++ List.replicate (n - v.length) d

/-- Lines 93-95: `for i: if (c[i].name == name) schedule[nr] = i;`, starting at index `i`.
`none` when `nr` is outside the vector. (scheduler.cpp:93-95) -/
def writeIds (name : N) (nr : Nat) : Nat → List (SchedSpec N) → List Nat → Option (List Nat)
  | _, [], v => some v
  | i, c :: cs, v =>
    if c.name = name then
      if nr < v.length then writeIds name nr (i+1) cs (v.set nr i) else none
    else writeIds name nr (i+1) cs v

theorem popFree_length : ∀ {g : Graph N} {c g'}, g.popFree = some (c, g') → g'.length < g.length
  | [], _, _, h => by simp [Graph.popFree] at h
  | (k, ds) :: g, c, g', h => by
    simp only [Graph.popFree] at h
    split at h
    · simp only [Option.some.injEq, Prod.mk.injEq] at h; simp [← h.2]
    · split at h
      · simp at h
      · rename_i c' g'' hp
        simp only [Option.some.injEq, Prod.mk.injEq] at h
        have := popFree_length hp
        simp [← h.2]; omega

theorem getNextController_length {g : Graph N} {c g'} (h : getNextController g = some (c, g')) :
    g'.length < g.length := by
  unfold getNextController at h
  split at h
  · simp at h
  · rename_i c' g'' hp
    simp only [Option.some.injEq, Prod.mk.injEq] at h
    have := popFree_length hp
    simp [← h.2]; omega

/-- The scheduling loop (scheduler.cpp:87-97).  It is defined by well-founded recursion on the size of the
graph: that Lean accepts it is the proof that the C++ loop terminates. -/
def schedLoop (cs : List (SchedSpec N)) (g : Graph N) (nr : Nat) (v : List Nat) : SchedResult :=
  if g.isEmpty then .ret true v
  else match h : getNextController g with
    | none => .ret false v
    | some (name, g') =>
      match writeIds name nr 0 cs v with
      | none => .ub
      | some v' => schedLoop cs g' (nr+1) v'
termination_by g.length
decreasing_by exact getNextController_length h

/-- `scheduleControllers` (scheduler.cpp:67-106); `v` is the previous content of the output vector.  The last
test models lines 100-102, which read `c[schedule[i]]` for every `i`. -/
def scheduleControllers (cs : List (SchedSpec N)) (v : List Nat) : SchedResult :=
  let v := resizeVec 0 v cs.length
  match buildGraph cs with
  | none => .ret false v
  | some g =>
    match schedLoop cs g 0 v with
    | .ret true s => if s.all (fun i => decide (i < cs.length)) then .ret true s else .ub
    | r => r

end

end Pr2
