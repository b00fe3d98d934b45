import Verif.Model.Concurrent
import Verif.Spec.Scheduler

/-!
# Specification of the manager's services

What each completed service call must have done, stated on snapshots of the observable state (`View`): the loaded
controllers with their dependencies and run states, and the execution order.
-/

namespace Pr2

/-- States reachable in normal operation: first the realtime loop alone begins its first cycle, from then on both threads,
arbitrary service calls, and arbitrary inputs interleave in any way; ROS is not shut down. -/
inductive Reachable (m : Bool) : State → Prop
  | start (first : List RtIn) (h : ((State.init m).run (first.map Act.rt)).used ≠ none) :
      Reachable m ((State.init m).run (first.map Act.rt))
  | step {s : State} (hs : Reachable m s) (a : Act) (ha : a ≠ .shutdown) : Reachable m (s.step a)

def View.names (v : View) : List String := v.ctrls.map (·.name)

/-- Dependencies in the form the scheduler's specification uses. -/
def View.specs (v : View) : List (SchedSpec String) := v.ctrls.map (fun c => ⟨c.name, c.before, c.after⟩)

/-- The execution order runs every loaded controller once, honours all requests, and is the canonical such order. -/
def View.ValidOrder (v : View) : Prop :=
  v.order.Perm (List.range v.ctrls.length) ∧
  ∃ o, Executes v.specs v.order o ∧ Admissible v.specs o ∧ ∀ o', Admissible v.specs o' → o ≤ o'

/-- No controllers. -/
def View.empty : View := ⟨[], []⟩

/-- A plugin's request for another controller is granted if that is loaded, has the requested type, and the scheduling direction is a valid one. -/
def GetReq.Granted (loaded : List String) (r : GetReq) : Bool :=
  decide (r.name ∈ loaded) && r.castOk && (r.sched == BEFORE_ME || r.sched == AFTER_ME)

/-- The plugin's `init` returns true, given the answers to its requests. -/
def InitProg.Succeeds (loaded : List String) (p : InitProg) : Prop := p.outcome (p.requests.map (·.Granted loaded)) = some true

/-- The controllers that must run before a controller initialised by `p`: those granted BEFORE_ME, then those the plugin noted itself. -/
def InitProg.befores (loaded : List String) (p : InitProg) : List String :=
  (p.requests.filter (fun r => r.Granted loaded && r.sched == BEFORE_ME)).map (·.name) ++ p.extraBefore

/-- The controllers that must run after a controller initialised by `p`. -/
def InitProg.afters (loaded : List String) (p : InitProg) : List String :=
  (p.requests.filter (fun r => r.Granted loaded && r.sched == AFTER_ME)).map (·.name) ++ p.extraAfter

/-- The class used for a configured type: the type itself if there is such a class, otherwise the first declared class with that short name, otherwise
the type itself. -/
def Loader.Picks (L : Loader) (type cls : String) : Prop :=
  (L.available type = true ∧ cls = type) ∨
  (L.available type = false ∧
    ((∃ a b, L.declared = a ++ cls :: b ∧ L.shortName cls = type ∧ ∀ c ∈ a, L.shortName c ≠ type) ∨
     ((∀ c ∈ L.declared, L.shortName c ≠ type) ∧ cls = type)))

/-- A type is configured and an object of its class can be made. -/
def LoadReq.TypeOk (q : LoadReq) : Prop := ∃ t cls, q.type = some t ∧ q.loader.Picks t cls ∧ q.loader.create cls = true

/-- The conditions under which a load must succeed. -/
def LoadOk (v : View) (q : LoadReq) : Prop :=
  let new := v.specs ++ [⟨q.name, q.init.befores v.names, q.init.afters v.names⟩]
  q.name ∉ v.names ∧ q.nodeOk = true ∧ q.TypeOk ∧ q.init.Succeeds v.names ∧
  AfterPresent new ∧ ∃ o, Admissible new o

/-- What `list_controllers` must return for state `v`: in execution order, name and running flag. -/
def View.listing (v : View) : List (String × Bool) :=
  v.order.filterMap (fun j => v.ctrls[j]?.map (fun c => (c.name, c.running)))

/-- The effect of a switch on one controller. -/
def switchOne (start stop : List String) (c : CtrlView) : CtrlView :=
  { c with running := if c.name ∈ start then true else if c.name ∈ stop then false else c.running }

/-- Correct outcome of one completed service call. -/
def CallOk (r : CallRec) : Prop :=
  match r.op with
  | .load q =>
    (r.res = .flag true ∧ LoadOk r.pre q ∧ r.post.ValidOrder ∧
      ∃ id, (∀ c ∈ r.pre.ctrls, c.id ≠ id) ∧
        r.post.ctrls = r.pre.ctrls ++ [⟨q.name, id, q.init.befores r.pre.names, q.init.afters r.pre.names, false⟩]) ∨
    (r.res = .flag false ∧ ¬ LoadOk r.pre q ∧ r.post = r.pre)
  | .unload n =>
    let unneeded := n ∈ r.pre.names ∧ ∀ c ∈ r.pre.ctrls, n ∉ c.before ∧ n ∉ c.after
    let stopped := ∀ c ∈ r.pre.ctrls, c.name = n → c.running = false
    (r.res = .flag true ∧ unneeded ∧ (r.raced = false → stopped) ∧ r.post.ValidOrder ∧
      r.post.ctrls = r.pre.ctrls.filter (fun c => c.name != n)) ∨
    (r.res = .flag false ∧ ¬ (unneeded ∧ stopped) ∧ r.post = r.pre)
  | .switch start stop k =>
    let unknown := ∃ n, (n ∈ start ∨ n ∈ stop) ∧ n ∉ r.pre.names
    (r.res = .flag false ∧ k = STRICT ∧ unknown ∧ r.post = r.pre) ∨
    (r.res = .flag true ∧ ¬ (k = STRICT ∧ unknown) ∧
      r.post = { r.pre with ctrls := r.pre.ctrls.map (switchOne start stop) })
  | .list =>
    ∃ l, r.res = .listing l ∧ r.post = r.pre ∧ (r.raced = false → l = r.pre.listing) ∧
      List.Forall₂ (fun a b => a.1 = b.1 ∧ (a.2 = true → b.2 = true)) l r.pre.listing

/-- A legal history of service calls leading from `v` to `v'`: every call is correct, and each call starts in the state the
previous one ended in. -/
inductive History : View → List CallRec → View → Prop
  | nil (v : View) : History v [] v
  | snoc {v v' : View} {l : List CallRec} (r : CallRec) (h : History v l v') (hpre : r.pre = v') (hok : CallOk r) :
      History v (l ++ [r]) r.post

/-- Every loaded controller's dependencies are loaded. -/
def View.Closed (v : View) : Prop := ∀ c ∈ v.ctrls, ∀ n, n ∈ c.before ∨ n ∈ c.after → n ∈ v.names

/-! ## Control cycles -/

/-- The controllers in execution order, each with its object and run flag. -/
def View.exec (v : View) : List (Nat × Bool) :=
  v.order.filterMap (fun j => v.ctrls[j]?.map (fun c => (c.id, c.running)))

/-- Every running controller is stopped and started again, in execution order. -/
def restartEvents (order : List (Nat × Bool)) : List Ev :=
  order.flatMap (fun p => if p.2 then [.stopping p.1, .starting p.1] else [])

/-- Every running controller is updated once, in execution order; the others are not. -/
def updateEvents (order : List (Nat × Bool)) : List Ev :=
  order.flatMap (fun p => if p.2 then [.update p.1] else [])

/-- The sweep of a cycle: restarts exactly if the motors were halted in the previous cycle and are not now, then updates. -/
def sweepEvents (order : List (Nat × Bool)) (before now : Bool) : List Ev :=
  .cycleBegin order now :: ((if before && !now then restartEvents order else []) ++ updateEvents order)

/-- Nothing published, or one message whose entries carry names and flags of the controllers, in their order. -/
def PubEvents (l : List Ev) : Prop := l = [] ∨ ∃ es, l = [.published es (es.map (fun p => (p.1.name, p.2)))]

/-- No switch, or one complete switch: all stops, then all starts. -/
def SwitchEvents (l : List Ev) : Prop :=
  l = [] ∨ ∃ A B, l = .switchBegin A B :: (A.map Ev.stopping ++ B.map Ev.starting ++ [.switchEnd])

/-- The calls made in one complete control cycle; `before` and `now`: motors halted in the previous and in this cycle. -/
def IsCycle (before now : Bool) (l : List Ev) : Prop :=
  ∃ order pub sw, PubEvents pub ∧ SwitchEvents sw ∧ l = sweepEvents order before now ++ pub ++ sw ++ [.cycleEnd]

/-- A sequence of complete control cycles, beginning with motors halted or not as `m` says; `p`: halted in the last. -/
inductive Cycles (m : Bool) : List Ev → Bool → Prop
  | nil : Cycles m [] m
  | snoc {l c : List Ev} {p now : Bool} (h : Cycles m l p) (hc : IsCycle p now c) : Cycles m (l ++ c) now

/-- For each cycle so far: were the motors halted? -/
def haltedFlags (log : List Ev) : List Bool :=
  log.filterMap (fun e => match e with | .cycleBegin _ h => some h | _ => none)

/-- In no cycle so far were the motors re-enabled: none follows a cycle with halted motors without being halted itself. -/
def NeverReenabled (m : Bool) (log : List Ev) : Prop :=
  List.IsChain (fun before now => before = true → now = true) (m :: haltedFlags log)

end Pr2
