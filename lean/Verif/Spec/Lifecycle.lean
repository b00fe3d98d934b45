import Verif.Spec.Manager

/-! # Specification: the calls a controller gets in the life of the manager -/

namespace Pr2

/-- Is `e` a call of `starting()`, `stopping()` or `update()` of object `id`? -/
def Ev.calls (id : Nat) : Ev → Bool
  | .starting i | .stopping i | .update i => i == id
  | _ => false

/-- In the history of calls, `starting()` of object `id` has been called and `stopping()` not since. -/
def StartedLast (log : List Ev) (id : Nat) : Prop := ∃ a b, log = a ++ .starting id :: b ∧ .stopping id ∉ b

/-- The loaded controllers with the given names, in the order of the names (unknown names are skipped). -/
def View.idsOf (v : View) (ns : List String) : List Nat :=
  ns.filterMap (fun n => (v.ctrls.find? (fun c => c.name == n)).map (·.id))

/-- The switches the realtime loop has executed (or begun), in order: what was stopped, what was started. -/
def executedSwitches (log : List Ev) : List (List Nat × List Nat) :=
  log.filterMap (fun e => match e with | .switchBegin a b => some (a, b) | _ => none)

/-- The switch requests that returned true, in order: the known controllers to stop and to start. -/
def acceptedSwitches (l : List CallRec) : List (List Nat × List Nat) :=
  l.filterMap (fun r => match r.op, r.res with
    | .switch start stop _, .flag true => some (r.pre.idsOf stop, r.pre.idsOf start)
    | _, _ => none)

end Pr2
