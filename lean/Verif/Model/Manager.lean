import Verif.Model.Scheduler
import Verif.Model.Controller
import Mathlib.Data.String.Basic

/-!
# Model of the service functions of `pr2_controller_manager/src/controller_manager.cpp`

The parts of `loadController`, `unloadController` and `switchController` that compute on data owned by the
service thread, as pure functions.  `Verif.Model.Concurrent` embeds them in the interleaving model.
-/

namespace Pr2

/-- `ControllerSpec` (controller_spec.h:63-71): a name and a (shared) pointer to the controller object, here a key
into a heap of objects.  Timing statistics are modelled separately (`Verif.Model.Cycle`). -/
structure Entry where
  name : String
  id : Nat
deriving Repr, DecidableEq

/-- The objects controllers point to. (controller_spec.h:65) -/
abbrev Heap := Nat → Ctrl

/-- Names of a list of loaded controllers. (controller_spec.h:64, controller_manager.cpp:202-210) -/
def names (l : List Entry) : List String := l.map (·.name)

/-- What `scheduleControllers` reads of a list (scheduler.cpp:75-84). -/
def specs (h : Heap) (l : List Entry) : List (SchedSpec String) :=
  l.map (fun e => ⟨e.name, (h e.id).before, (h e.id).after⟩)

/-- `getControllerByName` on a given list (controller_manager.cpp:191-200): first match. -/
def findByName (l : List Entry) (n : String) : Option Nat := (l.find? (fun e => e.name == n)).map (·.id)

/-- The plugin loader (`pluginlib::ClassLoader`), an external library: which class names are available, the declared
classes in order, the short name of a class, and whether `createInstance` yields an object (`false`: it throws
a `std::runtime_error`, caught at controller_manager.cpp:291-294). -/
structure Loader where
  available : String → Bool
  declared : List String
  shortName : String → String
  create : String → Bool

/-- Type resolution with fallback for non-namespaced types (controller_manager.cpp:273-287). -/
def Loader.resolve (L : Loader) (type : String) : String :=
  if L.available type then type
  else match L.declared.find? (fun c => type == L.shortName c) with
    | some c => c
    | none => type

/-- Everything outside the manager that a `loadController(name)` call depends on: whether a node handle can be made
(lines 254-265), the `type` parameter (268), the plugin loader and the plugin's `init`. -/
structure LoadReq where
  name : String
  nodeOk : Bool
  type : Option String
  loader : Loader
  init : InitProg

/-- Line 267-308: is an object constructed? (controller_manager.cpp:253-308) -/
def LoadReq.constructed (r : LoadReq) : Bool :=
  match r.type with
  | none => false
  | some t => r.loader.create (r.loader.resolve t)

/-- Result of the list building part of load/unload: returned flag, final content of the `to` list, final content of
its schedule vector, state of the newly created object (`none` if none survives the call), plugin calls of the new
object, and whether the scheduler accessed a vector out of bounds. (controller_manager.cpp:236-341, 385-436) -/
structure BuildOut where
  ok : Bool
  dst : List Entry
  sched : List Nat
  ctrl : Option Ctrl
  calls : List CEvent
  ub : Bool

/-- `loadController` lines 236-338: copy, duplicate check, construct, init, append, schedule.  `frm` is the list in
use, `oldTo`/`oldSched` the spare list's old content, `id` the address the new object gets.  (`to.clear()` in line 236 makes `oldTo`
irrelevant.)  Exceptions from `init` are caught (311-323). -/
def loadBody (h : Heap) (id : Nat) (frm : List Entry) (oldSched : List Nat) (r : LoadReq) : BuildOut :=
  -- 239-240 copy; 243-251 duplicate check
  if frm.any (fun e => e.name == r.name) then ⟨false, [], oldSched, none, [], false⟩
  -- 253-265 node handle; the copied list is *not* cleared on this path
  else if !r.nodeOk then ⟨false, frm, oldSched, none, [], false⟩
  -- 266-308 construct
  else if !r.constructed then ⟨false, [], oldSched, none, [], false⟩
  else
    -- 310-329 init
    match Ctrl.fresh.initRequest (names frm) r.init with
    | (c, ev, some true) =>
      -- 333-335 append; 338-342 schedule
      let dst := frm ++ [⟨r.name, id⟩]
      let h' : Heap := fun i => if i = id then c else h i
      match scheduleControllers (specs h' dst) oldSched with
      | .ret true s => ⟨true, dst, s, some c, ev, false⟩
      | .ret false s => ⟨false, [], s, none, ev, false⟩
      | .ub => ⟨false, [], oldSched, none, ev, true⟩
    | (_, ev, _) => ⟨false, [], oldSched, none, ev, false⟩

/-- `unloadController` lines 381-436: dependency check, copy without the named controller (refusing if it runs),
schedule.  `running` are the values `isRunning()` returns at that time. -/
def unloadBody (h : Heap) (running : Nat → Bool) (frm : List Entry) (oldSched : List Nat) (name : String) : BuildOut :=
  -- 387-403
  if frm.any (fun e => (h e.id).before.contains name || (h e.id).after.contains name) then
    ⟨false, [], oldSched, none, [], false⟩
  -- 405-420
  else if frm.any (fun e => e.name == name && running e.id) then ⟨false, [], oldSched, none, [], false⟩
  -- 422-429
  else if !frm.any (fun e => e.name == name) then ⟨false, [], oldSched, none, [], false⟩
  else
    let dst := frm.filter (fun e => e.name != name)
    -- 431-437
    match scheduleControllers (specs h dst) oldSched with
    | .ret true s => ⟨true, dst, s, none, [], false⟩
    | .ret false s => ⟨false, [], s, none, [], false⟩
    | .ub => ⟨false, [], oldSched, none, [], true⟩

/-- `SwitchController::Request::BEST_EFFORT` and `STRICT` (pr2_mechanism_msgs, external package). (used at controller_manager.cpp:475, 704) -/
def BEST_EFFORT : Int := 1
/-- see `BEST_EFFORT` (used at controller_manager.cpp:493, 517) -/
def STRICT : Int := 2

/-- One of the two name resolution loops of `switchController` (controller_manager.cpp:488-509 and 512-534): append
the controllers found to the request list; `none` when a name is unknown and strictness is STRICT. -/
def resolveNames (l : List Entry) (strict : Bool) : List String → List Nat → Option (List Nat)
  | [], acc => some acc
  | n :: ns, acc =>
    match findByName l n with
    | some i => resolveNames l strict ns (acc ++ [i])
    | none => if strict then none else resolveNames l strict ns acc

/-- `switchController` lines 466-533: returned flag so far and the resulting contents of `stop_request_` and
`start_request_`.  Normally both are empty at the start of the call (line 470); a violation is only logged, so old
contents `stop0`, `start0` are kept.  Clearing on failure: lines 495 and 518-519. -/
def resolveSwitch (l : List Entry) (stop0 start0 : List Nat) (start stop : List String) (strictness : Int) :
    Bool × List Nat × List Nat :=
  let strictness := if strictness = 0 then BEST_EFFORT else strictness
  let strict := decide (strictness = STRICT)
  match resolveNames l strict stop stop0 with
  | none => (false, [], start0)
  | some a => match resolveNames l strict start start0 with
    | none => (false, [], [])
    | some b => (true, a, b)

end Pr2
