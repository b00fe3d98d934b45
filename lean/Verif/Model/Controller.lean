/-!
# Model of `pr2_controller_interface/controller.h` and `controller_provider.h`

A controller is a user plugin; the base class decides when the plugin's `init`, `starting`, `update` and
`stopping` are called.  The model records these calls as a trace of events.
-/

namespace Pr2

/-- `enum {CONSTRUCTED, INITIALIZED, RUNNING} state_` (controller.h:166). -/
inductive CState where
  | constructed | initialized | running
deriving Repr, DecidableEq

/-- Calls of the plugin's virtual functions (controller.h:65-72 and 87): `init ok` is a call of `init` that returned
`ok` (`false` also stands for an exception leaving `init`). -/
inductive CEvent where
  | init (ok : Bool) | starting | stopping | update
deriving Repr, DecidableEq

/-- The base class part of a controller object (controller.h:164-166).  The plugin's own data is not modelled. -/
structure Ctrl where
  st : CState
  before : List String
  after : List String
deriving Repr, DecidableEq

/-- `Controller(): state_(CONSTRUCTED)` (controller.h:58). -/
def Ctrl.fresh : Ctrl := ⟨.constructed, [], []⟩

/-- `isRunning` (controller.h:110-113). -/
def Ctrl.isRunning (c : Ctrl) : Bool := c.st == .running

/-- `updateRequest` (controller.h:115-119): new object state and plugin calls made. -/
def Ctrl.updateRequest (c : Ctrl) : Ctrl × List CEvent :=
  if c.st = .running then (c, [.update]) else (c, [])

/-- `startRequest` (controller.h:121-131): new state, plugin calls, returned value. -/
def Ctrl.startRequest (c : Ctrl) : Ctrl × List CEvent × Bool :=
  if c.st = .running ∨ c.st = .initialized then ({ c with st := .running }, [.starting], true)
  else (c, [], false)

/-- `stopRequest` (controller.h:134-144). -/
def Ctrl.stopRequest (c : Ctrl) : Ctrl × List CEvent × Bool :=
  if c.st = .running ∨ c.st = .initialized then ({ c with st := .initialized }, [.stopping], true)
  else (c, [], false)

/-- One `getController<T>(name, sched, c)` call made by a plugin (controller.h:90).  `castOk` says whether the
`dynamic_cast` of controller_provider.h:66 succeeds on the controller found. -/
structure GetReq where
  name : String
  sched : Int
  castOk : Bool
deriving Repr, DecidableEq

/-- `enum {BEFORE_ME, AFTER_ME}` (controller.h:56). -/
def BEFORE_ME : Int := 0
/-- see `BEFORE_ME` (controller.h:56) -/
def AFTER_ME : Int := 1

/-- `ControllerProvider::getControllerByName<T>` (controller_provider.h:59-73) on a provider that knows exactly
the names `loaded` (for the manager: controller_manager.cpp:191-200). -/
def providerFind (loaded : List String) (r : GetReq) : Bool := loaded.contains r.name && r.castOk

/-- `getController` (controller.h:90-107); the provider pointer is assumed set (it is set by `initRequest`
before `init` runs, controller.h:148).  Returns the object with its new lists, and the returned value. -/
def Ctrl.getController (loaded : List String) (c : Ctrl) (r : GetReq) : Ctrl × Bool :=
  if providerFind loaded r then
    if r.sched = BEFORE_ME then ({ c with before := c.before ++ [r.name] }, true)
    else if r.sched = AFTER_ME then ({ c with after := c.after ++ [r.name] }, true)
    else (c, false)
  else (c, false)

/-- What a plugin's `init` does as far as the base class is concerned: a list of `getController` calls, names it
pushes itself on the (public) lists `before_list_`/`after_list_`, and whether it returns true, which may depend on
the answers it got.  `none` is an exception. (controller.h:87-107) -/
structure InitProg where
  requests : List GetReq
  extraBefore : List String
  extraAfter : List String
  outcome : List Bool → Option Bool

/-- Runs the `getController` calls of `init` in order, collecting the answers. (controller.h:90-107, 155) -/
def Ctrl.runRequests (loaded : List String) : Ctrl → List GetReq → Ctrl × List Bool
  | c, [] => (c, [])
  | c, r :: rs =>
    let (c, b) := c.getController loaded r
    let (c, bs) := Ctrl.runRequests loaded c rs
    (c, b :: bs)

/-- `initRequest` (controller.h:146-161): new state, plugin calls, returned value (`none`: exception leaves). -/
def Ctrl.initRequest (loaded : List String) (p : InitProg) (c : Ctrl) : Ctrl × List CEvent × Option Bool :=
  if c.st ≠ .constructed then (c, [], some false)
  else
    let (c, answers) := c.runRequests loaded p.requests
    let c := { c with before := c.before ++ p.extraBefore, after := c.after ++ p.extraAfter }
    match p.outcome answers with
    | none => (c, [.init false], none)
    | some false => (c, [.init false], some false)
    | some true => ({ c with st := .initialized }, [.init true], some true)

/-- Requests a manager can make of a controller (controller.h:110-161). -/
inductive CReq where
  | init (loaded : List String) (p : InitProg) | start | stop | update

/-- Serve one request: new object state, plugin calls made, returned value (`none` for an exception; `updateRequest`
returns nothing, modelled as `some true`). (controller.h:115-161) -/
def Ctrl.serve (c : Ctrl) : CReq → Ctrl × List CEvent × Option Bool
  | .init loaded p => c.initRequest loaded p
  | .start => let (c, e, b) := c.startRequest; (c, e, some b)
  | .stop => let (c, e, b) := c.stopRequest; (c, e, some b)
  | .update => let (c, e) := c.updateRequest; (c, e, some true)

/-- Serve a sequence of requests starting from object state `c`: final state and all plugin calls made. (no counterpart in the code; successive calls of controller.h:115-161) -/
def Ctrl.serveAll (c : Ctrl) : List CReq → Ctrl × List CEvent
  | [] => (c, [])
  | r :: rs =>
    let (c, e, _) := c.serve r
    let (c, es) := c.serveAll rs
    (c, e ++ es)

end Pr2
