import Verif.Model.Threads
import Verif.Model.Clients

/-! # Specification: what a service request must do, whatever other clients are doing -/

namespace Pr2

/-- States of the process reachable in normal operation (as `Reachable`, with any number of client threads); `direct`: do other threads also call the
manager's methods directly, besides the services? -/
inductive SysReach (m ndebug direct : Bool) : Sys → Prop
  | start {s : State} (h : Reachable m s) (hi : s.nrt = .idle) (hl : s.nlog = []) : SysReach m ndebug direct (Sys.start s)
  | step {s : Sys} (hs : SysReach m ndebug direct s) (a : SAct) (ha : direct = false → ∀ t op, a ≠ .direct t op) :
      SysReach m ndebug direct (s.step ndebug a)

/-- What a completed service request must have done.  Requests to load, unload, switch and list satisfy the contracts `CallOk`; reloading is the
client program `reload` executed with nobody else around. -/
def ReqOk (ndebug : Bool) (d : Done) : Prop :=
  match d.req with
  | .load q => ∃ ok, d.ans = .flag ok ∧ CallOk ⟨.load q, .flag ok, d.pre, d.post, d.raced⟩
  | .unload n => ∃ ok, d.ans = .flag ok ∧ CallOk ⟨.unload n, .flag ok, d.pre, d.post, d.raced⟩
  | .switch a b k => ∃ ok, d.ans = .flag ok ∧ CallOk ⟨.switch a b k, .flag ok, d.pre, d.post, d.raced⟩
  | .list => ∃ l, d.ans = .listing l ∧ CallOk ⟨.list, .listing l, d.pre, d.post, d.raced⟩
  | .types l => d.ans = .types l ∧ d.post = d.pre
  | .reload force => ∃ ok, d.ans = .flag ok ∧ reload ndebug force d.pre (.reply ok) d.post

/-- A history of service requests, one after the other. -/
inductive ReqHistory (ndebug : Bool) : View → List Done → View → Prop
  | nil (v : View) : ReqHistory ndebug v [] v
  | snoc {v v' : View} {l : List Done} (d : Done) (h : ReqHistory ndebug v l v') (hpre : d.pre = v') (hok : ReqOk ndebug d) :
      ReqHistory ndebug v (l ++ [d]) d.post

/-- The thread is inside a handler or a method waiting for `services_lock_`. -/
def Thr.wantsSrv : Thr → Bool
  | .wait _ => true
  | _ => false

/-- The thread is inside a handler or a method waiting for `controllers_lock_`. -/
def Thr.wantsCtl : Thr → Bool
  | .run _ (.call _ _) false _ _ | .run _ (.names _) false _ _ | .run _ (.schedule _) false _ _ | .dwait _ => true
  | _ => false

/-- An infinite execution of the whole process in normal operation: the realtime loop and every client thread keep being scheduled, no thread is for
ever unlucky with a lock that is free again and again, and the process does not die. -/
structure FairSys (m ndebug direct : Bool) (σ : Nat → Sys) (act : Nat → SAct) : Prop where
  reach : SysReach m ndebug direct (σ 0)
  step : ∀ n, σ (n+1) = (σ n).step ndebug (act n)
  who : direct = false → ∀ n t op, act n ≠ .direct t op
  alive : ∀ n, (σ n).dead = false
  rt : ∀ n, ∃ k ≥ n, ∃ i, act k = .rt i
  go : ∀ t n, ∃ k ≥ n, act k = .go t
  srvLock : ∀ t n, (∀ k ≥ n, ((σ k).thr t).wantsSrv = true) → (∀ k ≥ n, ∃ j ≥ k, (σ j).srv = none) → ∃ k ≥ n, act k = .go t ∧ (σ k).srv = none
  ctlLock : ∀ t n, (∀ k ≥ n, ((σ k).thr t).wantsCtl = true) → (∀ k ≥ n, ∃ j ≥ k, (σ j).ctl = none) → ∃ k ≥ n, act k = .go t ∧ (σ k).ctl = none
  pubLock : ∀ t n, (∀ k ≥ n, (σ k).ctl = some t ∧ ∃ op, (σ k).base.nrt = .pubLock op) → ∃ k ≥ n, act k = .go t ∧ (σ k).base.pubLock = none

end Pr2
