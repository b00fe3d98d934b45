/-!
# The hand-over protocol on a machine with store buffers

`controller_manager.cpp` shares plain (neither atomic nor volatile) variables between the realtime thread and the service threads.
`Verif.Model.Concurrent` assumes that memory is sequentially consistent.  Here: the accesses of both threads to shared memory on a machine with
x86-TSO memory.  Each thread has a first-in-first-out buffer of its own stores; a load returns the youngest buffered store of its own thread to
that location, otherwise the value in memory; a buffered store reaches memory at any later time.  Assumption: the compiler emits the
loads and stores in program order.

Data are abstracted to words: the two controller lists with their schedules (`list b i`), the request vectors (`req i`), the controller objects and their
statistics (`obj i`).  How many words are accessed, which and with what values is arbitrary.
Service calls are serialised by `services_lock_` and `controllers_lock_`; locking and unlocking a mutex are locked instructions and
wait until the buffer of the executing processor is empty, hence one buffer for all service threads, empty when a call begins.
Simplification: executions in which `ros::ok()` stays true.
-/

namespace Pr2.Tso

/-- Shared memory (controller_manager.h:92-100). -/
structure Mem where
  cur : Bool                      -- `current_controllers_list_`
  used : Option Bool              -- `used_by_realtime_`; `none` is -1
  please : Bool                   -- `please_switch_`
  list : Bool → Nat → Nat         -- `controllers_lists_`, `controllers_scheduling_`
  req : Nat → Nat                 -- `start_request_`, `stop_request_`
  obj : Nat → Nat                 -- controllers and their `Statistics`

/-- A store. (the stores of controller_manager.cpp:128, 185-187, 236-362, 496-539) -/
inductive Wr where
  | cur (b : Bool)
  | used (b : Bool)
  | please (b : Bool)
  | list (b : Bool) (i v : Nat)
  | req (i v : Nat)
  | obj (i v : Nat)
deriving DecidableEq

/-- The effect of a store on memory. (no counterpart in the code) -/
def Wr.apply (w : Wr) (m : Mem) : Mem :=
  match w with
  | .cur b => { m with cur := b }
  | .used b => { m with used := some b }
  | .please b => { m with please := b }
  | .list b i v => { m with list := fun c k => if c = b ∧ k = i then v else m.list c k }
  | .req i v => { m with req := fun k => if k = i then v else m.req k }
  | .obj i v => { m with obj := fun k => if k = i then v else m.obj k }

/-- Memory after the stores of a buffer: what the owner of the buffer sees. (no counterpart in the code) -/
def through (buf : List Wr) (m : Mem) : Mem := buf.foldl (fun m w => w.apply m) m

/-- A store of the realtime thread.  Ghost: the list used in the cycle in which it was issued, and whether it was issued while
switching controllers (lines 175-187). -/
structure RtWr where
  wr : Wr
  lst : Bool
  sw : Bool
deriving DecidableEq

/-- Position of the realtime thread in `update()` (controller_manager.cpp:126-189). -/
inductive RPc where
  | idle
  | got (v : Bool)           -- 128: `current_controllers_list_` loaded
  | running (v : Bool)       -- 129-172: uses list `v`
  | switching (v : Bool)     -- 175-183
  | clearing (v : Bool)      -- 185-187
deriving DecidableEq

/-- Position of the service threads; `c` is the value of `current_controllers_list_` the call found. (controller_manager.cpp:219-550) -/
inductive NPc where
  | idle
  | wait1 (c : Bool)         -- 228-232, 377-381
  | build (c : Bool)         -- 236-351, 385-449: writes list `!c`
  | wait2 (c : Bool)         -- 353-357, 450-454
  | clear (c : Bool)         -- 358, 456: clears list `c`, destroys controllers
  | resolve                  -- 487-536: writes the request vectors
  | waitSwitch               -- 543-547
  | switched                 -- 548-549
deriving DecidableEq

/-- The machine: memory (controller_manager.h:92-100), the two store buffers, positions of the threads in controller_manager.cpp:126-189 and 219-550, and ghosts. -/
structure St where
  mem : Mem
  rbuf : List RtWr           -- oldest first
  nbuf : List Wr
  rt : RPc
  nrt : NPc
  handed : Bool → Nat → Nat  -- ghost: contents of list `b` when the service thread issued `current_controllers_list_ = b`
  asked : Nat → Nat          -- ghost: contents of the request vectors when it issued `please_switch_ = true`
  rounds : Nat               -- ghost: how often the realtime thread has entered lines 175-187 since then

/-- Memory as the realtime thread sees it. (no counterpart in the code) -/
def St.rview (s : St) : Mem := through (s.rbuf.map (·.wr)) s.mem
/-- Memory as the service thread sees it. (no counterpart in the code) -/
def St.nview (s : St) : Mem := through s.nbuf s.mem

/-- The realtime thread issues a store. (no counterpart in the code) -/
def St.rput (s : St) (w : Wr) (lst sw : Bool) : St := { s with rbuf := s.rbuf ++ [⟨w, lst, sw⟩] }
/-- The service thread issues a store. (no counterpart in the code) -/
def St.nput (s : St) (w : Wr) : St := { s with nbuf := s.nbuf ++ [w] }

/-- What happens in a step, as far as it matters: the loads of the realtime thread from the lists and the request vectors, the end of a switch. (controller_manager.cpp:129-187, 543-549) -/
inductive Label where
  | rtReadList (b : Bool) (i v : Nat)
  | rtReadReq (i v : Nat)
  | switchReturns
  | tau

/-- One instruction of either thread, or one buffered store reaching memory. (controller_manager.cpp:126-189, 219-550) -/
inductive Step : St → Label → St → Prop
  -- realtime thread, `update()`
  | rtLoadCur (s : St) : s.rt = .idle → Step s .tau { s with rt := .got s.rview.cur }                                         -- 128
  | rtStoreUsed (s : St) (v : Bool) : s.rt = .got v → Step s .tau { s.rput (.used v) v false with rt := .running v }              -- 128
  | rtReadList (s : St) (v : Bool) (i : Nat) : s.rt = .running v → Step s (.rtReadList v i (s.rview.list v i)) s               -- 139-158, 660-672
  | rtWriteObj (s : St) (v : Bool) (i x : Nat) : s.rt = .running v → Step s .tau (s.rput (.obj i x) v false)                   -- 142-157
  | rtNoSwitch (s : St) (v : Bool) : s.rt = .running v → s.rview.please = false → Step s .tau { s with rt := .idle }           -- 173
  | rtSwitch (s : St) (v : Bool) : s.rt = .running v → s.rview.please = true → Step s .tau { s with rt := .switching v, rounds := s.rounds + 1 }   -- 173
  | rtReadReq (s : St) (v : Bool) (i : Nat) : s.rt = .switching v → Step s (.rtReadReq i (s.rview.req i)) s                    -- 176-182
  | rtSwitchObj (s : St) (v : Bool) (i x : Nat) : s.rt = .switching v → Step s .tau (s.rput (.obj i x) v true)                 -- 177, 182
  | rtClear (s : St) (v : Bool) : s.rt = .switching v → Step s .tau { s with rt := .clearing v }
  | rtClearReq (s : St) (v : Bool) (i x : Nat) : s.rt = .clearing v → Step s .tau (s.rput (.req i x) v true)                   -- 185-186
  | rtDone (s : St) (v : Bool) : s.rt = .clearing v → Step s .tau { s.rput (.please false) v true with rt := .idle }            -- 187
  | rtDrain (s : St) (e : RtWr) (r : List RtWr) : s.rbuf = e :: r → Step s .tau { s with mem := e.wr.apply s.mem, rbuf := r }
  -- service threads, `loadController` and `unloadController`
  | nBegin (s : St) : s.nrt = .idle → s.nbuf = [] → Step s .tau { s with nrt := .wait1 s.nview.cur }                           -- 224-227, 373-376
  | nFree (s : St) (c : Bool) : s.nrt = .wait1 c → s.nview.used ≠ some (!c) → Step s .tau { s with nrt := .build c }           -- 228, 377
  | nBuild (s : St) (c : Bool) (i x : Nat) : s.nrt = .build c → Step s .tau (s.nput (.list (!c) i x))                          -- 236-342, 385-436
  | nNewObj (s : St) (c : Bool) (i x : Nat) : s.nrt = .build c → Step s .tau (s.nput (.obj i x))                               -- 298-329
  | nFail (s : St) (c : Bool) : s.nrt = .build c → Step s .tau { s with nrt := .idle }                                         -- 249, 307, 328, 341 …
  | nSwap (s : St) (c : Bool) : s.nrt = .build c →
      Step s .tau { s.nput (.cur (!c)) with nrt := .wait2 c, handed := fun b => if b = !c then s.nview.list b else s.handed b }    -- 351-352, 448-449
  | nSeen (s : St) (c : Bool) : s.nrt = .wait2 c → s.nview.used ≠ some c → Step s .tau { s with nrt := .clear c }              -- 353, 450
  | nClear (s : St) (c : Bool) (i x : Nat) : s.nrt = .clear c → Step s .tau (s.nput (.list c i x))                             -- 358, 456
  | nDestroy (s : St) (c : Bool) (i x : Nat) : s.nrt = .clear c → Step s .tau (s.nput (.obj i x))                              -- 358, 456
  | nDone (s : St) (c : Bool) : s.nrt = .clear c → Step s .tau { s with nrt := .idle }                                         -- 359-362, 458-461
  -- service threads, `switchController`
  | sBegin (s : St) : s.nrt = .idle → s.nbuf = [] → Step s .tau { s with nrt := .resolve }                                     -- 485
  | sReq (s : St) (i x : Nat) : s.nrt = .resolve → Step s .tau (s.nput (.req i x))                                             -- 489-534
  | sFail (s : St) : s.nrt = .resolve → Step s .tau { s with nrt := .idle }                                                    -- 497, 522
  | sGo (s : St) : s.nrt = .resolve → Step s .tau { s.nput (.please true) with nrt := .waitSwitch, asked := s.nview.req, rounds := 0 }          -- 538-539
  | sDone (s : St) : s.nrt = .waitSwitch → s.nview.please = false → Step s .switchReturns { s with nrt := .switched }          -- 543
  | sReturn (s : St) : s.nrt = .switched → Step s .tau { s with nrt := .idle }                                                 -- 549
  | nDrain (s : St) (w : Wr) (r : List Wr) : s.nbuf = w :: r → Step s .tau { s with mem := w.apply s.mem, nbuf := r }

/-- After the first cycle on list `b`, all stores having reached memory, no service call in progress. (controller_manager.cpp:128) -/
structure Start (s : St) : Prop where
  rt : s.rt = .idle
  nrt : s.nrt = .idle
  rbuf : s.rbuf = []
  nbuf : s.nbuf = []
  used : s.mem.used = some s.mem.cur
  please : s.mem.please = false
  handed : ∀ b i, s.handed b i = s.mem.list b i

/-- States reachable by any interleaving of instructions and store-buffer drains. (no counterpart in the code) -/
inductive Reach : St → Prop
  | start (s : St) : Start s → Reach s
  | step (s s' : St) (l : Label) : Reach s → Step s l s' → Reach s'

end Pr2.Tso
