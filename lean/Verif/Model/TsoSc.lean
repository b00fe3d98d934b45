import Verif.Model.Tso

/-!
# The accesses of both threads one by one, with and without store buffers

The instructions of `Verif.Model.Tso` with names, so that executions on a machine with store buffers can be compared with executions on a machine whose
memory is sequentially consistent (the machine `Verif.Model.Concurrent` and `Verif.Model.Threads` assume).
-/

namespace Pr2.Tso

/-- An instruction with the values it loads or stores, or a buffered store reaching memory. (controller_manager.cpp:126-189, 219-550; the rules of `Step`) -/
inductive Act where
  -- realtime thread
  | loadCur (v : Bool)               -- 128
  | storeUsed (v : Bool)             -- 128
  | readList (v : Bool) (i x : Nat)  -- 139-158, 660-672
  | readObj (v : Bool) (i x : Nat)   -- 142-157, 660-672
  | writeObj (v : Bool) (i x : Nat)  -- 142-157
  | noSwitch                         -- 173
  | doSwitch                         -- 173
  | readReq (i x : Nat)              -- 176-182
  | switchObj (v : Bool) (i x : Nat) -- 177, 182
  | toClear
  | clearReq (i x : Nat)             -- 185-186
  | endSwitch                        -- 187
  -- service threads
  | begin' (c : Bool)                -- 224-227, 373-376
  | free                             -- 228, 377
  | build (i x : Nat)                -- 236-342, 385-436
  | newObj (c : Bool) (i x : Nat)    -- 298-329
  | fail                             -- 249, 307, 328, 341 …
  | swap                             -- 351-352, 448-449
  | seen                             -- 353, 450
  | clear (i x : Nat)                -- 358, 456
  | destroy (c : Bool) (i x : Nat)   -- 358, 456
  | finish                           -- 359-362, 458-461
  | sBegin                           -- 485
  | sReq (i x : Nat)                 -- 489-534
  | sFail                            -- 497, 522
  | sGo                              -- 538-539
  | sDone                            -- 543
  | sReturn                          -- 549
  -- memory
  | rDrain
  | nDrain
deriving DecidableEq

/-- One instruction, as in `Step` (controller_manager.cpp:126-189, 219-550); loads of the controller objects by the realtime thread have been added. -/
inductive Fires : Act → St → St → Prop
  | loadCur (s : St) : s.rt = .idle → Fires (.loadCur s.rview.cur) s { s with rt := .got s.rview.cur }
  | storeUsed (s : St) (v : Bool) : s.rt = .got v → Fires (.storeUsed v) s { s.rput (.used v) v false with rt := .running v }
  | readList (s : St) (v : Bool) (i : Nat) : s.rt = .running v → Fires (.readList v i (s.rview.list v i)) s s
  | readObj (s : St) (v : Bool) (i : Nat) : s.rt = .running v ∨ s.rt = .switching v → Fires (.readObj v i (s.rview.obj i)) s s
  | writeObj (s : St) (v : Bool) (i x : Nat) : s.rt = .running v → Fires (.writeObj v i x) s (s.rput (.obj i x) v false)
  | noSwitch (s : St) (v : Bool) : s.rt = .running v → s.rview.please = false → Fires .noSwitch s { s with rt := .idle }
  | doSwitch (s : St) (v : Bool) : s.rt = .running v → s.rview.please = true → Fires .doSwitch s { s with rt := .switching v, rounds := s.rounds + 1 }
  | readReq (s : St) (v : Bool) (i : Nat) : s.rt = .switching v → Fires (.readReq i (s.rview.req i)) s s
  | switchObj (s : St) (v : Bool) (i x : Nat) : s.rt = .switching v → Fires (.switchObj v i x) s (s.rput (.obj i x) v true)
  | toClear (s : St) (v : Bool) : s.rt = .switching v → Fires .toClear s { s with rt := .clearing v }
  | clearReq (s : St) (v : Bool) (i x : Nat) : s.rt = .clearing v → Fires (.clearReq i x) s (s.rput (.req i x) v true)
  | endSwitch (s : St) (v : Bool) : s.rt = .clearing v → Fires .endSwitch s { s.rput (.please false) v true with rt := .idle }
  | rDrain (s : St) (e : RtWr) (r : List RtWr) : s.rbuf = e :: r → Fires .rDrain s { s with mem := e.wr.apply s.mem, rbuf := r }
  | begin' (s : St) : s.nrt = .idle → s.nbuf = [] → Fires (.begin' s.nview.cur) s { s with nrt := .wait1 s.nview.cur }
  | free (s : St) (c : Bool) : s.nrt = .wait1 c → s.nview.used ≠ some (!c) → Fires .free s { s with nrt := .build c }
  | build (s : St) (c : Bool) (i x : Nat) : s.nrt = .build c → Fires (.build i x) s (s.nput (.list (!c) i x))
  | newObj (s : St) (c : Bool) (i x : Nat) : s.nrt = .build c → Fires (.newObj c i x) s (s.nput (.obj i x))
  | fail (s : St) (c : Bool) : s.nrt = .build c → Fires .fail s { s with nrt := .idle }
  | swap (s : St) (c : Bool) : s.nrt = .build c →
      Fires .swap s { s.nput (.cur (!c)) with nrt := .wait2 c, handed := fun b => if b = !c then s.nview.list b else s.handed b }
  | seen (s : St) (c : Bool) : s.nrt = .wait2 c → s.nview.used ≠ some c → Fires .seen s { s with nrt := .clear c }
  | clear (s : St) (c : Bool) (i x : Nat) : s.nrt = .clear c → Fires (.clear i x) s (s.nput (.list c i x))
  | destroy (s : St) (c : Bool) (i x : Nat) : s.nrt = .clear c → Fires (.destroy c i x) s (s.nput (.obj i x))
  | finish (s : St) (c : Bool) : s.nrt = .clear c → Fires .finish s { s with nrt := .idle }
  | sBegin (s : St) : s.nrt = .idle → s.nbuf = [] → Fires .sBegin s { s with nrt := .resolve }
  | sReq (s : St) (i x : Nat) : s.nrt = .resolve → Fires (.sReq i x) s (s.nput (.req i x))
  | sFail (s : St) : s.nrt = .resolve → Fires .sFail s { s with nrt := .idle }
  | sGo (s : St) : s.nrt = .resolve → Fires .sGo s { s.nput (.please true) with nrt := .waitSwitch, asked := s.nview.req, rounds := 0 }
  | sDone (s : St) : s.nrt = .waitSwitch → s.nview.please = false → Fires .sDone s { s with nrt := .switched }
  | sReturn (s : St) : s.nrt = .switched → Fires .sReturn s { s with nrt := .idle }
  | nDrain (s : St) (w : Wr) (r : List Wr) : s.nbuf = w :: r → Fires .nDrain s { s with mem := w.apply s.mem, nbuf := r }

/-- Which controller objects a list with given contents refers to is arbitrary.  The realtime thread touches objects of the list it works with (the requests of a switch
are controllers of that list, lines 487-534); a new object is not one of the list in use (`createInstance`, line 289); what is destroyed is not in the list that has been handed over
(the lists hold shared pointers, lines 238-240, 406-419). (controller_manager.cpp:142-157, 177, 182, 236-240, 289, 358, 385, 406-419, 456, 487-534) -/
def Act.Owned (objs : (Nat → Nat) → Nat → Prop) (s : St) : Act → Prop
  | .readObj v i _ | .writeObj v i _ | .switchObj v i _ => objs (s.rview.list v) i
  | .newObj c i _ => ¬ objs (s.nview.list c) i
  | .destroy c i _ => ¬ objs (s.nview.list (!c)) i
  | _ => True

/-- An execution on the machine with store buffers. (no counterpart in the code) -/
inductive TsoRun (objs : (Nat → Nat) → Nat → Prop) (s0 : St) : List Act → St → Prop
  | nil : TsoRun objs s0 [] s0
  | snoc {tr : List Act} {s s' : St} {a : Act} : TsoRun objs s0 tr s → Fires a s s' → a.Owned objs s → TsoRun objs s0 (tr ++ [a]) s'

/-- Everything buffered reaches memory. (no counterpart in the code) -/
def St.flush (s : St) : St := { s with mem := through s.nbuf (through (s.rbuf.map (·.wr)) s.mem), rbuf := [], nbuf := [] }

/-- An execution on a machine with sequentially consistent memory: every store reaches memory before anything else happens. (no counterpart in the code) -/
inductive ScRun (objs : (Nat → Nat) → Nat → Prop) (s0 : St) : List Act → St → Prop
  | nil : ScRun objs s0 [] s0
  | snoc {tr : List Act} {s s' : St} {a : Act} : ScRun objs s0 tr s → Fires a s s' → a.Owned objs s → ScRun objs s0 (tr ++ [a]) s'.flush

/-- Instructions of the realtime thread. (controller_manager.cpp:126-189) -/
def Act.isRt : Act → Bool
  | .loadCur _ | .storeUsed _ | .readList _ _ _ | .readObj _ _ _ | .writeObj _ _ _ | .noSwitch | .doSwitch | .readReq _ _ | .switchObj _ _ _ | .toClear
  | .clearReq _ _ | .endSwitch => true
  | _ => false

/-- Instructions of the service threads. (controller_manager.cpp:219-550) -/
def Act.isService : Act → Bool
  | .begin' _ | .free | .build _ _ | .newObj _ _ _ | .fail | .swap | .seen | .clear _ _ | .destroy _ _ _ | .finish | .sBegin | .sReq _ _ | .sFail | .sGo
  | .sDone | .sReturn => true
  | _ => false

/-- Instructions of the service threads that load something and go on according to it: the beginnings of calls and the ends of the three wait loops.
(controller_manager.cpp:227, 228, 353, 376, 377, 450, 485, 543) -/
def Act.isLoad : Act → Bool
  | .begin' _ | .free | .seen | .sBegin | .sDone => true
  | _ => false

end Pr2.Tso
