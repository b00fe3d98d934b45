import Verif.Model.Robot

/-!
# Model of `pr2_mechanism_model/src/chain.cpp`, `src/tree.cpp` and `include/.../tree.h`

The KDL structures come from `kdl_parser` and KDL (external): a chain is the list of its segments' joints, a tree the list of its segments in
the order of `KDL::SegmentMap`.
-/

namespace Pr2

/-- The joint of a KDL segment. (KDL, external; used at chain.cpp:68-77) -/
structure KSeg where
  fixed : Bool        -- `getJoint().getType() == KDL::Joint::None`
  joint : String      -- `getJoint().getName()`

/-- A segment of a KDL tree. (KDL, external; used at tree.cpp:58-72) -/
structure TSeg extends KSeg where
  qnr : Nat           -- `q_nr`

section
variable {F : Type}

/-- Loop of `Chain::init` over the segments (chain.cpp:67-76): `joints_`; `none`: returns false. -/
def Chain.pull (s : RState F) : List KSeg → Option (List Nat)
  | [] => some []
  | g :: gs =>
    if g.fixed then Chain.pull s gs
    else do
      let j ← s.getJointState g.joint
      let js ← Chain.pull s gs
      some (j :: js)

/-- `Chain::init` (chain.cpp:40-80).  `kdl` is `treeFromUrdfModel` followed by `getChain(root, tip)`; `none`: one of them fails. -/
def Chain.init (s : RState F) (kdl : Option (List KSeg)) : Option (List Nat) := kdl.bind (Chain.pull s)

/-- `jointMap[q_nr] = name` on a `std::map<unsigned, string>`: sorted by key. (tree.cpp:65-71) -/
def qmapSet : List (Nat × String) → Nat → String → List (Nat × String)
  | [], q, n => [(q, n)]
  | (p, m) :: l, q, n => if q < p then (q, n) :: (p, m) :: l else if q = p then (q, n) :: l else (p, m) :: qmapSet l q n

/-- `Tree::init` (tree.cpp:45-99): `joints_`; `none`: returns false.  If the KDL tree cannot be constructed (`kdl = none`) the segment map is empty. -/
def Tree.init (s : RState F) (kdl : Option (List TSeg)) : Option (List Nat) :=
  let jointMap := (kdl.getD []).foldl (fun m g => if g.fixed then m else qmapSet m g.qnr g.joint) []     -- 65-72
  jointMap.mapM (fun p => s.getJointState p.2)                                                            -- 77-88

/-! The member functions of `Chain` and `Tree` are the same code; `js` is `joints_`. -/

/-- `getPositions(std::vector)` (chain.cpp:83-89); `getPositions(JntArray)` (chain.cpp:126-131, tree.h:122-135) with an array of the right size. -/
def ChainLike.getPositions (js : List Nat) (s : RState F) : List F := (gather s.joints js).map (·.position)
/-- `getVelocities` (chain.cpp:92-98; the `q_dot` of chain.cpp:133-141, tree.h:137-154). -/
def ChainLike.getVelocities (js : List Nat) (s : RState F) : List F := (gather s.joints js).map (·.velocity)
/-- `getEfforts` (chain.cpp:101-107, 143-148, tree.h:156-169). -/
def ChainLike.getEfforts (js : List Nat) (s : RState F) : List F := (gather s.joints js).map (·.measured)
/-- `allCalibrated` (chain.cpp:110-118, tree.h:201-209). -/
def ChainLike.allCalibrated (js : List Nat) (s : RState F) : Bool := (gather s.joints js).all (·.calibrated)
/-- `getJoint` (chain.cpp:165-171, tree.h:216-222); `none`: NULL. -/
def ChainLike.getJoint (js : List Nat) (i : Nat) : Option Nat := js[i]?

/-- The loop of `setEfforts` (chain.cpp:150-155, tree.h:171-184) and `addEfforts` (chain.cpp:157-162, tree.h:186-199). -/
def ChainLike.write (f : JState F → F → F) : List Nat → List F → List (JState F) → List (JState F)
  | i :: is, a :: as, l => ChainLike.write f is as (l.modify i (fun j => { j with commanded := f j a }))
  | _, _, l => l

/-- `setEfforts`; `none`: the assertion on the size fails. (chain.cpp:150-155, tree.h:171-184) -/
def ChainLike.setEfforts (js : List Nat) (a : List F) (s : RState F) : Option (RState F) :=
  if a.length = js.length then some { s with joints := ChainLike.write (fun _ x => x) js a s.joints } else none
/-- `addEfforts`; `none`: the assertion on the size fails. (chain.cpp:157-162, chain.h:98-104, tree.h:186-199) -/
def ChainLike.addEfforts [Add F] (js : List Nat) (a : List F) (s : RState F) : Option (RState F) :=
  if a.length = js.length then some { s with joints := ChainLike.write (fun j x => j.commanded + x) js a s.joints } else none

end

end Pr2
