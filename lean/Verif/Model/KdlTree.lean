import Verif.Model.Kinematics
import Mathlib.Data.List.Sort

/-!
# Model of `Tree::init` on a robot description (`pr2_mechanism_model/src/tree.cpp`)

External, by its documented algorithm: `kdl_parser` adds the segments recursively, a link before its children, the children in the order of their joints' names (the order in which the
urdf parser collects them from its `std::map`); KDL numbers the movable joints in the order in which they are added and keeps the segments in a `std::map` by link.
-/

namespace Pr2

/-- The children of a link, in the order of `urdf::Link::child_links` (used by `kdl_parser::treeFromUrdfModel`, called in tree.cpp:50). -/
def KTree.children (t : KTree) (a : String) : List KLink := (t.links.filter (fun k => k.parent == a)).insertionSort (fun k l => k.seg.joint ≤ l.seg.joint)

/-- The order in which `kdl_parser` adds the segments below a link (`addChildrenToTree`, called from tree.cpp:50).  The fuel is for Lean only. -/
def KTree.preorder (t : KTree) : Nat → String → List KLink
  | 0, _ => []
  | n + 1, a => (t.children a).flatMap (fun k => k :: t.preorder n k.link)

/-- `KDL::Tree::addSegment`: a movable joint gets the next number, a fixed one zero (called by `kdl_parser`, tree.cpp:50). -/
def KTree.number : Nat → List KLink → List (KLink × Nat)
  | _, [] => []
  | q, k :: ks => if k.seg.fixed then (k, 0) :: KTree.number q ks else (k, q) :: KTree.number (q + 1) ks

/-- `KDL::Tree::getSegments` (tree.cpp:58): a `std::map` by the link's name.  The root, which has no joint, is left out. -/
def KTree.segmentMap (t : KTree) : List TSeg :=
  ((KTree.number 0 (t.preorder t.links.length t.root)).insertionSort (fun p q => p.1.link ≤ q.1.link)).map (fun p => { p.1.seg with qnr := p.2 })

/-- A `Tree` object (tree.h:117-119): the number of joints of `kdl_tree_`, and `joints_`. -/
structure TreeObj where
  nr : Nat
  joints : List Nat

section
variable {F : Type}

/-- The second loop of `Tree::init` (tree.cpp:77-88) as it changes `joints_`; the flag: it does not return false. -/
def TreeObj.pull (s : RState F) : List (Nat × String) → List Nat → List Nat × Bool
  | [], js => (js, true)
  | p :: ps, js =>
    match s.getJointState p.2 with
    | none => (js, false)
    | some j => TreeObj.pull s ps (js ++ [j])

/-- `Tree::init(robot_state)` (tree.cpp:45-99) on an object that may already be in use: the object afterwards and the result.  `x` is the description the robot was loaded from.
Not modelled: what is left in `kdl_tree_` by a failing parser (taken to be what was there before). -/
def TreeObj.init (o : TreeObj) (s : RState F) (x : Xml) : TreeObj × Bool :=
  let segs := (x.kdlTree.map KTree.segmentMap).getD []                                                      -- 50-59
  let nr := match x.kdlTree with
    | none => o.nr
    | some _ => (segs.filter (fun g => !g.fixed)).length
  let jointMap := segs.foldl (fun m g => if g.fixed then m else qmapSet m g.qnr g.joint) []                 -- 65-72
  let r := TreeObj.pull s jointMap []                                                                       -- 76-88
  (⟨nr, r.1⟩, r.2)

/-- `getPositions(KDL::JntArray&)` (tree.h:122-127) with an array of `n` rows; `none`: the assertion fails. -/
def TreeObj.getPositionsKdl (o : TreeObj) (n : Nat) (s : RState F) : Option (List F) :=
  if n = o.joints.length then some (ChainLike.getPositions o.joints s) else none

end

end Pr2
