import Verif.Model.Chain
import Verif.Model.Xml

/-!
# Model of `Chain::init` on a robot description (`pr2_mechanism_model/src/chain.cpp`)

`kdl_parser::treeFromUrdfModel` and `KDL::Tree::getChain` are external code.  Their contract is modelled here as functions of the robot description, as
`KDL` implements them: the tree has one segment per joint element, `getChain` walks from both links up to the root of the tree, removes the common part, and
returns the segments up from the first link followed by the segments down to the second.
-/

namespace Pr2

/-- A segment of the KDL tree: the link at its tip, the link it is attached to and its joint. (KDL, external; used at chain.cpp:46-76, tree.cpp:50-72) -/
structure KLink where
  link : String
  parent : String
  seg : KSeg

/-- The KDL tree. (KDL, external; used at chain.cpp:46-54, tree.cpp:50) -/
structure KTree where
  root : String
  links : List KLink

/-- The segment `kdl_parser` makes of a joint element (called in chain.cpp:46-50, tree.cpp:50-53); `none`: the urdf parser refuses the element.  Joints of types KDL does not know
become fixed. -/
def Xml.kdlLink (e : Xml) : Option KLink := do
  let n ← e.attr "name"
  let t ← e.attr "type"
  let p ← (e.first "parent").bind (·.attr "link")
  let c ← (e.first "child").bind (·.attr "link")
  some ⟨c, p, ⟨!(t == "revolute" || t == "continuous" || t == "prismatic"), n⟩⟩

/-- The tree `kdl_parser::treeFromUrdfModel` makes of a description (called in chain.cpp:46-50, tree.cpp:50-53); `none`: it fails.  Its root is the link that is the child of no joint. -/
def Xml.kdlTree (x : Xml) : Option KTree := do
  let ks ← (x.all "joint").mapM Xml.kdlLink
  let r ← ((x.all "link").filterMap (·.attr "name")).find? (fun n => !(ks.map (·.link)).contains n)
  some ⟨r, ks⟩

/-- `KDL::Tree::getChain`, the loops from a link up to the root of the tree (called in chain.cpp:52-58): the segments passed; `none`: the link is not in the tree.  The fuel is for
Lean only. -/
def KTree.up (t : KTree) : Nat → String → Option (List KLink)
  | 0, a => if a = t.root then some [] else none
  | n + 1, a => if a = t.root then some [] else (t.links.find? (fun k => k.link == a)).bind (fun k => (t.up n k.parent).map (k :: ·))

/-- `KDL::Tree::getChain`, the loop that removes the common part, on the lists from the root of the tree downwards. (external; called at chain.cpp:54) -/
def KTree.strip : List KLink → List KLink → List KLink × List KLink
  | k :: ks, l :: ls => if k.link = l.link then KTree.strip ks ls else (k :: ks, l :: ls)
  | ks, ls => (ks, ls)

/-- `KDL::Tree::getChain(root, tip)` (called in chain.cpp:52-58): the segments of the chain; `none`: it fails. -/
def KTree.getChain (t : KTree) (root tip : String) : Option (List KSeg) := do
  let us ← t.up t.links.length root
  let ds ← t.up t.links.length tip
  let (u, d) := KTree.strip us.reverse ds.reverse
  some (u.reverse.map (·.seg) ++ d.map (·.seg))

/-- A `Chain` object (chain.h): `kdl_chain_` (its segments' joints) and `joints_`. (chain.h:123-126) -/
structure ChainObj where
  kdl : List KSeg
  joints : List Nat

section
variable {F : Type}

/-- The loop of `Chain::init` over the segments (chain.cpp:66-76) as it changes `joints_`; the flag: it does not return false. -/
def ChainObj.pull (s : RState F) : List KSeg → List Nat → List Nat × Bool
  | [], js => (js, true)
  | g :: gs, js =>
    if g.fixed then ChainObj.pull s gs js
    else match s.getJointState g.joint with
      | none => (js, false)
      | some j => ChainObj.pull s gs (js ++ [j])

/-- `Chain::init(robot_state, root, tip)` (chain.cpp:40-80) on an object that may already be in use: the object afterwards and the result.  `x` is the description the robot was
loaded from. -/
def ChainObj.init (c : ChainObj) (s : RState F) (x : Xml) (root tip : String) : ChainObj × Bool :=
  match x.kdlTree with
  | none => (c, false)                                        -- 47-50
  | some t =>
    match t.getChain root tip with
    | none => ({ c with kdl := [] }, false)                   -- 54, 59-63: `getChain` begins by clearing its argument
    | some segs =>
      let (js, ok) := ChainObj.pull s segs []                 -- 67-76
      (⟨segs, js⟩, ok)

/-- `KDL::Chain::getNrOfJoints` of the chain `toKDL` returns (chain.cpp:120-123). -/
def ChainObj.nrJoints (c : ChainObj) : Nat := (c.kdl.filter (fun g => !g.fixed)).length

/-- `getPositions(KDL::JntArray&)` (chain.cpp:126-131) with an array of `n` rows; `none`: the assertion fails. -/
def ChainObj.getPositionsKdl (c : ChainObj) (n : Nat) (s : RState F) : Option (List F) :=
  if n = c.joints.length then some (ChainLike.getPositions c.joints s) else none

end

end Pr2
