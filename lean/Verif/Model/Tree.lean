/-!
# Timepoint tree

Model of `src/utils/tree_node.cpp`. A `TreeNode` owns its children by value (`std::list<TreeNode>`), so
the whole tree is one rose tree. A node pointer is the address of the node. Node equality is equality of
addresses (tree_node.cpp:32-35). The `_parent` pointers are not stored: the parent of a node is the node
whose child list contains it, which is what `add_child` (27-29) sets and nothing ever changes.
The `id` member (tree_node.cpp:22) is only printed and is not modelled.
-/

namespace Verif

/-- Address of a timepoint (`Timepoint*`, `src/utils/state_management.hpp:24`). -/
abbrev Addr := Nat

/-- `class TreeNode` (`src/utils/tree_node.hpp`, `src/utils/tree_node.cpp:21-24`): its address and the
nodes of its child list, oldest first. -/
inductive TreeNode where
  | mk (addr : Addr) (children : List TreeNode)

namespace TreeNode

/-- `this` as a pointer (`src/utils/tree_node.hpp:22-28`). -/
def addr : TreeNode → Addr
  | mk a _ => a

/-- The `children` member (`src/utils/tree_node.hpp:28`). -/
def children : TreeNode → List TreeNode
  | mk _ cs => cs

mutual
/-- `TreeNode::cluster(true)` (`src/utils/tree_node.cpp:92-102`): preorder list of the node and its
descendants. -/
def clusterSelf : TreeNode → List Addr
  | mk a cs => a :: clusterList cs
/-- The loop over the children in `TreeNode::cluster` (`src/utils/tree_node.cpp:98-99`). -/
def clusterList : List TreeNode → List Addr
  | [] => []
  | c :: cs => clusterSelf c ++ clusterList cs
end

/-- `TreeNode::cluster(include_itself)` called on the root of the tree
(`src/utils/tree_node.cpp:92-102`). -/
def cluster (t : TreeNode) (includeItself : Bool) : List Addr :=
  if includeItself then t.clusterSelf else clusterList t.children

mutual
/-- `TreeNode::leafs(true)` (`src/utils/tree_node.cpp:65-78`). -/
def leafsSelf : TreeNode → List Addr
  | mk a [] => [a]
  | mk _ (c :: cs) => leafsSelf c ++ leafsList cs
/-- The loop over the children in `TreeNode::leafs` (`src/utils/tree_node.cpp:73-74`). -/
def leafsList : List TreeNode → List Addr
  | [] => []
  | c :: cs => leafsSelf c ++ leafsList cs
end

/-- `TreeNode::leafs(include_itself)` called on the root of the tree
(`src/utils/tree_node.cpp:65-78`). -/
def leafs (t : TreeNode) (includeItself : Bool) : List Addr :=
  match t.children with
  | [] => if includeItself then [t.addr] else []
  | cs => leafsList cs

mutual
/-- The chain of parents of the node at `x`, the node itself first and the root of the tree last: what
the loops `while(it->parent())` of `src/utils/tree_node.cpp:43-48, 51-61, 120-128` visit. `none` when `x`
is not the address of a live node of the tree, in which case the C++ reads freed memory. -/
def chain : TreeNode → Addr → Option (List Addr)
  | mk a cs, x => if x = a then some [a] else (chainList cs x).map (· ++ [a])
/-- Search of `x` among the subtrees of a child list (`src/utils/tree_node.hpp:28`). -/
def chainList : List TreeNode → Addr → Option (List Addr)
  | [], _ => none
  | c :: cs, x => match chain c x with
    | some l => some l
    | none => chainList cs x
end

/-- `TreeNode::ancestors(include_itself)` (`src/utils/tree_node.cpp:51-61`), nearest first.
`none`: the node is not live. -/
def ancestors (t : TreeNode) (x : Addr) (includeItself : Bool) : Option (List Addr) :=
  (chain t x).map fun l => if includeItself then l else l.tail

/-- `TreeNode::parent()` (`src/utils/tree_node.cpp:38-40`). The outer `none` is a dead node, the inner
one is `nullptr`. -/
def parent (t : TreeNode) (x : Addr) : Option (Option Addr) :=
  (chain t x).map fun l => l.tail.head?

/-- `TreeNode::root()` (`src/utils/tree_node.cpp:43-48`). `none`: the node is not live. -/
def root (t : TreeNode) (x : Addr) : Option Addr :=
  (chain t x).bind fun l => l.getLast?

/-- `TreeNode::is_descendant_of` (`src/utils/tree_node.cpp:120-128`): strict. -/
def isDescendantOf (t : TreeNode) (x y : Addr) : Option Bool :=
  (chain t x).map fun l => l.tail.contains y

/-- `TreeNode::is_ancestor_of` (`src/utils/tree_node.cpp:131-133`). -/
def isAncestorOf (t : TreeNode) (x y : Addr) : Option Bool :=
  isDescendantOf t y x

/-- `TreeNode::is_root` (`src/utils/tree_node.cpp:136-138`). -/
def isRoot (t : TreeNode) (x : Addr) : Option Bool :=
  (parent t x).map fun p => p.isNone

/-- `TreeNode::common_ancestor(node, include_themselves)` (`src/utils/tree_node.cpp:105-112`): the first
ancestor of `x` which is among the ancestors of `y`. The outer `none` is a dead node, the inner one is
`nullptr`. -/
def commonAncestor (t : TreeNode) (x y : Addr) (includeThemselves : Bool) : Option (Option Addr) := do
  let as ← ancestors t x includeThemselves
  let bs ← ancestors t y includeThemselves
  return as.find? (bs.contains ·)

mutual
/-- `TreeNode::add_child` (`src/utils/tree_node.cpp:27-29`) called on the node at `x`: a new leaf, put by
the allocator at address `new`, is appended to the child list of `x`. -/
def addChild (t : TreeNode) (x new : Addr) : TreeNode := match t with
  | mk a cs => if a = x then mk a (cs ++ [mk new []]) else mk a (addChildList cs x new)
/-- `addChild` searching `x` in a child list (`src/utils/tree_node.hpp:28`). -/
def addChildList (ts : List TreeNode) (x new : Addr) : List TreeNode := match ts with
  | [] => []
  | c :: cs => addChild c x new :: addChildList cs x new
end

mutual
/-- `TreeNode::erase_from_descendants` (`src/utils/tree_node.cpp:81-88`): children whose address is in
`dead` are erased, with their whole subtree, then the function recurses in the remaining children. -/
def eraseFromDescendants (dead : List Addr) : TreeNode → TreeNode
  | mk a cs => mk a (eraseList dead cs)
/-- The `erase_if` and the loop of `src/utils/tree_node.cpp:82-87`. -/
def eraseList (dead : List Addr) : List TreeNode → List TreeNode
  | [] => []
  | c :: cs =>
    if dead.contains c.addr then eraseList dead cs
    else eraseFromDescendants dead c :: eraseList dead cs
end

end TreeNode
end Verif
