import Verif.Model.Tree

/-! Specification of the timepoint tree, stated on the shape of the tree alone: subtrees and the
parent-child relation. Nothing here uses the functions of `tree_node.cpp`, except `addChild` and
`eraseFromDescendants` to say how trees come to be. -/

namespace Verif.Spec

open Verif

/-- `s` is `t`, or a subtree of one of its children. -/
inductive Sub : TreeNode → TreeNode → Prop
  | refl (t) : Sub t t
  | child {s c t} : c ∈ t.children → Sub s c → Sub s t

/-- `x` is the address of a node of `t`. -/
def IsNode (t : TreeNode) (x : Addr) : Prop := ∃ s, Sub s t ∧ s.addr = x

/-- The node at `x` is a child of the node at `p`. -/
def ChildOf (t : TreeNode) (x p : Addr) : Prop :=
  ∃ s, Sub s t ∧ s.addr = p ∧ ∃ c ∈ s.children, c.addr = x

/-- `x` is a child of `y`, or a child of a node that descends from `y`. -/
inductive Descends (t : TreeNode) : Addr → Addr → Prop
  | child {x p} : ChildOf t x p → Descends t x p
  | step {x p y} : ChildOf t x p → Descends t p y → Descends t x y

/-- Trees built from a lone root by adding children at addresses that are not in use and erasing. -/
inductive Built : TreeNode → Prop
  | root (a) : Built (.mk a [])
  | add {t x new} : Built t → IsNode t x → ¬ IsNode t new → Built (t.addChild x new)
  | erase {t} (dead) : Built t → Built (t.eraseFromDescendants dead)

end Verif.Spec
