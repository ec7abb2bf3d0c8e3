import Verif.Model.Layout
import Verif.Spec.Graph

/-! What placing the nodes of the processing view is meant to come to. -/

namespace Verif.Layout.Spec
open Verif.Graph Verif.Graph.Spec

variable {ι : Type}

/-- The nodes are in their zone, of size `W` and `H`, the margins left free; each column is on the right of those before it, the
margin between them; in a column the nodes are aligned and each is below those before it, the margin between them. -/
structure Tidy (box : ι → Box) (mw mh : ℚ) (nodes : List ι) (W H : ℚ) (pos : ι → ℚ × ℚ) : Prop where
  left : ∀ a ∈ nodes, mw ≤ (pos a).1
  right : ∀ a ∈ nodes, (pos a).1 + (box a).w ≤ W - mw
  top : ∀ a ∈ nodes, mh ≤ (pos a).2
  bottom : ∀ a ∈ nodes, (pos a).2 + (box a).h ≤ H - mh
  columns : ∀ a ∈ nodes, ∀ b ∈ nodes, (box a).col < (box b).col → (pos a).1 + (box a).w + mw ≤ (pos b).1
  rows : nodes.Pairwise fun a b => (box a).col = (box b).col → (pos a).1 = (pos b).1 ∧ (pos a).2 + (box a).h + mh ≤ (pos b).2

/-- The first node is at the height `top`, and `gap` separates each from the next. -/
def Spaced (box : ι → Box) (y : ι → ℚ) (gap : ℚ) : ℚ → List ι → Prop
  | _, [] => True
  | top, a :: rest => y a = top ∧ Spaced box y gap (y a + (box a).h + gap) rest

/-- The two rectangles have no point in common: one is beside or above the other. -/
def Apart (p q : ℚ × ℚ) (s t : ℚ × ℚ) : Prop :=
  p.1 + s.1 < q.1 ∨ q.1 + t.1 < p.1 ∨ p.2 + s.2 < q.2 ∨ q.2 + t.2 < p.2

/-- The first visible one is at the height `top`, and 100 separates each visible one from the next. -/
def Stacked (visible : ι → Bool) (size pos : ι → ℚ × ℚ) : ℚ → List ι → Prop
  | _, [] => True
  | top, a :: rest =>
    if visible a = true then (pos a).2 = top ∧ Stacked visible size pos ((pos a).2 + (size a).2 + 100) rest
    else Stacked visible size pos top rest

/-- The rectangle holds the other, with at least `m` on every side. -/
def Holds (r : Rect) (m : ℚ) (p s : ℚ × ℚ) : Prop :=
  r.left + m ≤ p.1 ∧ r.top + m ≤ p.2 ∧ p.1 + s.1 + m ≤ r.right ∧ p.2 + s.2 + m ≤ r.bottom

/-- `rank` is an order in which the policies and the conflicts between them can have been made: what an object comes from was
made before it, and the policies of a conflict stay on the board. -/
structure Made (b : Graph.Board) (rank : Entity → Nat) : Prop where
  policy : ∀ i c, Linked b (.tcmlp c) (.policy i) → rank (.tcmlp c) < rank (.policy i)
  conflict : ∀ c i, Linked b (.policy i) (.tcmlp c) → rank (.policy i) < rank (.tcmlp c)
  few : ∀ e, rank e < 2 ^ 62
  kept : ∀ c ∈ b.tcmlps, (b.tcmlpPolicies c).1 ∈ b.policies

/-- The kinds of what is shown in an axis. -/
def InAxis : Entity → Prop
  | .ce _ | .policy _ | .tcmlp _ | .docz _ | .interval _ | .meshline _ => True
  | _ => False

end Verif.Layout.Spec
