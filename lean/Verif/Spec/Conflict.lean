import Verif.Model.Conflict
import Verif.Spec.Geometry

/-!
# What the conflicts between edges should mean

Only the data types of the model are used here, none of its functions.
-/

namespace Verif.Board.Spec
open Verif.Geom
open Verif.Mesh (Kind Facing tolerance)

/-- Flat up to the tolerance, and not a point. -/
def Horizontal (s : Segment) : Prop := |s.p1.y - s.p0.y| < tolerance ∧ tolerance ≤ |s.p1.x - s.p0.x|

/-- Upright up to the tolerance, and not a point. -/
def Vertical (s : Segment) : Prop := |s.p1.x - s.p0.x| < tolerance ∧ tolerance ≤ |s.p1.y - s.p0.y|

/-- Both horizontal at the same height, or both vertical at the same abscissa, up to the tolerance. -/
def SameLine (a b : Segment) : Prop :=
  (Horizontal a ∧ Horizontal b ∧ |a.p0.y - b.p0.y| < tolerance) ∨
  (Vertical a ∧ Vertical b ∧ |a.p0.x - b.p0.x| < tolerance)

/-- Two edges share a conflict. -/
def Together (s : Geom.Axis → List (List Nat)) (a b : Nat) : Prop := ∃ axis, ∃ c ∈ s axis, a ∈ c ∧ b ∈ c

/-- The side of a line an edge is facing, along the axis the line is fixed on. -/
def facing : Normal → Facing
  | .xmin => .min | .ymin => .min | .zmin => .min | .xmax => .max | .ymax => .max | .zmax => .max | .none => .none

/-- The opposite side. -/
def opposite : Facing → Facing
  | .min => .max | .max => .min | .none => .none

/-- An edge to be meshed that faces this way, after the reversal asked for. -/
def Faces (f : Facing) (e : BEdge) : Prop :=
  e.toMesh = true ∧ (if e.toReverse = true then opposite (facing e.side) else facing e.side) = f

/-- Port over conductor over dielectric over air. -/
def rank : MaterialKind → Nat
  | .port => 3 | .conductor => 2 | .dielectric => 1 | .air => 0

/-- The boxes have a common point. -/
def BoxesMeet (a b : Bounding) : Prop :=
  ∃ q : Point, a.xmin ≤ q.x ∧ q.x ≤ a.xmax ∧ b.xmin ≤ q.x ∧ q.x ≤ b.xmax ∧
    a.ymin ≤ q.y ∧ q.y ≤ a.ymax ∧ b.ymin ≤ q.y ∧ q.y ≤ b.ymax

/-- The same point up to the tolerance. -/
def Near (p q : Point) : Prop := |p.x - q.x| < tolerance ∧ |p.y - q.y| < tolerance

/-- The same two ends up to the tolerance. -/
def SameEnds (a b : Segment) : Prop := (Near a.p0 b.p0 ∧ Near a.p1 b.p1) ∨ (Near a.p0 b.p1 ∧ Near a.p1 b.p0)

/-- Going down (seen from left to right), by more than the tolerance can hide. -/
def GoesDown (s : Segment) : Prop :=
  2 * tolerance ≤ |s.p1.x - s.p0.x| ∧ 2 * tolerance ≤ |s.p1.y - s.p0.y| ∧
    (s.p1.x - s.p0.x) * (s.p1.y - s.p0.y) < 0

/-- The same coordinate, or coordinates clearly apart: by more than twice the square root of the tolerance, as the areas of
triangles are compared with the tolerance. -/
def Clear (a b : ℚ) : Prop := a = b ∨ 1 / 5000 ≤ |a - b|

end Verif.Board.Spec
