import Verif.Model.Geometry

/-!
# What the geometric functions should mean

Only the data types of the model are used here, none of its functions.
-/

namespace Verif.Geom.Spec
open Verif.Geom Verif.Mesh

/-- `q` is `o + t v`. -/
def At (o v : Point) (t : ℚ) (q : Point) : Prop := q.x = o.x + t * v.x ∧ q.y = o.y + t * v.y

/-- `q` is a point of the segment. -/
def On (s : Segment) (q : Point) : Prop :=
  ∃ t : ℚ, 0 ≤ t ∧ t ≤ 1 ∧ q.x = s.p0.x + t * (s.p1.x - s.p0.x) ∧ q.y = s.p0.y + t * (s.p1.y - s.p0.y)

/-- Twice the signed area of the triangle. -/
def orient (a b c : Point) : ℚ := (b.x - a.x) * (c.y - a.y) - (b.y - a.y) * (c.x - a.x)

/-- The points are strictly on different sides of the line through `a` and `b`. -/
def Separated (a b c d : Point) : Prop :=
  (orient a b c < 0 ∧ 0 < orient a b d) ∨ (orient a b d < 0 ∧ 0 < orient a b c)

/-- Twice the signed area of a closed line, seen from `o`: the sum of the triangles from `o` to each edge. -/
def fan (o : Point) : List Point → ℚ
  | [] => 0
  | [_] => 0
  | a :: b :: rest => orient o a b + fan o (b :: rest)

/-- Twice the area enclosed by a closed line, counterclockwise counted positively: the triangles seen from its first
vertex. -/
def signedArea : List Point → ℚ
  | [] => 0
  | a :: rest => fan a rest

/-- The unit vector of a normal in the plane. -/
def unit : Normal → Point
  | .xmin => ⟨-1, 0⟩ | .xmax => ⟨1, 0⟩ | .ymin => ⟨0, -1⟩ | .ymax => ⟨0, 1⟩ | _ => ⟨0, 0⟩

/-- A point strictly inside the box with these opposite corners. -/
def InsideBox (p1 p3 q : Point) : Prop :=
  min p1.x p3.x < q.x ∧ q.x < max p1.x p3.x ∧ min p1.y p3.y < q.y ∧ q.y < max p1.y p3.y

/-- A point of the box, border included. -/
def WithinBox (p1 p3 q : Point) : Prop :=
  min p1.x p3.x ≤ q.x ∧ q.x ≤ max p1.x p3.x ∧ min p1.y p3.y ≤ q.y ∧ q.y ≤ max p1.y p3.y

/-- A point of the border of the box. -/
def OnBox (p1 p3 q : Point) : Prop :=
  WithinBox p1 p3 q ∧ (q.x = p1.x ∨ q.x = p3.x ∨ q.y = p1.y ∨ q.y = p3.y)

end Verif.Geom.Spec
