import Verif.Spec.Csx
import Verif.Spec.Conflict
import Verif.Spec.Run

/-!
# What a file of boxes asks for
-/

namespace Verif.Csx.Spec
open Verif.Geom
open Verif.Board.Spec (Clear)

/-- Coordinate of a point of space. -/
def coordOf : Geom.Axis → Point3 → ℚ
  | .x, p => p.x
  | .y, p => p.y
  | .z, p => p.z

/-- A box with its priority. -/
structure Solid where
  priority : Nat
  p1 : Point3
  p2 : Point3
deriving DecidableEq, Repr

/-- The coordinate is between those of the faces of the box. -/
def Solid.Has (s : Solid) (axis : Geom.Axis) (c : ℚ) : Prop := Amid c (coordOf axis s.p1) (coordOf axis s.p2)

/-- The properties that are read, and which of them are ports. -/
def port : PropertyKind → Option Bool
  | .material .. => some false
  | .metal => some false
  | .conductingSheet => some false
  | .lumpedElement => some true
  | .excitation => some true
  | .probeBox => some true
  | .other => none

/-- The boxes of a primitive, by opposite corners. -/
def corners (q : Primitive) : List (Point3 × Point3) :=
  if q.transformed then []
  else match q.shape with
    | .box p1 p2 => [(p1, p2)]
    | .multibox starts ends => starts.zip ends
    | _ => []

/-- The boxes of a file. Those of ports have the highest priority. -/
def solids (props : List Property) : List Solid :=
  props.flatMap fun P => (port P.kind).elim [] fun b =>
    P.primitives.flatMap fun q => (corners q).map fun c => ⟨if b then 18446744073709551615 else q.priority, c.1, c.2⟩

/-- A point primitive of a file is at this coordinate. -/
def PointAt (props : List Property) (axis : Geom.Axis) (c : ℚ) : Prop :=
  ∃ P ∈ props, port P.kind ≠ none ∧ ∃ q ∈ P.primitives, q.transformed = false ∧ ∃ p, q.shape = .point p ∧ coordOf axis p = c

/-- A file of boxes and points, other shapes being transformed or unknown, that is, left out. The coordinates of faces are
equal or clearly apart, and boxes are not flat. -/
structure BoxFile (props : List Property) : Prop where
  only : ∀ P ∈ props, ∀ q ∈ P.primitives, q.transformed = true ∨ (∃ p1 p2, q.shape = .box p1 p2) ∨
    (∃ starts ends, q.shape = .multibox starts ends) ∨ (∃ p, q.shape = .point p) ∨ q.shape = .other
  clear : ∀ s ∈ solids props, ∀ t ∈ solids props, ∀ axis, ∀ a ∈ [coordOf axis s.p1, coordOf axis s.p2],
    ∀ b ∈ [coordOf axis t.p1, coordOf axis t.p2], Clear a b
  thick : ∀ s ∈ solids props, ∀ axis, coordOf axis s.p1 ≠ coordOf axis s.p2

/-- Seen along axis `v`, the side at `c` of a box is within other boxes: each point of that side is in a box of at least the
same priority, which shares a coordinate with it on axis `v`. -/
def Hidden (l : List Solid) (i : Nat) (s : Solid) (axis u v : Geom.Axis) (c : ℚ) : Prop :=
  ∀ t, s.Has u t → ∃ j o, j ≠ i ∧ l[j]? = some o ∧ s.priority ≤ o.priority ∧ (∃ d, s.Has v d ∧ o.Has v d) ∧
    o.Has axis c ∧ o.Has u t

end Verif.Csx.Spec
