import Verif.Spec.Run
import Verif.Spec.Geometry
import Verif.Model.Csx

/-!
# What the polygons added to a board ask for
-/

namespace Verif.Board.Spec
open Verif.Geom Verif.Geom.Spec
open Verif.Mesh (tolerance)

/-- A polygon as it was added. -/
structure Piece where
  plane : Plane
  priority : Nat
  z : ℚ × ℚ
  points : List Point
deriving DecidableEq, Repr

/-- The polygons added, in order. -/
def pieces (added : List Csx.Added) : List Piece :=
  added.filterMap fun
    | .polygon plane _ priority z points => some ⟨plane, priority, z, points⟩
    | .line _ _ => none

/-- The side of a polygon that ends at this vertex. -/
def sideAt (points : List Point) (k : Nat) : Segment := ⟨vertex points (k + points.length - 1), vertex points k⟩

/-- The sides enclose an area, or each flat or upright side is on the line of another. -/
def Sided (points : List Point) : Prop :=
  points ≠ [] ∧ (2 * tolerance ≤ |signedArea points| ∨ ∀ k < points.length,
    Horizontal (sideAt points k) ∨ Vertical (sideAt points k) →
      ∃ j < points.length, k ≠ j ∧ SameLine (sideAt points k) (sideAt points j))

/-- Polygons with sides, heights in order, flat sides of a plane at the same height or not within the tolerance, and the same
for upright sides. -/
structure Plan (l : List Piece) : Prop where
  sided : ∀ x ∈ l, Sided x.points
  thick : ∀ x ∈ l, x.z.1 ≤ x.z.2
  flat : ∀ x ∈ l, ∀ y ∈ l, x.plane = y.plane → ∀ i < x.points.length, ∀ j < y.points.length,
    Horizontal (sideAt x.points i) → Horizontal (sideAt y.points j) →
    |(sideAt x.points i).p0.y - (sideAt y.points j).p0.y| < tolerance → (sideAt x.points i).p0.y = (sideAt y.points j).p0.y
  upright : ∀ x ∈ l, ∀ y ∈ l, x.plane = y.plane → ∀ i < x.points.length, ∀ j < y.points.length,
    Vertical (sideAt x.points i) → Vertical (sideAt y.points j) →
    |(sideAt x.points i).p0.x - (sideAt y.points j).p0.x| < tolerance → (sideAt x.points i).p0.x = (sideAt y.points j).p0.x

/-- `y` may hide sides of `x`: on the same plane, of at least the same priority, at a common height. -/
def Piece.Over (y x : Piece) : Prop :=
  y.plane = x.plane ∧ x.priority ≤ y.priority ∧ ∃ z, x.z.1 ≤ z ∧ z ≤ x.z.2 ∧ y.z.1 ≤ z ∧ z ≤ y.z.2

/-- The slanted sides of a plane. -/
def slantedSides (l : List Piece) (p : Plane) : List Segment :=
  (l.filter fun x => decide (x.plane = p)).flatMap fun x =>
    ((List.range x.points.length).map (sideAt x.points)).filter fun s => decide (Slanted s)

/-- The side of a polygon of this plane is at one coordinate of this axis: an upright one of the axis seen across, a flat one of
the axis seen upwards. -/
def StandsAt (p : Plane) (s : Segment) (axis : Geom.Axis) (c : ℚ) : Prop :=
  (Vertical s ∧ axis = spaceAxis p .h ∧ c = s.p0.x) ∨ (Horizontal s ∧ axis = spaceAxis p .v ∧ c = s.p0.y)

/-- A flat or upright side is at this coordinate of an axis. -/
def SideOf (l : List Piece) (axis : Geom.Axis) (c : ℚ) : Prop :=
  ∃ x ∈ l, ∃ k < x.points.length, StandsAt x.plane (sideAt x.points k) axis c

/-- A slanted side is over this coordinate of an axis. -/
def SlantedOver (l : List Piece) (axis : Geom.Axis) (c : ℚ) : Prop :=
  ∃ p va, spaceAxis p va = axis ∧ ∃ s ∈ slantedSides l p, Under va s c

/-- Slanted sides of a plane start or stop at this coordinate of an axis. -/
def SlantedStop (l : List Piece) (axis : Geom.Axis) (c : ℚ) : Prop :=
  ∃ p va, spaceAxis p va = axis ∧ EndOf va (slantedSides l p) c

/-- A rectangle as thin as the tolerance, or not too small. -/
def Spread (a b : Point) : Prop :=
  |b.x - a.x| < tolerance ∨ |b.y - a.y| < tolerance ∨ tolerance ≤ |(b.x - a.x) * (b.y - a.y)|

/-- A box as thin as the tolerance, or not too small, seen along each axis. -/
def SpreadBox (a b : Csx.Point3) : Prop :=
  Spread ⟨a.y, a.z⟩ ⟨b.y, b.z⟩ ∧ Spread ⟨a.z, a.x⟩ ⟨b.z, b.x⟩ ∧ Spread ⟨a.x, a.y⟩ ⟨b.x, b.y⟩

/-- A shape of which the polygons have sides: not too small; polygons of a file enclose an area; round shapes are seen as
polygons that enclose an area, and are not too thin; a curve has a point. -/
def Sizable (dirs : List Point) : Csx.Shape → Prop
  | .box a b => SpreadBox a b
  | .multibox starts ends => ∀ c ∈ starts.zip ends, SpreadBox c.1 c.2
  | .linpoly _ _ length vertices => 2 * tolerance ≤ |signedArea vertices| ∧
    (∃ u ∈ vertices, ∃ w ∈ vertices, 1 / 5000 ≤ |u.x - w.x|) ∧ (∃ u ∈ vertices, ∃ w ∈ vertices, 1 / 5000 ≤ |u.y - w.y|) ∧
    (length = 0 ∨ 1 / 5000 ≤ |length|)
  | .polygon _ _ vertices => 2 * tolerance ≤ |signedArea vertices|
  | .sphere _ r => 2 * tolerance ≤ r * r * |signedArea dirs|
  | .cylinder a b r => 2 * tolerance ≤ r * r * |signedArea dirs| ∧ 1 / 5000 ≤ r ∧ Clear b.x a.x ∧ Clear b.y a.y ∧ Clear b.z a.z
  | .point _ => True
  | .curve vertices => vertices ≠ []
  | .other => True

end Verif.Board.Spec
