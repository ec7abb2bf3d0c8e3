import Verif.Model.Run
import Verif.Spec.Diagonal

/-!
# What the whole run should mean
-/

namespace Verif.Board.Spec
open Verif.Geom
open Verif.Mesh (tolerance)

/-- A board as it is built: the sides of a polygon are made from its points, each edge has its own number and the segment of
its side, in its plane; flat and upright edges have an outer side or share their line with another edge of the plane. Heights
are in order. -/
structure Built (B : Input) : Prop where
  sides : ∀ p, ∀ a ∈ B.polygons p, detectEdges (B.P a).points = some ((B.P a).edges.map (·.2))
  edge : ∀ p, ∀ a ∈ B.polygons p, ∀ e ∈ (B.P a).edges, (B.E e.1).seg = e.2 ∧ (B.E e.1).plane = p
  own : ∀ p, (B.edges p).Nodup
  side : ∀ p, ∀ a ∈ B.polygons p, ∀ e ∈ (B.P a).edges, Horizontal e.2 ∨ Vertical e.2 →
    (B.E e.1).side ≠ .none ∨ ∃ j ∈ B.edges p, e.1 ≠ j ∧ SameLine (B.E e.1).seg (B.E j).seg
  thick : ∀ p, ∀ a ∈ B.polygons p, (B.P a).zmin ≤ (B.P a).zmax

/-- Flat edges of a plane are at the same height or not within the tolerance, and the same for upright edges. -/
structure LinesApart (B : Input) : Prop where
  flat : ∀ p, ∀ i ∈ B.edges p, ∀ j ∈ B.edges p, Horizontal (B.E i).seg → Horizontal (B.E j).seg →
    |(B.E i).seg.p0.y - (B.E j).seg.p0.y| < tolerance → (B.E i).seg.p0.y = (B.E j).seg.p0.y
  upright : ∀ p, ∀ i ∈ B.edges p, ∀ j ∈ B.edges p, Vertical (B.E i).seg → Vertical (B.E j).seg →
    |(B.E i).seg.p0.x - (B.E j).seg.p0.x| < tolerance → (B.E i).seg.p0.x = (B.E j).seg.p0.x

/-- The slanted edges to mesh of a plane. -/
def slantedOf (B : Input) (p : Plane) : List Segment :=
  (((B.edges p).map B.E).filter fun e => decide (e.toMesh = true ∧ Slanted e.seg)).map BEdge.seg

/-- The lower bound of a segment along an axis. -/
def low (va : ViewAxis) (s : Segment) : ℚ := min (along va s.p0) (along va s.p1)

/-- The upper bound of a segment along an axis. -/
def high (va : ViewAxis) (s : Segment) : ℚ := max (along va s.p0) (along va s.p1)

/-- Where what is under the segments starts or stops, seen along the axis. -/
def EndOf (va : ViewAxis) (segments : List Segment) (x : ℚ) : Prop :=
  ((∃ s ∈ segments, low va s = x) ∧ ∀ s ∈ segments, ¬ (low va s < x ∧ x ≤ high va s)) ∨
  ((∃ s ∈ segments, high va s = x) ∧ ∀ s ∈ segments, ¬ (low va s ≤ x ∧ x < high va s))

end Verif.Board.Spec
