import Verif.Model.Build

/-! # Moving a whole document, and what it is to change -/

namespace Verif.Moved
open Verif.Geom (Plane Point Segment)
open Verif.Csx (Point3 Shape Primitive Property Added)
open Verif.Mesh (Sorter)
open Verif.Board (OrderSorter Ang)

/-- How far things are moved, along each axis. -/
structure Shift where
  x : ℚ
  y : ℚ
  z : ℚ

/-- The part of a shift along an axis. -/
def Shift.along (t : Shift) : Geom.Axis → ℚ
  | .x => t.x | .y => t.y | .z => t.z

/-- The part of a shift in a plane. -/
def Shift.inPlane (t : Shift) : Plane → Point
  | .yz => ⟨t.y, t.z⟩ | .zx => ⟨t.z, t.x⟩ | .xy => ⟨t.x, t.y⟩

/-- The part of a shift across a plane. -/
def Shift.across (t : Shift) : Plane → ℚ
  | .yz => t.x | .zx => t.y | .xy => t.z

/-- A point moved, in a plane and in space; a segment; an angle. -/
def point (v p : Point) : Point := ⟨p.x + v.x, p.y + v.y⟩
@[inherit_doc point] def point3 (t : Shift) (p : Point3) : Point3 := ⟨p.x + t.x, p.y + t.y, p.z + t.z⟩
@[inherit_doc point] def segment (v : Point) (s : Segment) : Segment := ⟨point v s.p0, point v s.p1⟩
@[inherit_doc point] def corner (v : Point) (a : Ang) : Ang := ⟨point v a.p, segment v a.e0, segment v a.e1⟩

/-- A shape moved. What is across the axis number 3 and beyond is no shape. -/
def shape (t : Shift) : Shape → Shape
  | .box p q => .box (point3 t p) (point3 t q)
  | .multibox l m => .multibox (l.map (point3 t)) (m.map (point3 t))
  | .linpoly 0 e l v => .linpoly 0 (e + t.x) l (v.map (point ⟨t.y, t.z⟩))
  | .linpoly 1 e l v => .linpoly 1 (e + t.y) l (v.map (point ⟨t.z, t.x⟩))
  | .linpoly 2 e l v => .linpoly 2 (e + t.z) l (v.map (point ⟨t.x, t.y⟩))
  | .linpoly n e l v => .linpoly n e l v
  | .polygon 0 e v => .polygon 0 (e + t.x) (v.map (point ⟨t.y, t.z⟩))
  | .polygon 1 e v => .polygon 1 (e + t.y) (v.map (point ⟨t.z, t.x⟩))
  | .polygon 2 e v => .polygon 2 (e + t.z) (v.map (point ⟨t.x, t.y⟩))
  | .polygon n e v => .polygon n e v
  | .sphere c r => .sphere (point3 t c) r
  | .cylinder p q r => .cylinder (point3 t p) (point3 t q) r
  | .point p => .point (point3 t p)
  | .curve v => .curve (v.map (point3 t))
  | .other => .other

/-- A property with all its primitives moved. -/
def property (t : Shift) (p : Property) : Property :=
  { p with primitives := p.primitives.map fun q => { q with shape := shape t q.shape } }

/-- What is added to a board, moved. -/
def added (t : Shift) : Added → Added
  | .polygon plane m priority z points =>
    .polygon plane m priority (z.1 + t.across plane, z.2 + t.across plane) (points.map (point (t.inPlane plane)))
  | .line axis coord => .line axis (coord + t.along axis)

/-- A sorting function that does nothing but compare: if two lists compare alike they are put in the same order. -/
def Compares {α : Type} (S : Sorter α) : Prop :=
  ∀ (f : α → α) (k k' : α → ℚ) (l : List α), (∀ a ∈ l, ∀ b ∈ l, k (f a) < k (f b) ↔ k' a < k' b) →
    S.sort k (l.map f) = (S.sort k' l).map f

/-- The same of a function given a comparator. -/
def ComparesOrder {α : Type} (S : OrderSorter α) : Prop :=
  ∀ (f : α → α) (lt lt' : α → α → Bool) (l : List α), (∀ a ∈ l, ∀ b ∈ l, lt (f a) (f b) = lt' a b) →
    S.sort lt (l.map f) = (S.sort lt' l).map f

/-- Sorting functions that do nothing but compare. -/
structure AllCompare (S : Board.Sorters) : Prop where
  points : ComparesOrder S.points
  overlaps : Compares S.overlaps
  pointers : Compares S.pointers
  intervals : Compares S.intervals
  lines : Compares S.lines

/-- The measure of angles does not depend on where they are. -/
def Placeless (angle : Ang → ℚ) : Prop := ∀ v a, angle (corner v a) = angle a

/-- The lines of an axis that come out for what is added to a board; undefined behaviour when the board cannot be made. -/
def lines (S : Board.Sorters) (sort : List (Board.MaterialKind × Nat) → List (Board.MaterialKind × Nat)) (g : Mesh.MeshParams)
    (gz : Board.ZoneParams) (angle : Ang → ℚ) (background : Option Board.MaterialKind) (w : Geom.Axis) (l : List Added) :
    Board.Outcome (List ℚ) :=
  (Board.Outcome.orUb (Board.buildDesign angle background l)).bind fun D =>
    (Board.runDesign S sort g gz D w).map fun r => r.2.meshlines

end Verif.Moved
