import Verif.Model.Diagonal
import Verif.Spec.Conflict

/-!
# What the diagonal zones should mean

Only the data types of the model are used here, none of its functions.
-/

namespace Verif.Board.Spec
open Verif.Geom
open Verif.Mesh (Kind Facing tolerance)

/-- The abscissa, or the ordinate. -/
def along : ViewAxis → Point → ℚ
  | .h, p => p.x | .v, p => p.y

/-- Neither flat, nor upright, nor a point. -/
def Slanted (s : Segment) : Prop := tolerance ≤ |s.p1.x - s.p0.x| ∧ tolerance ≤ |s.p1.y - s.p0.y|

instance (s : Segment) : Decidable (Slanted s) := inferInstanceAs (Decidable (_ ∧ _))

/-- `x` is under the segment, seen along the axis. -/
def Under (va : ViewAxis) (s : Segment) (x : ℚ) : Prop :=
  min (along va s.p0) (along va s.p1) ≤ x ∧ x ≤ max (along va s.p0) (along va s.p1)

/-- The axis of space seen along this axis of the view of this plane: the planes are seen from the third axis, in the
cyclic order. -/
def spaceAxis : Plane → ViewAxis → Geom.Axis
  | .xy, .h => .x | .xy, .v => .y | .yz, .h => .y | .yz, .v => .z | .zx, .h => .z | .zx, .v => .x

/-- A list of angles spans from `lo` to `hi`: its first angle is at `lo`, its last one at `hi`, and all are between. -/
def Spans (A : Nat → BAngle) (va : ViewAxis) (l : List Nat) (lo hi : ℚ) : Prop :=
  (∃ a, l.head? = some a ∧ along va (A a).p = lo) ∧ (∃ a, l.getLast? = some a ∧ along va (A a).p = hi) ∧
    ∀ a ∈ l, lo ≤ along va (A a).p ∧ along va (A a).p ≤ hi

/-- The vertex of a polygon at this position, counted around it. -/
def vertex (points : List Point) (j : Nat) : Point := (points[j % points.length]?).getD ⟨0, 0⟩

/-- The angle at a vertex of a polygon, between the side arriving there and the side leaving, when one is slanted. -/
def cornerAt (points : List Point) (j : Nat) : Option Ang :=
  let arriving : Segment := ⟨vertex points (j + points.length - 1), vertex points j⟩
  let leaving : Segment := ⟨vertex points j, vertex points (j + 1)⟩
  if Slanted arriving ∨ Slanted leaving then some ⟨vertex points j, arriving, leaving⟩ else none

/-- The segments cross: the ends of each are on both sides of the line of the other, not too close to it. -/
def ClearlyCross (a b : Segment) : Prop :=
  Geom.Spec.Separated a.p0 a.p1 b.p0 b.p1 ∧ Geom.Spec.Separated b.p0 b.p1 a.p0 a.p1 ∧
  2 * tolerance ≤ |Geom.Spec.orient a.p0 a.p1 b.p0| ∧ 2 * tolerance ≤ |Geom.Spec.orient a.p0 a.p1 b.p1| ∧
  2 * tolerance ≤ |Geom.Spec.orient b.p0 b.p1 a.p0| ∧ 2 * tolerance ≤ |Geom.Spec.orient b.p0 b.p1 a.p1|

/-- The zones are the connected pieces of what is under the segments, seen along the axis: every segment is over one zone,
every point of a zone is under a segment, the zones go upwards without touching. -/
structure Pieces (A : Nat → BAngle) (va : ViewAxis) (segments : List Segment) (zones : List Zone) : Prop where
  spans : ∀ z ∈ zones, ∃ lo hi, Spans A va z.angles lo hi ∧ lo < hi ∧
    ∀ x, lo ≤ x → x ≤ hi → ∃ s ∈ segments, Under va s x
  over : ∀ s ∈ segments, ∃ z ∈ zones, ∃ lo hi, Spans A va z.angles lo hi ∧ ∀ x, Under va s x → lo ≤ x ∧ x ≤ hi
  apart : zones.Pairwise fun y z => ∀ a ∈ y.angles, ∀ b ∈ z.angles, along va (A a).p < along va (A b).p

/-- The zone has angles, all of one plane, and goes from `lo` to `hi` on its axis. -/
def Reaches (A : Nat → BAngle) (z : Zone) (lo hi : ℚ) : Prop :=
  ∃ plane va, (∀ a ∈ z.angles, (A a).plane = plane) ∧ spaceAxis plane va = z.axis ∧ Spans A va z.angles lo hi

/-- The zone has this coordinate. -/
def Covers (A : Nat → BAngle) (z : Zone) (x : ℚ) : Prop := ∃ lo hi, Reaches A z lo hi ∧ lo ≤ x ∧ x ≤ hi

/-- On each axis, no angle is in two zones, and no zone is empty or of another axis. -/
structure Tidy (zones : Zones) : Prop where
  once : ∀ w, ((zones w).flatMap Zone.angles).Nodup
  some : ∀ w, ∀ z ∈ zones w, z.angles ≠ [] ∧ z.axis = w

end Verif.Board.Spec
