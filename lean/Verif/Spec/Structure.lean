import Verif.Model.Structure

/-!
# What a drawing of the board should be

Written without the functions that draw: a picture of a plane has one axis from left to right and one from top to bottom,
and what belongs to an axis is drawn at its coordinate along this axis, from one end of the picture to the other.
-/

namespace Verif.Structure.Spec
open Verif.Geom (Plane ViewAxis Point Segment)
open Verif.Board (BEdge BAngle Zone)

/-- The axis from left to right. -/
def horizontal : Plane → Geom.Axis
  | .yz => .y | .zx => .z | .xy => .x

/-- The other axis of the picture. -/
def vertical : Plane → Geom.Axis
  | .yz => .z | .zx => .x | .xy => .y

/-- A plane holds two of the axes. -/
def Holds (plane : Plane) (a : Geom.Axis) : Prop := horizontal plane = a ∨ vertical plane = a

instance (plane : Plane) (a : Geom.Axis) : Decidable (Holds plane a) := inferInstanceAs (Decidable (_ ∨ _))

/-- The coordinate of a point of a plane along an axis. -/
def along (plane : Plane) (a : Geom.Axis) (p : Point) : Option ℚ :=
  if horizontal plane = a then some p.x else if vertical plane = a then some p.y else none

/-- The segment from `p` to `q` goes past both ends of the picture, across the axis. -/
def Past (plane : Plane) (a : Geom.Axis) (r : Rect) (p q : Point) : Prop :=
  if horizontal plane = a then min p.y q.y ≤ r.top ∧ r.bottom ≤ max p.y q.y
  else min p.x q.x ≤ r.left ∧ r.right ≤ max p.x q.x

/-- A line across the picture, at a coordinate of an axis. -/
def LineAcross (plane : Plane) (a : Geom.Axis) (r : Rect) (c : ℚ) : Shape → Prop
  | .line p q => along plane a p = some c ∧ along plane a q = some c ∧ Past plane a r p q
  | _ => False

/-- A strip across the picture, between two coordinates of an axis. -/
def StripAcross (plane : Plane) (a : Geom.Axis) (r : Rect) (c d : ℚ) : Shape → Prop
  | .rect p q => along plane a p = some c ∧ along plane a q = some d ∧ Past plane a r p q
  | _ => False

/-- The group of the buttons that show or hide the vertical lines, or the horizontal ones. -/
def groupOf (plane : Plane) (a : Geom.Axis) : ViewAxis := if horizontal plane = a then .v else .h

/-- The objects to be seen in the picture of a plane. -/
def Present (c : Content) (plane : Plane) : Entity → Prop
  | .polygon n => n < (c.polygons plane).length
  | .edge m n => ∃ p, (c.polygons plane)[m]? = some p ∧ n < p.2.length
  | .angle n => n < (c.angles plane).length
  | .meshline a n => Holds plane a ∧ n < (c.axis a).meshlines.length
  | .policy a n => Holds plane a ∧ n < (c.axis a).policies.length
  | .interval a n => Holds plane a ∧ n < (c.axis a).intervals.length
  | .colinear a n => Holds plane a ∧ n < (c.colinear a).length
  | .zone a n => Holds plane a ∧ n < (c.zones a).length
  | .tooClose a n => Holds plane a ∧ n < (c.tooClose a).length

/-- A point is in the middle of the ends of a segment. -/
def Middle (p : Point) : Shape → Prop
  | .line q r => q.x + r.x = 2 * p.x ∧ q.y + r.y = 2 * p.y
  | .ellipse q w h => q.x + w / 2 = p.x ∧ q.y + h / 2 = p.y
  | _ => False

/-- The place of a policy. -/
def place (c : Content) (a : Geom.Axis) (n : Nat) : ℚ := ((c.axis a).get n).coord

/-- An item that is at the place of its object. -/
def Right (c : Content) (plane : Plane) (r : Rect) (i : Item) : Prop :=
  match i.entity with
  | .polygon n => ∃ points edges l, (c.polygons plane)[n]? = some (points, edges) ∧ i.shapes = [.polygon l] ∧
      l.dropLast = points ∧ l.getLast? = points.head?
  | .edge m n => ∃ points edges e, (c.polygons plane)[m]? = some (points, edges) ∧ edges[n]? = some e ∧
      i.shapes = [.line e.p0 e.p1]
  | .angle n => ∃ p s l, (c.angles plane)[n]? = some p ∧ i.shapes = s :: l ∧ Middle p s ∧ ∀ t ∈ l, Middle p t
  | .meshline a n => i.group = some (groupOf plane a) ∧ ∃ x s, (c.axis a).meshlines[n]? = some x ∧ i.shapes = [s] ∧
      LineAcross plane a r x s
  | .policy a n => i.group = some (groupOf plane a) ∧ ∃ p s u v, (c.axis a).policies[n]? = some p ∧ i.shapes = [s, u, v] ∧
      LineAcross plane a r p.coord s
  | .interval a n => i.group = some (groupOf plane a) ∧ ∃ k s, (c.axis a).intervals[n]? = some k ∧ i.shapes = [s] ∧
      StripAcross plane a r (place c a k.before.policy) (place c a k.after.policy) s
  | .colinear a n => i.group = some (groupOf plane a) ∧ ∃ e l x s, (c.colinear a)[n]? = some (e :: l) ∧ i.shapes = [s] ∧
      along (c.edge e).plane a (c.edge e).seg.p0 = some x ∧ LineAcross plane a r x s
  | .zone a n => i.group = some (groupOf plane a) ∧ ∃ z k l x y s, (c.zones a)[n]? = some z ∧ z.angles.head? = some k ∧
      z.angles.getLast? = some l ∧ i.shapes = [s] ∧ along (c.angle k).plane a (c.angle k).p = some x ∧
      along (c.angle l).plane a (c.angle l).p = some y ∧ StripAcross plane a r x y s
  | .tooClose a n => i.group = some (groupOf plane a) ∧ ∃ k m s u v, (c.tooClose a)[n]? = some k ∧ k.solution = some m ∧
      i.shapes = [s, u, v] ∧ LineAcross plane a r (place c a m) s ∧ LineAcross plane a r (place c a k.first) u ∧
      LineAcross plane a r (place c a k.second) v

/-- The colinear conflicts drawn in the plane of their edges; everything else is asked for without condition. -/
def OwnPlane (c : Content) (plane : Plane) : Entity → Prop
  | .colinear a n => ∀ e l, (c.colinear a)[n]? = some (e :: l) → (c.edge e).plane = plane
  | _ => True

/-- What keeps the drawing defined: polygons have points, conflicts have edges, zones have angles in planes that hold
their axis, and too close policies have been merged. -/
def Drawable (c : Content) (plane : Plane) : Prop :=
  (∀ p ∈ c.polygons plane, p.1 ≠ []) ∧
  ∀ a, Holds plane a → (∀ k ∈ c.colinear a, k ≠ []) ∧ (∀ k ∈ c.tooClose a, k.solution ≠ none) ∧
    ∀ z ∈ c.zones a, ∃ k l, z.angles.head? = some k ∧ z.angles.getLast? = some l ∧
      Holds (c.angle k).plane z.axis ∧ Holds (c.angle l).plane z.axis

end Verif.Structure.Spec
