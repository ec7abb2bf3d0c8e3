import Verif.Model.Diagonal
import Verif.Model.EdgeInPolygon

/-!
# What the structure view draws

Model of `StructureView::populate` (`src/ui/qt/structure_view/structure_view.cpp:224-262`), of the functions `add` of the
scenes (`src/ui/qt/structure_view/structure_scene.cpp`) and of the shapes the constructors of the items compute.

Simplifications. `qreal` is an exact rational. Pens, brushes, hovering and the choice of a style are left out. The
rectangle of a scene, which Qt computes from its items, is any rectangle. The scenes have been emptied by `clear_all`.
-/

namespace Verif.Structure
open Verif.Geom (Plane ViewAxis Point Segment axes transposeAxis)
open Verif.Board (BEdge BAngle Zone Outcome Colinear Zones)
open Verif.Mesh (Policy Policies Interval)

/-- `QRectF`, by its sides (`src/ui/qt/structure_view/structure_view.cpp:238`). In Qt `top` is the smallest `y`. -/
structure Rect where
  left : ℚ
  top : ℚ
  right : ℚ
  bottom : ℚ
  deriving DecidableEq, Repr

/-- The enlarged rectangle (`src/ui/qt/structure_view/structure_meshline.cpp:21-22` and the same two lines in
`structure_meshline_policy.cpp:21-22, 42-43`, `structure_interval.cpp:22-23`,
`structure_conflict_colinear_edges.cpp:22-23`, `structure_conflict_diagonal_or_circular_zone.cpp:22-23`,
`structure_conflict_too_close_meshline_policies.cpp:22-23`). -/
def Rect.enlarged (r : Rect) : Rect :=
  let side := max (r.right - r.left) (r.bottom - r.top)
  ⟨r.left - side * 2, r.top - side * 2, r.right + side * 2, r.bottom + side * 2⟩

/-- What an item draws: `QLineF`, `QRectF` from two corners, `QPolygonF`, an ellipse in a `QRectF`
(`src/ui/qt/structure_view/structure_meshline.hpp:24`, `structure_interval.hpp:24`, `structure_polygon.hpp:24`,
`structure_angle.hpp:24`). -/
inductive Shape where
  | line (p q : Point)
  | rect (p q : Point)
  | polygon (points : List Point)
  | ellipse (corner : Point) (width height : ℚ)
  deriving DecidableEq, Repr

/-- The line at a coordinate (`convert` in `src/ui/qt/structure_view/structure_meshline.cpp:20-36`, `convert_main` in
`structure_meshline_policy.cpp:20-36`, `convert` in `structure_conflict_too_close_meshline_policies.cpp:21-37`). The axis
is that of the line. -/
def lineAt (r : Rect) (axis : ViewAxis) (coord : ℚ) : Shape :=
  let s := r.enlarged
  match axis with
  | .h => .line ⟨s.left, coord⟩ ⟨s.right, coord⟩
  | .v => .line ⟨coord, s.bottom⟩ ⟨coord, s.top⟩

/-- The rectangle between two coordinates (`convert` in `src/ui/qt/structure_view/structure_interval.cpp:21-43` and in
`structure_conflict_diagonal_or_circular_zone.cpp:21-38`). -/
def bandAt (r : Rect) (axis : ViewAxis) (first last : ℚ) : Shape :=
  let s := r.enlarged
  match axis with
  | .h => .rect ⟨s.left, first⟩ ⟨s.right, last⟩
  | .v => .rect ⟨first, s.bottom⟩ ⟨last, s.top⟩

/-- The offsets of the lines around a policy (`src/ui/qt/structure_view/structure_meshline_policy.cpp:44-60`). -/
def offsets (p : Policy) : ℚ × ℚ :=
  match p.kind with
  | .oneline => (0, 0)
  | .halfs => (p.d / 2, -p.d / 2)
  | .thirds => match p.normal with
    | .max => (2 / 3 * p.d, -(1 / 3) * p.d)
    | .min => (1 / 3 * p.d, -(2 / 3) * p.d)
    | .none => (0, 0)

/-- `convert_policy_lines` (`src/ui/qt/structure_view/structure_meshline_policy.cpp:40-84`). -/
def policyLines (r : Rect) (axis : ViewAxis) (p : Policy) : List Shape :=
  [lineAt r axis (p.coord + (offsets p).1), lineAt r axis (p.coord + (offsets p).2)]

/-- `convert` of a colinear conflict (`src/ui/qt/structure_view/structure_conflict_colinear_edges.cpp:21-37`): the first
edge gives the coordinate. `edges[0]` of no edge is undefined behaviour. -/
def colinearLine (E : Nat → BEdge) (r : Rect) (axis : ViewAxis) (edges : List Nat) : Outcome Shape :=
  match edges with
  | [] => .ub
  | e :: _ => .ok (lineAt r axis (match axis with | .h => (E e).seg.p0.y | .v => (E e).seg.p0.x))

/-- `convert` of a polygon (`src/ui/qt/structure_view/structure_polygon.cpp:24-31`); `first` of no point is undefined
behaviour. -/
def polygonShape (points : List Point) : Outcome Shape :=
  match points with
  | [] => .ub
  | p :: rest => .ok (.polygon (p :: rest ++ [p]))

/-- `diameter` (`src/ui/qt/structure_view/structure_angle.cpp:19`). -/
def diameter : ℚ := 5

/-- `convert` and `convert_cross_lines` of an angle (`src/ui/qt/structure_view/structure_angle.cpp:22-36`). -/
def angleShapes (p : Point) : List Shape :=
  [.ellipse ⟨p.x - diameter / 2, p.y - diameter / 2⟩ diameter diameter,
    .line ⟨p.x, p.y + diameter / 2⟩ ⟨p.x, p.y - diameter / 2⟩,
    .line ⟨p.x + diameter / 2, p.y⟩ ⟨p.x - diameter / 2, p.y⟩]

/-- A conflict of too close policies with its solution
(`src/domain/conflicts/conflict_too_close_meshline_policies.hpp:18-34`,
`conflict.hpp:23-26`), as pointers to policies of the axis. -/
structure TooClose where
  first : Nat
  second : Nat
  solution : Option Nat
  deriving DecidableEq, Repr

/-- What the board holds that is drawn: the results of the functions called on it
(`src/ui/qt/structure_view/structure_view.cpp:228-258`), and what the pointers to edges and angles refer to. -/
structure Content where
  polygons : Plane → List (List Point × List Segment)
  angles : Plane → List Point
  axis : Geom.Axis → Mesh.Axis
  colinear : Colinear
  zones : Zones
  tooClose : Geom.Axis → List TooClose
  edge : Nat → BEdge
  angle : Nat → BAngle

/-- The key of an item in the index of its scene, a pointer to the object drawn
(`src/ui/qt/structure_view/structure_scene.cpp:119, 146, 156, 196, 207, 218, 229, 240, 251`). The objects are known by
their places in the lists. -/
inductive Entity where
  | polygon (n : Nat)
  | edge (polygon n : Nat)
  | angle (n : Nat)
  | meshline (axis : Geom.Axis) (n : Nat)
  | policy (axis : Geom.Axis) (n : Nat)
  | interval (axis : Geom.Axis) (n : Nat)
  | colinear (axis : Geom.Axis) (n : Nat)
  | zone (axis : Geom.Axis) (n : Nat)
  | tooClose (axis : Geom.Axis) (n : Nat)
  deriving DecidableEq, Repr

/-- An item, with the group of lines it is put in (`src/ui/qt/structure_view/structure_scene.cpp:117-263`); the first shape
is that of the item, the others are the lines it also draws. -/
structure Item where
  entity : Entity
  group : Option ViewAxis
  shapes : List Shape
  deriving DecidableEq, Repr

/-- The two loops over polygons and edges (`src/ui/qt/structure_view/structure_view.cpp:228-233`, `structure_scene.cpp:144-190`,
`structure_edge.cpp:21`). -/
def polygonItems (l : List (List Point × List Segment)) : List (Outcome Item) :=
  (l.zipIdx.map fun pn =>
    (polygonShape pn.1.1).map (fun s => (⟨.polygon pn.2, none, [s]⟩ : Item)) ::
      pn.1.2.zipIdx.map fun em => .ok ⟨.edge pn.2 em.2, none, [.line em.1.p0 em.1.p1]⟩).flatten

/-- The loop over the angles (`src/ui/qt/structure_view/structure_view.cpp:235-236`, `structure_scene.cpp:117-141`). -/
def angleItems (l : List Point) : List (Outcome Item) :=
  l.zipIdx.map fun pn => .ok ⟨.angle pn.2, none, angleShapes pn.1⟩

/-- `add` of a mesh line (`src/ui/qt/structure_view/structure_scene.cpp:237-245`). -/
def meshlineItem (r : Rect) (axis : Geom.Axis) (va : ViewAxis) (n : Nat) (x : ℚ) : Item :=
  ⟨.meshline axis n, some va.reverse, [lineAt r va.reverse x]⟩

/-- `add` of a policy (`src/ui/qt/structure_view/structure_scene.cpp:248-263`). -/
def policyItem (r : Rect) (axis : Geom.Axis) (va : ViewAxis) (n : Nat) (p : Policy) : Item :=
  ⟨.policy axis n, some va.reverse, lineAt r va.reverse p.coord :: policyLines r va.reverse p⟩

/-- `add` of an interval (`src/ui/qt/structure_view/structure_scene.cpp:226-234`). -/
def intervalItem (ps : Policies) (r : Rect) (axis : Geom.Axis) (va : ViewAxis) (n : Nat) (i : Interval) : Item :=
  ⟨.interval axis n, some va.reverse, [bandAt r va.reverse (ps i.before.policy).coord (ps i.after.policy).coord]⟩

/-- `add` of a colinear conflict (`src/ui/qt/structure_view/structure_scene.cpp:193-201`). -/
def colinearItem (E : Nat → BEdge) (r : Rect) (axis : Geom.Axis) (va : ViewAxis) (n : Nat) (edges : List Nat) : Outcome Item :=
  (colinearLine E r va.reverse edges).map fun s => ⟨.colinear axis n, some va.reverse, [s]⟩

/-- `add` of a zone (`src/ui/qt/structure_view/structure_scene.cpp:204-212`); `bounding` of a zone without angles, or with
angles of a plane that does not hold its axis, is undefined. -/
def zoneItem (A : Nat → BAngle) (r : Rect) (axis : Geom.Axis) (va : ViewAxis) (n : Nat) (z : Zone) : Outcome Item :=
  match z.bounding A with
  | none => .ub
  | some b => .ok ⟨.zone axis n, some va.reverse, [bandAt r va.reverse b.1 b.2]⟩

/-- `add` of a conflict of too close policies (`src/ui/qt/structure_view/structure_scene.cpp:215-223`,
`structure_conflict_too_close_meshline_policies.cpp:40-47`): without a solution a null pointer is dereferenced. -/
def tooCloseItem (ps : Policies) (r : Rect) (axis : Geom.Axis) (va : ViewAxis) (n : Nat) (c : TooClose) : Outcome Item :=
  match c.solution with
  | none => .ub
  | some s => .ok ⟨.tooClose axis n, some va.reverse,
      [lineAt r va.reverse (ps s).coord, lineAt r va.reverse (ps c.first).coord, lineAt r va.reverse (ps c.second).coord]⟩

/-- The body of the loop over the axes (`src/ui/qt/structure_view/structure_view.cpp:241-259`). -/
def axisItems (c : Content) (r : Rect) (axis : Geom.Axis) (va : ViewAxis) : List (Outcome Item) :=
  let a := c.axis axis
  (a.meshlines.zipIdx.map fun xn => .ok (meshlineItem r axis va xn.2 xn.1)) ++
  (a.policies.zipIdx.map fun pn => .ok (policyItem r axis va pn.2 pn.1)) ++
  (a.intervals.zipIdx.map fun i => .ok (intervalItem a.get r axis va i.2 i.1)) ++
  ((c.colinear axis).zipIdx.map fun k => colinearItem c.edge r axis va k.2 k.1) ++
  ((c.zones axis).zipIdx.map fun z => zoneItem c.angle r axis va z.2 z.1) ++
  (c.tooClose axis).zipIdx.map fun k => tooCloseItem a.get r axis va k.2 k.1

/-- Adding items one after the other (`src/ui/qt/structure_view/structure_view.cpp:224-262`): the first failure ends all. -/
def inTurn : List (Outcome Item) → Outcome (List Item)
  | [] => .ok []
  | o :: rest => o.bind fun i => (inTurn rest).map fun l => i :: l

/-- `StructureView::populate` (`src/ui/qt/structure_view/structure_view.cpp:224-262`) on the scene of a plane. -/
def populate (c : Content) (r : Rect) (plane : Plane) : Outcome (List Item) :=
  inTurn (polygonItems (c.polygons plane) ++ angleItems (c.angles plane) ++
    [axes plane .h, axes plane .v].flatMap fun axis =>
      match transposeAxis plane axis with
      | none => []
      | some va => axisItems c r axis va)

end Verif.Structure
