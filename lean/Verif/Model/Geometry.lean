import Verif.Model.Interval
import Mathlib.Algebra.BigOperators.Group.List.Basic

/-!
# Planar geometry

Model of `src/domain/geometrics/{coord,point,bounding,space,normal,segment,range,edge,polygon}.cpp` and of
`Board::Builder::add_polygon_from_box` (`src/domain/board.cpp`).

Simplifications. Coordinates are exact rationals. The state of an edge or polygon (conflicts, `to_mesh`) is not
here, nor are materials, names and priorities. Points are values rather than pointers. `angle` and
`circle_to_points`, which use trigonometry, are left out.
-/

namespace Verif.Geom
open Verif.Mesh (tolerance)

/-! ## Coordinates, points, boxes -/

/-- `operator==` of `Coord` (`src/domain/geometrics/coord.cpp:28-30`). The order operators are the exact ones
(`src/domain/geometrics/coord.cpp:38-55`). -/
def coordEq (a b : ℚ) : Bool := decide (|a - b| < tolerance)

/-- `mid` (`src/domain/geometrics/coord.cpp:78-80`). -/
def mid (a b : ℚ) : ℚ := (a + b) / 2

/-- `Point` (`src/domain/geometrics/point.hpp:18`). -/
structure Point where
  x : ℚ
  y : ℚ
  deriving DecidableEq, Repr

/-- `operator-` (`src/domain/geometrics/point.cpp:20-22`). -/
def Point.sub (a b : Point) : Point := ⟨a.x - b.x, a.y - b.y⟩

/-- `operator+` and `operator*` (`src/domain/geometrics/point.cpp:25-27`, `point.hpp`): `a + m * v`. -/
def Point.advance (a : Point) (m : ℚ) (v : Point) : Point := ⟨a.x + v.x * m, a.y + v.y * m⟩

/-- `operator==` of `Point` (`src/domain/geometrics/point.cpp:30-33`). -/
def Point.eq (a b : Point) : Bool := coordEq a.x b.x && coordEq a.y b.y

/-- `Bounding2D` (`src/domain/geometrics/bounding.hpp:19`). -/
structure Bounding where
  xmin : ℚ
  xmax : ℚ
  ymin : ℚ
  ymax : ℚ
  deriving DecidableEq, Repr

/-- `does_overlap` of two `Bounding1D` (`src/domain/geometrics/bounding.cpp:24-26`), and of two `RangeZ`
(`src/domain/geometrics/polygon.cpp:209-211`). -/
def overlap1D (amin amax bmin bmax : ℚ) : Bool := decide (min amax bmax ≥ max amin bmin)

/-- `does_overlap` of a `Bounding1D` and a coordinate (`src/domain/geometrics/bounding.cpp:18-20`). -/
def contains1D (amin amax b : ℚ) : Bool := decide (b ≥ amin) && decide (b ≤ amax)

/-- `does_overlap` of two `Bounding2D` (`src/domain/geometrics/bounding.cpp:30-33`). -/
def Bounding.overlap (a b : Bounding) : Bool :=
  decide (min a.xmax b.xmax ≥ max a.xmin b.xmin) && decide (min a.ymax b.ymax ≥ max a.ymin b.ymin)

/-- `does_overlap_strict` (`src/domain/geometrics/bounding.cpp:37-40`). -/
def Bounding.overlapStrict (a b : Bounding) : Bool :=
  decide (min a.xmax b.xmax > max a.xmin b.xmin) && decide (min a.ymax b.ymax > max a.ymin b.ymin)

/-! ## Axes -/

/-- `Axis` (`src/domain/geometrics/space.hpp:16`). -/
inductive Axis where
  | x | y | z
  deriving DecidableEq, Repr

/-- `Plane` (`src/domain/geometrics/space.hpp:19`). -/
inductive Plane where
  | yz | zx | xy
  deriving DecidableEq, Repr

/-- `ViewAxis` (`src/domain/geometrics/space.hpp:22`). -/
inductive ViewAxis where
  | h | v
  deriving DecidableEq, Repr

/-- `Axes` (`src/domain/geometrics/space.hpp:25-29`). -/
def axes : Plane → ViewAxis → Axis
  | .yz, .h => .y | .yz, .v => .z
  | .zx, .h => .z | .zx, .v => .x
  | .xy, .h => .x | .xy, .v => .y

/-- `transpose(Plane, Axis)` (`src/domain/geometrics/space.cpp:24-50`). -/
def transposeAxis : Plane → Axis → Option ViewAxis
  | .yz, .x => none | .yz, .y => some .h | .yz, .z => some .v
  | .zx, .x => some .v | .zx, .y => none | .zx, .z => some .h
  | .xy, .x => some .h | .xy, .y => some .v | .xy, .z => none

/-- `transpose(Plane, ViewAxis)` (`src/domain/geometrics/space.cpp:53-72`). -/
def transposeView : Plane → ViewAxis → Axis
  | .yz, .h => .y | .zx, .h => .z | .xy, .h => .x
  | .yz, .v => .z | .zx, .v => .x | .xy, .v => .y

/-- `reverse(ViewAxis)` (`src/domain/geometrics/space.cpp:75-81`). -/
def ViewAxis.reverse : ViewAxis → ViewAxis
  | .h => .v | .v => .h

/-- `Segment::Axis` (`src/domain/geometrics/segment.hpp:24-29`). -/
inductive SegAxis where
  | h | v | diagonal | point
  deriving DecidableEq, Repr

/-- `transpose(Plane, Segment::Axis)` (`src/domain/geometrics/segment.cpp:219-238`): the axis along which a policy
for such a segment has its coordinate. -/
def transposeSeg : Plane → SegAxis → Option Axis
  | .yz, .h => some .z | .zx, .h => some .x | .xy, .h => some .y
  | .yz, .v => some .y | .zx, .v => some .z | .xy, .v => some .x
  | _, _ => none

/-- `cast(Segment::Axis)` (`src/domain/geometrics/segment.cpp:241-247`). -/
def SegAxis.toView : SegAxis → Option ViewAxis
  | .h => some .h | .v => some .v | _ => none

/-- `cast(ViewAxis)` (`src/domain/geometrics/segment.cpp:250-256`). -/
def ViewAxis.toSeg : ViewAxis → SegAxis
  | .h => .h | .v => .v

/-- `coord(Point, ViewAxis)` (`src/domain/geometrics/point.cpp:51-57`). -/
def Point.coord (p : Point) : ViewAxis → ℚ
  | .h => p.x | .v => p.y

/-- `coord(Point, Segment::Axis)` (`src/domain/geometrics/segment.cpp:262-268`). -/
def segCoord (p : Point) (axis : SegAxis) : Option ℚ := axis.toView.map fun v => p.coord v.reverse

/-- `cast(ViewAxis, Bounding2D)` (`src/domain/geometrics/bounding.cpp:43-49`). -/
def Bounding.cast (b : Bounding) : ViewAxis → ℚ × ℚ
  | .h => (b.xmin, b.xmax) | .v => (b.ymin, b.ymax)

/-- `Normal` (`src/domain/geometrics/normal.hpp:14`). -/
inductive Normal where
  | xmin | xmax | ymin | ymax | zmin | zmax | none
  deriving DecidableEq, Repr

/-- `reverse(Normal)` (`src/domain/geometrics/normal.cpp:14-25`). -/
def Normal.reverse : Normal → Normal
  | .xmin => .xmax | .xmax => .xmin | .ymin => .ymax | .ymax => .ymin | .zmin => .zmax | .zmax => .zmin
  | .none => .none

/-! ## Segments -/

/-- `Segment`, `Range` (`src/domain/geometrics/segment.hpp:21-39`, `range.hpp`). The member `axis` is always
`axis(p0, p1)` (`src/domain/geometrics/edge.cpp:24`, `range.cpp:15`), so it is `Segment.axis` here. -/
structure Segment where
  p0 : Point
  p1 : Point
  deriving DecidableEq, Repr

/-- `axis` of a vector (`src/domain/geometrics/segment.cpp:80-85`); `== 0` is the equality of `Coord`. -/
def vectorAxis (v : Point) : SegAxis :=
  if coordEq v.x 0 && coordEq v.y 0 then .point
  else if coordEq v.x 0 then .v
  else if coordEq v.y 0 then .h
  else .diagonal

/-- `axis` of two points (`src/domain/geometrics/segment.cpp:75-77`). -/
def Segment.axis (s : Segment) : SegAxis := vectorAxis (s.p1.sub s.p0)

/-- `Polygon::Rotation` (`src/domain/geometrics/polygon.hpp:45`). -/
inductive Rotation where
  | cw | ccw | colinear
  deriving DecidableEq, Repr

/-- `points[j]` with `j = (i + 1) % size` (`src/domain/geometrics/polygon.cpp:74`), for all `i`. -/
def successors {α : Type} (points : List α) : List α := points.tail ++ points.head?.toList

/-- The area of `detect_rotation` (`src/domain/geometrics/polygon.cpp:70-79`). -/
def area (points : List Point) : ℚ :=
  let left := ((points.zip (successors points)).map fun (a, b) => a.x * b.y).sum
  let right := ((points.zip (successors points)).map fun (a, b) => b.x * a.y).sum
  (left - right) / 2

/-- `detect_rotation` (`src/domain/geometrics/polygon.cpp:68-89`). The last branch (not a number) is excluded by
exact numbers. -/
def detectRotation (points : List Point) : Rotation :=
  if coordEq (area points) 0 then .colinear else if area points > 0 then .ccw else .cw

/-- `bounding` of a segment (`src/domain/geometrics/segment.cpp:88-95`). -/
def Segment.bounding (s : Segment) : Bounding where
  xmin := if s.p0.x < s.p1.x then s.p0.x else s.p1.x
  xmax := if s.p0.x > s.p1.x then s.p0.x else s.p1.x
  ymin := if s.p0.y < s.p1.y then s.p0.y else s.p1.y
  ymax := if s.p0.y > s.p1.y then s.p0.y else s.p1.y

/-- `relation::SegmentSegment` (`src/domain/geometrics/relation.hpp:14-19`). -/
inductive SegmentRel where
  | apart | crossing | colinear | overlapping
  deriving DecidableEq, Repr

/-- One side of the long test of `Segment::relation_to` (`src/domain/geometrics/segment.cpp:50-53`). -/
def touching (amin amax bmin bmax : ℚ) : Bool :=
  (decide (amin ≥ bmin) && decide (amin ≤ bmax)) || (decide (amax ≥ bmin) && decide (amax ≤ bmax)) ||
  (decide (bmin ≥ amin) && decide (bmin ≤ amax)) || (decide (bmax ≥ amin) && decide (bmax ≤ amax))

/-- `Segment::relation_to(Segment)` (`src/domain/geometrics/segment.cpp:35-62`). -/
def Segment.relationTo (self segment : Segment) : SegmentRel :=
  let r1 := detectRotation [self.p0, self.p1, segment.p0]
  let r2 := detectRotation [self.p0, self.p1, segment.p1]
  let r3 := detectRotation [segment.p0, segment.p1, self.p0]
  let r4 := detectRotation [segment.p0, segment.p1, self.p1]
  if r1 = .colinear ∧ r2 = .colinear ∧ r3 = .colinear ∧ r4 = .colinear then
    let a := segment.bounding
    let b := self.bounding
    if touching a.xmin a.xmax b.xmin b.xmax && touching a.ymin a.ymax b.ymin b.ymax then .overlapping else .colinear
  else if r1 ≠ r2 ∧ r3 ≠ r4 then .crossing
  else .apart

/-- `Segment::relation_to(Point)` (`src/domain/geometrics/segment.cpp:65-72`): whether it is `ON`. -/
def Segment.hasPoint (s : Segment) (p : Point) : Bool :=
  decide (detectRotation [s.p0, s.p1, p] = .colinear) &&
  decide (p.x ≤ max s.p0.x s.p1.x) && decide (p.x ≥ min s.p0.x s.p1.x) &&
  decide (p.y ≤ max s.p0.y s.p1.y) && decide (p.y ≥ min s.p0.y s.p1.y)

/-- `a_vec.y / a_vec.x == b_vec.y / b_vec.x` (`src/domain/geometrics/segment.cpp:24`). A division by zero gives an
infinity or not-a-number, for which the comparison with the tolerance is always false. -/
def slopesEq (a b : Point) : Bool :=
  decide (a.x ≠ 0) && decide (b.x ≠ 0) && coordEq (a.y / a.x) (b.y / b.x)

/-- `are_parallel` (`src/domain/geometrics/segment.cpp:19-25`). -/
def areParallel (a b : Segment) : Bool :=
  (decide (a.axis = .h) && decide (b.axis = .h)) || (decide (a.axis = .v) && decide (b.axis = .v)) ||
  slopesEq (a.p1.sub a.p0) (b.p1.sub b.p0)

/-- `intersection` (`src/domain/geometrics/segment.cpp:105-129`). -/
def intersection (a b : Segment) : Option Point :=
  if a.axis = .h ∧ b.axis = .v then some ⟨b.p0.x, a.p0.y⟩
  else if a.axis = .v ∧ b.axis = .h then some ⟨a.p0.x, b.p0.y⟩
  else if a.axis = .diagonal ∨ b.axis = .diagonal then
    let av := a.p1.sub a.p0
    let bv := b.p1.sub b.p0
    let div := av.x * bv.y - av.y * bv.x
    if div ≠ 0 then
      let m := (av.x * a.p0.y - av.x * b.p0.y - av.y * a.p0.x + av.y * b.p0.x) / div
      if 0 ≤ m ∧ m ≤ 1 then some (b.p0.advance m bv) else none
    else none
  else none

/-- The choice of one coordinate of `overlap` (`src/domain/geometrics/segment.cpp:185-197, 199-211`): `a` when it is
within `b`, else `b` when it is within `a`. -/
def pick (a b amin amax bmin bmax : ℚ) (ra rb : ℚ) : Option ℚ :=
  if a ≥ bmin ∧ a ≤ bmax then some ra else if b ≥ amin ∧ b ≤ amax then some rb else none

/-- `overlap` (`src/domain/geometrics/segment.cpp:180-216`). `xmax` and `ymax` start at 0 and keep that value when
neither test holds. -/
def overlap (a b : Segment) : Option Segment :=
  if areParallel a b then do
    let ab := a.bounding
    let bb := b.bounding
    let xmin ← pick ab.xmin bb.xmin ab.xmin ab.xmax bb.xmin bb.xmax ab.xmin bb.xmin
    let xmax := (pick ab.xmax bb.xmax ab.xmin ab.xmax bb.xmin bb.xmax ab.xmax bb.xmax).getD 0
    let ymin ← pick ab.ymin bb.ymin ab.ymin ab.ymax bb.ymin bb.ymax ab.ymin bb.ymin
    let ymax := (pick ab.ymax bb.ymax ab.ymin ab.ymax bb.ymin bb.ymax ab.ymax bb.ymax).getD 0
    return ⟨⟨xmin, ymin⟩, ⟨xmax, ymax⟩⟩
  else none

/-- `merge` (`src/domain/geometrics/segment.cpp:133-169`). -/
def merge (a b : Segment) : Option Segment :=
  if areParallel a b then do
    let ab := a.bounding
    let bb := b.bounding
    let xmin ← pick ab.xmin bb.xmin ab.xmin ab.xmax bb.xmin bb.xmax bb.xmin ab.xmin
    let xmax := (pick ab.xmax bb.xmax ab.xmin ab.xmax bb.xmin bb.xmax bb.xmax ab.xmax).getD 0
    let ymin ← pick ab.ymin bb.ymin ab.ymin ab.ymax bb.ymin bb.ymax bb.ymin ab.ymin
    let ymax := (pick ab.ymax bb.ymax ab.ymin ab.ymax bb.ymin bb.ymax bb.ymax ab.ymax).getD 0
    return ⟨⟨xmin, ymin⟩, ⟨xmax, ymax⟩⟩
  else none

/-- `operator==` of ranges and edges (`src/domain/geometrics/range.cpp:31-33`, `edge.cpp:59-67`). -/
def Segment.eq (a b : Segment) : Bool :=
  (a.p0.eq b.p0 && a.p1.eq b.p1) || (a.p0.eq b.p1 && a.p1.eq b.p0)

/-! ## Edges and polygons -/

/-- `Edge::Direction` (`src/domain/geometrics/edge.hpp:74`). -/
inductive Direction where
  | xmin | xmax | ymin | ymax | none
  deriving DecidableEq, Repr

/-- The direction set by the constructor of `Edge` (`src/domain/geometrics/edge.cpp:33-45`). `Option.none` is the
case where the member is left uninitialised. -/
def edgeDirection (s : Segment) : Option Direction :=
  let vec := s.p1.sub s.p0
  match s.axis with
  | .h => if vec.x > 0 then some .xmax else if vec.x < 0 then some .xmin else Option.none
  | .v => if vec.y > 0 then some .ymax else if vec.y < 0 then some .ymin else Option.none
  | _ => some .none

/-- `Polygon::detect_edge_normal` (`src/domain/geometrics/polygon.cpp:125-151`), for one edge whose normal was
`Normal::NONE`. -/
def edgeNormal (rotation : Rotation) (direction : Direction) : Normal :=
  match rotation with
  | .cw => match direction with
    | .xmin => .ymin | .xmax => .ymax | .ymin => .xmax | .ymax => .xmin | .none => .none
  | .ccw => match direction with
    | .xmin => .ymax | .xmax => .ymin | .ymin => .xmin | .ymax => .xmax | .none => .none
  | .colinear => .none

/-- The loop of `detect_edges` (`src/domain/geometrics/polygon.cpp:51-55`). -/
def detectEdges.loop : Point → List Point → List Segment
  | _, [] => []
  | prev, p :: rest => ⟨prev, p⟩ :: detectEdges.loop p rest

/-- `detect_edges` (`src/domain/geometrics/polygon.cpp:48-59`). `none` is `points.back()` of an empty vector, which
is undefined behaviour. -/
def detectEdges (points : List Point) : Option (List Segment) :=
  points.getLast?.map fun last => detectEdges.loop last points

/-- `Edge` (`src/domain/geometrics/edge.hpp:49-101`) without its state and material. `Option.none` stands for an
uninitialised direction, and for a normal chosen by reading one. -/
structure Edge where
  seg : Segment
  direction : Option Direction
  normal : Option Normal
  deriving DecidableEq, Repr

/-- The edges after the constructor of `Polygon` (`src/domain/geometrics/polygon.cpp:27-42`), which finds the edges,
the rotation and then the normals. -/
def polygonEdges (points : List Point) : Option (List Edge) :=
  (detectEdges points).map fun edges => edges.map fun e =>
    ⟨e, edgeDirection e, (edgeDirection e).map (edgeNormal (detectRotation points))⟩

/-- The loop of `detect_bounding` (`src/domain/geometrics/polygon.cpp:103-108`). -/
def detectBounding.loop : Bounding → List Point → Bounding
  | b, [] => b
  | b, p :: rest =>
    let b := if p.x < b.xmin then { b with xmin := p.x } else b
    let b := if p.x > b.xmax then { b with xmax := p.x } else b
    let b := if p.y < b.ymin then { b with ymin := p.y } else b
    let b := if p.y > b.ymax then { b with ymax := p.y } else b
    detectBounding.loop b rest

/-- `detect_bounding` (`src/domain/geometrics/polygon.cpp:96-111`). `none` is `points.front()` of an empty vector,
which is undefined behaviour. -/
def detectBounding (points : List Point) : Option Bounding :=
  points.head?.map fun p => detectBounding.loop ⟨p.x, p.x, p.y, p.y⟩ points

/-- `RangeZ::RangeZ` (`src/domain/geometrics/polygon.cpp:21-24`). -/
def rangeZ (a b : ℚ) : ℚ × ℚ := (if a < b then a else b, if a > b then a else b)

/-- The points of `Board::Builder::add_polygon_from_box` (`src/domain/board.cpp:112-120`). -/
def boxPoints (p1 p3 : Point) : List Point := [⟨p1.x, p1.y⟩, ⟨p1.x, p3.y⟩, ⟨p3.x, p3.y⟩, ⟨p3.x, p1.y⟩]

/-- `relation::PolygonPoint` (`src/domain/geometrics/relation.hpp:38-42`). -/
inductive PolygonRel where
  | inside | on | outside
  deriving DecidableEq, Repr

/-- The end of the `n`-th ray (`src/domain/geometrics/polygon.cpp:160-166, 175-177`). -/
def rayEnd (b : Bounding) (point : Point) : Nat → Point
  | 0 => ⟨b.xmin - 1, point.y⟩
  | 1 => ⟨b.xmax + 1, point.y⟩
  | 2 => ⟨point.x, b.ymin - 1⟩
  | 3 => ⟨point.x, b.ymax + 1⟩
  | n => ⟨b.xmax + 1, point.y + n⟩

/-- Outcome of the loop on the vertices (`src/domain/geometrics/polygon.cpp:180-187`). -/
inductive Scan where
  | on | retry | clear
  deriving DecidableEq, Repr

/-- The loop on the vertices (`src/domain/geometrics/polygon.cpp:180-187`). -/
def scanVertices (point : Point) (ray : Segment) : List Point → Scan
  | [] => .clear
  | p :: rest =>
    if p.eq point then .on
    else if ray.hasPoint p then .retry
    else scanVertices point ray rest

/-- The loop on the edges (`src/domain/geometrics/polygon.cpp:191-198`): `none` when the point is on an edge, else
the count. -/
def countCrossings (point : Point) (ray : Segment) : List Segment → Option Nat
  | [] => some 0
  | e :: rest =>
    if e.hasPoint point then none
    else (countCrossings point ray rest).map fun c => if e.relationTo ray = .crossing then c + 1 else c

/-- The retry loop of `Polygon::relation_to` (`src/domain/geometrics/polygon.cpp:172-204`) from the `n`-th ray;
`none` when it does not end. The wrap-around of the unsigned counter is not modelled. -/
def relationToPoint.loop (points : List Point) (edges : List Segment) (b : Bounding) (point : Point) (n : Nat) :
    Option PolygonRel :=
  let ray : Segment := ⟨point, rayEnd b point n⟩
  match scanVertices point ray points with
  | .on => some .on
  | .retry => relationToPoint.loop points edges b point (n + 1)
  | .clear => match countCrossings point ray edges with
    | none => some .on
    | some count => some (if count % 2 = 1 then .inside else .outside)
partial_fixpoint

/-- `Polygon::relation_to` (`src/domain/geometrics/polygon.cpp:159-205`) of the polygon with these points; `none`
when there is no point or when the loop does not end. -/
def relationToPoint (points : List Point) (point : Point) : Option PolygonRel := do
  let edges ← detectEdges points
  let b ← detectBounding points
  relationToPoint.loop points edges b point 0

end Verif.Geom
