import Verif.Model.Conflict
import Verif.Model.Utils

/-!
# Diagonal zones

* the angles of the diagonal edges (`Board::detect_diagonal_angles`);
* the zones they delimit (`Board::detect_diagonal_zones`, `ConflictManager::add_diagonal_or_circular_zone`);
* the solving of the zones (`src/domain/conflicts/conflict_diagonal_or_circular_zone.cpp`,
  `MeshlinePolicyManager::detect_intervals_per_diagonal_zones`);
* the policies made for the angles (`Board::detect_individual_edges`).

Angles and intervals are pointers in C++; here they are numbers, and a function gives what they point to. Progress bars
are left out. The value of an angle, found with `atan2`, is any number.
-/

namespace Verif.Board
open Verif.Geom
open Verif.Mesh (Kind Facing Sorter Interval)

/-! ## Angles -/

/-- `Angle` when it is made (`src/domain/geometrics/angle.cpp:14-21`), without its value. -/
structure Ang where
  p : Point
  e0 : Segment
  e1 : Segment
  deriving DecidableEq, Repr

/-- The loop over the edges of a polygon (`src/domain/board.cpp:265-273`), on the pairs `(points[i], edges[i])`. The first
argument is the pair at `p`. -/
def cornerLoop : Point × Segment → List (Point × Segment) → List Ang
  | _, [] => []
  | (q, e), (r, f) :: rest =>
    if e.axis = .diagonal ∨ f.axis = .diagonal then ⟨q, e, f⟩ :: cornerLoop (r, f) rest
    else cornerLoop (r, f) rest

/-- The angles of a polygon (`src/domain/board.cpp:264-276`). -/
def cornerAngles (points : List Point) (edges : List Segment) : List Ang :=
  match (points.zip edges).getLast? with
  | none => []
  | some last => cornerLoop last (points.zip edges)

/-- Two edges of two polygons (`src/domain/board.cpp:288-301`). -/
def crossingAngle (a b : Segment) : Option Ang :=
  if a.axis ≠ .diagonal ∧ b.axis ≠ .diagonal then none
  else if a.bounding.overlapStrict b.bounding = false then none
  else if a.relationTo b = .crossing then (intersection a b).map fun p => ⟨p, a, b⟩
  else none

/-- The loops over the pairs of polygons (`src/domain/board.cpp:280-306`). -/
def crossingAngles : List (List Segment) → List Ang
  | [] => []
  | polygon :: rest =>
    (polygon.flatMap fun a => rest.flatMap fun other => other.filterMap fun b => crossingAngle a b) ++
      crossingAngles rest

/-- `Board::detect_diagonal_angles` (`src/domain/board.cpp:253-310`): the angles of a plane, from the points of its
polygons. `none` is the undefined behaviour of a polygon without points. -/
def detectAngles (polygons : List (List Point)) : Option (List Ang) :=
  (polygons.mapM detectEdges).map fun edges =>
    (List.zipWith cornerAngles polygons edges).flatten ++ crossingAngles edges

/-! ## Zones -/

/-- `Angle` (`src/domain/geometrics/angle.hpp:32-48`) without its state and edges. -/
structure BAngle where
  plane : Plane
  p : Point
  angle : ℚ
  deriving DecidableEq, Repr

/-- The pairs of neighbours (`src/domain/board.cpp:575-577`). -/
def neighbours : List Nat → List (Nat × Nat)
  | a :: b :: rest => (a, b) :: neighbours (b :: rest)
  | _ => []

/-- Whether some edge is found for the range between two angles (`src/domain/board.cpp:579-583, 587`). -/
def underEdge (A : Nat → BAngle) (diagonals : List Segment) (va : ViewAxis) (r : Nat × Nat) : Bool :=
  diagonals.any fun e =>
    contains1D (e.bounding.cast va).1 (e.bounding.cast va).2 (mid ((A r.1).p.coord va) ((A r.2).p.coord va))

/-- `ranges::unique` followed by `erase` (`src/domain/board.cpp:595-596`): each run of equal elements becomes one. -/
def unique : List Nat → List Nat
  | a :: b :: rest => if a = b then unique (b :: rest) else a :: unique (b :: rest)
  | l => l

/-- The angles of each zone of a view axis (`src/domain/board.cpp:571-605`), from the sorted angles. `none` is undefined
behaviour in `find_consecutive_matches`. -/
def zoneAngles (A : Nat → BAngle) (diagonals : List Segment) (va : ViewAxis) (sorted : List Nat) :
    Option (List (List Nat)) :=
  (Utils.findConsecutiveMatches (neighbours sorted) (underEdge A diagonals va)).map fun subranges =>
    subranges.map fun s => unique (s.flatMap fun r => [r.1, r.2])

/-- `ConflictDiagonalOrCircularZone` and its state
(`src/domain/conflicts/conflict_diagonal_or_circular_zone.hpp:23-52`), without its states over time. -/
structure Zone where
  axis : Geom.Axis
  dmax : ℚ
  lmin : Nat
  minimalAngle : ℚ
  angles : List Nat
  intervals : List Nat
  deriving DecidableEq, Repr

/-- The parameters of `GlobalParams` used for zones (`src/domain/global.hpp:19-31`). -/
structure ZoneParams where
  lmin : Nat
  diagonalLmin : Nat
  diagonalDmax : ℚ
  minimalAngle : ℚ

/-- The zones of each axis: `all_diagonal_or_circular_zone` of `ConflictManagerState`
(`src/domain/conflict_manager.hpp:36-42`). -/
abbrev Zones := Geom.Axis → List Zone

/-- `ConflictManager::add_diagonal_or_circular_zone` (`src/domain/conflict_manager.cpp:207-236`), with the constructor
of the zone (`src/domain/conflicts/conflict_diagonal_or_circular_zone.cpp:20-29`). -/
def addZone (S : Sorter Nat) (A : Nat → BAngle) (g : ZoneParams) (zones : Zones) (axis : Geom.Axis)
    (angles : List Nat) : Zones :=
  match angles with
  | [] => zones
  | first :: _ =>
    if angles.all fun a => decide ((A a).plane = (A first).plane) then
      match transposeAxis (A first).plane axis with
      | none => zones
      | some va => fun w =>
        if w = axis then
          zones w ++ [⟨axis, g.diagonalDmax, g.lmin, g.minimalAngle, S.sort (fun a => (A a).p.coord va) angles, []⟩]
        else zones w
    else zones

/-- One view axis in `Board::detect_diagonal_zones` (`src/domain/board.cpp:570-606`); also gives the angles as sorted
there. -/
def detectZonesOn (S : Sorter Nat) (A : Nat → BAngle) (g : ZoneParams) (plane : Plane) (diagonals : List Segment)
    (va : ViewAxis) (angles : List Nat) (zones : Zones) : Option (List Nat × Zones) :=
  let sorted := S.sort (fun a => (A a).p.coord va) angles
  (zoneAngles A diagonals va sorted).map fun found =>
    (sorted, found.foldl (fun zones angles => addZone S A g zones (axes plane va) angles) zones)

/-- `Board::detect_diagonal_zones` (`src/domain/board.cpp:546-608`) on the angles and the edges of a plane. -/
def detectZones (S : Sorter Nat) (A : Nat → BAngle) (g : ZoneParams) (plane : Plane) (edges : List BEdge)
    (angles : List Nat) (zones : Zones) : Option Zones :=
  let diagonals := (edges.filter fun e => e.toMesh && decide (e.axis = .diagonal)).map BEdge.seg
  (detectZonesOn S A g plane diagonals .h angles zones).bind fun r =>
    (detectZonesOn S A g plane diagonals .v r.1 r.2).map Prod.snd

/-- `Board::detect_diagonal_zones` on all planes (`src/domain/board.cpp:635-638`), from no zone. -/
def detectAllZones (S : Sorter Nat) (A : Nat → BAngle) (g : ZoneParams) (edges : Plane → List BEdge)
    (angles : Plane → List Nat) : Option Zones :=
  (detectZones S A g .yz (edges .yz) (angles .yz) fun _ => []).bind fun zones =>
    (detectZones S A g .zx (edges .zx) (angles .zx) zones).bind fun zones =>
      detectZones S A g .xy (edges .xy) (angles .xy) zones

/-! ## Solving -/

/-- `to_mesh` of the angles (`src/domain/geometrics/angle.hpp:23-27`). -/
abbrev ToMesh := Nat → ViewAxis → Bool

/-- Sets `to_mesh` of an angle for the axis of a zone
(`src/domain/conflicts/conflict_diagonal_or_circular_zone.cpp:64-69, 74-79`). -/
def setToMesh (A : Nat → BAngle) (axis : Geom.Axis) (value : Bool) (m : ToMesh) (a : Nat) : ToMesh :=
  match transposeAxis (A a).plane axis with
  | none => m
  | some va => fun b w => if b = a ∧ w = va then value else m b w

/-- `ConflictDiagonalOrCircularZone::solve_angles`
(`src/domain/conflicts/conflict_diagonal_or_circular_zone.cpp:59-81`); `minimalAngle` is the one of the global parameters.
`none` is the undefined behaviour of `front` of an empty vector. -/
def Zone.solveAngles (A : Nat → BAngle) (minimalAngle : ℚ) (z : Zone) (m : ToMesh) : Option ToMesh :=
  match z.angles.head?, z.angles.getLast? with
  | some first, some last =>
    let m := setToMesh A z.axis true (setToMesh A z.axis true m first) last
    some ((z.angles.drop 1).dropLast.foldl
      (fun m a => setToMesh A z.axis (decide ((A a).angle ≥ minimalAngle)) m a) m)
  | _, _ => none

/-- `ConflictManager::auto_solve_all_diagonal_angles` (`src/domain/conflict_manager.cpp:239-250`). -/
def solveAllAngles (A : Nat → BAngle) (minimalAngle : ℚ) : List Zone → ToMesh → Option ToMesh
  | [], m => some m
  | z :: rest, m => (z.solveAngles A minimalAngle m).bind fun m => solveAllAngles A minimalAngle rest m

/-- `Board::solve_diagonal_zones_angles` (`src/domain/board.cpp:641-644`). -/
def solveZonesAngles (A : Nat → BAngle) (minimalAngle : ℚ) (zones : Zones) (m : ToMesh) : Option ToMesh :=
  (solveAllAngles A minimalAngle (zones .x) m).bind fun m =>
    (solveAllAngles A minimalAngle (zones .y) m).bind fun m => solveAllAngles A minimalAngle (zones .z) m

/-- The angles in `Board::detect_individual_edges` (`src/domain/board.cpp:523-539`): the policies handed to
`add_meshline_policy` as axis, kind, side, coordinate, and whether enabled. No angle is ever in a colinear conflict
(`src/domain/conflict_manager.cpp` adds none to an angle). -/
def anglePolicies (A : Nat → BAngle) (plane : Plane) (m : ToMesh) (angles : List Nat) :
    List (Geom.Axis × Kind × Facing × ℚ × Bool) :=
  angles.flatMap fun a => [ViewAxis.h, .v].map fun va => (axes plane va, .halfs, .none, (A a).p.coord va, m a va)

/-- `ConflictDiagonalOrCircularZone::bounding`
(`src/domain/conflicts/conflict_diagonal_or_circular_zone.cpp:40-51`). `none` for the undefined behaviour of `front` of
an empty vector, and for a signaling NaN. -/
def Zone.bounding (A : Nat → BAngle) (z : Zone) : Option (ℚ × ℚ) :=
  z.angles.head?.bind fun first => z.angles.getLast?.bind fun last =>
    (transposeAxis (A first).plane z.axis).bind fun va => (transposeAxis (A last).plane z.axis).map fun w =>
      ((A first).p.coord va, (A last).p.coord w)

/-- The intervals found for a zone (`src/domain/meshline_policy_manager.cpp:172-178`), by their positions. -/
def inZone (b : ℚ × ℚ) (intervals : List Interval) : List Nat :=
  (List.range intervals.length).filter fun i =>
    (intervals[i]?.map fun interval => contains1D b.1 b.2 interval.m).getD false

/-- `MeshlinePolicyManager::detect_intervals_per_diagonal_zones` (`src/domain/meshline_policy_manager.cpp:164-188`), the
zones of the axis: each gets the intervals found (`append`, `conflict_diagonal_or_circular_zone.cpp:32-36`). -/
def detectPerZones (A : Nat → BAngle) (intervals : List Interval) (zones : List Zone) : Option (List Zone) :=
  zones.mapM fun z => (z.bounding A).map fun b => { z with intervals := z.intervals ++ inZone b intervals }

/-- The conflicts of an interval, as positions of zones, after `detect_intervals_per_diagonal_zones`
(`src/domain/meshline_policy_manager.cpp:179-181`). All zones use the same timepoint, and `set_state` of a constant state
only keeps the first one at a timepoint (`src/utils/state_management.hpp:278-292`): `isSet` tells that the interval has
got a state at this timepoint. -/
def intervalConflicts (A : Nat → BAngle) (m : ℚ) (n : Nat) (isSet : Bool) (conflicts : List Nat) :
    List Zone → Option (List Nat)
  | [] => some conflicts
  | z :: rest => (z.bounding A).bind fun b =>
    if contains1D b.1 b.2 m then
      intervalConflicts A m (n + 1) true (if isSet then conflicts else conflicts ++ [n]) rest
    else intervalConflicts A m (n + 1) isSet conflicts rest

/-- `ConflictDiagonalOrCircularZone::solve_intervals`
(`src/domain/conflicts/conflict_diagonal_or_circular_zone.cpp:84-95`). -/
def Zone.solveIntervals (z : Zone) (intervals : List Interval) : List Interval :=
  z.intervals.foldl (fun l i => l.modify i fun interval => { interval with dmax := z.dmax }) intervals

/-- `ConflictManager::auto_solve_all_diagonal_zones` (`src/domain/conflict_manager.cpp:253-264`) on one axis. -/
def solveAllIntervals (zones : List Zone) (intervals : List Interval) : List Interval :=
  zones.foldl (fun l z => z.solveIntervals l) intervals

end Verif.Board
