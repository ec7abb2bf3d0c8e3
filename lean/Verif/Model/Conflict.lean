import Verif.Model.Geometry
import Verif.Model.Manager

/-!
# Conflicts between edges, and materials

* colinear edges: detection, registration, solving;
* edges in polygons: registration, solving;
* the policies made for the remaining edges;
* the material around an edge.

Edges and polygons are pointers in C++; here they are numbers, and a function gives what they point to. The time of the
states is left out: each function below is given the states current when it runs. Origins, back references from edges to
conflicts (except for knowing whether an edge is in a colinear conflict), and progress bars are left out.
-/

namespace Verif.Board
open Verif.Geom
open Verif.Mesh (Kind Facing Sorter tolerance)

/-- `Edge` with the part of `EdgeState` used here (`src/domain/geometrics/edge.hpp:40-90`). The normal is the one set by
the polygon, always initialised (theorem `C35_direction`). -/
structure BEdge where
  plane : Plane
  seg : Segment
  side : Normal
  toMesh : Bool
  toReverse : Bool
  deriving DecidableEq, Repr

/-- `axis` of an edge (`src/domain/geometrics/edge.cpp:24`). -/
def BEdge.axis (e : BEdge) : SegAxis := e.seg.axis

/-- The normal used by the solvers: reversed if asked
(`src/domain/conflicts/conflict_colinear_edges.cpp:44-46`, `src/domain/board.cpp:501-503`). -/
def BEdge.normal (e : BEdge) : Normal := if e.toReverse then e.side.reverse else e.side

/-! ## Colinear edges -/

/-- The colinear conflicts of each axis, each with its edges in order: `all_colinear_edges` of `ConflictManagerState`
(`src/domain/conflict_manager.hpp:38`) and `edges` of `ConflictColinearEdgesState`
(`src/domain/conflicts/conflict_colinear_edges.hpp:20-22`). -/
abbrev Colinear := Geom.Axis → List (List Nat)

/-- The search for both edges among those of a conflict (`src/domain/conflict_manager.cpp:46-56`). -/
def registered (a b : Nat) : Bool → Bool → List Nat → Bool × Bool
  | isA, isB, [] => (isA, isB)
  | isA, isB, e :: rest =>
    if e = a then (if isB then (true, isB) else registered a b true isB rest)
    else if e = b then (if isA then (isA, true) else registered a b isA true rest)
    else registered a b isA isB rest

/-- The loop over the conflicts of the axis (`src/domain/conflict_manager.cpp:42-79`): the conflicts, and whether one was
found to exist. -/
def addColinearLoop (a b : Nat) : List (List Nat) → List (List Nat) × Bool
  | [] => ([], false)
  | c :: rest =>
    match registered a b false false c with
    | (true, false) => ((c ++ [b]) :: rest, true)
    | (false, true) => ((c ++ [a]) :: rest, true)
    | (true, true) => (c :: rest, true)
    | (false, false) => ((c :: (addColinearLoop a b rest).1), (addColinearLoop a b rest).2)

/-- `add_colinear_edges` on the conflicts of one axis (`src/domain/conflict_manager.cpp:41-95`). -/
def addPair (a b : Nat) (l : List (List Nat)) : List (List Nat) :=
  if (addColinearLoop a b l).2 then (addColinearLoop a b l).1 else l ++ [[a, b]]

/-- `ConflictManager::add_colinear_edges` (`src/domain/conflict_manager.cpp:35-97`). -/
def addColinear (E : Nat → BEdge) (s : Colinear) (a b : Nat) : Colinear :=
  if (E a).plane = (E b).plane ∧ (E a).axis = (E b).axis then
    match transposeSeg (E a).plane (E a).axis with
    | none => s
    | some axis => fun w => if w = axis then addPair a b (s w) else s w
  else s

/-- The inner loop of `detect_colinear_edges` (`src/domain/board.cpp:468-483`). -/
def detectColinearInner (E : Nat → BEdge) (plane : Plane) (i : Nat) : Colinear → List Nat → Colinear
  | s, [] => s
  | s, j :: rest =>
    if (E j).axis ≠ (E i).axis then detectColinearInner E plane i s rest
    else
      match transposeSeg plane (E i).axis with
      | none => detectColinearInner E plane i s rest
      | some _ =>
        if (E i).axis = .h ∧ coordEq (E i).seg.p0.y (E j).seg.p0.y = true then
          detectColinearInner E plane i (addColinear E s i j) rest
        else if (E i).axis = .v ∧ coordEq (E i).seg.p0.x (E j).seg.p0.x = true then
          detectColinearInner E plane i (addColinear E s i j) rest
        else detectColinearInner E plane i s rest

/-- `Board::detect_colinear_edges` (`src/domain/board.cpp:453-487`) on the edges of a plane. -/
def detectColinear (E : Nat → BEdge) (plane : Plane) : Colinear → List Nat → Colinear
  | s, [] => s
  | s, i :: rest =>
    if (E i).axis = .diagonal then detectColinear E plane s rest
    else detectColinear E plane (detectColinearInner E plane i s rest) rest

/-- The counting loop of `ConflictColinearEdges::auto_solve` (`src/domain/conflicts/conflict_colinear_edges.cpp:40-68`):
`must_be_oneline`, and the numbers of edges facing each way. -/
def countFacing : List BEdge → Nat → Nat → Bool × Nat × Nat
  | [], min, max => (false, min, max)
  | e :: rest, min, max =>
    if e.toMesh then
      match e.normal with
      | .xmin | .ymin | .zmin => countFacing rest (min + 1) max
      | .xmax | .ymax | .zmax => countFacing rest min (max + 1)
      | .none => (true, min, max)
    else countFacing rest min max

/-- `ConflictColinearEdges::auto_solve` (`src/domain/conflicts/conflict_colinear_edges.cpp:33-106`): the policy added, if
any, as kind, side and coordinate. The outer `none` is undefined behaviour: `front()` of no edge. -/
def solveColinear (edges : List BEdge) : Option (Option (Kind × Facing × ℚ)) :=
  match edges with
  | [] => none
  | front :: _ =>
    some <|
      match segCoord front.seg.p0 front.axis with
      | none => none
      | some coord =>
        match countFacing edges 0 0 with
        | (true, _, _) => some (.oneline, .none, coord)
        | (false, min, max) =>
          if min ≠ 0 ∧ max ≠ 0 then some (.halfs, .none, coord)
          else if min ≠ 0 then some (.thirds, .min, coord)
          else if max ≠ 0 then some (.thirds, .max, coord)
          else none

/-! ## Edges in polygons -/

/-- `Overlap` (`src/domain/conflicts/conflict_edge_in_polygon.hpp:27-32`): a polygon, a range, and maybe an edge, which
is given by its normal. -/
structure Overlap where
  polygon : Nat
  range : Segment
  other : Option Normal
  deriving DecidableEq, Repr

/-- What `sort_overlaps_by_p0_by_vector_orientation` sorts by
(`src/domain/conflicts/conflict_edge_in_polygon.cpp:23-62`); nothing for a null vector. For diagonal vectors the code
compares both coordinates at once; here only the first, which is the same as long as the ranges lie on the line of the
edge. -/
def overlapKey (vec : Point) : Option (Overlap → ℚ) :=
  if vec.x > 0 then some fun o => o.range.p0.x
  else if vec.x < 0 then some fun o => - o.range.p0.x
  else if vec.y > 0 then some fun o => o.range.p0.y
  else if vec.y < 0 then some fun o => - o.range.p0.y
  else none

/-- `sort_overlaps_by_p0_by_vector_orientation` (`src/domain/conflicts/conflict_edge_in_polygon.cpp:23-62`). -/
def sortOverlaps (S : Sorter Overlap) (vec : Point) (l : List Overlap) : List Overlap :=
  match overlapKey vec with
  | none => l
  | some key => S.sort key l

/-- The loop of `ConflictEdgeInPolygon::auto_solve` (`src/domain/conflicts/conflict_edge_in_polygon.cpp:86-96`): joining
ranges until one does not touch, or comes from an edge with the same normal. -/
def joinRanges (normal : Normal) : Segment → List Overlap → Segment
  | merged, [] => merged
  | merged, o :: rest =>
    if o.other ≠ some normal then (merge o.range merged).elim merged fun r => joinRanges normal r rest
    else merged

/-- `ConflictEdgeInPolygon::auto_solve` (`src/domain/conflicts/conflict_edge_in_polygon.cpp:80-106`): the new `to_mesh`
of the edge. `none` is undefined behaviour: `front()` of no overlap. -/
def solveInPolygon (S : Sorter Overlap) (edge : BEdge) (overlaps : List Overlap) : Option Bool :=
  match sortOverlaps S (edge.seg.p1.sub edge.seg.p0) overlaps with
  | [] => none
  | front :: rest => some (!((joinRanges edge.side front.range (front :: rest)).eq edge.seg))

/-! ## Remaining edges -/

/-- `cast(Normal)` (`src/domain/mesh/meshline_policy.cpp:49-64`). -/
def castNormal : Normal → Facing
  | .xmin | .ymin | .zmin => .min
  | .xmax | .ymax | .zmax => .max
  | .none => .none

/-- One edge in `Board::detect_individual_edges` (`src/domain/board.cpp:498-521`): the axis, kind, side and coordinate
handed to `add_meshline_policy`, when it is called. -/
def individual (plane : Plane) (inColinear : Bool) (e : BEdge) : Option (Geom.Axis × Kind × Facing × ℚ) :=
  match segCoord e.seg.p0 e.axis, transposeSeg plane e.axis with
  | some coord, some axis =>
    if inColinear = false ∧ e.toMesh = true then some (axis, .thirds, castNormal e.normal, coord) else none
  | _, _ => none

/-- What `add_meshline_policy` accepts (`src/domain/meshline_policy_manager.cpp:59-61`). -/
def accepted (kind : Kind) (side : Facing) : Bool :=
  !((kind == .thirds && side == .none) || (kind != .thirds && side != .none))

/-- The policies, as kind, side and coordinate, that an axis has got once the colinear conflicts of that axis are solved
(`ConflictManager::auto_solve_all_colinear_edges`, `src/domain/conflict_manager.cpp:280-290`) and the edges of a plane not
in a colinear conflict are handled (`Board::detect_individual_edges`, `src/domain/board.cpp:490-523`), in order, with those
`add_meshline_policy` refuses left out. `none` is undefined behaviour. -/
def edgePolicies (E : Nat → BEdge) (plane : Plane) (s : Colinear) (edges : List Nat) (axis : Geom.Axis) :
    Option (List (Kind × Facing × ℚ)) := do
  let solved ← (s axis).mapM fun c => solveColinear (c.map E)
  let alone := edges.filterMap fun i =>
    match individual plane (([Geom.Axis.x, .y, .z].any fun w => (s w).any fun c => c.contains i)) (E i) with
    | some (w, kind, side, coord) => if w = axis then some (kind, side, coord) else none
    | none => none
  return (solved.filterMap id ++ alone).filter fun p => accepted p.1 p.2.1

/-! ## Materials -/

/-- `Material::Type` (`src/domain/material.hpp:19-26`). -/
inductive MaterialKind where
  | port | conductor | dielectric | air
  deriving DecidableEq, Repr

/-- `Material::operator<=>` (`src/domain/material.cpp:39-75`). -/
def MaterialKind.cmp : MaterialKind → MaterialKind → Ordering
  | .port, .port => .eq | .port, .conductor => .gt | .port, .dielectric => .gt | .port, .air => .gt
  | .conductor, .port => .lt | .conductor, .conductor => .eq | .conductor, .dielectric => .gt | .conductor, .air => .gt
  | .dielectric, .port => .lt | .dielectric, .conductor => .lt | .dielectric, .dielectric => .eq
  | .dielectric, .air => .gt
  | .air, .port => .lt | .air, .conductor => .lt | .air, .dielectric => .lt | .air, .air => .eq

/-- `Material::deduce_type` (`src/domain/material.cpp:17-22`, defaults `src/domain/material.hpp:44-46`). -/
def deduceType (epsilon mue kappa : ℚ) : MaterialKind :=
  if epsilon = 1 ∧ mue = 1 ∧ kappa = 0 then .air
  else if epsilon > 1 ∧ mue ≥ 1 ∧ kappa = 0 then .dielectric
  else if epsilon = 1 ∧ mue = 1 ∧ kappa > 0 then .conductor
  else .dielectric

/-- `Polygon`, the part used here (`src/domain/geometrics/polygon.hpp:52-76`). -/
structure BPolygon where
  points : List Point
  bounding : Bounding
  zmin : ℚ
  zmax : ℚ
  priority : Nat
  material : Option MaterialKind
  deriving DecidableEq, Repr

/-- The filter of `find_ambient_material` (`src/domain/board.cpp:188-193`). The current polygon is a number. -/
def ambientMatch (P : Nat → BPolygon) (box : Bounding) (current : Option Nat) (i : Nat) : Option (MaterialKind × Nat) :=
  match (P i).material with
  | none => none
  | some m =>
    if (match current with
        | none => true
        | some c => decide (i ≠ c) && overlap1D (P i).zmin (P i).zmax (P c).zmin (P c).zmax)
      && (P i).bounding.overlap box
    then some (m, (P i).priority) else none

/-- The comparator of `find_ambient_material` (`src/domain/board.cpp:196-202`). -/
def ambientLess (a b : MaterialKind × Nat) : Bool :=
  if a.2 ≠ b.2 then decide (a.2 < b.2) else a.1.cmp b.1 == .lt

/-- `Board::find_ambient_material` (`src/domain/board.cpp:184-209`). `sort` is `std::ranges::sort` with the comparator
above. The background is given with priority 0. -/
def findAmbient (sort : List (MaterialKind × Nat) → List (MaterialKind × Nat)) (P : Nat → BPolygon)
    (polygons : List Nat) (background : Option MaterialKind) (box : Bounding) (current : Option Nat) :
    Option MaterialKind × Nat :=
  match (sort (polygons.filterMap (ambientMatch P box current))).getLast? with
  | some (m, p) => (some m, p)
  | none => (background, 0)

/-- The segment just outside an edge (`src/domain/board.cpp:222-236`); `none` for an edge without side. A normal along z
is `unreachable()` there and not given to any edge. -/
def outside (e : BEdge) : Option Segment :=
  let d := 2 * tolerance
  match e.side with
  | .xmin => some ⟨⟨e.seg.p0.x - d, e.seg.p0.y⟩, ⟨e.seg.p1.x - d, e.seg.p1.y⟩⟩
  | .xmax => some ⟨⟨e.seg.p0.x + d, e.seg.p0.y⟩, ⟨e.seg.p1.x + d, e.seg.p1.y⟩⟩
  | .ymin => some ⟨⟨e.seg.p0.x, e.seg.p0.y - d⟩, ⟨e.seg.p1.x, e.seg.p1.y - d⟩⟩
  | .ymax => some ⟨⟨e.seg.p0.x, e.seg.p0.y + d⟩, ⟨e.seg.p1.x, e.seg.p1.y + d⟩⟩
  | _ => none

/-- One edge of polygon `c` in `Board::adjust_edges_to_materials` (`src/domain/board.cpp:218-247`): the new `to_reverse`.
The outer `none` is undefined behaviour: the material of the polygon is a null pointer and is compared. -/
def adjustEdge (sort : List (MaterialKind × Nat) → List (MaterialKind × Nat)) (P : Nat → BPolygon)
    (polygons : List Nat) (background : Option MaterialKind) (c : Nat) (e : BEdge) : Option Bool :=
  match outside e with
  | none => some e.toReverse
  | some s =>
    match (findAmbient sort P polygons background s.bounding (some c)).1, (P c).material with
    | none, _ => some e.toReverse
    | some _, none => none
    | some outer, some inner => some (if outer.cmp inner = .gt then true else e.toReverse)

end Verif.Board
