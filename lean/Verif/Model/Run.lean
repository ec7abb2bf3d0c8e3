import Verif.Model.EdgeInPolygon
import Verif.Model.Fixed
import Verif.Model.Diagonal
import Verif.Model.Document

/-!
# All the steps

`OpenEMSH::run_all_steps` on a board on which no step was run, without `adjust_edges_to_materials`, which only sets
`to_reverse`: edges are given with it here, and `runDesign` in `Verif/Model/Build.lean` begins with that step.
-/

namespace Verif.Board
open Verif.Geom
open Verif.Mesh (Sorter MeshParams Interval Kind Facing)

/-- Undefined behaviour of a step (`src/app/openemsh.cpp:169-183`). -/
def Outcome.orUb {α : Type} : Option α → Outcome α
  | some a => .ok a
  | none => .ub

/-- A loop of a step that does not end (`src/app/openemsh.cpp:169-183`). -/
def Outcome.orDiverges {α : Type} : Option α → Outcome α
  | some a => .ok a
  | none => .diverges

/-- A board (`src/domain/board.hpp:38-62`): its polygons and its edges by number, the polygons of each plane, and the
coordinates of the fixed lines of each axis. Last, the value of the angles, found with `atan2`
(`src/domain/geometrics/angle.cpp:14-21`): any. -/
structure Input where
  polygons : Plane → List Nat
  P : Nat → PPolygon
  E : Nat → BEdge
  fixed : Geom.Axis → List ℚ
  angle : Ang → ℚ

/-- The edges of a plane: `BoardState` (`src/domain/board.cpp:123-133`). -/
def Input.edges (B : Input) (plane : Plane) : List Nat := (B.polygons plane).flatMap fun a => (B.P a).edges.map (·.1)

/-- `AllPlane` (`src/domain/geometrics/space.hpp:19`). -/
def allPlanes : List Plane := [.yz, .zx, .xy]

/-- `Board::detect_diagonal_angles` (`src/domain/board.cpp:253-310, 629-632`): the angles of all planes, in the order in
which they are made. `none` is undefined behaviour. -/
def detectAllAngles (B : Input) : Option (List BAngle) :=
  (allPlanes.mapM fun plane => (detectAngles ((B.polygons plane).map fun a => (B.P a).points)).map fun found =>
    found.map fun x => ⟨plane, x.p, B.angle x⟩).map List.flatten

/-- The angle with this number (`src/domain/geometrics/angle.hpp:32-48`); the number stands for the pointer. -/
def angleAt (L : List BAngle) (n : Nat) : BAngle := L.getD n ⟨.xy, ⟨0, 0⟩, 0⟩

/-- The angles of a plane: `angles` of `BoardState` (`src/domain/board.hpp:38-46`). -/
def anglesOf (L : List BAngle) (plane : Plane) : List Nat :=
  (List.range L.length).filter fun n => decide ((angleAt L n).plane = plane)

/-- `Board::detect_edges_in_polygons` (`src/domain/board.cpp:653-656`): the planes in order, each with its conflicts, none
to start with. -/
def detectAllInPolygons (S : OrderSorter Point) (B : Input) : List Plane → Outcome (List InPolygon)
  | [] => .ok []
  | plane :: rest =>
    (detectInPolygons S B.P (B.polygons plane) []).bind fun s =>
    (detectAllInPolygons S B rest).map fun l => s :: l

/-- `Board::detect_colinear_edges` (`src/domain/board.cpp:659-662`). -/
def detectAllColinear (B : Input) : Colinear :=
  allPlanes.foldl (fun s plane => detectColinear B.E plane s (B.edges plane)) fun _ => []

/-- The end of `ConflictEdgeInPolygon::auto_solve` (`src/domain/conflicts/conflict_edge_in_polygon.cpp:98-105`). -/
def setMesh (E : Nat → BEdge) (n : Nat) (b : Bool) : Nat → BEdge := fun m => if m = n then { E m with toMesh := b } else E m

/-- `ConflictManager::auto_solve_all_edge_in_polygon` (`src/domain/conflict_manager.cpp:267-277`): the edges afterwards.
`none` is undefined behaviour. -/
def solveAllInPolygon (S : Sorter Overlap) : (Nat → BEdge) → InPolygon → Option (Nat → BEdge)
  | E, [] => some E
  | E, (n, os) :: rest =>
    match solveInPolygon S (E n) (os.map (Found.overlap E)) with
    | none => none
    | some b => solveAllInPolygon S (setMesh E n b) rest

/-- What `ConflictManager::auto_solve_all_colinear_edges` (`src/domain/conflict_manager.cpp:280-290`) and then
`Board::detect_individual_edges` (`src/domain/board.cpp:490-539, 665-668`) ask for on an axis, in order, with whether it is
enabled, refused policies left out. The difference with `edgePolicies` is that the three planes and the angles are
there. -/
def boardPolicies (B : Input) (E : Nat → BEdge) (L : List BAngle) (m : ToMesh) (s : Colinear) (axis : Geom.Axis) :
    Option (List (Kind × Facing × ℚ × Bool)) :=
  ((s axis).mapM fun c => solveColinear (c.map E)).map fun solved =>
  ((solved.filterMap id).map (fun p => (p.1, p.2.1, p.2.2, true)) ++ allPlanes.flatMap fun plane =>
    ((B.edges plane).filterMap fun i =>
      match individual plane (([Geom.Axis.x, .y, .z].any fun w => (s w).any fun c => c.contains i)) (E i) with
      | some (w, kind, side, coord) => if w = axis then some (kind, side, coord, true) else none
      | none => none) ++
    (anglePolicies (angleAt L) plane m (anglesOf L plane)).filterMap fun p => if p.1 = axis then some p.2 else none).filter
    fun p => accepted p.1 p.2.1

/-- An axis before the steps (`src/domain/meshline_policy_manager.cpp:21-34`). -/
def emptyAxis : Mesh.Axis := ⟨[], [], [], []⟩

/-- The policies of an axis before those too close are merged: the fixed lines (`src/domain/board.cpp:671-674`), then those
of the edges. -/
def axisPolicies (g : MeshParams) (fixed : List ℚ) (asked : List (Kind × Facing × ℚ × Bool)) : Mesh.Axis :=
  asked.foldl (fun a p => (a.addPolicy g p.1 p.2.1 p.2.2.1 p.2.2.2).1) (emptyAxis.addAllFixed g fixed)

/-- The sorting functions used on the way, one for each call of `std::ranges::sort` or `std::sort`
(`src/domain/board.cpp:31-61`, `src/domain/conflicts/conflict_edge_in_polygon.cpp:23-62`,
`src/domain/meshline_policy_manager.cpp:75-240`). -/
structure Sorters where
  points : OrderSorter Point
  overlaps : Sorter Overlap
  pointers : Sorter Nat
  intervals : Sorter Interval
  lines : Sorter ℚ

/-- `Board::detect_intervals_per_diagonal_zones` and `Board::solve_diagonal_zones_intervals` on one axis
(`src/domain/board.cpp:647-650, 701-704`). `none` is undefined behaviour. -/
def zoneIntervals (A : Nat → BAngle) (zones : List Zone) (a : Mesh.Axis) : Option Mesh.Axis :=
  (detectPerZones A a.intervals zones).map fun zones => { a with intervals := solveAllIntervals zones a.intervals }

/-- The end of the steps on one axis: `detect_and_solve_too_close_meshline_policies`, `detect_intervals`, what is done for
zones, `mesh` (`src/domain/board.cpp:689-710`). -/
def finishAxis (S : Sorters) (g : MeshParams) (A : Nat → BAngle) (zones : List Zone) (a : Mesh.Axis) : Outcome Mesh.Axis :=
  (Outcome.orDiverges (a.solveTooClose S.pointers g)).bind fun b =>
  (Outcome.orUb (zoneIntervals A zones (b.detectIntervals S.pointers g))).bind fun c =>
  Outcome.orDiverges (c.mesh S.intervals S.lines)

/-- What the steps about zones that come first leave (`src/app/openemsh.cpp:170-172`): the angles, the zones, and which
angles are to be meshed. Angles are made with `to_mesh` false on both axes (`src/domain/geometrics/angle.hpp:23-27`). -/
def diagonalSteps (S : Sorter Nat) (gz : ZoneParams) (B : Input) : Option (List BAngle × Zones × ToMesh) :=
  (detectAllAngles B).bind fun L =>
  (detectAllZones S (angleAt L) gz (fun plane => (B.edges plane).map B.E) (anglesOf L)).bind fun zones =>
  (solveZonesAngles (angleAt L) gz.minimalAngle zones fun _ _ => false).map fun m => (L, zones, m)

/-- `OpenEMSH::run_all_steps` (`src/app/openemsh.cpp:189-207`, the steps of `src/app/openemsh.cpp:169-183`): the edges and
the axis when it ends. One axis at a time: from `add_fixed_meshline_policies` on, what is done on an axis neither reads nor
writes the others. -/
def runSteps (S : Sorters) (g : MeshParams) (gz : ZoneParams) (B : Input) (axis : Geom.Axis) :
    Outcome ((Nat → BEdge) × Mesh.Axis) :=
  (Outcome.orUb (diagonalSteps S.pointers gz B)).bind fun d =>
  (detectAllInPolygons S.points B allPlanes).bind fun conflicts =>
  (Outcome.orUb (conflicts.foldlM (solveAllInPolygon S.overlaps) B.E)).bind fun E =>
  (Outcome.orUb (boardPolicies B E d.1 d.2.2 (detectAllColinear B) axis)).bind fun asked =>
  (finishAxis S g (angleAt d.1) (d.2.1 axis) (axisPolicies g (B.fixed axis) asked)).map fun a => (E, a)

/-- The parameters the meshing reads (`src/domain/global.hpp:21-24`). -/
def _root_.Verif.Csx.Params.mesh (p : Csx.Params) : MeshParams := ⟨p.proximityLimit, p.smoothness, p.lmin, p.dmax⟩

/-- The parameters the zones read (`src/domain/global.hpp:23-28`). -/
def _root_.Verif.Csx.Params.zones (p : Csx.Params) : ZoneParams := ⟨p.lmin, p.diagonalLmin, p.diagonalDmax, p.minimalAngle⟩

/-- The steps from `DETECT_DIAG_ZONES` on (`src/app/openemsh.cpp:171-183`), with the angles `L` found before: what is run again when
the global parameters are edited (`src/ui/qt/main_window.cpp:650-654`, `src/ui/qt/edit/edit_model_global.cpp:60-62`). Angles are
not registered with the caretaker (`src/domain/board.cpp:270, 299`), so `go_before` leaves their `to_mesh` as it is at the end of
the run before: `m`. -/
def runFromZones (S : Sorters) (g : MeshParams) (gz : ZoneParams) (B : Input) (L : List BAngle) (m : ToMesh) (axis : Geom.Axis) :
    Outcome ((Nat → BEdge) × Mesh.Axis) :=
  (Outcome.orUb ((detectAllZones S.pointers (angleAt L) gz (fun plane => (B.edges plane).map B.E) (anglesOf L)).bind fun zones =>
    (solveZonesAngles (angleAt L) gz.minimalAngle zones m).map fun m => (zones, m))).bind fun d =>
  (detectAllInPolygons S.points B allPlanes).bind fun conflicts =>
  (Outcome.orUb (conflicts.foldlM (solveAllInPolygon S.overlaps) B.E)).bind fun E =>
  (Outcome.orUb (boardPolicies B E L d.2 (detectAllColinear B) axis)).bind fun asked =>
  (finishAxis S g (angleAt L) (d.1 axis) (axisPolicies g (B.fixed axis) asked)).map fun a => (E, a)

/-- The steps from `DETECT_CONFLICT_EIP` on (`src/app/openemsh.cpp:169-183`), with the edges as they are in the input and what
the steps before left: what is run again when an edge is edited (`src/ui/qt/main_window.cpp:650-654`,
`src/ui/qt/edit/edit_model_edge.cpp:39`). Zones are not registered with the caretaker (`src/domain/conflict_manager.cpp:232-235`),
so they still hold the intervals of the runs before, the limits of which are set too; those intervals are not read any more. They
are not freed: no timepoint is, once a file is open (C97). -/
def runFromConflicts (S : Sorters) (g : MeshParams) (B : Input) (d : List BAngle × Zones × ToMesh) (axis : Geom.Axis) :
    Outcome ((Nat → BEdge) × Mesh.Axis) :=
  (detectAllInPolygons S.points B allPlanes).bind fun conflicts =>
  (Outcome.orUb (conflicts.foldlM (solveAllInPolygon S.overlaps) B.E)).bind fun E =>
  (Outcome.orUb (boardPolicies B E d.1 d.2.2 (detectAllColinear B) axis)).bind fun asked =>
  (finishAxis S g (angleAt d.1) (d.2.1 axis) (axisPolicies g (B.fixed axis) asked)).map fun a => (E, a)

/-- The input with an edge edited: `set_next_state` after `go_before` (`src/ui/qt/main_window.cpp:650-654`,
`src/ui/qt/edit/edit_model_edge.cpp:39-41`). -/
def Input.withEdge (B : Input) (n : Nat) (e : BEdge) : Input := { B with E := fun m => if m = n then e else B.E m }

/-- The steps before `DETECT_INTERVALS` (`src/app/openemsh.cpp:169-179`): what zones there are, the edges, and the axis with its
policies merged. -/
def runToIntervals (S : Sorters) (g : MeshParams) (gz : ZoneParams) (B : Input) (axis : Geom.Axis) :
    Outcome ((List BAngle × Zones × ToMesh) × (Nat → BEdge) × Mesh.Axis) :=
  (Outcome.orUb (diagonalSteps S.pointers gz B)).bind fun d =>
  (detectAllInPolygons S.points B allPlanes).bind fun conflicts =>
  (Outcome.orUb (conflicts.foldlM (solveAllInPolygon S.overlaps) B.E)).bind fun E =>
  (Outcome.orUb (boardPolicies B E d.1 d.2.2 (detectAllColinear B) axis)).bind fun asked =>
  (Outcome.orDiverges ((axisPolicies g (B.fixed axis) asked).solveTooClose S.pointers g)).map fun b => (d, E, b)

/-- The steps from `DETECT_INTERVALS` on, on one axis (`src/app/openemsh.cpp:180-183`): what is run again when a policy is edited
(`src/ui/qt/main_window.cpp:650-654`, `src/ui/qt/edit/edit_model_meshline_policy.cpp:83`). Zones still hold the intervals of the
runs before, as in `runFromConflicts`. -/
def runFromIntervals (S : Sorters) (g : MeshParams) (A : Nat → BAngle) (zones : List Zone) (b : Mesh.Axis) : Outcome Mesh.Axis :=
  (Outcome.orUb (zoneIntervals A zones (b.detectIntervals S.pointers g))).bind fun c =>
  Outcome.orDiverges (c.mesh S.intervals S.lines)

/-- The steps before `MESH` (`src/app/openemsh.cpp:169-182`): the edges, and the axis with its intervals. -/
def runToMesh (S : Sorters) (g : MeshParams) (gz : ZoneParams) (B : Input) (axis : Geom.Axis) :
    Outcome ((Nat → BEdge) × Mesh.Axis) :=
  (runToIntervals S g gz B axis).bind fun r =>
  (Outcome.orUb (zoneIntervals (angleAt r.1.1) (r.1.2.1 axis) (r.2.2.detectIntervals S.pointers g))).map fun c => (r.2.1, c)

/-- `MESH` on one axis (`src/app/openemsh.cpp:183`): what is run again when an interval is edited
(`src/ui/qt/main_window.cpp:650-654`, `src/ui/qt/edit/edit_model_interval.cpp:54`). -/
def runFromMesh (S : Sorters) (c : Mesh.Axis) : Outcome Mesh.Axis := Outcome.orDiverges (c.mesh S.intervals S.lines)

/-- The axis with an interval edited: `set_next_state` after `go_before` (`src/ui/qt/main_window.cpp:650-654`,
`src/ui/qt/edit/edit_model_interval.cpp:54-56`). The interval is the one between the same two policies: intervals are held by
pointer, and no two are between the same policies. -/
def _root_.Verif.Mesh.Axis.setInterval (c : Mesh.Axis) (i : Interval) : Mesh.Axis :=
  { c with intervals := c.intervals.map fun j =>
      if j.before.policy = i.before.policy ∧ j.after.policy = i.after.policy then i else j }

/-- The steps before `SOLVE_DIAG_ZONES_INTERVALS` (`src/app/openemsh.cpp:169-181`): what zones there were first, the edges, the axis
with its intervals, and the zones of this axis with theirs. -/
def runToZoneIntervals (S : Sorters) (g : MeshParams) (gz : ZoneParams) (B : Input) (axis : Geom.Axis) :
    Outcome ((List BAngle × Zones × ToMesh) × (Nat → BEdge) × Mesh.Axis × List Zone) :=
  (runToIntervals S g gz B axis).bind fun r =>
  (Outcome.orUb (detectPerZones (angleAt r.1.1) (r.2.2.detectIntervals S.pointers g).intervals (r.1.2.1 axis))).map fun zones =>
    (r.1, r.2.1, r.2.2.detectIntervals S.pointers g, zones)

/-- The steps from `SOLVE_DIAG_ZONES_INTERVALS` on, on one axis (`src/app/openemsh.cpp:182-183`): what is run again when a zone is
edited and its minimal angle is not (`src/ui/qt/main_window.cpp:650-654`,
`src/ui/qt/edit/edit_model_conflict_diagonal_or_circular_zone.cpp:43-48`). -/
def runFromZoneIntervals (S : Sorters) (zones : List Zone) (x : Mesh.Axis) : Outcome Mesh.Axis :=
  runFromMesh S { x with intervals := solveAllIntervals zones x.intervals }

/-- A zone without its intervals (`src/domain/conflicts/conflict_diagonal_or_circular_zone.hpp:23-29`). -/
def Zone.bare (z : Zone) : Zone := { z with intervals := [] }

/-- The steps from `SOLVE_DIAG_ZONES_ANGLES` on (`src/app/openemsh.cpp:172-183`), with the angles and the zones there are at the end
of a run: what is run again when the minimal angle of a zone is edited (`src/ui/qt/main_window.cpp:650-654`,
`src/ui/qt/edit/edit_model_conflict_diagonal_or_circular_zone.cpp:43-48`). `to_mesh` of the angles is what the run before left,
as in `runFromZones`. The intervals of the run before, which zones still hold, are left out, as in `runFromConflicts`. -/
def runFromZonesAngles (S : Sorters) (g : MeshParams) (gz : ZoneParams) (B : Input) (L : List BAngle) (zones : Zones) (m : ToMesh)
    (axis : Geom.Axis) : Outcome ((Nat → BEdge) × Mesh.Axis) :=
  (Outcome.orUb (solveZonesAngles (angleAt L) gz.minimalAngle zones m)).bind fun m =>
  (detectAllInPolygons S.points B allPlanes).bind fun conflicts =>
  (Outcome.orUb (conflicts.foldlM (solveAllInPolygon S.overlaps) B.E)).bind fun E =>
  (Outcome.orUb (boardPolicies B E L m (detectAllColinear B) axis)).bind fun asked =>
  (finishAxis S g (angleAt L) ((zones axis).map Zone.bare) (axisPolicies g (B.fixed axis) asked)).map fun a => (E, a)

/-- The steps from `DETECT_DIAG_ANGLES` on (`src/app/openemsh.cpp:170-183`), run again with the angles `L` of the runs before. The
board is not registered with the caretaker (`src/domain/board.cpp:144-149, 168-173`), so going back leaves it the angles found,
and those found again are added to them (`src/domain/board.cpp:270, 299, 308`). `to_mesh` of the former angles is what the run
before left, as in `runFromZones`; that of the new ones is false. Gives the angles too. -/
def runFromAngles (S : Sorters) (g : MeshParams) (gz : ZoneParams) (B : Input) (L : List BAngle) (m : ToMesh) (axis : Geom.Axis) :
    Outcome (List BAngle × (Nat → BEdge) × Mesh.Axis) :=
  (Outcome.orUb (detectAllAngles B)).bind fun found =>
  (runFromZones S g gz B (L ++ found) (fun n va => decide (n < L.length) && m n va) axis).map fun r => (L ++ found, r)

/-- The steps from `DETECT_INTERVALS_PER_DIAG_ZONES` on, on one axis (`src/app/openemsh.cpp:181-183`), with the zones as they are:
not registered, they still hold the intervals found before, to which those found again are added
(`src/domain/conflicts/conflict_diagonal_or_circular_zone.cpp:32-36`). -/
def runFromPerZones (S : Sorters) (A : Nat → BAngle) (zones : List Zone) (x : Mesh.Axis) : Outcome Mesh.Axis :=
  (Outcome.orUb (zoneIntervals A zones x)).bind fun c => runFromMesh S c

/-- The steps from `DETECT_AND_SOLVE_TCMLP` on (`src/app/openemsh.cpp:179-183`), from an axis with its policies not merged yet: what
is run again when conflict `i` is set to be taken into account or not (`src/ui/qt/main_window.cpp:650-654`,
`src/ui/qt/edit/edit_model_conflict_too_close_meshline_policies.cpp:36-40`). The conflict edited is no more among those the manager
has, being from the run before; the loop makes new ones (`src/domain/meshline_policy_manager.cpp:112-123`,
`src/domain/conflict_manager.cpp:170-203`), and reads `is_enabled` of none. -/
def runFromTooClose (S : Sorters) (g : MeshParams) (A : Nat → BAngle) (zones : List Zone) (x : Mesh.Axis) (_edited : Nat × Bool) :
    Outcome Mesh.Axis :=
  finishAxis S g A zones x

end Verif.Board
