import Verif.Model.PaintGraph
import Verif.Model.Plantuml
import Verif.Model.Dialog
import Verif.Model.Conflict

/-!
# What is written on the nodes of the processing view

The constructors of `src/ui/qt/processing_view/processing_{edge,angle,meshline_policy,interval,meshline,polygon}.cpp`,
`processing_conflict_{colinear_edges,diagonal_or_circular_zone}.cpp`. A pointer that can be null is an `Option`, and `none` as a result
is undefined behaviour: the read of the identifier through a null pointer. Ports without a name and wires are left out.
-/

namespace Verif.Paint
open Verif.Mesh (Kind Facing)
open Verif.Geom (Normal)
open Verif.Csx (decimal)
open Verif.Uml (normalText facingText kindText yesNo)
open Verif.Dialog (number)

/-- What is read of an `Edge` (`src/ui/qt/processing_view/processing_edge.cpp:23, 58-60, 81, 115`). -/
structure EdgeFacts where
  id : Nat
  normal : Normal
  toMesh : Bool
  toReverse : Bool
  deriving DecidableEq

/-- What is read of an `Angle` (`src/ui/qt/processing_view/processing_angle.cpp:22, 77-79, 93, 112, 134`). -/
structure AngleFacts where
  id : Nat
  angle : ℚ
  toMeshH : Bool
  toMeshV : Bool
  deriving DecidableEq

/-- What is read of a `MeshlinePolicy` (`src/ui/qt/processing_view/processing_meshline_policy.cpp:28, 84-87, 101, 139`). -/
structure PolicyFacts where
  id : Nat
  normal : Facing
  enabled : Bool
  policy : Kind
  d : ℚ
  deriving DecidableEq

/-- What is read of an `Interval` (`src/ui/qt/processing_view/processing_interval.cpp:23, 99-103, 156`). -/
structure IntervalFacts where
  id : Nat
  dmax : ℚ
  beforeLmin : Nat
  beforeSmoothness : ℚ
  afterLmin : Nat
  afterSmoothness : ℚ
  deriving DecidableEq

/-- What is read of a `ConflictDiagonalOrCircularZone`
(`src/ui/qt/processing_view/processing_conflict_diagonal_or_circular_zone.cpp:20, 63-65, 100`). -/
structure ZoneFacts where
  id : Nat
  dmax : ℚ
  lmin : Nat
  minimalAngle : ℚ
  deriving DecidableEq

/-- What is read of a `ConflictColinearEdges` (`src/ui/qt/processing_view/processing_conflict_colinear_edges.cpp:20, 41-45, 70`). -/
structure ColinearFacts where
  id : Nat
  edges : List EdgeFacts
  deriving DecidableEq

/-- What is written on a node: its title, and its lines or named ports from top to bottom, each with the kind of text it is
(`src/ui/qt/utils/nodegraph/node.hpp`, `text.hpp`, `port.hpp`). -/
structure Written where
  title : List Char
  lines : List (List Char × Words)
  deriving DecidableEq

/-- The text of a title: the type, and the identifier if there is an entity (`src/ui/qt/processing_view/processing_edge.cpp:23`, and
alike in the other constructors). -/
def titleText (type : String) (id : Option Nat) : List Char := type.toList ++ " - ".toList ++ (id.map decimal).getD []

/-- The parameters of a line that says whether something is on
(`src/ui/qt/processing_view/processing_edge.cpp:80-93`, `processing_angle.cpp:92-105, 111-124`,
`processing_meshline_policy.cpp:100-113`). -/
def stateWords : Option Bool → Words
  | some true => .enabled
  | some false => .disabled
  | none => .normal

/-- `ProcessingEdge::ProcessingEdge` (`src/ui/qt/processing_view/processing_edge.cpp:22-119`). -/
def writeEdge (edge : Option EdgeFacts) : Option Written :=
  let normal := "Normal: ".toList ++ (edge.map fun e => normalText e.normal).getD []
  let toMesh := "To mesh: ".toList ++ (edge.map fun e => yesNo e.toMesh).getD []
  let toReverse := "To reverse: ".toList ++ (edge.map fun e => yesNo e.toReverse).getD []
  edge.map fun e =>
    { title := titleText "Edge" (some e.id)
      lines := [(normal, .normal), (toMesh, stateWords (edge.map (·.toMesh))), (toReverse, .normal)] }

/-- `ProcessingAngle::ProcessingAngle` (`src/ui/qt/processing_view/processing_angle.cpp:21-138`). -/
def writeAngle (angle : Option AngleFacts) : Option Written :=
  let value := "Angle (°): ".toList ++ (angle.map fun a => number a.angle).getD []
  let toMeshH := "To mesh [H]: ".toList ++ (angle.map fun a => yesNo a.toMeshH).getD []
  let toMeshV := "To mesh [V]: ".toList ++ (angle.map fun a => yesNo a.toMeshV).getD []
  angle.map fun a =>
    { title := titleText "Angle" (some a.id)
      lines := [(value, .normal), (toMeshH, stateWords (angle.map (·.toMeshH))), (toMeshV, stateWords (angle.map (·.toMeshV)))] }

/-- `ProcessingMeshlinePolicy::ProcessingMeshlinePolicy` (`src/ui/qt/processing_view/processing_meshline_policy.cpp:27-143`). -/
def writePolicy (policy : Option PolicyFacts) : Option Written :=
  let normal := "Normal: ".toList ++ (policy.map fun p => facingText p.normal).getD []
  let isEnabled := "Is enabled: ".toList ++ (policy.map fun p => yesNo p.enabled).getD []
  let kind := "Policy: ".toList ++ (policy.map fun p => kindText p.policy).getD []
  let d := "d: ".toList ++ (policy.map fun p => number p.d).getD []
  policy.map fun p =>
    { title := titleText "MeshlinePolicy" (some p.id)
      lines := [(normal, .normal), (isEnabled, stateWords (policy.map (·.enabled))), (kind, .normal), (d, .normal)] }

/-- `ProcessingInterval::ProcessingInterval` (`src/ui/qt/processing_view/processing_interval.cpp:22-160`). -/
def writeInterval (interval : Option IntervalFacts) : Option Written :=
  let dmax := "dmax: ".toList ++ (interval.map fun i => number i.dmax).getD []
  let beforeLmin := "Before.lmin: ".toList ++ (interval.map fun i => decimal i.beforeLmin).getD []
  let beforeSmoothness := "Before.Smoothness: ".toList ++ (interval.map fun i => number i.beforeSmoothness).getD []
  let afterLmin := "After.lmin: ".toList ++ (interval.map fun i => decimal i.afterLmin).getD []
  let afterSmoothness := "After.Smoothness: ".toList ++ (interval.map fun i => number i.afterSmoothness).getD []
  interval.map fun i =>
    { title := titleText "Interval" (some i.id)
      lines := [(dmax, .normal), (beforeLmin, .normal), (beforeSmoothness, .normal), (afterLmin, .normal), (afterSmoothness, .normal)] }

/-- `ProcessingConflictDiagonalOrCircularZone::ProcessingConflictDiagonalOrCircularZone`
(`src/ui/qt/processing_view/processing_conflict_diagonal_or_circular_zone.cpp:19-104`). -/
def writeZone (conflict : Option ZoneFacts) : Option Written :=
  let dmax := "dmax: ".toList ++ (conflict.map fun c => number c.dmax).getD []
  let lmin := "lmin: ".toList ++ (conflict.map fun c => decimal c.lmin).getD []
  let minimalAngle := "Minimal angle (°): ".toList ++ (conflict.map fun c => number c.minimalAngle).getD []
  conflict.map fun c =>
    { title := titleText "ConflictDiagonalOrCircularZone" (some c.id)
      lines := [(dmax, .normal), (lmin, .normal), (minimalAngle, .normal)] }

/-- `ProcessingConflictColinearEdges::ProcessingConflictColinearEdges`
(`src/ui/qt/processing_view/processing_conflict_colinear_edges.cpp:19-74`): the lines are the names of its input ports. -/
def writeColinear (conflict : Option ColinearFacts) : Option Written :=
  conflict.map fun c =>
    { title := titleText "ConflictColinearEdges" (some c.id)
      lines := c.edges.map fun e =>
        ("Normal: ".toList ++ normalText e.normal ++ (if e.toMesh then " enabled".toList else " disabled".toList),
          if e.toMesh then .portEnabled else .portDisabled) }

/-- What is read of a `Meshline` (`src/ui/qt/processing_view/processing_meshline.cpp:23, 62, 81`). -/
structure MeshlineFacts where
  id : Nat
  coord : ℚ
  deriving DecidableEq

/-- What is read of a `Polygon` (`src/ui/qt/processing_view/processing_polygon.cpp:21, 47-50, 79`). -/
structure PolygonFacts where
  id : Nat
  name : List Char
  material : Option Board.MaterialKind
  priority : Nat
  deriving DecidableEq

/-- `to_string(Material::Type)` (`src/infra/utils/to_string.cpp:102-110`). -/
def materialText : Board.MaterialKind → List Char
  | .port => "PORT".toList
  | .conductor => "CONDUCTOR".toList
  | .dielectric => "DIELECTRIC".toList
  | .air => "AIR".toList

/-- `ProcessingMeshline::ProcessingMeshline` (`src/ui/qt/processing_view/processing_meshline.cpp:22-85`). `QString::number` in the
format `f` with six digits writes what `std::to_string` does. -/
def writeMeshline (meshline : Option MeshlineFacts) : Option Written :=
  let coord := "Coord: ".toList ++ (meshline.map fun l => Uml.double l.coord).getD []
  meshline.map fun l =>
    { title := titleText "Meshline" (some l.id)
      lines := [(coord, .normal)] }

/-- `ProcessingPolygon::ProcessingPolygon` (`src/ui/qt/processing_view/processing_polygon.cpp:20-83`). -/
def writePolygon (polygon : Option PolygonFacts) : Option Written :=
  let type := "Type: ".toList ++ ((polygon.bind (·.material)).map materialText).getD []
  let priority := "Priority: ".toList ++ (polygon.map fun p => decimal p.priority).getD []
  polygon.map fun p =>
    { title := titleText "Polygon" (some p.id) ++ " - ".toList ++ p.name
      lines := [(type, .normal), (priority, .normal)] }

end Verif.Paint
