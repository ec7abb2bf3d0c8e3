import Verif.Model.Plantuml

/-!
# The text of the conflicts

Model of `src/infra/serializers/serializer_to_prettyprint.cpp` with the `to_string` of `src/infra/utils/to_string.cpp` and the
colours of `src/utils/color.hpp:13-30`, without `NOCOLOR`. A text is the list of its characters.

Simplifications.
* A pointer to an object is what is read through it.
* Policies, intervals and the conflicts of too close policies are kept by their number only: the functions that would visit them are
  those of `EntityVisitor`, which do nothing (`src/domain/utils/entity_visitor.hpp:24-37`).
-/

namespace Verif.Pretty
open Verif.Uml (normalText rotationText kindText axisText planeText double)
open Verif.Mesh (Kind Sorter)
open Verif.Geom (Plane Axis Normal Rotation Point SegAxis Direction)

/-- What is read of an `Edge` (`src/infra/serializers/serializer_to_prettyprint.cpp:92-94`). -/
structure EdgeRec where
  p0 : Point
  p1 : Point
  axis : SegAxis
  direction : Direction
  normal : Normal
  toMesh : Bool

/-- What is read of a `Polygon` (`src/infra/serializers/serializer_to_prettyprint.cpp:97-106`). -/
structure PolygonRec where
  name : List Char
  rotation : Rotation
  edges : List EdgeRec

/-- What is read of a `Range` (`src/infra/serializers/serializer_to_prettyprint.cpp:46-48`). -/
structure RangeRec where
  p0 : Point
  p1 : Point
  axis : SegAxis

/-- What is read of a `ConflictColinearEdges` (`src/infra/serializers/serializer_to_prettyprint.cpp:109-125`); the solution is none
when it is no policy. -/
structure ColinearRec where
  axis : Axis
  edges : List EdgeRec
  solution : Option Kind

/-- An `Overlap` (`src/domain/conflicts/conflict_edge_in_polygon.hpp:28`). -/
structure OverlapRec where
  polygon : PolygonRec
  range : RangeRec
  edge : Option EdgeRec

/-- What is read of a `ConflictEdgeInPolygon` (`src/infra/serializers/serializer_to_prettyprint.cpp:128-155`). -/
structure InPolygonRec where
  plane : Plane
  edge : EdgeRec
  overlaps : List OverlapRec
  solved : Bool

/-- What is read of a `Board` (`src/infra/serializers/serializer_to_prettyprint.cpp:58-89`): the policies have a coordinate. -/
structure Board where
  inPolygons : Plane → List InPolygonRec
  policies : Axis → List (ℚ × Nat)
  intervals : Axis → List Nat
  colinears : Axis → List ColinearRec
  tooCloses : Axis → List Nat

/-- `S_RESET` (`src/utils/color.hpp:13`). -/
def reset : List Char := '\x1b' :: "[m".toList
/-- `S_BOLD` (`src/utils/color.hpp:14`). -/
def bold : List Char := '\x1b' :: "[01m".toList
/-- `F_D_RED` (`src/utils/color.hpp:24`). -/
def darkRed : List Char := '\x1b' :: "[31m".toList
/-- `F_D_GREEN` (`src/utils/color.hpp:25`). -/
def darkGreen : List Char := '\x1b' :: "[32m".toList
/-- `F_ORANGE` (`src/utils/color.hpp:26`). -/
def orange : List Char := '\x1b' :: "[33m".toList
/-- `F_CYAN` (`src/utils/color.hpp:37`). -/
def cyan : List Char := '\x1b' :: "[96m".toList

/-- `to_string(Edge::Direction)` (`src/infra/utils/to_string.cpp:15-24`). -/
def directionText : Direction → List Char
  | .xmin => "XMIN".toList
  | .xmax => "XMAX".toList
  | .ymin => "YMIN".toList
  | .ymax => "YMAX".toList
  | .none => "NONE".toList

/-- `to_string(Segment::Axis)` (`src/infra/utils/to_string.cpp:71-79`). -/
def segAxisText : SegAxis → List Char
  | .h => "H".toList
  | .v => "V".toList
  | .diagonal => "DIAGONAL".toList
  | .point => "POINT".toList

/-- `indent` (`src/infra/serializers/serializer_to_prettyprint.cpp:27-33`). -/
def indent (n : Nat) : List Char := List.replicate n '\t'

/-- `to_string(Point const&)` (`src/infra/serializers/serializer_to_prettyprint.cpp:36-43`). -/
def pointText (p : Point) : List Char := "{ ".toList ++ double p.x ++ ", ".toList ++ double p.y ++ " }".toList

/-- `to_string(Range const&)` (`src/infra/serializers/serializer_to_prettyprint.cpp:46-48`). -/
def rangeText (r : RangeRec) : List Char :=
  pointText r.p0 ++ " -> ".toList ++ pointText r.p1 ++ " ".toList ++ segAxisText r.axis

/-- `visit(Edge&)` (`src/infra/serializers/serializer_to_prettyprint.cpp:92-94`). -/
def visitEdge (e : EdgeRec) : List Char :=
  pointText e.p0 ++ " -> ".toList ++ pointText e.p1 ++ " ".toList ++ segAxisText e.axis ++ " ".toList ++
    directionText e.direction ++ " ".toList ++ normalText e.normal ++ (if e.toMesh then " O".toList else " X".toList) ++ "\n".toList

/-- `visit(Polygon&)` (`src/infra/serializers/serializer_to_prettyprint.cpp:97-106`), where the member `indent` is `n`. -/
def visitPolygon (n : Nat) (p : PolygonRec) : List Char :=
  cyan ++ p.name ++ reset ++ " ".toList ++ rotationText p.rotation ++ " {\n".toList ++
    p.edges.flatMap (fun e => indent n ++ visitEdge e) ++ indent n ++ "}\n".toList

/-- `visit(ConflictColinearEdges&)` (`src/infra/serializers/serializer_to_prettyprint.cpp:109-125`). -/
def visitColinear (c : ColinearRec) : List Char :=
  orange ++ "Conflict ColinearEdges between:\n".toList ++ reset ++ "\tAxis: ".toList ++ axisText c.axis ++ "\n".toList ++
    c.edges.flatMap (fun e => "\tEdge: ".toList ++ visitEdge e) ++
    (match c.solution with
      | some k => "\tSolution: ".toList ++ darkGreen ++ kindText k ++ reset
      | none => []) ++ "\n".toList

/-- An iteration of the loop over the overlaps (`src/infra/serializers/serializer_to_prettyprint.cpp:137-147`), where `indent` is
`n`. -/
def visitOverlap (n : Nat) (o : OverlapRec) : List Char :=
  "\tPolygon: ".toList ++ visitPolygon n o.polygon ++
    (match o.edge with
      | some e => indent n ++ "by edge: ".toList ++ visitEdge e
      | none => []) ++ indent n ++ "on range: ".toList ++ rangeText o.range ++ "\n".toList

/-- `visit(ConflictEdgeInPolygon&)` (`src/infra/serializers/serializer_to_prettyprint.cpp:128-155`). -/
def visitInPolygon (c : InPolygonRec) : List Char :=
  orange ++ "Conflict EdgeInPolygon between:\n".toList ++ reset ++ "\tPlane: ".toList ++ planeText c.plane ++
    "\n\tEdge: ".toList ++ visitEdge c.edge ++ c.overlaps.flatMap (visitOverlap 2) ++
    (if c.solved then "\tSolution: ".toList ++
      (if c.edge.toMesh then darkGreen ++ "to mesh".toList else darkRed ++ "don't mesh".toList) ++ reset else []) ++ "\n".toList

/-- The functions of `EntityVisitor` that are not overridden (`src/domain/utils/entity_visitor.hpp:33-36`, called at
`src/infra/serializers/serializer_to_prettyprint.cpp:74, 77, 88`). -/
def visitPolicy (_ : ℚ × Nat) : List Char := []
@[inherit_doc visitPolicy] def visitInterval (_ : Nat) : List Char := []
@[inherit_doc visitPolicy] def visitTooClose (_ : Nat) : List Char := []

/-- The title of a section (`src/infra/serializers/serializer_to_prettyprint.cpp:60, 80, 85`). -/
def sectionText (title : List Char) : List Char := orange ++ bold ++ "\nCONFLICT: ".toList ++ title ++ "\n\n".toList ++ reset

/-- `visit(Board&)` (`src/infra/serializers/serializer_to_prettyprint.cpp:58-89`). -/
def visitBoard (S : Sorter (ℚ × Nat)) (b : Board) : List Char :=
  sectionText "EDGE IN POLYGONS".toList ++ [Plane.yz, .zx, .xy].flatMap (fun p => (b.inPolygons p).flatMap visitInPolygon) ++
  [Axis.x, .y, .z].flatMap (fun a =>
    (S.sort (·.1) (b.policies a)).flatMap visitPolicy ++ (b.intervals a).flatMap visitInterval) ++
  sectionText "COLINEAR EDGES".toList ++ [Axis.x, .y, .z].flatMap (fun a => (b.colinears a).flatMap visitColinear) ++
  sectionText "TOO CLOSE MESHLINE POLICIES".toList ++ [Axis.x, .y, .z].flatMap (fun a => (b.tooCloses a).flatMap visitTooClose)

/-- `SerializerToPrettyprint::run` (`src/infra/serializers/serializer_to_prettyprint.cpp:51-55, 157-159`). -/
def run (S : Sorter (ℚ × Nat)) (b : Board) : List Char := visitBoard S b

end Verif.Pretty
