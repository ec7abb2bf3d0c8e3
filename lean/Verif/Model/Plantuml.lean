import Verif.Model.Text
import Verif.Model.Manager
import Verif.Model.Geometry

/-!
# The state diagram

Model of `src/infra/serializers/serializer_to_plantuml.cpp` with the `to_string` of `src/infra/utils/to_string.cpp`. A text is the
list of its lines, each of which the code ends with `\n`.

Simplifications.
* `Params` keeps its default values, the only ones in use (`src/app/openemsh.cpp:148`).
* A pointer to an object is its `Entity::id` (`src/utils/entity.cpp:12-17`), with what is read through it.
-/

namespace Verif.Uml
open Verif.Csx (decimal toString6 Signed)
open Verif.Mesh (Kind Facing Sorter)
open Verif.Geom (Plane Axis Normal Rotation)

/-- What is read of an `Edge` (`src/infra/serializers/serializer_to_plantuml.cpp:100-108`). -/
structure EdgeRec where
  id : Nat
  normal : Normal
  toMesh : Bool
  hasConflicts : Bool
  deriving DecidableEq

/-- What is read of a `Polygon` (`src/infra/serializers/serializer_to_plantuml.cpp:111-123`). -/
structure PolygonRec where
  id : Nat
  name : List Char
  rotation : Rotation
  edges : List EdgeRec

/-- What is read of a `MeshlinePolicy` (`src/infra/serializers/serializer_to_plantuml.cpp:193-212`): of each origin, the `id` of the
edge it is, if it is one. -/
structure PolicyRec where
  id : Nat
  coord : ℚ
  kind : Kind
  normal : Facing
  enabled : Bool
  d : ℚ
  origins : List (Option Nat)

/-- What is read of a `ConflictColinearEdges` (`src/infra/serializers/serializer_to_plantuml.cpp:126-149`); the solution is none when
it is no policy. -/
structure ColinearRec where
  id : Nat
  edges : List EdgeRec
  solution : Option PolicyRec

/-- What is read of a `ConflictEdgeInPolygon` (`src/infra/serializers/serializer_to_plantuml.cpp:152-171`): of each overlap, the polygon
and the overlapping edge. -/
structure InPolygonRec where
  id : Nat
  edge : EdgeRec
  overlaps : List (Nat × Option Nat)

/-- What is read of a `ConflictTooCloseMeshlinePolicies` (`src/infra/serializers/serializer_to_plantuml.cpp:174-190`). -/
structure TooCloseRec where
  id : Nat
  policies : Nat × Nat
  solution : Option Nat

/-- What is read of an `Interval` (`src/infra/serializers/serializer_to_plantuml.cpp:215-231`). -/
structure IntervalRec where
  id : Nat
  dmax : ℚ
  lminBefore : Nat
  smoothnessBefore : ℚ
  lminAfter : Nat
  smoothnessAfter : ℚ
  before : Nat
  after : Nat

/-- What is read of a `Meshline` (`src/infra/serializers/serializer_to_plantuml.cpp:234-247`). -/
structure MeshlineRec where
  id : Nat
  coord : ℚ
  interval : Option Nat
  policy : Option Nat

/-- What is read of a `Board` (`src/infra/serializers/serializer_to_plantuml.cpp:43-97`). -/
structure Board where
  polygons : Plane → List PolygonRec
  inPolygons : Plane → List InPolygonRec
  policies : Axis → List PolicyRec
  intervals : Axis → List IntervalRec
  meshlines : Axis → List MeshlineRec
  colinears : Axis → List ColinearRec
  tooCloses : Axis → List TooCloseRec

/-- `to_string(Normal)` (`src/infra/utils/to_string.cpp:27-38`). -/
def normalText : Normal → List Char
  | .xmin => "XMIN".toList
  | .xmax => "XMAX".toList
  | .ymin => "YMIN".toList
  | .ymax => "YMAX".toList
  | .zmin => "ZMIN".toList
  | .zmax => "ZMAX".toList
  | .none => "NONE".toList

/-- `to_string(MeshlinePolicy::Normal)` (`src/infra/utils/to_string.cpp:41-48`). -/
def facingText : Facing → List Char
  | .min => "MIN".toList
  | .max => "MAX".toList
  | .none => "NONE".toList

/-- `to_string(MeshlinePolicy::Policy)` (`src/infra/utils/to_string.cpp:51-58`). -/
def kindText : Kind → List Char
  | .oneline => "ONELINE".toList
  | .halfs => "HALFS".toList
  | .thirds => "THIRDS".toList

/-- `to_string(Polygon::Rotation)` (`src/infra/utils/to_string.cpp:61-68`). -/
def rotationText : Rotation → List Char
  | .cw => "CW".toList
  | .ccw => "CCW".toList
  | .colinear => "COLINEAR".toList

/-- `to_string(Axis)` (`src/infra/utils/to_string.cpp:82-89`). -/
def axisText : Axis → List Char
  | .x => "X".toList
  | .y => "Y".toList
  | .z => "Z".toList

/-- `to_string(Plane)` (`src/infra/utils/to_string.cpp:92-99`). -/
def planeText : Plane → List Char
  | .yz => "YZ".toList
  | .zx => "ZX".toList
  | .xy => "XY".toList

/-- `std::to_string(double)` as used at `src/infra/serializers/serializer_to_plantuml.cpp:206, 223-227, 239`. -/
def double (x : ℚ) : List Char := toString6 ⟨decide (x < 0), |x|⟩

/-- `to_mesh ? "true" : "false"` (`src/infra/serializers/serializer_to_plantuml.cpp:106, 204`). -/
def yesNo (b : Bool) : List Char := if b then "true".toList else "false".toList

/-- A line `state "…" as … {` (`src/infra/serializers/serializer_to_plantuml.cpp:51, 66, 104, 115, 131, 156, 179, 200, 219, 238`). -/
def opening (title name colour : List Char) : List Char :=
  "state \"".toList ++ title ++ "\" as ".toList ++ name ++ colour ++ " {".toList

/-- A line `state " " as … <<…>>` (`src/infra/serializers/serializer_to_plantuml.cpp:116, 132-133, 157, 163, 180-181, 201-202,
220-222`). -/
def pin (name kind : List Char) : List Char := "state \" \" as ".toList ++ name ++ " <<".toList ++ kind ++ ">>".toList

/-- A line `… : … = …` (`src/infra/serializers/serializer_to_plantuml.cpp:105-106, 117, 137, 143-144, 203-206, 223-227, 239`). -/
def field (name label value : List Char) : List Char := name ++ " : ".toList ++ label ++ " = ".toList ++ value

/-- A line with an arrow (`src/infra/serializers/serializer_to_plantuml.cpp:138, 145, 158-159, 164, 166, 184, 187, 209, 228-229, 242,
244`): `tail` is the space that some end with. -/
def arrow (a style b : List Char) (tail : List Char := []) : List Char :=
  a ++ " -----".toList ++ style ++ "-> ".toList ++ b ++ tail

/-- The line that ends a state (`src/infra/serializers/serializer_to_plantuml.cpp:61, 93, 107, 122, 148, 170, 189, 211, 230, 246`). -/
def closing : List Char := "}".toList

/-- The input pin of an object (`src/infra/serializers/serializer_to_plantuml.cpp:132, 180, 201`). -/
def inPin (id : Nat) : List Char := decimal id ++ "_in".toList

/-- The output pin of an object (`src/infra/serializers/serializer_to_plantuml.cpp:116, 133, 157, 181, 202, 222`). -/
def outPin (id : Nat) : List Char := decimal id ++ "_out".toList

/-- `visit(Edge&)` (`src/infra/serializers/serializer_to_plantuml.cpp:100-108`). -/
def visitEdge (e : EdgeRec) : List (List Char) :=
  [opening "Edge".toList (decimal e.id)
      (if e.toMesh then (if e.hasConflicts then " #green".toList else " #chartreuse".toList) else " #red".toList),
    field (decimal e.id) "Normal".toList (normalText e.normal), field (decimal e.id) "To mesh".toList (yesNo e.toMesh), closing]

/-- `visit(Polygon&)` (`src/infra/serializers/serializer_to_plantuml.cpp:111-123`). -/
def visitPolygon (p : PolygonRec) : List (List Char) :=
  [opening ("Polygon ".toList ++ p.name) (decimal p.id) [], pin (outPin p.id) "outputPin".toList,
    field (decimal p.id) "rotation".toList (rotationText p.rotation)] ++ p.edges.flatMap visitEdge ++ [closing]

/-- `visit(ConflictColinearEdges&)` (`src/infra/serializers/serializer_to_plantuml.cpp:126-149`). -/
def visitColinear (c : ColinearRec) : List (List Char) :=
  [opening "Conflict ColinearEdges".toList (decimal c.id) [], pin (inPin c.id) "inputPin".toList,
    pin (outPin c.id) "outputPin".toList] ++
  c.edges.flatMap (fun e => [field (decimal c.id) "Normal".toList
      (normalText e.normal ++ if e.toMesh then " enabled".toList else " disabled".toList),
    arrow (decimal e.id) [] (inPin c.id) " ".toList]) ++
  (match c.solution with
    | some p => [field (decimal c.id) "Solution.policy".toList (kindText p.kind),
      field (decimal c.id) "Solution.normal".toList (facingText p.normal), arrow (outPin c.id) [] (inPin p.id)]
    | none => []) ++ [closing]

/-- The loop over the overlaps of `visit(ConflictEdgeInPolygon&)` (`src/infra/serializers/serializer_to_plantuml.cpp:161-168`), from the
overlap of rank `i` on. -/
def visitOverlaps (id : Nat) : Nat → List (Nat × Option Nat) → List (List Char)
  | _, [] => []
  | i, (p, e) :: rest =>
    [pin (inPin id ++ decimal i) "inputPin".toList, arrow (outPin p) [] (inPin id ++ decimal i)] ++
    (match e with
      | some e => [arrow (decimal e) [] (inPin id ++ decimal i)]
      | none => []) ++ visitOverlaps id (i + 1) rest

/-- `visit(ConflictEdgeInPolygon&)` (`src/infra/serializers/serializer_to_plantuml.cpp:152-171`). -/
def visitInPolygon (c : InPolygonRec) : List (List Char) :=
  [opening "Conflict EdgeInPolygon".toList (decimal c.id) (if c.edge.toMesh then " #green".toList else " #red".toList),
    pin (outPin c.id) "outputPin".toList, arrow (decimal c.edge.id) [] (decimal c.id),
    arrow (outPin c.id) ("[bold,".toList ++ (if c.edge.toMesh then "#green".toList else "#red".toList) ++ "]".toList)
      (decimal c.edge.id)] ++ visitOverlaps c.id 0 c.overlaps ++ [closing]

/-- `visit(ConflictTooCloseMeshlinePolicies&)` (`src/infra/serializers/serializer_to_plantuml.cpp:174-190`). -/
def visitTooClose (c : TooCloseRec) : List (List Char) :=
  [opening "Conflict TooCloseMeshlinePolicies".toList (decimal c.id) [], pin (inPin c.id) "inputPin".toList,
    pin (outPin c.id) "outputPin".toList, arrow (outPin c.policies.1) "[#red]".toList (inPin c.id) " ".toList,
    arrow (outPin c.policies.2) "[#red]".toList (inPin c.id) " ".toList] ++
  (match c.solution with
    | some p => [arrow (outPin c.id) "[#green]".toList (inPin p)]
    | none => []) ++ [closing]

/-- `visit(MeshlinePolicy&)` (`src/infra/serializers/serializer_to_plantuml.cpp:193-212`). -/
def visitPolicy (p : PolicyRec) : List (List Char) :=
  let origin := match p.origins with
    | [e] => e
    | _ => none
  [opening "MeshlinePolicy".toList (decimal p.id) (if p.enabled then " #green".toList else " #red".toList),
    pin (inPin p.id) "inputPin".toList, pin (outPin p.id) "outputPin".toList,
    field (decimal p.id) "Normal".toList (facingText p.normal), field (decimal p.id) "Is enabled".toList (yesNo p.enabled),
    field (decimal p.id) "Policy".toList (kindText p.kind), field (decimal p.id) "d".toList (double p.d)] ++
  (match origin with
    | some e => [arrow (decimal e) "[#chartreuse]".toList (inPin p.id)]
    | none => []) ++ [closing]

/-- `visit(Interval&)` (`src/infra/serializers/serializer_to_plantuml.cpp:215-231`). -/
def visitInterval (i : IntervalRec) : List (List Char) :=
  [opening "Interval".toList (decimal i.id) [], pin (inPin i.id ++ "1".toList) "inputPin".toList,
    pin (inPin i.id ++ "2".toList) "inputPin".toList, pin (outPin i.id) "outputPin".toList,
    field (decimal i.id) "dmax".toList (double i.dmax), field (decimal i.id) "before.lmin".toList (decimal i.lminBefore),
    field (decimal i.id) "before.smoothness".toList (double i.smoothnessBefore),
    field (decimal i.id) "after.lmin".toList (decimal i.lminAfter),
    field (decimal i.id) "after.smoothness".toList (double i.smoothnessAfter),
    arrow (outPin i.before) [] (inPin i.id ++ "1".toList) " ".toList,
    arrow (outPin i.after) [] (inPin i.id ++ "2".toList) " ".toList, closing]

/-- `visit(Meshline&)` (`src/infra/serializers/serializer_to_plantuml.cpp:234-247`). -/
def visitMeshline (l : MeshlineRec) : List (List Char) :=
  [opening "Meshline".toList (decimal l.id) [], field (decimal l.id) "Coord".toList (double l.coord)] ++
  (match l.interval with
    | some i => [arrow (outPin i) [] (decimal l.id)]
    | none => []) ++
  (match l.policy with
    | some p => [arrow (outPin p) [] (decimal l.id)]
    | none => []) ++ [closing]

/-- The loop over the planes of `visit(Board&)` (`src/infra/serializers/serializer_to_plantuml.cpp:50-62`). -/
def visitPlane (b : Board) (p : Plane) : List (List Char) :=
  [opening ("Plane ".toList ++ planeText p) (planeText p) []] ++ (b.polygons p).flatMap visitPolygon ++
    (b.inPolygons p).flatMap visitInPolygon ++ [closing]

/-- The loop over the axes of `visit(Board&)` (`src/infra/serializers/serializer_to_plantuml.cpp:65-94`). -/
def visitAxis (S : Sorter PolicyRec) (b : Board) (a : Axis) : List (List Char) :=
  [opening ("Axis ".toList ++ axisText a) (axisText a) []] ++ (S.sort (·.coord) (b.policies a)).flatMap visitPolicy ++
    (b.intervals a).flatMap visitInterval ++ (b.meshlines a).flatMap visitMeshline ++
    (b.colinears a).flatMap visitColinear ++ (b.tooCloses a).flatMap visitTooClose ++ [closing]

/-- `visit(Board&)` (`src/infra/serializers/serializer_to_plantuml.cpp:43-97`). -/
def visitBoard (S : Sorter PolicyRec) (b : Board) : List (List Char) :=
  ["@startuml".toList] ++ [Plane.yz, .zx, .xy].flatMap (visitPlane b) ++ [Axis.x, .y, .z].flatMap (visitAxis S b) ++
    ["@enduml".toList]

/-- `SerializerToPlantuml::run` (`src/infra/serializers/serializer_to_plantuml.cpp:26-35`). -/
def run (S : Sorter PolicyRec) (b : Board) : List Char := (visitBoard S b).flatMap fun l => l ++ ['\n']

end Verif.Uml
