import Verif.Model.Csx
import Verif.Model.Run

/-!
# From what the parser adds to the board, and its run

`Board::Builder`, the constructors of `Polygon` and `BoardState`, `Board::adjust_edges_to_materials`, and then the steps.
Names of polygons are left out.
-/

namespace Verif.Board
open Verif.Geom
open Verif.Csx (Added)
open Verif.Mesh (MeshParams)

/-- A polygon when it was made (`src/domain/geometrics/polygon.cpp:27-42`): its edges have their normals. -/
structure Part where
  plane : Plane
  material : MaterialKind
  priority : Nat
  z : ℚ × ℚ
  points : List Point
  bounding : Bounding
  edges : List Edge
  deriving DecidableEq, Repr

/-- `Board::Builder::add_polygon` (`src/domain/board.cpp:102-120`) with the constructor of `Polygon`
(`src/domain/geometrics/polygon.cpp:27-42`). `none` is undefined behaviour: no point. -/
def makePart (plane : Plane) (material : MaterialKind) (priority : Nat) (z : ℚ × ℚ) (points : List Point) : Option Part :=
  (detectBounding points).bind fun bounding =>
  (polygonEdges points).map fun edges => ⟨plane, material, priority, z, points, bounding, edges⟩

/-- The polygons made, in order (`src/domain/board.cpp:102-120`). -/
def makeParts : List Added → Option (List Part)
  | [] => some []
  | .polygon plane material priority z points :: rest =>
    (makePart plane material priority z points).bind fun p => (makeParts rest).map fun l => p :: l
  | .line _ _ :: rest => makeParts rest

/-- The coordinates given to `add_fixed_meshline_policy` for an axis, in order (`src/domain/board.cpp:81-99`). -/
def fixedLines (added : List Added) (axis : Geom.Axis) : List ℚ :=
  added.filterMap fun
    | .line w coord => if w = axis then some coord else none
    | .polygon .. => none

/-- An edge when it was made (`src/domain/geometrics/edge.hpp:39-45`, `src/domain/geometrics/edge.cpp:21-45`): to be meshed,
not reversed. A normal never set would be `none`; theorem `C35_direction` rules it out. -/
def makeEdge (plane : Plane) (e : Edge) : BEdge := ⟨plane, e.seg, e.normal.getD .none, true, false⟩

/-- Pointers to edges are numbers: those of a polygon follow those of the polygons made before it
(`src/domain/geometrics/polygon.cpp:48-59`). The number of the first one. -/
def firstEdge (parts : List Part) (n : Nat) : Nat := ((parts.take n).map fun p => p.edges.length).sum

/-- A polygon as the search for edges in polygons reads it (`src/domain/geometrics/polygon.hpp:52-76`). -/
def asPolygon (parts : List Part) (n : Nat) : PPolygon :=
  match parts[n]? with
  | none => ⟨[], [], 0, 0, 0⟩
  | some p => ⟨p.points, (p.edges.zipIdx (firstEdge parts n)).map fun e => (e.2, e.1.seg), p.z.1, p.z.2, p.priority⟩

/-- A polygon as the search for materials reads it (`src/domain/geometrics/polygon.hpp:52-76`). -/
def asArea (parts : List Part) (n : Nat) : BPolygon :=
  match parts[n]? with
  | none => ⟨[], ⟨0, 0, 0, 0⟩, 0, 0, 0, none⟩
  | some p => ⟨p.points, p.bounding, p.z.1, p.z.2, p.priority, some p.material⟩

/-- A board with the materials (`src/domain/board.hpp:38-102`). -/
structure Design where
  input : Input
  areas : Nat → BPolygon
  background : Option MaterialKind

/-- `Board::Builder::build` (`src/domain/board.cpp:65-72`) and the constructor of `BoardState`
(`src/domain/board.cpp:123-133`). -/
def assemble (angle : Ang → ℚ) (background : Option MaterialKind) (added : List Added) (parts : List Part) : Design where
  input :=
    { polygons := fun plane => (List.range parts.length).filter fun n => (parts[n]?.map Part.plane) == some plane
      P := asPolygon parts
      E := fun n => (parts.flatMap fun p => p.edges.map (makeEdge p.plane)).getD n ⟨.xy, ⟨⟨0, 0⟩, ⟨0, 0⟩⟩, .none, true, false⟩
      fixed := fixedLines added
      angle := angle }
  areas := asArea parts
  background := background

/-- The board made of what was added (`src/domain/board.cpp:65-133`). `none` is undefined behaviour. -/
def buildDesign (angle : Ang → ℚ) (background : Option MaterialKind) (added : List Added) : Option Design :=
  (makeParts added).map (assemble angle background added)

/-- `to_reverse` of an edge set (`src/domain/board.cpp:241-243`). -/
def setReverse (E : Nat → BEdge) (n : Nat) (b : Bool) : Nat → BEdge :=
  fun m => if m = n then { E m with toReverse := b } else E m

/-- `Board::adjust_edges_to_materials` on one polygon (`src/domain/board.cpp:219-247`). -/
def adjustPolygon (sort : List (MaterialKind × Nat) → List (MaterialKind × Nat)) (D : Design) (polygons : List Nat) (c : Nat)
    (E : Nat → BEdge) : Option (Nat → BEdge) :=
  (D.input.P c).edges.foldlM (fun E e => (adjustEdge sort D.areas polygons D.background c (E e.1)).map (setReverse E e.1)) E

/-- `Board::adjust_edges_to_materials` on one plane (`src/domain/board.cpp:212-250`). -/
def adjustPlane (sort : List (MaterialKind × Nat) → List (MaterialKind × Nat)) (D : Design) (E : Nat → BEdge) (plane : Plane) :
    Option (Nat → BEdge) :=
  (D.input.polygons plane).foldlM (fun E c => adjustPolygon sort D (D.input.polygons plane) c E) E

/-- `Board::adjust_edges_to_materials` (`src/domain/board.cpp:623-626`): the edges afterwards. `none` is undefined
behaviour. -/
def adjustAll (sort : List (MaterialKind × Nat) → List (MaterialKind × Nat)) (D : Design) : Option (Nat → BEdge) :=
  allPlanes.foldlM (adjustPlane sort D) D.input.E

/-- `OpenEMSH::run_all_steps` with its first step (`src/app/openemsh.cpp:169-207`). -/
def runDesign (S : Sorters) (sort : List (MaterialKind × Nat) → List (MaterialKind × Nat)) (g : MeshParams) (gz : ZoneParams)
    (D : Design) (axis : Geom.Axis) : Outcome ((Nat → BEdge) × Mesh.Axis) :=
  (Outcome.orUb (adjustAll sort D)).bind fun E => runSteps S g gz { D.input with E := E } axis

end Verif.Board
