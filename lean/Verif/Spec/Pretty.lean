import Verif.Model.Pretty
import Verif.Spec.Plantuml

/-! # How the text of the conflicts is read, and what it is to say -/

namespace Verif.Pretty.Spec
open Verif.Pretty
open Verif.Uml (double)
open Verif.Uml.Spec (linesOf after)
open Verif.Mesh (Kind)
open Verif.Geom (Plane Axis Normal Rotation Point SegAxis Direction)

/-- A text as a terminal shows it: what goes from an escape character to an `m` only sets a colour. -/
def shownFrom : Bool → List Char → List Char
  | _, [] => []
  | false, c :: rest => if c = '\x1b' then shownFrom true rest else c :: shownFrom false rest
  | true, c :: rest => if c = 'm' then shownFrom false rest else shownFrom true rest

/-- The lines that a terminal shows. -/
def shownLines (text : List Char) : List (List Char) := linesOf (shownFrom false text)

/-- A line set to the right. -/
def tabbed (line : List Char) : Bool := line.head? = some '\t'

/-- What is reported under each line that reads `title`: the lines set to the right that follow. -/
def reports (title : List Char) : List (List Char) → List (List (List Char))
  | [] => []
  | l :: rest => if l = title then rest.takeWhile tabbed :: reports title rest else reports title rest

/-- What follows a label, in each of the lines that begin with it. -/
def under (label : String) (report : List (List Char)) : List (List Char) := report.filterMap (after label.toList)

/-- What is under a title, up to the next title. -/
def chapter (title : String) (lines : List (List Char)) : List (List Char) :=
  ((lines.dropWhile (· ≠ "CONFLICT: ".toList ++ title.toList)).tail).takeWhile
    fun l => !("CONFLICT: ".toList).isPrefixOf l

/-- The words. -/
def normalWord : Normal → String
  | .xmin => "XMIN" | .xmax => "XMAX" | .ymin => "YMIN" | .ymax => "YMAX" | .zmin => "ZMIN" | .zmax => "ZMAX" | .none => "NONE"
@[inherit_doc normalWord] def directionWord : Direction → String
  | .xmin => "XMIN" | .xmax => "XMAX" | .ymin => "YMIN" | .ymax => "YMAX" | .none => "NONE"
@[inherit_doc normalWord] def segWord : SegAxis → String
  | .h => "H" | .v => "V" | .diagonal => "DIAGONAL" | .point => "POINT"
@[inherit_doc normalWord] def rotationWord : Rotation → String
  | .cw => "CW" | .ccw => "CCW" | .colinear => "COLINEAR"
@[inherit_doc normalWord] def kindWord : Kind → String
  | .oneline => "ONELINE" | .halfs => "HALFS" | .thirds => "THIRDS"
@[inherit_doc normalWord] def axisWord : Axis → String
  | .x => "X" | .y => "Y" | .z => "Z"
@[inherit_doc normalWord] def planeWord : Plane → String
  | .yz => "YZ" | .zx => "ZX" | .xy => "XY"

/-- How two ends are told, but for the brace that begins them. -/
def ends (p q : Point) : List Char :=
  [' '] ++ double p.x ++ [',', ' '] ++ double p.y ++ " } -> { ".toList ++ double q.x ++ [',', ' '] ++ double q.y ++ [' ', '}']

/-- How an edge is told, but for the brace that begins it: its ends, axis, direction, normal, and whether it is to be meshed. -/
def edgeTold (e : EdgeRec) : List Char :=
  ends e.p0 e.p1 ++ [' '] ++ (segWord e.axis).toList ++ [' '] ++ (directionWord e.direction).toList ++ [' '] ++
    (normalWord e.normal).toList ++ [' ', if e.toMesh then 'O' else 'X']

/-- How a conflict of colinear edges is told: on which axis, of which edges, and what came of it. -/
structure ToldColinear where
  axis : List (List Char)
  edges : List (List Char)
  solution : List (List Char)

/-- Read from a report, and of a conflict. -/
def ToldColinear.read (r : List (List Char)) : ToldColinear := ⟨under "\tAxis: " r, under "\tEdge: {" r, under "\tSolution: " r⟩
@[inherit_doc ToldColinear.read] def ToldColinear.of (c : ColinearRec) : ToldColinear :=
  ⟨[(axisWord c.axis).toList], c.edges.map edgeTold, c.solution.toList.map fun k => (kindWord k).toList⟩

/-- How a conflict of an edge in polygons is told: in which plane, of which edge, over which polygons with their edges, along which
edges and ranges, and what came of it. -/
structure ToldInPolygon where
  plane : List (List Char)
  edge : List (List Char)
  polygons : List (List Char)
  sides : List (List Char)
  along : List (List Char)
  ranges : List (List Char)
  solution : List (List Char)

/-- Read from a report, and of a conflict. -/
def ToldInPolygon.read (r : List (List Char)) : ToldInPolygon :=
  ⟨under "\tPlane: " r, under "\tEdge: {" r, under "\tPolygon: " r, under "\t\t{" r, under "\t\tby edge: {" r,
    under "\t\ton range: {" r, under "\tSolution: " r⟩
@[inherit_doc ToldInPolygon.read] def ToldInPolygon.of (c : InPolygonRec) : ToldInPolygon :=
  ⟨[(planeWord c.plane).toList], [edgeTold c.edge],
    c.overlaps.map fun o => o.polygon.name ++ [' '] ++ (rotationWord o.polygon.rotation).toList ++ [' ', '{'],
    c.overlaps.flatMap fun o => o.polygon.edges.map edgeTold,
    c.overlaps.flatMap fun o => o.edge.toList.map edgeTold,
    c.overlaps.map fun o => ends o.range.p0 o.range.p1 ++ [' '] ++ (segWord o.range.axis).toList,
    if c.solved then [if c.edge.toMesh then "to mesh".toList else "don't mesh".toList] else []⟩

/-- The names of the polygons have neither escape characters nor ends of lines. -/
def PlainNames (b : Board) : Prop :=
  ∀ p, ∀ c ∈ b.inPolygons p, ∀ o ∈ c.overlaps, ∀ ch ∈ o.polygon.name, ch ≠ '\x1b' ∧ ch ≠ '\n'

end Verif.Pretty.Spec
