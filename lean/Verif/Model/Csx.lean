import Verif.Model.Conflict
import Verif.Model.Text

/-!
# Model of the parser of CSX files

`src/infra/parsers/parser_from_csx.cpp`. XML is left out: a node is given by what the parser reads of it. Numbers read
from attributes are given as numbers. Names and colours are left out.
-/

namespace Verif.Csx
open Verif.Geom
open Verif.Board (MaterialKind deduceType)

/-- `Point3D` (`src/infra/parsers/csxcad_layer/point_3d.hpp:14-22`). -/
structure Point3 where
  x : ℚ
  y : ℚ
  z : ℚ
deriving DecidableEq, Repr

/-- `ParserFromCsx::Params` (`src/infra/parsers/parser_from_csx.hpp:27-33`). -/
structure Flags where
  yz : Bool := true
  zx : Bool := true
  xy : Bool := true
  readParams : Bool := true
  keepOld : Bool := false
deriving DecidableEq, Repr

/-- What is added to the builder of the board (`src/domain/board.cpp:81-120`): a polygon or a fixed line. -/
inductive Added
  | polygon (plane : Plane) (material : MaterialKind) (priority : Nat) (z : ℚ × ℚ) (points : List Point)
  | line (axis : Geom.Axis) (coord : ℚ)
deriving DecidableEq, Repr

/-- `to_axis` (`src/infra/parsers/parser_from_csx.cpp:37-44`). -/
def toAxis : Nat → Option Geom.Axis
  | 0 => some .x
  | 1 => some .y
  | 2 => some .z
  | _ => none

/-- `to_plane` (`src/infra/parsers/parser_from_csx.cpp:47-54`). -/
def toPlane : Nat → Option Plane
  | 0 => some .yz
  | 1 => some .zx
  | 2 => some .xy
  | _ => none

/-- The largest `size_t` (`src/infra/parsers/parser_from_csx.cpp:69`). -/
def sizeMax : Nat := 18446744073709551615

/-- `parse_priority` (`src/infra/parsers/parser_from_csx.cpp:67-71`). -/
def parsePriority (material : MaterialKind) (priority : Nat) : Nat :=
  if material = .port then sizeMax else priority

/-- `Board::Builder::add_polygon_from_box` (`src/domain/board.cpp:112-120`). -/
def addBox (plane : Plane) (m : MaterialKind) (priority : Nat) (z0 z1 : ℚ) (p1 p3 : Point) : Added :=
  .polygon plane m priority (rangeZ z0 z1) (boxPoints p1 p3)

/-- A primitive, by its name and what is read of it (`src/infra/parsers/parser_from_csx.cpp:261-294`). -/
inductive Shape
  | box (p1 p2 : Point3)
  | multibox (starts ends : List Point3)
  | linpoly (normdir : Nat) (elevation length : ℚ) (vertices : List Point)
  | polygon (normdir : Nat) (elevation : ℚ) (vertices : List Point)
  | sphere (center : Point3) (radius : ℚ)
  | cylinder (p1 p2 : Point3) (radius : ℚ)
  | point (p : Point3)
  | curve (vertices : List Point3)
  | other
deriving DecidableEq, Repr

/-- `ParserFromCsx::Pimpl::parse_primitive_box` (`src/infra/parsers/parser_from_csx.cpp:298-317`), from the points. -/
def parseBox (f : Flags) (m : MaterialKind) (priority : Nat) (p1 p2 : Point3) : List Added :=
  (if f.yz then [addBox .yz m priority p1.x p2.x ⟨p1.y, p1.z⟩ ⟨p2.y, p2.z⟩] else []) ++
  (if f.zx then [addBox .zx m priority p1.y p2.y ⟨p1.z, p1.x⟩ ⟨p2.z, p2.x⟩] else []) ++
  (if f.xy then [addBox .xy m priority p1.z p2.z ⟨p1.x, p1.y⟩ ⟨p2.x, p2.y⟩] else [])

/-- `parse_primitive_multibox` (`src/infra/parsers/parser_from_csx.cpp:320-338`). -/
def parseMultibox (f : Flags) (m : MaterialKind) (priority : Nat) (starts ends : List Point3) : List Added :=
  (starts.zip ends).flatMap fun s => parseBox f m priority s.1 s.2

/-- `parse_primitive_linpoly` (`src/infra/parsers/parser_from_csx.cpp:341-420`). `none` is undefined behaviour:
`detect_bounding` of no point. -/
def parseLinpoly (f : Flags) (m : MaterialKind) (priority normdir : Nat) (elevation length : ℚ) (vertices : List Point) :
    Option (List Added) :=
  match toPlane normdir with
  | none => some []
  | some plane =>
    (detectBounding vertices).map fun b =>
      .polygon plane m priority (rangeZ elevation (elevation + length)) vertices ::
      if length = 0 then []
      else match plane with
        | .yz =>
          (if f.zx then [addBox .zx m priority b.xmin b.xmax ⟨b.ymin, elevation⟩ ⟨b.ymax, elevation + length⟩] else []) ++
          (if f.xy then [addBox .xy m priority b.ymin b.ymax ⟨elevation, b.xmin⟩ ⟨elevation + length, b.xmax⟩] else [])
        | .zx =>
          (if f.xy then [addBox .xy m priority b.xmin b.xmax ⟨b.ymin, elevation⟩ ⟨b.ymax, elevation + length⟩] else []) ++
          (if f.yz then [addBox .yz m priority b.ymin b.ymax ⟨elevation, b.xmin⟩ ⟨elevation + length, b.xmax⟩] else [])
        | .xy =>
          (if f.yz then [addBox .yz m priority b.xmin b.xmax ⟨b.ymin, elevation⟩ ⟨b.ymax, elevation + length⟩] else []) ++
          (if f.zx then [addBox .zx m priority b.ymin b.ymax ⟨elevation, b.xmin⟩ ⟨elevation + length, b.xmax⟩] else [])

/-- `parse_primitive_polygon` (`src/infra/parsers/parser_from_csx.cpp:423-442`). `none` is undefined behaviour. -/
def parsePolygon (m : MaterialKind) (priority normdir : Nat) (elevation : ℚ) (vertices : List Point) :
    Option (List Added) :=
  match toPlane normdir, toAxis normdir with
  | some plane, some normal =>
    (detectBounding vertices).map fun _ =>
      [.polygon plane m priority (rangeZ elevation elevation) vertices, .line normal elevation]
  | _, _ => some []

/-- `circle_to_points` (`src/domain/geometrics/polygon.cpp:215-231`): the cosine and sine of each angle are given. -/
def circlePoints (dirs : List Point) (center : Point) (radius : ℚ) : List Point :=
  dirs.map fun d => ⟨center.x + radius * d.x, center.y + radius * d.y⟩

/-- `parse_primitive_shpere` (`src/infra/parsers/parser_from_csx.cpp:445-461`). -/
def parseSphere (f : Flags) (dirs : List Point) (m : MaterialKind) (priority : Nat) (c : Point3) (r : ℚ) : List Added :=
  (if f.yz then [.polygon .yz m priority (rangeZ (c.x - r) (c.x + r)) (circlePoints dirs ⟨c.y, c.z⟩ r)] else []) ++
  (if f.zx then [.polygon .zx m priority (rangeZ (c.y - r) (c.y + r)) (circlePoints dirs ⟨c.z, c.x⟩ r)] else []) ++
  (if f.xy then [.polygon .xy m priority (rangeZ (c.z - r) (c.z + r)) (circlePoints dirs ⟨c.x, c.y⟩ r)] else [])

/-- `parse_primitive_cylinder` (`src/infra/parsers/parser_from_csx.cpp:464-527`). -/
def parseCylinder (f : Flags) (dirs : List Point) (m : MaterialKind) (priority : Nat) (p1 p2 : Point3) (r : ℚ) :
    List Added :=
  if coordEq p1.y p2.y ∧ coordEq p1.z p2.z then
    (if f.yz then [.polygon .yz m priority (rangeZ p1.x p2.x) (circlePoints dirs ⟨p1.y, p1.z⟩ r)] else []) ++
    (if f.zx then [addBox .zx m priority p1.y p2.y ⟨p1.z - r / 2, p1.x⟩ ⟨p2.z + r / 2, p2.x⟩] else []) ++
    (if f.xy then [addBox .xy m priority p1.z p2.z ⟨p1.x, p1.y - r / 2⟩ ⟨p2.x, p2.y + r / 2⟩] else [])
  else if coordEq p1.z p2.z ∧ coordEq p1.x p2.x then
    (if f.zx then [.polygon .zx m priority (rangeZ p1.y p2.y) (circlePoints dirs ⟨p1.z, p1.x⟩ r)] else []) ++
    (if f.xy then [addBox .xy m priority p1.z p2.z ⟨p1.x - r / 2, p1.y⟩ ⟨p2.x + r / 2, p2.y⟩] else []) ++
    (if f.yz then [addBox .yz m priority p1.x p2.x ⟨p1.y, p1.z - r / 2⟩ ⟨p2.y, p2.z + r / 2⟩] else [])
  else if coordEq p1.x p2.x ∧ coordEq p1.y p2.y then
    (if f.xy then [.polygon .xy m priority (rangeZ p1.z p2.z) (circlePoints dirs ⟨p1.x, p1.y⟩ r)] else []) ++
    (if f.yz then [addBox .yz m priority p1.x p2.x ⟨p1.y - r / 2, p1.z⟩ ⟨p2.y + r / 2, p2.z⟩] else []) ++
    (if f.zx then [addBox .zx m priority p1.y p2.y ⟨p1.z, p1.x - r / 2⟩ ⟨p2.z, p2.x + r / 2⟩] else [])
  else []

/-- `parse_primitive_point` (`src/infra/parsers/parser_from_csx.cpp:530-553`). -/
def parsePoint (f : Flags) (p : Point3) : List Added :=
  (if f.yz then [.line .y p.y, .line .z p.z] else []) ++
  (if f.zx then [.line .z p.z, .line .x p.x] else []) ++
  (if f.xy then [.line .x p.x, .line .y p.y] else [])

/-- `ranges::min` of a coordinate, with the order of numbers: the smallest; undefined behaviour when there is none. It is
also what `ranges::max` gives with the reversed order (`src/infra/parsers/parser_from_csx.cpp:571`). -/
def smallest : List ℚ → Option ℚ
  | [] => none
  | c :: rest => some (rest.foldl (fun a b => if b < a then b else a) c)

/-- There and back along the vertices (`src/infra/parsers/parser_from_csx.cpp:573-581`). -/
def backAndForth {α : Type} (vertices : List α) : List α := vertices ++ (vertices.drop 1).reverse.drop 1

/-- One plane of `parse_primitive_curve` (`src/infra/parsers/parser_from_csx.cpp:567-584`, `:585-602`, `:603-620`): both
ends of the range are the smallest coordinate, since the order given to `ranges::max` is reversed. -/
def curveOn (plane : Plane) (m : MaterialKind) (depth : Point3 → ℚ) (proj : Point3 → Point) (vertices : List Point3) :
    Option Added :=
  (smallest (vertices.map depth)).map fun z => .polygon plane m sizeMax (rangeZ z z) (backAndForth (vertices.map proj))

/-- The guard of one plane (`src/infra/parsers/parser_from_csx.cpp:567`, `:585`, `:603`). -/
def guarded (flag : Bool) (a : Option Added) : Option (List Added) := if flag then a.map ([·]) else some []

/-- `parse_primitive_curve` (`src/infra/parsers/parser_from_csx.cpp:556-621`). `none` is undefined behaviour. -/
def parseCurve (f : Flags) (m : MaterialKind) (vertices : List Point3) : Option (List Added) :=
  (guarded f.yz (curveOn .yz m (·.x) (fun p => ⟨p.y, p.z⟩) vertices)).bind fun yz =>
  (guarded f.zx (curveOn .zx m (·.y) (fun p => ⟨p.z, p.x⟩) vertices)).bind fun zx =>
  (guarded f.xy (curveOn .xy m (·.z) (fun p => ⟨p.x, p.y⟩) vertices)).map fun xy => yz ++ zx ++ xy

/-- A primitive: whether its node has a transformation (`src/infra/parsers/parser_from_csx.cpp:255`), its priority
(67-71), its shape. -/
structure Primitive where
  transformed : Bool
  priority : Nat
  shape : Shape
deriving DecidableEq, Repr

/-- `parse_primitive` (`src/infra/parsers/parser_from_csx.cpp:250-295`): what is added. Messages
are left out. -/
def parsePrimitive (f : Flags) (dirs : List Point) (m : MaterialKind) (p : Primitive) : Option (List Added) :=
  if p.transformed then some []
  else
    let priority := parsePriority m p.priority
    match p.shape with
    | .box p1 p2 => some (parseBox f m priority p1 p2)
    | .multibox starts ends => some (parseMultibox f m priority starts ends)
    | .linpoly n e l v => parseLinpoly f m priority n e l v
    | .polygon n e v => parsePolygon m priority n e v
    | .sphere c r => some (parseSphere f dirs m priority c r)
    | .cylinder p1 p2 r => some (parseCylinder f dirs m priority p1 p2 r)
    | .point p => some (parsePoint f p)
    | .curve v => parseCurve f m v
    | .other => some []

/-- A property, by its name and what is read of it (`src/infra/parsers/parser_from_csx.cpp:187-247`). -/
inductive PropertyKind
  | material (epsilon mue kappa : ℚ)
  | metal
  | conductingSheet
  | lumpedElement
  | excitation
  | probeBox
  | other
deriving DecidableEq, Repr

/-- `parse_property` (`src/infra/parsers/parser_from_csx.cpp:187-247`). -/
def parseProperty : PropertyKind → Option MaterialKind
  | .material epsilon mue kappa => some (deduceType epsilon mue kappa)
  | .metal => some .conductor
  | .conductingSheet => some .conductor
  | .lumpedElement => some .port
  | .excitation => some .port
  | .probeBox => some .port
  | .other => none

/-- A property with its primitives (`src/infra/parsers/parser_from_csx.cpp:714-724`). -/
structure Property where
  kind : PropertyKind
  primitives : List Primitive

/-- The loop over the primitives of a property (`src/infra/parsers/parser_from_csx.cpp:718-722`). -/
def parsePrimitives (f : Flags) (dirs : List Point) (m : Option MaterialKind) : List Primitive → Option (List Added)
  | [] => some []
  | p :: rest =>
    (m.elim (some []) fun m => parsePrimitive f dirs m p).bind fun added =>
    (parsePrimitives f dirs m rest).map fun others => added ++ others

/-- The loop over the properties (`src/infra/parsers/parser_from_csx.cpp:714-724`). -/
def parseProperties (f : Flags) (dirs : List Point) : List Property → Option (List Added)
  | [] => some []
  | p :: rest =>
    (parsePrimitives f dirs (parseProperty p.kind) p.primitives).bind fun added =>
    (parseProperties f dirs rest).map fun others => added ++ others

end Verif.Csx
