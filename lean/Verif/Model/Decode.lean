import Verif.Model.Document
import Verif.Model.Csx

/-!
# Reading shapes, materials and saved lines from the nodes of a document

The parts of `src/infra/parsers/parser_from_csx.cpp` that look into nodes: what they give is what
`Verif.Model.Csx` starts from. Names, colours and messages are left out. Texts among the children of a node are not
nodes here; the code goes over them too, and does nothing with them.
-/

namespace Verif.Csx
open Verif.Geom (Point)
open Verif.Board (MaterialKind)

/-- `attribute(name).as_double(default)` (`src/infra/parsers/parser_from_csx.cpp:204-207`, `:343`) of a node that may be
absent: the default when there is no node or no attribute. -/
def number (codec : Codec) (n : Option Node) (name : String) (default : ℚ := 0) : ℚ :=
  ((n.bind fun n => n.attr? name).map codec.read).getD default

/-- `attribute(name).as_uint(default)` (`src/infra/parsers/parser_from_csx.cpp:70`, `:134`, `:345`). -/
def natural (n : Option Node) (name : String) (default : Nat := 0) : Nat :=
  ((n.bind fun n => n.attr? name).map asUint).getD default

/-- A point in space (`src/infra/parsers/parser_from_csx.cpp:302-309`, `:323-330`, `:449-452`, `:469-476`, `:532-535`,
`:560-563`). -/
def point3 (codec : Codec) (n : Option Node) : Point3 := ⟨number codec n "X", number codec n "Y", number codec n "Z"⟩

/-- A vertex of a polygon (`src/infra/parsers/parser_from_csx.cpp:353-355`, `:434-436`). -/
def point2 (codec : Codec) (n : Node) : Point := ⟨number codec (some n) "X1", number codec (some n) "X2"⟩

/-- `xml_node::children(name)` (`src/infra/parsers/parser_from_csx.cpp:322`, `:352`, `:433`, `:559`). -/
def childrenNamed (n : Node) (name : String) : List Node := n.children.filter fun c => c.name == name

/-- What is read of a primitive, by its name (`src/infra/parsers/parser_from_csx.cpp:261-294`, and the start of each function:
`:298-309`, `:320-330`, `:341-355`, `:423-436`, `:445-452`, `:464-476`, `:530-535`, `:556-564`). -/
def decodeShape (codec : Codec) (n : Node) : Shape :=
  if n.name = "Box" then .box (point3 codec (child n.children "P1")) (point3 codec (child n.children "P2"))
  else if n.name = "MultiBox" then
    .multibox ((childrenNamed n "StartP").map fun c => point3 codec (some c)) ((childrenNamed n "EndP").map fun c => point3 codec (some c))
  else if n.name = "LinPoly" then
    .linpoly (natural (some n) "NormDir") (number codec (some n) "Elevation") (number codec (some n) "Length")
      ((childrenNamed n "Vertex").map (point2 codec))
  else if n.name = "Polygon" then
    .polygon (natural (some n) "NormDir") (number codec (some n) "Elevation") ((childrenNamed n "Vertex").map (point2 codec))
  else if n.name = "Sphere" then .sphere (point3 codec (child n.children "Center")) (number codec (some n) "Radius")
  else if n.name = "Cylinder" then
    .cylinder (point3 codec (child n.children "P1")) (point3 codec (child n.children "P2")) (number codec (some n) "Radius")
  else if n.name = "Point" then .point (point3 codec (some n))
  else if n.name = "Curve" then .curve ((childrenNamed n "Vertex").map fun c => point3 codec (some c))
  else .other

/-- `!node.child("Transformation").first_child().empty()` (`src/infra/parsers/parser_from_csx.cpp:255`): something, a text or
a node, is in the first node of this name. -/
def isTransformed (n : Node) : Bool :=
  match child n.children "Transformation" with
  | some (.mk _ _ text children) => !(text.isEmpty && children.isEmpty)
  | none => false

/-- A primitive (`src/infra/parsers/parser_from_csx.cpp:67-71`, `:250-295`). -/
def decodePrimitive (codec : Codec) (n : Node) : Primitive := ⟨isTransformed n, natural (some n) "Priority", decodeShape codec n⟩

/-- `parse_material_property` (`src/infra/parsers/parser_from_csx.cpp:202-209`) with the defaults of
`src/domain/material.hpp:44-46`. `Sigma`, read and not used, is left out. -/
def decodeMaterial (codec : Codec) (n : Option Node) : PropertyKind :=
  .material (number codec n "Epsilon" 1) (number codec n "Mue" 1) (number codec n "Kappa" 0)

/-- The kind of a property, by its name (`src/infra/parsers/parser_from_csx.cpp:211-246`). -/
def decodeKind (codec : Codec) (n : Node) : PropertyKind :=
  if n.name = "BackgroundMaterial" then decodeMaterial codec (some n)
  else if n.name = "Material" ∨ n.name = "DispersiveMaterial" ∨ n.name = "DebyeMaterial" ∨ n.name = "LorentzMaterial" then
    decodeMaterial codec (child n.children "Property")
  else if n.name = "Metal" then .metal
  else if n.name = "ConductingSheet" then .conductingSheet
  else if n.name = "LumpedElement" then .lumpedElement
  else if n.name = "Excitation" then .excitation
  else if n.name = "ProbeBox" then .probeBox
  else .other

/-- A property with its primitives (`src/infra/parsers/parser_from_csx.cpp:714-722`). -/
def decodeProperty (codec : Codec) (n : Node) : Property :=
  ⟨decodeKind codec n, (((child n.children "Primitives").map Node.children).getD []).map (decodePrimitive codec)⟩

/-- The `root` function (`src/infra/parsers/parser_from_csx.cpp:676-689`), followed by a path. -/
def rooted (doc : List Node) (path : List String) : List String :=
  if (select doc ["openEMS", "ContinuousStructure"]).isEmpty then path else "openEMS" :: path

/-- The properties of a document (`src/infra/parsers/parser_from_csx.cpp:713-714`): those in the first node at the path. -/
def readProperties (codec : Codec) (doc : List Node) : List Property :=
  (((select doc (rooted doc ["ContinuousStructure", "Properties"])).head?.map Node.children).getD []).map (decodeProperty codec)

/-- The background (`src/infra/parsers/parser_from_csx.cpp:696`): none when there is no node. -/
def readBackground (codec : Codec) (csx : Node) : Option MaterialKind :=
  (child csx.children "BackgroundMaterial").bind fun n => parseProperty (decodeKind codec n)

/-- Fixed lines of an axis, added in order (`src/infra/parsers/parser_from_csx.cpp:140-148`, `:168-176`). -/
def addLines (axis : Geom.Axis) (lines : List Signed) : List Added := lines.map fun s => .line axis s.value

/-- The fixed lines of all the axes (`src/infra/parsers/parser_from_csx.cpp:140-148`, `:168-176`). -/
def addAllLines (x y z : List Signed) : List Added := addLines .x x ++ addLines .y y ++ addLines .z z

/-- The part of `parse_oemsh` about lines (`src/infra/parsers/parser_from_csx.cpp:133-149`) on the node found, if any. `none`:
refused. -/
def readSaved (n : Option Node) : Option (List Added) :=
  let fixed := n.bind fun n => child n.children "FixedMeshlines"
  let unit := natural fixed "DeltaUnit" 1
  let value (name : String) := ((fixed.bind fun f => child f.children name).map Node.text).getD []
  do
    let x ← readLines (value "XLines")
    let y ← readLines (value "YLines")
    let z ← readLines (value "ZLines")
    some (addAllLines (x.map (scale unit)) (y.map (scale unit)) (z.map (scale unit)))

/-- What the parser has found (`src/infra/parsers/parser_from_csx.cpp:74-83`): the parameters, what is added to the board, the
background. -/
structure Reading where
  params : Params
  added : List Added
  background : Option MaterialKind

/-- `ParserFromCsx::parse` (`src/infra/parsers/parser_from_csx.cpp:663-748`) on a document that was loaded: `some none` when the
document is refused, `none` when reading a shape is undefined behaviour. -/
def readDocument (codec : Codec) (f : Flags) (dirs : List Point) (doc : List Node) : Option (Option Reading) :=
  match (if f.readParams then readSaved (select doc ["OpenEMSH"]).head? else some []) with
  | none => some none
  | some saved =>
    match readStructure doc with
    | none => some none
    | some csx =>
      match parseGrid f.keepOld (gridNode csx) with
      | none => some none
      | some (has, x, y, z) =>
        (parseProperties f dirs (readProperties codec doc)).map fun shapes =>
          some { params := { readParams codec f.readParams doc with hasGridAlready := has }
                 added := saved ++ addAllLines x y z ++ shapes
                 background := readBackground codec csx }

end Verif.Csx
