import Verif.Model.Text
import Verif.Model.Geometry

/-!
# Model of the documents read and written, and of the parameters

`SerializerToCsx::visit` (`src/infra/serializers/serializer_to_csx.cpp:76-131`), the start of `ParserFromCsx::parse`
(`src/infra/parsers/parser_from_csx.cpp:663-700`), the parameters (`src/domain/global.hpp:19-31`) and their overriding from
the command line (`src/ui/cli/cli.cpp:99-107`, `:155-201`, `:230-233`). Documents are trees as pugixml gives them;
comments, declarations and the position of text among the children of a node are left out.
-/

namespace Verif.Csx
open Verif.Geom (Axis)

/-- A node of a document: name, attributes, first text, children (`pugi::xml_node`, used in `src/infra/serializers/serializer_to_csx.cpp:60-131`
and `src/infra/parsers/parser_from_csx.cpp:663-748`). -/
inductive Node
  | mk (name : String) (attrs : List (String × List Char)) (text : List Char) (children : List Node)

namespace Node

/-- Name of a node (`xml_node::name`, `src/infra/parsers/parser_from_csx.cpp:256`). -/
def name : Node → String
  | mk n _ _ _ => n

/-- Attributes of a node (`xml_node::attribute`, `src/infra/parsers/parser_from_csx.cpp:127-134`). -/
def attrs : Node → List (String × List Char)
  | mk _ a _ _ => a

/-- First text of a node (`child_value`, `src/infra/parsers/parser_from_csx.cpp:136-141`). -/
def text : Node → List Char
  | mk _ _ t _ => t

/-- Children of a node (`xml_node::child`, `src/infra/serializers/serializer_to_csx.cpp:60-73`). -/
def children : Node → List Node
  | mk _ _ _ c => c

/-- `xml_node::attribute`: the first attribute with a name (`src/infra/parsers/parser_from_csx.cpp:127-134`). -/
def attr? (n : Node) (name : String) : Option (List Char) := (n.attrs.find? fun a => a.1 == name).map (·.2)

end Node

/-- `xml_node::child`: the first child with a name (`src/infra/serializers/serializer_to_csx.cpp:60-73`). -/
def child (l : List Node) (name : String) : Option Node := l.find? fun c => c.name == name

/-- Changing the node found or appended by `find_or_append_child` (`src/infra/serializers/serializer_to_csx.cpp:68-73`). -/
def onAppended (name : String) (f : Node → Node) : List Node → List Node
  | [] => [f (.mk name [] [] [])]
  | c :: rest => if c.name = name then f c :: rest else c :: onAppended name f rest

/-- Changing the node found or prepended by `find_or_prepend_child` (`src/infra/serializers/serializer_to_csx.cpp:60-65`). -/
def onPrepended (name : String) (f : Node → Node) (l : List Node) : List Node :=
  if l.any (fun c => c.name == name) then onAppended name f l else f (.mk name [] [] []) :: l

/-- The same on the children of a node (`src/infra/serializers/serializer_to_csx.cpp:60-73`). -/
def Node.onChild (name : String) (f : Node → Node) : Node → Node
  | .mk n a t c => .mk n a t (onAppended name f c)

/-- Parameters (`src/domain/global.hpp:19-31`). -/
structure Params where
  hasGridAlready : Bool := false
  proximityLimit : ℚ := 1
  smoothness : ℚ := 2
  lmin : Nat := 2
  dmax : ℚ := 5 / 2
  diagonalLmin : Nat := 2
  diagonalDmax : ℚ := 1 / 5
  minimalAngle : ℚ := 20
  fixed : List (Axis × ℚ) := []
deriving DecidableEq, Repr

/-- How pugixml writes and reads a `double` in an attribute: `set_value(double)` with seventeen digits
(`src/infra/serializers/serializer_to_csx.cpp:117-126`), `as_double` (`src/infra/parsers/parser_from_csx.cpp:127-131`). -/
structure Codec where
  write : ℚ → List Char
  read : List Char → ℚ

/-- `SerializerToCsx::Params` (`src/infra/serializers/serializer_to_csx.hpp:21-28`), and the texts of the lines of the
axes. -/
structure Output where
  withX : Bool := true
  withY : Bool := true
  withZ : Bool := true
  withParams : Bool := false
  x : List Char
  y : List Char
  z : List Char

/-- The node of the lines of an axis (`src/infra/serializers/serializer_to_csx.cpp:107`). -/
def linesNode (name : String) (text : List Char) : Node := .mk name [] text []

/-- The grid node: children, text included, are replaced, attributes are kept
(`src/infra/serializers/serializer_to_csx.cpp:92-115`). -/
def writeGridNode (o : Output) : Node → Node
  | .mk n a _ _ => .mk n a []
    ((if o.withX then [linesNode "XLines" o.x] else []) ++ (if o.withY then [linesNode "YLines" o.y] else []) ++
      (if o.withZ then [linesNode "ZLines" o.z] else []))

/-- The structure written to (`src/infra/serializers/serializer_to_csx.cpp:85-93`). -/
def writeStructure (o : Output) (doc : List Node) : List Node :=
  if doc.any (fun c => c.name == "ContinuousStructure") then
    onAppended "ContinuousStructure" (Node.onChild "RectilinearGrid" (writeGridNode o)) doc
  else
    onAppended "openEMS" (Node.onChild "ContinuousStructure" (Node.onChild "RectilinearGrid" (writeGridNode o))) doc

/-- The attributes saved (`src/infra/serializers/serializer_to_csx.cpp:121-125`). -/
def savedAttrs (codec : Codec) (p : Params) : List (String × List Char) :=
  [("ProximityLimit", codec.write p.proximityLimit), ("Smoothness", codec.write p.smoothness), ("dmax", codec.write p.dmax),
    ("lmin", decimal p.lmin)]

/-- Replacing all the attributes of a node (`src/infra/serializers/serializer_to_csx.cpp:121-125`). -/
def setAttrs (a : List (String × List Char)) : Node → Node
  | .mk n _ t c => .mk n a t c

/-- `xml_node::remove_child`: the first child with a name is removed
(`src/infra/serializers/serializer_to_csx.cpp:76-131`). -/
def removeFirst (name : String) : List Node → List Node
  | [] => []
  | c :: rest => if c.name = name then rest else c :: removeFirst name rest

/-- `SerializerToCsx::visit` (`src/infra/serializers/serializer_to_csx.cpp:76-131`) on the document read from the input. -/
def writeDocument (codec : Codec) (o : Output) (p : Params) (doc : List Node) : List Node :=
  if o.withParams then
    onPrepended "OpenEMSH" (Node.onChild "GlobalParams" (setAttrs (savedAttrs codec p))) (writeStructure o doc)
  else removeFirst "OpenEMSH" (writeStructure o doc)

/-- The nodes at a path, in the order of the document: `select_nodes("/a/b")`
(`src/infra/parsers/parser_from_csx.cpp:663-748`). -/
def select (doc : List Node) : List String → List Node
  | [] => []
  | [name] => doc.filter fun c => c.name == name
  | name :: rest => (doc.filter fun c => c.name == name).flatMap fun c => select c.children rest

/-- The structure read from (`src/infra/parsers/parser_from_csx.cpp:676-695`). -/
def readStructure (doc : List Node) : Option Node :=
  match (select doc ["openEMS", "ContinuousStructure"]).head? with
  | some n => some n
  | none => (select doc ["ContinuousStructure"]).head?

/-- What `parse_grid` reads of the structure (`src/infra/parsers/parser_from_csx.cpp:154-164`). -/
def gridNode (csx : Node) : GridNode :=
  let grid := ((child csx.children "RectilinearGrid").map Node.children).getD []
  let value (name : String) := ((child grid name).map Node.text).getD []
  { coordSystem := csx.attr? "CoordSystem", deltaUnit := csx.attr? "DeltaUnit",
    x := value "XLines", y := value "YLines", z := value "ZLines" }

/-- The part of `parse_oemsh` about the parameters (`src/infra/parsers/parser_from_csx.cpp:127-131`). -/
def readAttrs (codec : Codec) (n : Node) (p : Params) : Params :=
  { p with
    proximityLimit := ((n.attr? "ProximityLimit").map codec.read).getD p.proximityLimit
    smoothness := ((n.attr? "Smoothness").map codec.read).getD p.smoothness
    dmax := ((n.attr? "dmax").map codec.read).getD p.dmax
    lmin := ((n.attr? "lmin").map asUint).getD p.lmin }

/-- The parameters read from a document (`src/infra/parsers/parser_from_csx.cpp:671-674`). -/
def readParams (codec : Codec) (enabled : Bool) (doc : List Node) : Params :=
  if enabled then
    match (select doc ["OpenEMSH"]).head? with
    | some n => ((child n.children "GlobalParams").map fun g => readAttrs codec g {}).getD {}
    | none => {}
  else {}

/-- An option of the command line that overrides a parameter (`src/ui/cli/cli.cpp:155-201`). -/
inductive Override
  | fixed (lines : List (Axis × ℚ))
  | proximityLimit (v : ℚ)
  | dmax (v : ℚ)
  | lmin (v : Nat)
  | smoothness (v : ℚ)
  | diagonalDmax (v : ℚ)
  | diagonalLmin (v : Nat)
  | minimalAngle (v : ℚ)
deriving DecidableEq, Repr

/-- `make_overrider` (`src/ui/cli/cli.cpp:99-107`). -/
def Override.apply (p : Params) : Override → Params
  | .fixed l => { p with fixed := l }
  | .proximityLimit v => { p with proximityLimit := v }
  | .dmax v => { p with dmax := v }
  | .lmin v => { p with lmin := v }
  | .smoothness v => { p with smoothness := v }
  | .diagonalDmax v => { p with diagonalDmax := v }
  | .diagonalLmin v => { p with diagonalLmin := v }
  | .minimalAngle v => { p with minimalAngle := v }

/-- `ParserFromCsx::run` with the overrides (`src/ui/cli/cli.cpp:230-233`,
`src/infra/parsers/parser_from_csx.cpp:636-644`): the parameters of the board, and the lines added as fixed policies. -/
def runParams (codec : Codec) (enabled : Bool) (doc : List Node) (overrides : List Override) : Params × List (Axis × ℚ) :=
  let p := overrides.foldl Override.apply (readParams codec enabled doc)
  ({ p with fixed := [] }, p.fixed)

end Verif.Csx
