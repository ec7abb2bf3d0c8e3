import Verif.Model.Decode
import Mathlib.Data.List.Lex
import Mathlib.Data.List.Sort
import Mathlib.Data.Char

/-!
# What the parser says of what it leaves out

The part of `src/infra/parsers/parser_from_csx.cpp` about names and warnings, that `Verif.Model.Csx` and `Verif.Model.Decode`
leave out: the numbers of the primitives, their names, and the two warnings at the end of `ParserFromCsx::parse`.

Simplifications.
* A `std::set<string>` is the list of its members in order. Bytes of UTF-8 are ordered as the characters they stand for.
* A primitive is found again in `primitives_ids` by its place in the document. A text among the primitives, that would have
  a number too, is no node here.
-/

namespace Verif.Csx
open Verif.Board (MaterialKind)

/-- `std::set::emplace` (`src/infra/parsers/parser_from_csx.cpp:115-116, 121-122`). -/
def emplace (s : List Char) (l : List (List Char)) : List (List Char) :=
  if s ∈ l then l else l.orderedInsert (· ≤ ·) s

/-- The four sets (`src/infra/parsers/parser_from_csx.cpp:80-83`) and the two counters of the progress bar (709-711). -/
structure Warned where
  propertyTypes : List (List Char) := []
  propertyNames : List (List Char) := []
  primitiveTypes : List (List Char) := []
  primitiveNames : List (List Char) := []
  found : Nat := 0
  seen : Nat := 0

/-- `warn_unsupported_property` (`src/infra/parsers/parser_from_csx.cpp:114-117`). -/
def Warned.property (w : Warned) (type name : List Char) : Warned :=
  { w with propertyTypes := emplace type w.propertyTypes, propertyNames := emplace name w.propertyNames }

/-- `warn_unsupported_primitive` (`src/infra/parsers/parser_from_csx.cpp:120-123`). -/
def Warned.primitive (w : Warned) (type name : List Char) : Warned :=
  { w with primitiveTypes := emplace type w.primitiveTypes, primitiveNames := emplace name w.primitiveNames }

/-- `attribute("Name").as_string()` (`src/infra/parsers/parser_from_csx.cpp:188, 252`). -/
def nameOf (n : Node) : List Char := (n.attr? "Name").getD []

/-- `ContinuousStructure/Properties/*/Primitives` of one property, and their children
(`src/infra/parsers/parser_from_csx.cpp:701-703`). -/
def allPrimitives (p : Node) : List Node := (childrenNamed p "Primitives").flatMap Node.children

/-- The children of `node.child("Primitives")` (`src/infra/parsers/parser_from_csx.cpp:717-718`): those of the first one. -/
def ownPrimitives (p : Node) : List Node := ((child p.children "Primitives").map Node.children).getD []

/-- `primitives_ids` (`src/infra/parsers/parser_from_csx.cpp:698-707`) as it is read at 253: the properties with their
primitives, each with its number, `id` being the next number. Those of other `Properties` nodes come after. -/
def numbered : List Node → Nat → List (Node × List (Node × Nat))
  | [], _ => []
  | p :: rest, id => (p, (ownPrimitives p).zipIdx id) :: numbered rest (id + (allPrimitives p).length)

/-- The part of `parse_property` that warns (`src/infra/parsers/parser_from_csx.cpp:238-243`): the names before these are those of
`decodeKind`. -/
def warnProperty (p : Node) (w : Warned) : Warned :=
  if p.name ∈ ["DumpBox", "ResBox", "DiscMaterial", "Unknown"] then w.property p.name.toList (nameOf p) else w

/-- `parse_primitive` (`src/infra/parsers/parser_from_csx.cpp:250-295`) as to warnings and to what it returns, of the primitive of
number `id`. -/
def warnPrimitive (p n : Node) (id : Nat) (w : Warned) : Bool × Warned :=
  let name := nameOf p ++ "::".toList ++ decimal id
  if isTransformed n then (false, w.primitive ("Transformed ".toList ++ n.name.toList) name)
  else if n.name ∈ ["Box", "MultiBox", "LinPoly", "Polygon", "Sphere", "Cylinder", "Point", "Curve"] then (true, w)
  else if n.name ∈ ["Polyhedron", "PolyhedronReader", "RotPoly", "SphericalShell", "CylindricalShell", "Wire", "User-Defined"] then
    (false, w.primitive n.name.toList name)
  else (false, w)

/-- The loop over the primitives of a property (`src/infra/parsers/parser_from_csx.cpp:718-722`): `material` is whether there
is one. -/
def warnPrimitives (material : Bool) (p : Node) : List (Node × Nat) → Warned → Warned
  | [], w => w
  | (n, id) :: rest, w =>
    let (read, w) := if material then warnPrimitive p n id w else (false, w)
    warnPrimitives material p rest { w with found := if read then w.found + 1 else w.found, seen := w.seen + 1 }

/-- The loop over the properties (`src/infra/parsers/parser_from_csx.cpp:714-724`). -/
def warnProperties (codec : Codec) : List (Node × List (Node × Nat)) → Warned → Warned
  | [], w => w
  | (p, ns) :: rest, w =>
    warnProperties codec rest (warnPrimitives (parseProperty (decodeKind codec p)).isSome p ns (warnProperty p w))

/-- A warning (`src/utils/logger.hpp:38-46`). -/
structure Warning where
  message : String
  informative : List Char
  details : List Char
  deriving DecidableEq, Repr

/-- `views::join_with(", ")` (`src/infra/parsers/parser_from_csx.cpp:734-735, 743-744`). -/
def joined : List (List Char) → List Char
  | [] => []
  | [s] => s
  | s :: rest => s ++ ", ".toList ++ joined rest

/-- One of the two warnings (`src/infra/parsers/parser_from_csx.cpp:728-736, 737-745`). -/
def warning (message : String) (types names : List (List Char)) : List Warning :=
  if names ≠ [] ∧ types ≠ [] then [⟨message, joined types, joined names⟩] else []

/-- The warnings at the end of `ParserFromCsx::parse` (`src/infra/parsers/parser_from_csx.cpp:728-745`). -/
def Warned.log (w : Warned) : List Warning :=
  warning "Unsupported CSXCAD Properties:" w.propertyTypes w.propertyNames ++
    warning "Unsupported CSXCAD Primitives:" w.primitiveTypes w.primitiveNames

/-- The properties read (`src/infra/parsers/parser_from_csx.cpp:713-714`). -/
def propertyNodes (doc : List Node) : List Node :=
  ((select doc (rooted doc ["ContinuousStructure", "Properties"])).head?.map Node.children).getD []

/-- The sets and counters after the loops of `ParserFromCsx::parse` (`src/infra/parsers/parser_from_csx.cpp:698-724`), on a document
that is not refused. -/
def warned (codec : Codec) (doc : List Node) : Warned := warnProperties codec (numbered (propertyNodes doc) 0) {}

end Verif.Csx
