import Verif.Model.Warnings

/-!
# What is left out of a document

Written from what the parser says it supports, without its loops.
-/

namespace Verif.Csx.Warn

/-- The kinds of properties that give a material. -/
def readKinds : List String :=
  ["BackgroundMaterial", "Material", "DispersiveMaterial", "DebyeMaterial", "LorentzMaterial", "Metal", "ConductingSheet",
    "LumpedElement", "Excitation", "ProbeBox"]

/-- The kinds of properties known not to. -/
def leftKinds : List String := ["DumpBox", "ResBox", "DiscMaterial", "Unknown"]

/-- The kinds of primitives that give something. -/
def readShapes : List String := ["Box", "MultiBox", "LinPoly", "Polygon", "Sphere", "Cylinder", "Point", "Curve"]

/-- The kinds of primitives known not to. -/
def leftShapes : List String :=
  ["Polyhedron", "PolyhedronReader", "RotPoly", "SphericalShell", "CylindricalShell", "Wire", "User-Defined"]

/-- Something is in the first node `Transformation` of a primitive. -/
def Moved (n : Node) : Prop := ∃ t, child n.children "Transformation" = some t ∧ (t.text ≠ [] ∨ t.children ≠ [])

/-- A primitive is at a place of a property. -/
def At (ps : List Node) (i j : Nat) (p n : Node) : Prop :=
  ps[i]? = some p ∧ ∃ c, child p.children "Primitives" = some c ∧ c.children[j]? = some n

/-- The primitive at a place is left out: its property gives a material, but it is moved, or of a kind not read. -/
def Left (ps : List Node) (i j : Nat) (p n : Node) : Prop :=
  At ps i j p n ∧ p.name ∈ readKinds ∧ (Moved n ∨ n.name ∉ readShapes)

/-- How many primitives are in a property. -/
def count (p : Node) : Nat := ((p.children.filter fun c => c.name == "Primitives").map fun c => c.children.length).sum

/-- The name told of the primitive at a place. -/
def told (ps : List Node) (i j : Nat) (p : Node) : List Char :=
  (p.attr? "Name").getD [] ++ [':', ':'] ++ decimal (((ps.take i).map count).sum + j)

/-- The kind told of a primitive left out. -/
def ToldKind (n : Node) (t : List Char) : Prop :=
  (Moved n ∧ t = "Transformed ".toList ++ n.name.toList) ∨ (¬ Moved n ∧ t = n.name.toList)

/-- Nothing of a kind never heard of. -/
def Known (ps : List Node) : Prop :=
  (∀ p ∈ ps, p.name ∈ readKinds ∨ p.name ∈ leftKinds) ∧
  ∀ i j p n, At ps i j p n → p.name ∈ readKinds → Moved n ∨ n.name ∈ readShapes ∨ n.name ∈ leftShapes

end Verif.Csx.Warn
