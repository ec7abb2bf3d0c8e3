import Verif.Spec.Document
import Verif.Spec.Lines
import Verif.Model.Csx

/-!
# What a document describes

Which shapes, materials and lines the nodes of a document stand for, independent of how the program looks for them.
-/

namespace Verif.Csx.Spec
open Verif.Geom (Point)

/-- No node of the list has this name. -/
def Lacks (l : List Node) (name : String) : Prop := ∀ n ∈ l, n.name ≠ name

/-- After a node with this name, no other has it. -/
def AtMostOne (l : List Node) (name : String) : Prop := ∀ pre n post, l = pre ++ n :: post → n.name = name → Lacks post name

/-- The node found by following names, taking the first node of each name; none when one of them is absent. -/
def NodeAt (l : List Node) : List String → Option Node → Prop
  | [], r => r = none
  | [name], r => (∃ n, First l name n ∧ r = some n) ∨ (Lacks l name ∧ r = none)
  | name :: rest, r => (∃ n, First l name n ∧ NodeAt n.children rest r) ∨ (Lacks l name ∧ r = none)

/-- The value of an attribute, or the default when there is no node or no such attribute. -/
def Value {α : Type} (read : List Char → α) (r : Option Node) (name : String) (default v : α) : Prop :=
  (∃ n t, r = some n ∧ HasAttr n name t ∧ read t = v) ∨ ((∀ n t, r = some n → ¬ HasAttr n name t) ∧ v = default)

/-- A point of space; absent coordinates are zero. -/
def IsPoint (codec : Codec) (r : Option Node) (p : Point3) : Prop :=
  Value codec.read r "X" 0 p.x ∧ Value codec.read r "Y" 0 p.y ∧ Value codec.read r "Z" 0 p.z

/-- A point of a plane. -/
def IsVertex (codec : Codec) (n : Node) (p : Point) : Prop :=
  Value codec.read (some n) "X1" 0 p.x ∧ Value codec.read (some n) "X2" 0 p.y

/-- The nodes with a name, in order. -/
inductive Picks (name : String) : List Node → List Node → Prop
  | nil : Picks name [] []
  | take {n : Node} {l ns : List Node} : n.name = name → Picks name l ns → Picks name (n :: l) (n :: ns)
  | skip {n : Node} {l ns : List Node} : n.name ≠ name → Picks name l ns → Picks name (n :: l) ns

/-- The points of space given by the children with a name, in order. -/
def Points (codec : Codec) (n : Node) (name : String) (ps : List Point3) : Prop :=
  ∃ ns, Picks name n.children ns ∧ List.Forall₂ (fun c p => IsPoint codec (some c) p) ns ps

/-- The vertices, in order. -/
def Vertices (codec : Codec) (n : Node) (ps : List Point) : Prop :=
  ∃ ns, Picks "Vertex" n.children ns ∧ List.Forall₂ (IsVertex codec) ns ps

/-- The child with a name is a point. -/
def Corner (codec : Codec) (n : Node) (name : String) (p : Point3) : Prop :=
  ∃ r, NodeAt n.children [name] r ∧ IsPoint codec r p

/-- The shape a node stands for. -/
inductive Draws (codec : Codec) (n : Node) : Shape → Prop
  | box {p1 p2 : Point3} : n.name = "Box" → Corner codec n "P1" p1 → Corner codec n "P2" p2 → Draws codec n (.box p1 p2)
  | multibox {s e : List Point3} : n.name = "MultiBox" → Points codec n "StartP" s → Points codec n "EndP" e →
      Draws codec n (.multibox s e)
  | linpoly {d : Nat} {e l : ℚ} {v : List Point} : n.name = "LinPoly" → Value asUint (some n) "NormDir" 0 d →
      Value codec.read (some n) "Elevation" 0 e → Value codec.read (some n) "Length" 0 l → Vertices codec n v →
      Draws codec n (.linpoly d e l v)
  | polygon {d : Nat} {e : ℚ} {v : List Point} : n.name = "Polygon" → Value asUint (some n) "NormDir" 0 d →
      Value codec.read (some n) "Elevation" 0 e → Vertices codec n v → Draws codec n (.polygon d e v)
  | sphere {c : Point3} {r : ℚ} : n.name = "Sphere" → Corner codec n "Center" c → Value codec.read (some n) "Radius" 0 r →
      Draws codec n (.sphere c r)
  | cylinder {p1 p2 : Point3} {r : ℚ} : n.name = "Cylinder" → Corner codec n "P1" p1 → Corner codec n "P2" p2 →
      Value codec.read (some n) "Radius" 0 r → Draws codec n (.cylinder p1 p2 r)
  | point {p : Point3} : n.name = "Point" → IsPoint codec (some n) p → Draws codec n (.point p)
  | curve {v : List Point3} : n.name = "Curve" → Points codec n "Vertex" v → Draws codec n (.curve v)
  | other : n.name ∉ ["Box", "MultiBox", "LinPoly", "Polygon", "Sphere", "Cylinder", "Point", "Curve"] → Draws codec n .other

/-- The primitive a node stands for. It is transformed when its first node `Transformation` is not empty. -/
def IsPrimitive (codec : Codec) (n : Node) (p : Primitive) : Prop :=
  (p.transformed = true ↔ ∃ t, First n.children "Transformation" t ∧ (t.text ≠ [] ∨ t.children ≠ [])) ∧
  Value asUint (some n) "Priority" 0 p.priority ∧ Draws codec n p.shape

/-- Relative permittivity, relative permeability and conductivity; those of vacuum when absent. -/
def IsMaterial (codec : Codec) (r : Option Node) (epsilon mue kappa : ℚ) : Prop :=
  Value codec.read r "Epsilon" 1 epsilon ∧ Value codec.read r "Mue" 1 mue ∧ Value codec.read r "Kappa" 0 kappa

/-- The names of materials with their values in a node `Property`. -/
def materialNames : List String := ["Material", "DispersiveMaterial", "DebyeMaterial", "LorentzMaterial"]

/-- The kind of property a node stands for. -/
inductive IsKind (codec : Codec) (n : Node) : PropertyKind → Prop
  | background {e m k : ℚ} : n.name = "BackgroundMaterial" → IsMaterial codec (some n) e m k → IsKind codec n (.material e m k)
  | material {r : Option Node} {e m k : ℚ} : n.name ∈ materialNames → NodeAt n.children ["Property"] r →
      IsMaterial codec r e m k → IsKind codec n (.material e m k)
  | metal : n.name = "Metal" → IsKind codec n .metal
  | conductingSheet : n.name = "ConductingSheet" → IsKind codec n .conductingSheet
  | lumpedElement : n.name = "LumpedElement" → IsKind codec n .lumpedElement
  | excitation : n.name = "Excitation" → IsKind codec n .excitation
  | probeBox : n.name = "ProbeBox" → IsKind codec n .probeBox
  | other : n.name ∉ materialNames → n.name ∉ ["BackgroundMaterial", "Metal", "ConductingSheet", "LumpedElement", "Excitation",
      "ProbeBox"] → IsKind codec n .other

/-- The nodes in the one found, if any. -/
def inside (r : Option Node) : List Node := (r.map Node.children).getD []

/-- The property a node stands for: its kind, and the primitives of its first node `Primitives`, in order. -/
def IsProperty (codec : Codec) (n : Node) (p : Property) : Prop :=
  IsKind codec n p.kind ∧ ∃ r, NodeAt n.children ["Primitives"] r ∧ List.Forall₂ (IsPrimitive codec) (inside r) p.primitives

/-- The structure of a document, at one of the two places only: at the top, or in the first `openEMS` node. -/
def StructureOf (doc : List Node) (csx : Node) : Prop :=
  (First doc "ContinuousStructure" csx ∧ ∀ o ∈ doc, o.name = "openEMS" → Lacks o.children "ContinuousStructure") ∨
  (Lacks doc "ContinuousStructure" ∧ ∃ o, First doc "openEMS" o ∧ First o.children "ContinuousStructure" csx)

/-- The properties of a structure, in order. -/
def PropertiesOf (codec : Codec) (csx : Node) (props : List Property) : Prop :=
  ∃ n, First csx.children "Properties" n ∧ List.Forall₂ (IsProperty codec) n.children props

/-- The lines listed, with commas, in the text found by following names; each is to be multiplied by a unit. -/
def Listed (l : List Node) (path : List String) (unit : Nat) (xs : List ℚ) : Prop :=
  ∃ r ys, NodeAt l path r ∧ NumberList ((r.map Node.text).getD []) ys ∧ xs = ys.map fun y : ℚ => (unit : ℚ) * y

/-- The lines saved in a document beside its structure. -/
def SavedLines (doc : List Node) (x y z : List ℚ) : Prop :=
  ∃ r unit, NodeAt doc ["OpenEMSH", "FixedMeshlines"] r ∧ Value asUint r "DeltaUnit" 1 unit ∧
    Listed doc ["OpenEMSH", "FixedMeshlines", "XLines"] unit x ∧ Listed doc ["OpenEMSH", "FixedMeshlines", "YLines"] unit y ∧
    Listed doc ["OpenEMSH", "FixedMeshlines", "ZLines"] unit z

/-- The lines of the grid of a structure. -/
def GridLines (csx : Node) (x y z : List ℚ) : Prop :=
  ∃ unit, Value asUint (some csx) "DeltaUnit" 1 unit ∧ Listed csx.children ["RectilinearGrid", "XLines"] unit x ∧
    Listed csx.children ["RectilinearGrid", "YLines"] unit y ∧ Listed csx.children ["RectilinearGrid", "ZLines"] unit z

/-- Lines to add, those of the first axis first. -/
def asAdded (x y z : List ℚ) : List Added :=
  (x.map fun c => .line .x c) ++ (y.map fun c => .line .y c) ++ z.map fun c => .line .z c

/-- The material around everything. -/
def BackgroundOf (codec : Codec) (csx : Node) (k : Option PropertyKind) : Prop :=
  (∃ n kind, First csx.children "BackgroundMaterial" n ∧ k = some kind ∧ IsKind codec n kind) ∨
  (Lacks csx.children "BackgroundMaterial" ∧ k = none)

end Verif.Csx.Spec
