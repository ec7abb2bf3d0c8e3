import Verif.Model.Document

/-!
# What documents contain

Independent of how the program looks for nodes.
-/

namespace Verif.Csx.Spec

/-- The first node with a name. -/
def First (l : List Node) (name : String) (n : Node) : Prop :=
  ∃ pre post, l = pre ++ n :: post ∧ n.name = name ∧ ∀ m ∈ pre, m.name ≠ name

/-- The first attribute with a name. -/
def HasAttr (n : Node) (name : String) (v : List Char) : Prop :=
  ∃ pre post, n.attrs = pre ++ (name, v) :: post ∧ ∀ a ∈ pre, a.1 ≠ name

/-- A parameter is in a document. -/
def InFile (doc : List Node) (name : String) (v : List Char) : Prop :=
  ∃ o g, First doc "OpenEMSH" o ∧ First o.children "GlobalParams" g ∧ HasAttr g name v

/-- The command line, then the file, then the default decide of a value. -/
def Decides {α : Type} (given : List α) (file : α → Prop) (default result : α) : Prop :=
  (∀ v, given.getLast? = some v → result = v) ∧
  (given = [] → (∀ v, file v → result = v) ∧ ((∀ v, ¬ file v) → result = default))

/-- The attributes and texts found at a path, in order. -/
def dataAt (l : List Node) : List String → List (List (String × List Char) × List Char)
  | [] => []
  | name :: rest =>
    l.flatMap fun n => if n.name = name then (if rest = [] then [(n.attrs, n.text)] else dataAt n.children rest) else []

/-- The document has a structure at its top, or in its first `openEMS` node. -/
def HasStructure (doc : List Node) : Prop :=
  (∃ n ∈ doc, n.name = "ContinuousStructure") ∨ ∃ o, First doc "openEMS" o ∧ ∃ n ∈ o.children, n.name = "ContinuousStructure"

end Verif.Csx.Spec
