import Verif.Model.Editing
import Verif.Spec.Sight

/-! What asking to edit nodes is meant to bring up. -/

namespace Verif.Graph.Spec

/-- The objects that hold values the user may change. -/
def changeable : Entity → Bool
  | .edge _ | .angle _ | .policy _ | .interval _ | .ce _ | .docz _ | .tcmlp _ => true
  | _ => false

/-- The object that a dialog is about. -/
def subject : Form → Entity
  | .angle i => .angle i
  | .edge i => .edge i
  | .interval i => .interval i
  | .policy i => .policy i
  | .docz i => .docz i
  | .tcmlp i => .tcmlp i

/-- A dialog about `n`, under the title `t`. -/
def About (n : Entity) (t : List Char) (c : Comes) : Prop := ∃ f, c = .dialog f t ∧ subject f = n

/-- What editing `nodes` is to do: nothing to change brings the global parameters, and unselects; one object brings its dialog;
several bring a menu of them under different titles, each of which brings the dialog of its object under the same title. -/
def Brings (s : Sight) (nodes : List Entity) (s' : Sight) (c : Comes) : Prop :=
  match nodes.filter changeable with
  | [] => c = .params ∧ ∀ m, s'.looks.selected m = false
  | [n] => s' = s ∧ ∃ t, About n t c
  | ns => s' = s ∧ ∃ l, c = .menu l ∧ l.map (·.node) = ns ∧ (l.map (·.title)).Nodup ∧ ∀ e ∈ l, About e.node e.title e.trigger

/-- A conflict of colinear edges. -/
def IsColinear (n : Entity) : Prop := ∃ i, n = .ce i

/-- Two objects have different numbers. -/
def Numbered (l : Labels) (nodes : List Entity) : Prop := nodes.Nodup ∧ ∀ n ∈ nodes, ∀ m ∈ nodes, l.id n = l.id m → n = m

/-- Two objects to change of one kind. -/
def sameKind : Entity → Entity → Prop
  | .edge _, .edge _ | .angle _, .angle _ | .policy _, .policy _ | .interval _, .interval _ | .ce _, .ce _ | .docz _, .docz _
  | .tcmlp _, .tcmlp _ => True
  | _, _ => False

end Verif.Graph.Spec
