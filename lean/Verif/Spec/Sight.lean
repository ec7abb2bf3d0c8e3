import Verif.Model.Sight
import Verif.Spec.Graph

/-! What the processing view is meant to show. -/

namespace Verif.Graph.Spec
open Verif.Geom (Plane Axis ViewAxis)

/-- `Holds b c e`: the node of `e` is drawn in the one of `c`. -/
inductive Holds (b : Board) : Entity → Entity → Prop
  | edge {p es i} : (p, es) ∈ b.polygons → i ∈ es → Holds b (.polygon p) (.edge i)
  | polygon i : Holds b (.plane (b.planeOf (.polygon i))) (.polygon i)
  | eip i : Holds b (.plane (b.planeOf (.eip i))) (.eip i)
  | angle i : Holds b (.plane (b.planeOf (.angle i))) (.angle i)
  | ce i : Holds b (.axis (b.axisOf (.ce i))) (.ce i)
  | docz i : Holds b (.axis (b.axisOf (.docz i))) (.docz i)
  | tcmlp i : Holds b (.axis (b.axisOf (.tcmlp i))) (.tcmlp i)
  | policy i : Holds b (.axis (b.axisOf (.policy i))) (.policy i)
  | interval i : Holds b (.axis (b.axisOf (.interval i))) (.interval i)
  | meshline i : Holds b (.axis (b.axisOf (.meshline i))) (.meshline i)

/-- No edge is in two polygons. -/
def Own (b : Board) : Prop :=
  ∀ p es q fs i, (p, es) ∈ b.polygons → (q, fs) ∈ b.polygons → i ∈ es → i ∈ fs → p = q

/-- The node of `c` is the one of `e` or around it, at any depth. -/
def Around (b : Board) (c e : Entity) : Prop := Relation.ReflTransGen (Holds b) c e

/-- With the nodes `sel` selected, the node of `m` is to be shown: it is selected or related to one that is, or around such a
node. -/
def InChain (b : Board) (sel : Entity → Prop) (m : Entity) : Prop :=
  ∃ n x, sel n ∧ (x = n ∨ Related b n x) ∧ Around b m x

/-- What the scene of a plane in the structure view has, when the lines across `h` are shown if `flags .v`, and the lines across
`v` if `flags .h`: what is in the plane, and the axes whose lines are shown. -/
def Drawn (b : Board) (p : Plane) (flags : ViewAxis → Bool) (m : Entity) : Prop :=
  Around b (.plane p) m
    ∨ ∃ a, Around b (.axis a) m ∧
      match p, a with
      | .xy, .x => flags .v = true
      | .xy, .y => flags .h = true
      | .xy, .z => False
      | .yz, .y => flags .v = true
      | .yz, .z => flags .h = true
      | .yz, .x => False
      | .zx, .z => flags .v = true
      | .zx, .x => flags .h = true
      | .zx, .y => False

/-- What an action other than those on the display asks of the selection, when every node it is about is visible. -/
def _root_.Verif.Graph.Action.asks (b : Board) (sel : Entity → Prop) : Action → Entity → Prop
  | .press n, m => (sel n ∧ sel m) ∨ (¬ sel n ∧ m = n)
  | .click n true, m => (m = n ∧ ¬ sel n) ∨ (m ≠ n ∧ sel m)
  | .click n false, m => m = n
  | .counterparts l, m => OnBoard b m ∧ m ∈ l
  | _, m => sel m

/-- The mode asked for last. -/
def lastMode (m : Mode) : List Action → Mode
  | [] => m
  | .mode m :: rest => lastMode m rest
  | _ :: rest => lastMode m rest

/-- The plane asked for last. -/
def lastPlane (p : Plane) : List Action → Plane
  | [] => p
  | .plane p :: rest => lastPlane p rest
  | _ :: rest => lastPlane p rest

/-- The axes of the view asked for last. -/
def lastFlags (f : ViewAxis → Bool) : List Action → ViewAxis → Bool
  | [] => f
  | .flags f :: rest => lastFlags f rest
  | _ :: rest => lastFlags f rest

/-- The action is about a node of the scene. -/
def _root_.Verif.Graph.Action.On (b : Board) : Action → Prop
  | .press n => InScene b n
  | .click n _ => InScene b n
  | _ => True

end Verif.Graph.Spec

namespace Verif.Graph.Spec

/-- The action is not to change the selection but as it asks: the node it is about is visible, or it hides nothing. -/
def _root_.Verif.Graph.Action.Plain (b : Board) (s : Sight) : Action → Prop
  | .press n => isVisible b s.hidden n = true
  | .click n _ => isVisible b s.hidden n = true
  | .counterparts _ => True
  | .mode m => m = .everything
  | .plane _ => s.mode ≠ .structureView
  | .flags _ => s.mode ≠ .structureView

/-- The action displays as the structure view. -/
def _root_.Verif.Graph.Action.Structure (s : Sight) : Action → Prop
  | .mode m => m = .structureView
  | .plane _ => s.mode = .structureView
  | .flags _ => s.mode = .structureView
  | _ => False

/-- The scene is one that some actions come to. -/
def Reached (b : Board) (ws : List Wire) (s : Sight) : Prop :=
  ∃ o as, populate b = .ok ws ∧ opened b ws = some o ∧ (∀ a ∈ as, a.On b) ∧ runActions b ws o as = some s

end Verif.Graph.Spec
