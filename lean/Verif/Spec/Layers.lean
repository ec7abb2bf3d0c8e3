import Verif.Model.Layers

/-! What is meant by the order of the layers, by the index and by the polygons that are raised. -/

namespace Verif.Layers

open Verif.Geom

/-- The scenes that are reached from a new one. -/
inductive Reach : Scene → Prop
  | made : Reach .made
  | on {s : Scene} (e : Event) : Reach s → Reach (s.on e)

/-- A layer is painted before another one, which covers it. -/
def Under (l : List Layer) (x y : Layer) : Prop := [x, y].Sublist l

/-- The layers of what was found about the mesh, other than its lines. -/
def Found : Layer → Prop
  | .zones _ | .intervals _ | .policies _ | .colinear _ | .tooClose _ => True
  | _ => False

/-- The item that the index gives for an entity. -/
def Scene.find (s : Scene) (entity : Nat) : Option Nat := s.index.lookup entity

/-- A polygon is touched: it is not deselected while the pointer is over it. -/
inductive Gently : Shape → Prop
  | made : Gently .made
  | on {p : Shape} (t : Touch) : Gently p → (t = .select false → p.hovered = false) → Gently (p.on t)

/-- A polygon is touched in any way. -/
inductive Touched : Shape → Prop
  | made : Touched .made
  | on {p : Shape} (t : Touch) : Touched p → Touched (p.on t)

end Verif.Layers
