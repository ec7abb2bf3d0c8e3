import Verif.Model.Geometry

/-!
# The selections of the views follow each other

Model of the signals between the processing scene and the three structure scenes of a timepoint
(`src/ui/qt/main_window.cpp:608-621`): `ProcessingScene::on_selectionChanged` and `select_counterparts`
(`src/ui/qt/processing_view/processing_scene.cpp:441-470`), and those of `StructureScene`
(`src/ui/qt/structure_view/structure_scene.cpp:399-419`). Signals are direct calls, so the functions call each other:
`none` is a recursion that never ends.

What is taken from Qt: `setSelected` refuses to select what is not visible, and emits `selectionChanged` if it changes
something; `clearSelection` emits it once, if something was selected; an item that is hidden is unselected. The order of
`selectedItems` is not specified by Qt; here it is the order of the selection. The children of the nodes have no entity and are
left out (see `Model/Graph.lean`), as is what is visible in the processing scene (see `Model/Sight.lean`): an entity to be
selected there is shown before.
-/

namespace Verif.Sync
open Verif.Geom (Plane)

/-- Which entities have a node (`index`, `src/ui/qt/processing_view/processing_scene.hpp:121`) and which have an item in the
scene of a plane (`index`, `src/ui/qt/structure_view/structure_scene.hpp:98`). -/
structure Scenes (α : Type) where
  node : α → Bool
  drawn : Plane → α → Bool

/-- The four scenes: what is selected, `is_select_counterparts_locked` of each, whether `display_mode` is `SELECTED_CHAIN` and
`is_display_selected_chain_locked` (`src/ui/qt/processing_view/processing_scene.hpp:135-138`,
`src/ui/qt/structure_view/structure_scene.hpp:107`), and which items of the structure scenes are visible. -/
structure State (α : Type) where
  nodes : List α
  items : Plane → List α
  lock : Bool
  locks : Plane → Bool
  chain : Bool
  chainLock : Bool
  visible : Plane → α → Bool

variable {α : Type} [DecidableEq α]

/-- A value for a plane, as `PlaneSpace` holds (`src/ui/qt/main_window.cpp:616`). -/
def put {β : Type} (f : Plane → β) (p : Plane) (v : β) : Plane → β := fun q => if q = p then v else f q

/-- A selection with one more or one less (`QGraphicsItem::setSelected`, `src/ui/qt/structure_view/structure_scene.cpp:413`,
`src/ui/qt/processing_view/processing_scene.cpp:466`). -/
def change (l : List α) (e : α) (v : Bool) : List α := if v then l ++ [e] else l.filter fun x => decide (x ≠ e)

mutual

/-- `StructureScene::on_selectionChanged` (`src/ui/qt/structure_view/structure_scene.cpp:399-404`). -/
def itemsChanged (w : Scenes α) (s : State α) (p : Plane) : Option (State α) := do
  let s := { s with locks := put s.locks p true }
  let s ← nodesCounterparts w s (s.items p)
  return { s with locks := put s.locks p false }
partial_fixpoint

/-- `StructureScene::select_counterparts` (`src/ui/qt/structure_view/structure_scene.cpp:407-417`). -/
def itemsCounterparts (w : Scenes α) (s : State α) (p : Plane) (l : List α) : Option (State α) :=
  if s.locks p then some s
  else do
    let s ← clearItems w s p
    l.foldlM (fun s e => if w.drawn p e then setItem w s p e true else some s) s
partial_fixpoint

/-- `setSelected` of an item of a structure scene (`src/ui/qt/structure_view/structure_scene.cpp:380, 391, 413`). -/
def setItem (w : Scenes α) (s : State α) (p : Plane) (e : α) (v : Bool) : Option (State α) :=
  if decide (e ∈ s.items p) = (v && s.visible p e) then some s
  else itemsChanged w { s with items := put s.items p (change (s.items p) e (v && s.visible p e)) } p
partial_fixpoint

/-- `clearSelection` of a structure scene (`src/ui/qt/structure_view/structure_scene.cpp:378, 409`). -/
def clearItems (w : Scenes α) (s : State α) (p : Plane) : Option (State α) :=
  if s.items p = [] then some s else itemsChanged w { s with items := put s.items p [] } p
partial_fixpoint

/-- `ProcessingScene::on_selectionChanged` (`src/ui/qt/processing_view/processing_scene.cpp:441-455`), with
`display_selected_chain` (421-438): hiding the nodes unselects those that were selected, which are then selected again. -/
def nodesChanged (w : Scenes α) (s : State α) : Option (State α) := do
  let s := { s with lock := true }
  let l := s.nodes
  let s ← [Plane.yz, Plane.zx, Plane.xy].foldlM (fun s p => itemsCounterparts w s p l) s
  let s := { s with lock := false }
  if s.chain && !s.chainLock then
    let s := { s with chainLock := true }
    let selected := s.nodes
    let s ← selected.foldlM (fun s e => setNode w s e false) s
    let s ← clearNodes w s
    let s ← selected.foldlM (fun s e => setNode w s e true) s
    return { s with chainLock := false }
  else
    return s
partial_fixpoint

/-- `ProcessingScene::select_counterparts` (`src/ui/qt/processing_view/processing_scene.cpp:458-470`). -/
def nodesCounterparts (w : Scenes α) (s : State α) (l : List α) : Option (State α) :=
  if s.lock then some s
  else do
    let s ← clearNodes w s
    l.foldlM (fun s e => if w.node e then setNode w s e true else some s) s
partial_fixpoint

/-- `setSelected` of a node that is visible (`src/ui/qt/processing_view/processing_scene.cpp:434, 466`). -/
def setNode (w : Scenes α) (s : State α) (e : α) (v : Bool) : Option (State α) :=
  if decide (e ∈ s.nodes) = v then some s
  else nodesChanged w { s with nodes := change s.nodes e v }
partial_fixpoint

/-- `clearSelection` of the processing scene (`src/ui/qt/processing_view/processing_scene.cpp:425, 460`). -/
def clearNodes (w : Scenes α) (s : State α) : Option (State α) :=
  if s.nodes = [] then some s else nodesChanged w { s with nodes := [] }
partial_fixpoint

end

/-- What is done to the scenes: a press of the mouse on an item of a structure scene, through the menu if there are several
(`src/ui/qt/structure_view/structure_scene.cpp:377-396`), or on none of them; a selection made in the processing scene with one
signal; another display mode chosen there; other items visible in a structure scene (`set_mesh_visibility`, 321-343). -/
inductive Action (α : Type) where
  | press (p : Plane) (e : α)
  | away (p : Plane)
  | select (l : List α)
  | mode (chain : Bool)
  | sight (p : Plane) (visible : α → Bool)

/-- One action (`src/ui/qt/structure_view/structure_scene.cpp:321-343, 346-396`,
`src/ui/qt/processing_view/processing_scene.cpp:371-388`). Items that are hidden are unselected one after the other. Of the modes
only what `on_selectionChanged` reads of them. -/
def Action.run (w : Scenes α) (s : State α) : Action α → Option (State α)
  | .press p e => if w.drawn p e && s.visible p e then setItem w s p e true else some s
  | .away p => clearItems w s p
  | .select l => if l = s.nodes then some s else nodesChanged w { s with nodes := l }
  | .mode chain => some { s with chain }
  | .sight p visible =>
    ((s.items p).filter fun e => !visible e).foldlM (fun s e => setItem w s p e false)
      { s with visible := put s.visible p visible }

/-- Some actions in order (`src/ui/qt/main_window.cpp:613-621`). -/
def runActions (w : Scenes α) (s : State α) : List (Action α) → Option (State α)
  | [] => some s
  | a :: rest => do
    let s ← a.run w s
    runActions w s rest

/-- The scenes as they are made (`src/ui/qt/processing_view/processing_scene.cpp:45-52`,
`src/ui/qt/structure_view/structure_scene.hpp:107`). -/
def State.made (visible : Plane → α → Bool) : State α := ⟨[], fun _ => [], false, fun _ => false, true, false, visible⟩

end Verif.Sync
