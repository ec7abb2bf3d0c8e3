import Verif.Model.Graph

/-!
# The processing view: which nodes are visible

Model of the display modes of `src/ui/qt/processing_view/processing_scene.cpp` and of `Node::show_after_parents`
(`src/ui/qt/utils/nodegraph/node.cpp`), and of the visibility of the lines of the mesh in
`src/ui/qt/structure_view/structure_scene.cpp`.

What is taken from Qt: an item is visible when neither it nor an item around it was hidden; an item that stops being visible is
unselected; an item that is not visible cannot be selected. The zone of a container in which its nodes are is never hidden
(`Container::collapse` is not called). Positions are left out.
-/

namespace Verif.Graph
open Verif.Geom (Plane Axis ViewAxis transposeAxis)

/-- `Node::get_surrounding_container` (`src/ui/qt/utils/nodegraph/node.cpp:223-228`): the container the node was added to
(`src/ui/qt/processing_view/processing_view.cpp:151-187`). An edge is in the polygon that lists it. -/
def Board.parent (b : Board) : Entity → Option Entity
  | .plane _ => none
  | .axis _ => none
  | .edge i => (b.polygons.find? fun p => decide (i ∈ p.2)).map fun p => .polygon p.1
  | .polygon i => some (.plane (b.planeOf (.polygon i)))
  | .eip i => some (.plane (b.planeOf (.eip i)))
  | .angle i => some (.plane (b.planeOf (.angle i)))
  | e => some (.axis (b.axisOf e))

/-- `QGraphicsItem::isVisible` (used at `src/ui/qt/utils/nodegraph/node.cpp:232`): an edge is in a polygon, itself in a plane. -/
def isVisible (b : Board) (hidden : Entity → Bool) (e : Entity) : Bool :=
  !hidden e && match b.parent e with
    | none => true
    | some p => !hidden p && match b.parent p with
      | none => true
      | some q => !hidden q

/-- `Node::show_after_parents` (`src/ui/qt/utils/nodegraph/node.cpp:231-238`), through at most `k` containers. -/
def showAfterParents (b : Board) (hidden : Entity → Bool) : Nat → Entity → Entity → Bool
  | 0, e => put hidden e false
  | k + 1, e =>
    if isVisible b hidden e then hidden
    else put (match b.parent e with
      | none => hidden
      | some p => showAfterParents b hidden k p) e false

/-- `ProcessingScene::DisplayMode` (`src/ui/qt/processing_view/processing_scene.hpp:58-62`). -/
inductive Mode where
  | everything | structureView | selectedChain
  deriving DecidableEq, Repr

/-- The scene: how its nodes look, which were hidden, `display_mode`, `plane_displayed_on_structure_view` and
`axes_displayed_on_structure_view` (`src/ui/qt/processing_view/processing_scene.hpp:104, 138-140`). -/
structure Sight where
  looks : Looks
  hidden : Entity → Bool
  mode : Mode
  plane : Plane
  flags : ViewAxis → Bool

/-- `QGraphicsItem::hide` of a node (used at `src/ui/qt/processing_view/processing_scene.cpp:352`) while
`is_display_selected_chain_locked`: the nodes that are not visible are unselected, and their children. -/
def hide (b : Board) (ws : List Wire) (s : Sight) (n : Entity) : Option Sight := do
  let hidden := put s.hidden n true
  let gone := b.nodes.filter fun m => !isVisible b hidden m
  let looks ← deselectAll b ws s.looks gone
  return { s with looks := { looks with childSelected := fun m => !decide (m ∈ gone) && looks.childSelected m }, hidden }

/-- Hides some nodes in order (`src/ui/qt/processing_view/processing_scene.cpp:347-354`). -/
def hideAll (b : Board) (ws : List Wire) (s : Sight) : List Entity → Option Sight
  | [] => some s
  | n :: rest => do
    let s ← hide b ws s n
    hideAll b ws s rest

/-- `QGraphicsScene::clearSelection` (used at `src/ui/qt/processing_view/processing_scene.cpp:425, 460`), without its signal:
the children are items of the scene too. -/
def clearSelection (b : Board) (ws : List Wire) (s : Looks) : Option Looks := do
  let s ← deselectAll b ws s b.nodes
  return { s with childSelected := fun _ => false }

/-- Shows some nodes in order (`src/ui/qt/processing_view/processing_scene.cpp:347-354, 427-430`). -/
def showAll (b : Board) (hidden : Entity → Bool) (l : List Entity) : Entity → Bool :=
  l.foldl (fun hidden n => showAfterParents b hidden 2 n) hidden

/-- Selects some nodes in order (`src/ui/qt/processing_view/processing_scene.cpp:432-434`): Qt refuses those not visible. -/
def selectAll (b : Board) (ws : List Wire) (hidden : Entity → Bool) (s : Looks) : List Entity → Option Looks
  | [] => some s
  | n :: rest => do
    let s ← if isVisible b hidden n then setSelected b ws s n true else some s
    selectAll b ws hidden s rest

/-- `ProcessingScene::selected_nodes` (`src/ui/qt/processing_view/processing_scene.cpp:326-333`). -/
def selectedNodes (b : Board) (s : Sight) : List Entity := b.nodes.filter fun n => s.looks.selected n

/-- `ProcessingScene::highlighted_nodes` (`src/ui/qt/processing_view/processing_scene.cpp:336-343`). -/
def highlightedNodes (b : Board) (s : Sight) : List Entity := b.nodes.filter fun n => s.looks.lit n

/-- `ProcessingScene::display_selected_chain` (`src/ui/qt/processing_view/processing_scene.cpp:421-438`) while
`is_display_selected_chain_locked`: `on_selectionChanged` (441-455) then does nothing to this scene. The containers are then
fitted, which is not modelled. -/
def displaySelectedChain (b : Board) (ws : List Wire) (s : Sight) : Option Sight := do
  let selected := selectedNodes b s
  let highlighted := highlightedNodes b s
  let s ← hideAll b ws s b.nodes
  let looks ← clearSelection b ws s.looks
  let hidden := showAll b s.hidden (selected ++ highlighted)
  let looks ← selectAll b ws hidden looks selected
  return { s with looks, hidden }

/-- `ProcessingScene::on_selectionChanged` (`src/ui/qt/processing_view/processing_scene.cpp:441-455`) while not locked. The
other scenes are left out. -/
def notify (b : Board) (ws : List Wire) (s : Sight) : Option Sight :=
  if s.mode = .selectedChain then displaySelectedChain b ws s else some s

/-- A child of a node gets a selection, and tells it (`src/ui/qt/utils/nodegraph/node.cpp:71-73, 88-90`). -/
def selectChild (b : Board) (ws : List Wire) (s : Sight) (n : Entity) (v : Bool) : Option Sight :=
  if s.looks.childSelected n = v then some s
  else notify b ws { s with looks := { s.looks with childSelected := put s.looks.childSelected n v } }

/-- `QGraphicsItem::setSelected` of a node while not locked, with `Node::itemChange`
(`src/ui/qt/utils/nodegraph/node.cpp:68-78`). Qt refuses to select what is not visible, calls `itemChange` if the value changes,
compares again, sets the value, then emits `selectionChanged`. -/
def select (b : Board) (ws : List Wire) (s : Sight) (n : Entity) (v : Bool) : Option Sight :=
  let v := v && isVisible b s.hidden n
  if s.looks.selected n = v then some s
  else do
    let s := { s with looks := if v then setHighlighted s.looks n false n else s.looks }
    let s ← selectChild b ws s n v
    let c ← chain b ws n
    let s := { s with looks := highlightAll v n s.looks c }
    if s.looks.selected n = v then some s
    else notify b ws { s with looks := { s.looks with selected := put s.looks.selected n v } }

/-- `select` of some nodes in order (`src/ui/qt/processing_view/processing_scene.cpp:432-434`). -/
def selectEach (b : Board) (ws : List Wire) (v : Bool) (s : Sight) : List Entity → Option Sight
  | [] => some s
  | n :: rest => do
    let s ← select b ws s n v
    selectEach b ws v s rest

/-- `QGraphicsItem::hide` of a node while not locked (`src/ui/qt/processing_view/processing_scene.cpp:352, 402, 409, 412`). The
nodes that are no longer visible are unselected in the order of the scene. A node shown by `on_selectionChanged` meanwhile is
left so. -/
def hideTelling (b : Board) (ws : List Wire) (s : Sight) (n : Entity) : Option Sight :=
  let s := { s with hidden := put s.hidden n true }
  selectEach b ws false s (b.nodes.filter fun m => !isVisible b s.hidden m)

/-- `hideTelling` of some nodes in order (`src/ui/qt/processing_view/processing_scene.cpp:347-354, 399-414`). -/
def hideEach (b : Board) (ws : List Wire) (s : Sight) : List Entity → Option Sight
  | [] => some s
  | n :: rest => do
    let s ← hideTelling b ws s n
    hideEach b ws s rest

/-- `QGraphicsScene::clearSelection` (used at `src/ui/qt/processing_view/processing_scene.cpp:425, 460`) while not locked: it
emits `selectionChanged` once, if something was selected. -/
def clearTelling (b : Board) (ws : List Wire) (s : Sight) : Option Sight := do
  let looks ← clearSelection b ws s.looks
  if b.nodes.any (fun n => s.looks.selected n || s.looks.childSelected n) then notify b ws { s with looks }
  else some { s with looks }

/-- `ProcessingScene::display_selected_chain` (`src/ui/qt/processing_view/processing_scene.cpp:421-438`) as `set_display_mode`
(383) calls it: `is_display_selected_chain_locked` is not set. -/
def displayAsked (b : Board) (ws : List Wire) (s : Sight) : Option Sight := do
  let selected := selectedNodes b s
  let highlighted := highlightedNodes b s
  let s ← hideEach b ws s b.nodes
  let s ← clearTelling b ws s
  let s := { s with hidden := showAll b s.hidden (selected ++ highlighted) }
  selectEach b ws true s selected

/-- The loop over the planes of `ProcessingScene::display_structure_view`
(`src/ui/qt/processing_view/processing_scene.cpp:399-403`): those hidden. -/
def otherPlanes (p : Plane) : List Entity := ([.yz, .zx, .xy].filter fun q => decide (q ≠ p)).map .plane

/-- Is an axis shown by the loop over the axes of `ProcessingScene::display_structure_view`
(`src/ui/qt/processing_view/processing_scene.cpp:405-414`)? `flags` is `axes_displayed_on_structure_view`. -/
def axisShown (p : Plane) (flags : ViewAxis → Bool) (a : Axis) : Bool :=
  match transposeAxis p a with
  | some v => flags v.reverse
  | none => false

/-- `ProcessingScene::display_structure_view` (`src/ui/qt/processing_view/processing_scene.cpp:396-418`). The axes shown are so
since `reset_visibility`: `setVisible(true)` does nothing. -/
def displayStructureView (b : Board) (ws : List Wire) (s : Sight) : Option Sight :=
  let s := { s with hidden := showAll b s.hidden b.nodes }
  hideEach b ws s (otherPlanes s.plane ++ (([.x, .y, .z].filter fun a => !axisShown s.plane s.flags a).map .axis))

/-- `ProcessingScene::set_display_mode` (`src/ui/qt/processing_view/processing_scene.cpp:371-388`). -/
def setMode (b : Board) (ws : List Wire) (s : Sight) (m : Mode) : Option Sight :=
  let s := { s with mode := m }
  match m with
  | .everything => some { s with hidden := showAll b s.hidden b.nodes }
  | .structureView => displayStructureView b ws s
  | .selectedChain => displayAsked b ws s

/-- `ProcessingScene::set_display_plane` (`src/ui/qt/processing_view/processing_scene.cpp:364-368`). -/
def setPlane (b : Board) (ws : List Wire) (s : Sight) (p : Plane) : Option Sight :=
  let s := { s with plane := p }
  if s.mode = .structureView then displayStructureView b ws s else some s

/-- `ProcessingScene::set_display_view_axes` (`src/ui/qt/processing_view/processing_scene.cpp:357-361`). -/
def setFlags (b : Board) (ws : List Wire) (s : Sight) (f : ViewAxis → Bool) : Option Sight :=
  let s := { s with flags := f }
  if s.mode = .structureView then displayStructureView b ws s else some s

/-- A press of the mouse on a node without the control key (`QGraphicsItem::mousePressEvent`, for
`src/ui/qt/utils/nodegraph/node.cpp:29`): if it is not selected, the selection is cleared without signal and it is selected. -/
def press (b : Board) (ws : List Wire) (s : Sight) (n : Entity) : Option Sight :=
  if isVisible b s.hidden n && !s.looks.selected n then do
    let looks ← clearSelection b ws s.looks
    select b ws { s with looks } n true
  else some s

/-- `Node::mouseReleaseEvent` (`src/ui/qt/utils/nodegraph/node.cpp:83-95`) where the button was pressed. Before it, Qt
(`QGraphicsItem::mouseReleaseEvent`) with the control key toggles the node, and without it unselects every other item, the
children of the node too, and selects the node, with one signal if something changed. -/
def click (b : Board) (ws : List Wire) (s : Sight) (n : Entity) (control : Bool) : Option Sight :=
  if isVisible b s.hidden n then do
    let s ← if control then select b ws s n (!s.looks.selected n)
      else do
        let looks ← deselectAll b ws s.looks (b.nodes.filter (· ≠ n))
        let looks ← setSelected b ws { looks with childSelected := fun _ => false } n true
        notify b ws { s with looks }
    if s.looks.selected n then
      let s ← selectChild b ws s n true
      let c ← chain b ws n
      return { s with looks := highlightAll true n s.looks c }
    else return s
  else some s

/-- The loop of `ProcessingScene::select_counterparts` (`src/ui/qt/processing_view/processing_scene.cpp:461-468`) over the
entities that have a node. -/
def selectShowing (b : Board) (ws : List Wire) (s : Sight) : List Entity → Option Sight
  | [] => some s
  | n :: rest => do
    let s ← if n ∈ b.shown then select b ws { s with hidden := showAfterParents b s.hidden 2 n } n true else some s
    selectShowing b ws s rest

/-- `ProcessingScene::select_counterparts` (`src/ui/qt/processing_view/processing_scene.cpp:458-470`) while not locked. -/
def counterparts (b : Board) (ws : List Wire) (s : Sight) (l : List Entity) : Option Sight := do
  let s ← clearTelling b ws s
  selectShowing b ws s l

/-- What is done to the scene (`src/ui/qt/processing_view/processing_scene.hpp:95-97, 132`). -/
inductive Action where
  | press (n : Entity)
  | click (n : Entity) (control : Bool)
  | counterparts (l : List Entity)
  | mode (m : Mode)
  | plane (p : Plane)
  | flags (f : ViewAxis → Bool)

/-- One action (`src/ui/qt/processing_view/processing_scene.cpp:357-388, 458-470`). -/
def Action.run (b : Board) (ws : List Wire) (s : Sight) : Action → Option Sight
  | .press n => Graph.press b ws s n
  | .click n control => Graph.click b ws s n control
  | .counterparts l => Graph.counterparts b ws s l
  | .mode m => setMode b ws s m
  | .plane p => setPlane b ws s p
  | .flags f => setFlags b ws s f

/-- The actions in order (`src/ui/qt/processing_view/processing_scene.cpp:357-388, 458-470`). -/
def runActions (b : Board) (ws : List Wire) (s : Sight) : List Action → Option Sight
  | [] => some s
  | a :: rest => do
    let s ← a.run b ws s
    runActions b ws s rest

/-- A scene just populated, as its constructor leaves it (`src/ui/qt/processing_view/processing_scene.cpp:45-52`). -/
def Sight.made : Sight := ⟨.fresh, fun _ => false, .selectedChain, .xy, fun _ => true⟩

/-- `ProcessingScene::init` (`src/ui/qt/processing_view/processing_scene.cpp:67-69`). -/
def opened (b : Board) (ws : List Wire) : Option Sight := setMode b ws .made Sight.made.mode

/-- `StructureScene::MeshVisibility` (`src/ui/qt/structure_view/structure_scene.hpp`): the four buttons of the mesh. -/
inductive MeshVisibility where
  | none | vertical | horizontal | full
  deriving DecidableEq, Repr

/-- `StructureScene::set_mesh_visibility` (`src/ui/qt/structure_view/structure_scene.cpp:321-343`): is the group of the lines
drawn along this axis of the view visible? -/
def MeshVisibility.group : MeshVisibility → ViewAxis → Bool
  | .none, _ => false
  | .vertical, .h => false
  | .vertical, .v => true
  | .horizontal, .h => true
  | .horizontal, .v => false
  | .full, _ => true

/-- The flags given to the processing view by the same button (`src/ui/qt/main_window.cpp:272-296`). -/
def MeshVisibility.flags : MeshVisibility → ViewAxis → Bool
  | .none, _ => false
  | .vertical, .h => false
  | .vertical, .v => true
  | .horizontal, .h => true
  | .horizontal, .v => false
  | .full, _ => true

/-- The group a line of an axis is put in when it is drawn in the scene of a plane
(`src/ui/qt/structure_view/structure_view.cpp:240-243`, `structure_scene.cpp:237-239`). -/
def lineGroup (p : Plane) (a : Axis) : Option ViewAxis := (transposeAxis p a).map ViewAxis.reverse

end Verif.Graph
