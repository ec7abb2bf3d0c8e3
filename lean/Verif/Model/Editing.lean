import Verif.Model.Sight
import Verif.Model.Text

/-!
# Asking to edit nodes

Model of `ProcessingScene::mouseDoubleClickEvent`, `edit_selected_nodes` and `edit`
(`src/ui/qt/processing_view/processing_scene.cpp:473-537`) with `EditModel::make` (`src/ui/qt/edit/edit_model.cpp:63-81`).

Simplifications.
* What a dialog does once open is in `Verif.Model.Dialog`; here it is only what it is about, and its title.
* `Icons::select` (`src/ui/qt/icons.cpp:126-184`) is left out.
-/

namespace Verif.Graph
open Verif.Csx (decimal)

/-- What the nodes are labelled with: `DataKeys::ID` (`Entity::id`, as set at
`src/ui/qt/processing_view/processing_edge.cpp:115` and alike) and `DataKeys::NAME`
(`src/ui/qt/processing_view/processing_polygon.cpp:80`). -/
structure Labels where
  id : Entity → Nat
  name : Entity → List Char

/-- `type_index` (`src/ui/qt/processing_view/processing_scene.cpp:485-493`). -/
def typeIndex : Entity → Bool
  | .angle _ | .edge _ | .interval _ | .policy _ | .ce _ | .docz _ | .tcmlp _ => true
  | .polygon _ | .eip _ | .meshline _ | .plane _ | .axis _ => false

/-- `DataKeys::TYPE` of a node (`src/ui/qt/processing_view/processing_angle.cpp:133`, `processing_axis.cpp:51`,
`processing_conflict_colinear_edges.cpp:69`, `processing_conflict_diagonal_or_circular_zone.cpp:99`,
`processing_conflict_edge_in_polygon.cpp:77`, `processing_conflict_too_close_meshline_policies.cpp:65`,
`processing_edge.cpp:114`, `processing_interval.cpp:155`, `processing_meshline.cpp:80`, `processing_meshline_policy.cpp:138`,
`processing_plane.cpp:43`, `processing_polygon.cpp:78`). -/
def typeText : Entity → List Char
  | .angle _ => "Angle".toList
  | .axis _ => "Axis".toList
  | .ce _ => "ConflictColinearEdges".toList
  | .docz _ => "ConflictDiagonalOrCircularZone".toList
  | .eip _ => "ConflictEdgeInPolygon".toList
  | .tcmlp _ => "ConflictTooCloseMeshlinePolicies".toList
  | .edge _ => "Edge".toList
  | .interval _ => "Interval".toList
  | .meshline _ => "Meshline".toList
  | .policy _ => "MeshlinePolicy".toList
  | .plane _ => "Plane".toList
  | .polygon _ => "Polygon".toList

/-- `make_title` (`src/ui/qt/processing_view/processing_scene.cpp:499-504`). -/
def makeTitle (l : Labels) (n : Entity) : List Char :=
  typeText n ++ " - ".toList ++ decimal (l.id n) ++
    match n with
    | .polygon _ => " - ".toList ++ l.name n
    | _ => []

/-- An `EditModel` with the object it is about (`src/ui/qt/edit/edit_model.cpp:63-81`). -/
inductive Form where
  | angle (i : Nat) | edge (i : Nat) | interval (i : Nat) | policy (i : Nat) | docz (i : Nat) | tcmlp (i : Nat)
  deriving DecidableEq, Repr

/-- `EditModel::make` (`src/ui/qt/edit/edit_model.cpp:63-81`). -/
def Form.make : Entity → Option Form
  | .angle i => some (.angle i)
  | .edge i => some (.edge i)
  | .interval i => some (.interval i)
  | .policy i => some (.policy i)
  | .docz i => some (.docz i)
  | .tcmlp i => some (.tcmlp i)
  | _ => none

/-- An entry of the menu: a title and a node (`src/ui/qt/processing_view/processing_scene.cpp:525-533`). -/
structure Entry where
  title : List Char
  node : Entity

/-- What comes up (`src/ui/qt/processing_view/processing_scene.cpp:506-516, 518-535`). -/
inductive Comes where
  | nothing
  | params
  | dialog (f : Form) (title : List Char)
  | menu (l : List Entry)

/-- `edit_node` (`src/ui/qt/processing_view/processing_scene.cpp:506-516`). -/
def editNode (n : Entity) (title : List Char) : Comes :=
  match Form.make n with
  | some f => .dialog f title
  | none => .nothing

/-- `ProcessingScene::edit` (`src/ui/qt/processing_view/processing_scene.cpp:484-537`). `edit_global_params` opens the dialog of
the global parameters (`src/ui/qt/main_window.cpp:538-544, 623-625`). -/
def edit (b : Board) (ws : List Wire) (l : Labels) (s : Sight) (nodes : List Entity) : Option (Sight × Comes) :=
  match nodes.filter typeIndex with
  | [] => (clearTelling b ws s).map fun s => (s, .params)
  | [n] => some (s, editNode n (makeTitle l n))
  | ns => some (s, .menu (ns.map fun n => ⟨makeTitle l n, n⟩))

/-- An entry of the menu is triggered (`src/ui/qt/processing_view/processing_scene.cpp:530-532`). -/
def Entry.trigger (e : Entry) : Comes := editNode e.node e.title

/-- `ProcessingScene::edit_selected_nodes` (`src/ui/qt/processing_view/processing_scene.cpp:479-481`), from the button at
`src/ui/qt/main_window.cpp:530-534`. -/
def editSelected (b : Board) (ws : List Wire) (l : Labels) (s : Sight) : Option (Sight × Comes) :=
  edit b ws l s (selectedNodes b s)

/-- `ProcessingScene::mouseDoubleClickEvent` (`src/ui/qt/processing_view/processing_scene.cpp:473-476`): `under` are the nodes of
the scene at the place, by `QGraphicsScene::items`, which gives those that are visible. -/
def doubleClick (b : Board) (ws : List Wire) (l : Labels) (s : Sight) (under : List Entity) : Option (Sight × Comes) :=
  edit b ws l s (under.filter fun n => isVisible b s.hidden n)

end Verif.Graph
