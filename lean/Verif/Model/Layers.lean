import Verif.Model.Geometry

/-!
Model of the layers of `src/ui/qt/structure_view/structure_scene.cpp`: the groups of items, the order in which Qt paints them, and the
index from entities to items. `QGraphicsScene::addItem` puts an item on top; `QGraphicsItem::stackBefore` moves an item right below
another one when it is above it, and does nothing when it is below it already, as in the sources of Qt.
-/

namespace Verif.Layers

open Verif.Geom

/-- The groups of a scene (`src/ui/qt/structure_view/structure_scene.cpp:65-73`). -/
inductive Layer where
  | edges
  | polygons
  | angles
  | colinear (a : ViewAxis)
  | zones (a : ViewAxis)
  | tooClose (a : ViewAxis)
  | intervals (a : ViewAxis)
  | meshlines (a : ViewAxis)
  | policies (a : ViewAxis)
  deriving DecidableEq, Repr

/-- `QGraphicsItem::stackBefore` (`src/ui/qt/structure_view/structure_scene.cpp:90-102, 275-278, 292-293, 308`) among items listed from
the bottom to the top. -/
def stackBefore (l : List Layer) (x y : Layer) : List Layer :=
  if l.idxOf x < l.idxOf y then l
  else (l.erase x).takeWhile (· ≠ y) ++ x :: (l.erase x).dropWhile (· ≠ y)

/-- The lists of groups of the constructor, in its order (`src/ui/qt/structure_view/structure_scene.cpp:80-87, 93-100`). -/
def lists : List Layer :=
  [.meshlines .h, .meshlines .v, .zones .h, .zones .v, .intervals .h, .intervals .v, .policies .h, .policies .v,
    .colinear .h, .colinear .v, .tooClose .h, .tooClose .v]

/-- A scene (`src/ui/qt/structure_view/structure_scene.hpp:98-114`): the groups from the bottom to the top; the items, by address,
with the group that owns them; the index, from addresses of entities to addresses of items. `next` is an address that was never
used: that memory is used again is left out. -/
structure Scene where
  order : List Layer
  items : List (Nat × Layer)
  index : List (Nat × Nat)
  next : Nat

namespace Scene

/-- The order made by the constructor (`src/ui/qt/structure_view/structure_scene.cpp:77-102`). -/
def firstOrder : List Layer :=
  let l := [.edges, .polygons, .angles] ++ lists
  let l := stackBefore l .polygons .edges
  let l := stackBefore l .polygons .angles
  let l := stackBefore l .angles .edges
  lists.foldl (fun l g => stackBefore l .edges g) l

/-- The constructor (`src/ui/qt/structure_view/structure_scene.cpp:62-107`). -/
def made : Scene := ⟨firstOrder, [], [], 0⟩

/-- The functions `add` (`src/ui/qt/structure_view/structure_scene.cpp:117-262`): a new item in a group; `index[entity] = item`. -/
def add (s : Scene) (g : Layer) (entity : Nat) : Scene :=
  { s with
    items := s.items ++ [(s.next, g)]
    index := s.index.filter (·.1 ≠ entity) ++ [(entity, s.next)]
    next := s.next + 1 }

/-- What the functions that clear a group share (`src/ui/qt/structure_view/structure_scene.cpp:266-273, 283-290, 299-306`): the index
forgets the items of the group, which is removed and deleted with its items, and a new one is added. -/
def renew (s : Scene) (g : Layer) : Scene :=
  let children := (s.items.filter (·.2 = g)).map (·.1)
  { s with
    index := s.index.filter fun e => ¬ e.2 ∈ children
    items := s.items.filter (·.2 ≠ g)
    order := s.order.erase g ++ [g] }

/-- `clear_edges` (`src/ui/qt/structure_view/structure_scene.cpp:265-279`). -/
def clearEdges (s : Scene) : Scene :=
  let s := s.renew .edges
  let l := stackBefore s.order .polygons .edges
  let l := stackBefore l .angles .edges
  let l := stackBefore l .edges (.meshlines .h)
  let l := stackBefore l .edges (.meshlines .v)
  { s with order := l }

/-- `clear_polygons` (`src/ui/qt/structure_view/structure_scene.cpp:282-294`). -/
def clearPolygons (s : Scene) : Scene :=
  let s := s.renew .polygons
  let l := stackBefore s.order .polygons .edges
  let l := stackBefore l .polygons .angles
  { s with order := l }

/-- The body of the loop of `clear_meshlines` (`src/ui/qt/structure_view/structure_scene.cpp:298-309`). -/
def clearMeshlinesOf (s : Scene) (a : ViewAxis) : Scene :=
  let s := s.renew (.meshlines a)
  { s with order := stackBefore s.order .edges (.meshlines a) }

/-- `clear_meshlines` (`src/ui/qt/structure_view/structure_scene.cpp:297-310`). -/
def clearMeshlines (s : Scene) : Scene := (s.clearMeshlinesOf .h).clearMeshlinesOf .v

/-- `clear_all` (`src/ui/qt/structure_view/structure_scene.cpp:313-318`). -/
def clearAll (s : Scene) : Scene :=
  let s := { s with index := [] }
  s.clearEdges.clearPolygons.clearMeshlines

/-- `StructureView::populate` on a scene (`src/ui/qt/structure_view/structure_view.cpp:224-262`), the items being given in the order in
which they are added. -/
def populate (s : Scene) (l : List (Layer × Nat)) : Scene := l.foldl (fun s x => s.add x.1 x.2) s.clearAll

end Scene

/-- What is done to a scene (`src/ui/qt/structure_view/structure_scene.cpp:117-318`). -/
inductive Event where
  | add (g : Layer) (entity : Nat)
  | clearEdges
  | clearPolygons
  | clearMeshlines
  | clearAll

/-- One event (`src/ui/qt/structure_view/structure_scene.cpp:117-318`). -/
def Scene.on (s : Scene) : Event → Scene
  | .add g e => s.add g e
  | .clearEdges => s.clearEdges
  | .clearPolygons => s.clearPolygons
  | .clearMeshlines => s.clearMeshlines
  | .clearAll => s.clearAll

end Verif.Layers

namespace Verif.Layers

/-- What a `StructurePolygon` keeps (`src/ui/qt/structure_view/structure_polygon.cpp:35-120`): whether it is selected and, as Qt knows
it, under the pointer; `raised` tells whether its `zValue` is the largest number or zero, at which it starts. -/
structure Shape where
  selected : Bool
  hovered : Bool
  raised : Bool
  deriving DecidableEq, Repr

/-- What happens to a `StructurePolygon` (`src/ui/qt/structure_view/structure_polygon.cpp:58-80`). -/
inductive Touch where
  | enter
  | leave
  | select (b : Bool)
  deriving DecidableEq, Repr

namespace Shape

/-- The constructor (`src/ui/qt/structure_view/structure_polygon.cpp:35-51`). -/
def made : Shape := ⟨false, false, false⟩

/-- `hoverEnterEvent` (`src/ui/qt/structure_view/structure_polygon.cpp:58-62`). -/
def enter (p : Shape) : Shape :=
  let p := { p with hovered := true }
  if !p.selected then { p with raised := true } else p

/-- `hoverLeaveEvent` (`src/ui/qt/structure_view/structure_polygon.cpp:65-69`). -/
def leave (p : Shape) : Shape :=
  let p := { p with hovered := false }
  if !p.selected then { p with raised := false } else p

/-- `QGraphicsItem::setSelected`, which tells `itemChange` (`src/ui/qt/structure_view/structure_polygon.cpp:72-80`) when something
changes. -/
def select (p : Shape) (b : Bool) : Shape :=
  if p.selected = b then p
  else { p with selected := b, raised := b }

/-- One event (`src/ui/qt/structure_view/structure_polygon.cpp:58-80`). -/
def on (p : Shape) : Touch → Shape
  | .enter => p.enter
  | .leave => p.leave
  | .select b => p.select b

end Shape

end Verif.Layers
