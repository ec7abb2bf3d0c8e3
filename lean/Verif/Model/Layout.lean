import Verif.Model.Graph
import Mathlib.Data.Rat.Defs
import Mathlib.Data.List.Sort
import Mathlib.Algebra.Order.Field.Rat

/-!
# The processing view: where its nodes are placed

Model of `Container::fit` (`src/ui/qt/utils/nodegraph/container.cpp`), of `ProcessingScene::fit_scene`
(`src/ui/qt/processing_view/processing_scene.cpp`) and of the columns of the nodes of an axis
(`processing_axis.cpp`, `processing_meshline_policy.cpp`, `processing_conflict_too_close_meshline_policies.cpp`).

Simplifications.
* A `qreal` is a rational. `UNPACKED_MAX` divides by zero in a column of one node: C++ gives an infinite or undefined space, Lean
  gives 0, and neither is used for a position, no node being below the one.
* The size of a node is what `boundingRect` gives when `fit` reads it: that Qt resizes a container only at its next event is
  left out.
* A `std::map` is its keys in order and a function on them.
-/

namespace Verif.Layout
open Verif.Graph

/-- What `Container::fit` reads of a child: its column and the size of its bounding rectangle
(`src/ui/qt/utils/nodegraph/container.cpp:82-89`). -/
structure Box where
  col : Nat
  w : ℚ
  h : ℚ
  deriving Repr

/-- `Column` (`src/ui/qt/utils/nodegraph/container.cpp:66-73`). -/
structure Column where
  w : ℚ := 0
  h : ℚ := 0
  x : ℚ := 0
  n : ℚ := 0
  shift : ℚ := 0
  margin : ℚ := 0

/-- `std::map<std::size_t, Column>` (`src/ui/qt/utils/nodegraph/container.cpp:77`). -/
structure Columns where
  keys : List Nat := []
  col : Nat → Column := fun _ => {}

/-- Writing to a function (`src/ui/qt/utils/nodegraph/container.cpp:84, 87`). -/
def set {κ α : Type} [DecidableEq κ] (f : κ → α) (k : κ) (v : α) : κ → α := fun j => if j = k then v else f j

/-- `if(!columns.contains(i)) columns[i].h = margins.height();` (`src/ui/qt/utils/nodegraph/container.cpp:83-84`). -/
def Columns.reach (m : Columns) (mh : ℚ) (i : Nat) : Columns :=
  if i ∈ m.keys then m else ⟨m.keys.orderedInsert (· ≤ ·) i, set m.col i { h := mh }⟩

/-- The sizes of the columns, and the height each child would have without spacing
(`src/ui/qt/utils/nodegraph/container.cpp:81-91`). -/
def sizes {ι : Type} [DecidableEq ι] (box : ι → Box) (mh : ℚ) : List ι → Columns → (ι → ℚ) → Columns × (ι → ℚ)
  | [], m, y => (m, y)
  | a :: rest, m, y =>
    let m := m.reach mh (box a).col
    let c := m.col (box a).col
    sizes box mh rest
      { m with col := set m.col (box a).col { c with h := c.h + ((box a).h + mh), w := max c.w (box a).w, n := c.n + 1 } }
      (set y a c.h)

/-- The positions of the columns (`src/ui/qt/utils/nodegraph/container.cpp:94-103`): `x` is that of the next one. -/
def places (mw : ℚ) : List Nat → ℚ → (Nat → Column) → Nat → Column
  | [], _, f => f
  | k :: rest, x, f =>
    places mw rest (x + (f k).w + mw) (set f k { f k with x := x })

/-- `w` (`src/ui/qt/utils/nodegraph/container.cpp:106-108`). -/
def width (mw : ℚ) (m : Columns) : ℚ :=
  match m.keys.getLast? with
  | none => 0
  | some k => (m.col k).x + (m.col k).w + mw

/-- `h` (`src/ui/qt/utils/nodegraph/container.cpp:109-111`). -/
def height (m : Columns) : ℚ := m.keys.foldl (fun h k => max h (m.col k).h) 0

/-- `Spacement` (`src/ui/qt/utils/nodegraph/container.hpp:22`). -/
inductive Spacement where
  | packedUp | packedDown | unpackedMax | unpackedRegular
  deriving DecidableEq, Repr

/-- A loop over all the columns (`src/ui/qt/utils/nodegraph/container.cpp:127-129, 136-140, 148-152`). -/
def Columns.each (m : Columns) (f : Column → Column) : Columns :=
  { m with col := fun k => if k ∈ m.keys then f (m.col k) else m.col k }

/-- `QGraphicsItem::setPos` of a child with `Node::itemChange` (`src/ui/qt/utils/nodegraph/node.cpp:57-67`): the child is kept in
the bounding rectangle of the zone, which is its rectangle `(0, 0, W, H)` and half the width of its pen around. A position in
that rectangle is unchanged by the bounds. -/
def keep (pen W H : ℚ) (b : Box) (p : ℚ × ℚ) : ℚ × ℚ :=
  (min (W + pen / 2 - b.w) (max p.1 (-(pen / 2))), min (H + pen / 2 - b.h) (max p.2 (-(pen / 2))))

/-- The loop placing the children at the heights of their columns (`src/ui/qt/utils/nodegraph/container.cpp:141-145, 153-157`).
-/
def stack {ι : Type} [DecidableEq ι] (box : ι → Box) (put : ι → ℚ × ℚ → ℚ × ℚ) :
    List ι → (Nat → Column) → (ι → ℚ × ℚ) → ι → ℚ × ℚ
  | [], _, pos => pos
  | a :: rest, f, pos =>
    let c := f (box a).col
    stack box put rest (set f (box a).col { c with h := c.h + ((box a).h + c.margin) }) (set pos a (put a (c.x, c.h)))

/-- The zone of a container and the positions of what it contains, in the zone
(`src/ui/qt/utils/nodegraph/container.hpp:38`). -/
structure Zone (ι : Type) where
  w : ℚ
  h : ℚ
  pos : ι → ℚ × ℚ

/-- `Container::fit` (`src/ui/qt/utils/nodegraph/container.cpp:62-163`) with `visible_contained_items` (178-184): `shown` is
`isVisible()` of the container, `items` are the children of the zone, `mw` and `mh` the margins. -/
def fit {ι : Type} [DecidableEq ι] (shown : Bool) (items : List ι) (visible : ι → Bool) (box : ι → Box) (mw mh pen : ℚ)
    (s : Spacement) (z : Zone ι) : Zone ι :=
  if shown then
    let children := items.filter visible
    let (m, y) := sizes box mh children {} (fun _ => 0)
    let m := { m with col := places mw m.keys mw m.col }
    let W := width mw m
    let H := height m
    let put : ι → ℚ × ℚ → ℚ × ℚ := fun a => keep pen W H (box a)
    let pos := match s with
      | .packedUp => children.foldl (fun pos a => set pos a (put a ((m.col (box a).col).x, y a))) z.pos
      | .packedDown =>
        let m := m.each fun c => { c with shift := H - c.h }
        children.foldl (fun pos a => set pos a (put a ((m.col (box a).col).x, y a + (m.col (box a).col).shift))) z.pos
      | .unpackedMax =>
        let m := m.each fun c =>
          { c with margin := (H - (c.h - (c.n + 1) * mh) - 2 * mh) / (c.n - 1), h := mh }
        stack box put children m.col z.pos
      | .unpackedRegular =>
        let m := m.each fun c =>
          let margin := (H - (c.h - (c.n + 1) * mh)) / (c.n + 1)
          { c with margin := margin, h := margin }
        stack box put children m.col z.pos
    ⟨W, H, pos⟩
  else z

/-- A loop of `ProcessingScene::fit_scene` over the containers (`src/ui/qt/processing_view/processing_scene.cpp:96-102,
108-113`): the visible ones are put at `x`, one below the other. They have no parent, so `Node::itemChange` leaves the positions
(`src/ui/qt/utils/nodegraph/node.cpp:58`). -/
def pile {ι : Type} [DecidableEq ι] (visible : ι → Bool) (size : ι → ℚ × ℚ) (x : ℚ) : List ι → ℚ → (ι → ℚ × ℚ) → ι → ℚ × ℚ
  | [], _, pos => pos
  | a :: rest, y, pos =>
    if visible a then pile visible size x rest (y + ((size a).2 + 100)) (set pos a (x, y))
    else pile visible size x rest y pos

/-- `ProcessingScene::fit_scene` (`src/ui/qt/processing_view/processing_scene.cpp:90-114`): `size` is that of the bounding
rectangles. -/
def fitScene {ι : Type} [DecidableEq ι] (visible : ι → Bool) (size : ι → ℚ × ℚ) (planes axes : List ι) (pos : ι → ℚ × ℚ) :
    ι → ℚ × ℚ :=
  let nextX := planes.foldl (fun m a => if visible a then max m (size a).1 else m) 0
  pile visible size (nextX + 1000) axes 0 (pile visible size 0 planes 0 pos)

/-- A `QRectF` by its left, top, right and bottom sides (`src/ui/qt/processing_view/processing_scene.cpp:126`). -/
structure Rect where
  left : ℚ
  top : ℚ
  right : ℚ
  bottom : ℚ
  deriving DecidableEq, Repr

/-- `QRectF::isNull`, used by `|=` (`src/ui/qt/processing_view/processing_scene.cpp:129`): no width and no height. -/
def Rect.isNull (r : Rect) : Bool := r.left = r.right ∧ r.top = r.bottom

/-- `QRectF::operator|=` (`src/ui/qt/processing_view/processing_scene.cpp:129`). -/
def Rect.union (r s : Rect) : Rect :=
  if r.isNull then s else if s.isNull then r
  else ⟨min r.left s.left, min r.top s.top, max r.right s.right, max r.bottom s.bottom⟩

/-- `ProcessingScene::visible_items_bounding_rect` (`src/ui/qt/processing_view/processing_scene.cpp:125-139`): `containers` are the
planes then the axes. -/
def boundingRect {ι : Type} (visible : ι → Bool) (size pos : ι → ℚ × ℚ) (containers : List ι) : Rect :=
  containers.foldl (fun r a => if visible a then
    r.union ⟨(pos a).1, (pos a).2, (pos a).1 + (size a).1, (pos a).2 + (size a).2⟩ else r) ⟨0, 0, 0, 0⟩

/-- `ProcessingScene::fit` (`src/ui/qt/processing_view/processing_scene.cpp:116-122`), called without margins
(`processing_view.cpp:70`). -/
def sceneRect {ι : Type} (visible : ι → Bool) (size pos : ι → ℚ × ℚ) (containers : List ι) : Rect :=
  let r := boundingRect visible size pos containers
  let m := min (r.bottom - r.top) (r.right - r.left) / 20
  ⟨r.left - m, r.top - m, r.right + m, r.bottom + m⟩

/-- Is the node a meshline policy (`qgraphicsitem_cast`, `src/ui/qt/processing_view/processing_meshline_policy.cpp:168`,
`processing_conflict_too_close_meshline_policies.cpp:82`)? -/
def isPolicy : Entity → Bool
  | .policy _ => true
  | _ => false

/-- Is the node a conflict of too close meshline policies (`qgraphicsitem_cast`,
`src/ui/qt/processing_view/processing_meshline_policy.cpp:155`, `processing_conflict_too_close_meshline_policies.cpp:95`)? -/
def isTcmlp : Entity → Bool
  | .tcmlp _ => true
  | _ => false

/-- `ProcessingMeshlinePolicy::count_mlp_tcmlp_deepness` (`src/ui/qt/processing_view/processing_meshline_policy.cpp:163-176`)
with `get_tcmlp_origins` (151-160), and `ProcessingConflictTooCloseMeshlinePolicies::count_tcmlp_mlp_deepness`
(`processing_conflict_too_close_meshline_policies.cpp:90-103`) with `get_mlp_origins` (78-87): on what remains of the nodes the two
loops come to. The input nodes of the input nodes of kind `via` are looked at if they are of kind `kind`. That the number wraps
is left to `column`. `none`: does not end. -/
def deepnessOf (next : Entity → List Entity) (via kind : Entity → Bool) : List Entity → Nat → Option Nat
  | [], d => some d
  | m :: rest, d => do
    let e ← deepnessOf next via kind ((((next m).filter via).flatMap next).filter kind) 0
    deepnessOf next via kind rest (max d (e + 2))
partial_fixpoint

/-- `count_mlp_tcmlp_deepness`, `count_tcmlp_mlp_deepness` of a node
(`src/ui/qt/processing_view/processing_meshline_policy.cpp:163-176`,
`processing_conflict_too_close_meshline_policies.cpp:90-103`). -/
def deepness (next : Entity → List Entity) (via kind : Entity → Bool) (n : Entity) : Option Nat :=
  deepnessOf next via kind ((((next n).filter via).flatMap next).filter kind) 0

/-- `std::numeric_limits<std::size_t>::max()` (`src/ui/qt/processing_view/processing_axis.cpp:32-34`). -/
def sizeMax : Nat := 2 ^ 64 - 1

/-- `get_column` of an axis (`src/ui/qt/processing_view/processing_axis.cpp:24-37`). The additions wrap. -/
def column (b : Graph.Board) (ws : List Wire) : Entity → Option Nat
  | .ce _ => some 0
  | .policy i => (deepness (inputNodes b ws) isTcmlp isPolicy (.policy i)).map fun d => (1 + d) % 2 ^ 64
  | .tcmlp i => (deepness (inputNodes b ws) isPolicy isTcmlp (.tcmlp i)).map fun d => (2 + d) % 2 ^ 64
  | .docz _ => some (sizeMax - 2)
  | .interval _ => some (sizeMax - 1)
  | .meshline _ => some sizeMax
  | _ => some 0

end Verif.Layout
