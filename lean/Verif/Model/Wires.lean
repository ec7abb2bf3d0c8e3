import Mathlib.Algebra.Order.Ring.Rat
import Mathlib.Algebra.Order.Ring.Abs

/-!
# The wires of the processing view: whether they are drawn, where, and how long they live

Model of `src/ui/qt/utils/nodegraph/{wire,port}.cpp`. A function returns `none` when an object that was deleted
is used, or a list changed while it is gone through.

Simplifications.
* `qreal` is an exact rational. Items are neither turned nor scaled, so that a place is given by rectangles in the coordinates of
  the scene. Pens, brushes and the items themselves are left out.
* `begin` and `end` are never null: `ProcessingScene::wire_together` is given the ports of nodes
  (`src/ui/qt/processing_view/processing_scene.cpp:301-323`).
* Qt is trusted: it tells an item that its visibility or its position in the scene has changed when this is so, and only then; it
  paints visible items only; deleting a scene deletes its top level items, in the order in which they were added.
-/

namespace Verif.Wires

/-- `QPointF` (`src/ui/qt/utils/nodegraph/wire.cpp:48-49`). -/
structure Pt where
  x : ℚ
  y : ℚ
  deriving DecidableEq

/-- `QRectF`: the least and greatest coordinates (`src/ui/qt/utils/nodegraph/port.cpp:107-111`). -/
structure Rect where
  left : ℚ
  top : ℚ
  right : ℚ
  bottom : ℚ
  deriving DecidableEq

/-- `Port::AnchorPoint` (`src/ui/qt/utils/nodegraph/port.hpp:29`). -/
inductive Anchor
  | top
  | bottom
  | left
  | right
  deriving DecidableEq

/-- `Wire::Style` (`src/ui/qt/utils/nodegraph/wire.hpp:23`). -/
inductive Style
  | direct
  | curved
  deriving DecidableEq

/-- Where a port is: the rectangle of its text, and that of its parent if it has one
(`src/ui/qt/utils/nodegraph/port.cpp:107-111`). -/
structure Place where
  rect : Rect
  parent : Option Rect
  deriving DecidableEq

/-- `Port::attach_pos`, in the coordinates of the scene (`src/ui/qt/utils/nodegraph/port.cpp:105-120`). -/
def attachPos (anchor : Anchor) (g : Place) : Pt :=
  let outer := g.parent.getD g.rect
  match anchor with
  | .top => ⟨(g.rect.left + g.rect.right) / 2, outer.top⟩
  | .bottom => ⟨(g.rect.left + g.rect.right) / 2, outer.bottom⟩
  | .left => ⟨outer.left, (g.rect.top + g.rect.bottom) / 2⟩
  | .right => ⟨outer.right, (g.rect.top + g.rect.bottom) / 2⟩

/-- `QPainterPath` with a single line or a single curve (`src/ui/qt/utils/nodegraph/wire.cpp:50, 80, 88`). -/
inductive Path
  | line (p1 p2 : Pt)
  | cubic (p1 c1 c2 p2 : Pt)
  deriving DecidableEq

/-- A control point (`src/ui/qt/utils/nodegraph/wire.cpp:65-71, 72-78`). -/
def control (anchor : Anchor) (dx dy : ℚ) (p : Pt) : Pt :=
  match anchor with
  | .top => ⟨p.x, p.y - dy⟩
  | .bottom => ⟨p.x, p.y + dy⟩
  | .left => ⟨p.x - dx, p.y⟩
  | .right => ⟨p.x + dx, p.y⟩

/-- The path made by `Wire::update_path` (`src/ui/qt/utils/nodegraph/wire.cpp:48-91`). -/
def makePath (style : Style) (a1 a2 : Anchor) (p1 p2 : Pt) : Path :=
  match style with
  | .curved =>
    let dx := max 50 (|p1.x - p2.x| * (1 / 2))
    let dy := max 50 (|p1.y - p2.y| * (1 / 2))
    .cubic p1 (control a1 dx dy p1) (control a2 dx dy p2) p2
  | .direct => .line p1 p2

/-- A port: its anchor, where it is, whether it is visible, its wires (`src/ui/qt/utils/nodegraph/port.hpp:76-77`). -/
structure Port where
  anchor : Anchor
  place : Place
  visible : Bool
  wires : List Nat
  deriving DecidableEq

/-- A wire: its ends, its style, whether it is visible, its path if one was made
(`src/ui/qt/utils/nodegraph/wire.hpp:23, 48-49`). -/
structure Wire where
  first : Nat
  last : Nat
  style : Style
  visible : Bool
  path : Option Path
  deriving DecidableEq

/-- A scene: the ports and the wires that were made, in order; `none` for those deleted
(`src/ui/qt/processing_view/processing_scene.hpp:60-140`). -/
structure Scene where
  ports : List (Option Port)
  wires : List (Option Wire)
  deriving DecidableEq

/-- What a pointer to a port points at (`src/ui/qt/utils/nodegraph/wire.hpp:48-49`). -/
def Scene.port (s : Scene) (p : Nat) : Option Port := s.ports[p]?.join

/-- What a pointer to a wire points at (`src/ui/qt/utils/nodegraph/port.hpp:77`). -/
def Scene.wire (s : Scene) (w : Nat) : Option Wire := s.wires[w]?.join

/-- Changes an object (`src/ui/qt/utils/nodegraph/wire.cpp:45-95`). -/
def Scene.setPort (s : Scene) (p : Nat) (x : Option Port) : Scene := { s with ports := s.ports.set p x }

@[inherit_doc Scene.setPort] def Scene.setWire (s : Scene) (w : Nat) (x : Option Wire) : Scene := { s with wires := s.wires.set w x }

/-- `Wire::update_path` (`src/ui/qt/utils/nodegraph/wire.cpp:45-95`). -/
def Scene.updatePath (s : Scene) (w : Nat) : Option Scene :=
  (s.wire w).bind fun x =>
  if x.visible then
    (s.port x.first).bind fun b =>
    (s.port x.last).bind fun e =>
    let path := makePath x.style b.anchor e.anchor (attachPos b.anchor b.place) (attachPos e.anchor e.place)
    some (s.setWire w (some { x with path := some path }))
  else some s

/-- `setVisible` of a wire, with `Wire::itemChange` (`src/ui/qt/utils/nodegraph/wire.cpp:120-126`). -/
def Scene.setWireVisible (s : Scene) (v : Bool) (w : Nat) : Option Scene :=
  (s.wire w).bind fun x =>
  if x.visible = v then some s
  else
    let s := s.setWire w (some { x with visible := v })
    if v then s.updatePath w else some s

/-- A function on each of a list, in order (`for`, `src/ui/qt/utils/nodegraph/port.cpp:174-181`). -/
def each (f : Scene → Nat → Option Scene) : List Nat → Scene → Option Scene
  | [], s => some s
  | w :: rest, s => (f s w).bind (each f rest)

/-- `setVisible` of a port, with `Port::itemChange` (`src/ui/qt/utils/nodegraph/port.cpp:177-181`). -/
def Scene.setPortVisible (s : Scene) (v : Bool) (p : Nat) : Option Scene :=
  (s.port p).bind fun x =>
  if x.visible = v then some s
  else each (fun s w => s.setWireVisible v w) x.wires (s.setPort p (some { x with visible := v }))

/-- `Port::itemChange` when the position in the scene has changed (`src/ui/qt/utils/nodegraph/port.cpp:173-176`). -/
def Scene.told (s : Scene) (p : Nat) : Option Scene :=
  (s.port p).bind fun x => each Scene.updatePath x.wires s

/-- The places of ports change at once, as when a node is moved or laid out; those whose position has changed are then told
(`src/ui/qt/utils/nodegraph/port.cpp:43-47, 172-183`). -/
def Scene.move (s : Scene) (places : Nat → Place) : Option Scene :=
  let moved := (List.range s.ports.length).filter fun p =>
    match s.port p with
    | none => false
    | some x => decide (x.place.rect.left ≠ (places p).rect.left ∨ x.place.rect.top ≠ (places p).rect.top)
  each Scene.told moved { s with ports := s.ports.mapIdx fun p x => x.map fun x => { x with place := places p } }

/-- `Port::Port` (`src/ui/qt/utils/nodegraph/port.cpp:23-32`). -/
def Scene.addPort (s : Scene) (anchor : Anchor) (place : Place) (visible : Bool) : Scene :=
  { s with ports := s.ports ++ [some ⟨anchor, place, visible, []⟩] }

/-- Appends to the wires of a port (`src/ui/qt/utils/nodegraph/wire.cpp:32-37`). -/
def Scene.plug (s : Scene) (w p : Nat) : Option Scene :=
  (s.port p).map fun x => s.setPort p (some { x with wires := x.wires ++ [w] })

/-- `Wire::Wire` (`src/ui/qt/utils/nodegraph/wire.cpp:22-39`), called by `ProcessingScene::wire_together`
(`src/ui/qt/processing_view/processing_scene.cpp:301-309`). -/
def Scene.addWire (s : Scene) (b e : Nat) : Option Scene :=
  let w := s.wires.length
  (({ s with wires := s.wires ++ [some ⟨b, e, .curved, true, none⟩] } : Scene).plug w b).bind fun s =>
  (s.plug w e).bind fun s => s.updatePath w

/-- `ProcessingScene::set_wire_style` for a wire (`src/ui/qt/processing_view/processing_scene.cpp:73-76`). -/
def Scene.styleWire (style : Style) (s : Scene) (w : Nat) : Option Scene :=
  (s.wire w).bind fun x => (s.setWire w (some { x with style := style })).updatePath w

/-- `ProcessingScene::set_wire_style` (`src/ui/qt/processing_view/processing_scene.cpp:72-77`). `wires` is never shortened
there. -/
def Scene.setStyle (s : Scene) (style : Style) : Option Scene := each (Scene.styleWire style) (List.range s.wires.length) s

/-- What is drawn for a wire: `Wire::paint` (`src/ui/qt/utils/nodegraph/wire.cpp:129-153`), which Qt calls for visible wires. -/
def Scene.drawn (s : Scene) (w : Nat) : Option Path :=
  match s.wire w with
  | none => none
  | some x =>
    match s.port x.first, s.port x.last with
    | some b, some e => if x.visible && (b.visible && e.visible) then x.path else none
    | _, _ => none

/-- Removes a wire from those of a port (`src/ui/qt/utils/nodegraph/wire.cpp:103, 105`). -/
def Scene.unplug (s : Scene) (w p : Nat) : Option Scene :=
  (s.port p).map fun x => s.setPort p (some { x with wires := x.wires.filter (· ≠ w) })

/-- `delete wire->unwire(this)`, called by the destructor of port `p` (`src/ui/qt/utils/nodegraph/port.cpp:38`,
`src/ui/qt/utils/nodegraph/wire.cpp:99-107`). -/
def Scene.unwire (s : Scene) (p w : Nat) : Option Scene :=
  (s.wire w).bind fun x =>
  (if p ≠ x.first then s.unplug w x.first else some s).bind fun s =>
  (if p ≠ x.last then s.unplug w x.last else some s).bind fun s =>
  some (s.setWire w none)

/-- The body of the loop of `Port::~Port` (`src/ui/qt/utils/nodegraph/port.cpp:36-38`). Changing the list that is gone through is
undefined behaviour. -/
def Scene.unwireNext (p : Nat) (s : Scene) (w : Nat) : Option Scene :=
  (s.unwire p w).bind fun t => if (t.port p).map Port.wires = (s.port p).map Port.wires then some t else none

/-- `Port::~Port` (`src/ui/qt/utils/nodegraph/port.cpp:35-39`). -/
def Scene.deletePort (s : Scene) (p : Nat) : Option Scene :=
  (s.port p).bind fun x => (each (Scene.unwireNext p) x.wires s).map fun s => s.setPort p none

/-- Deletes a wire that is still an item of the scene, as Qt does when it deletes the scene: `Wire` has no destructor of its
own (`src/ui/qt/utils/nodegraph/wire.hpp:17-49`). A wire deleted by a port is an item of the scene no more
(`src/ui/qt/utils/nodegraph/wire.cpp:100-101`). -/
def Scene.deleteWire (s : Scene) (w : Nat) : Option Scene :=
  match s.wire w with
  | none => some s
  | some _ => some (s.setWire w none)

/-- `delete state.scene` (`src/ui/qt/processing_view/processing_view.cpp:41-45`): the planes and axes, added first, with all
their ports – in the order given –, then the wires that are left. -/
def Scene.delete (s : Scene) (order : List Nat) : Option Scene :=
  (each Scene.deletePort order s).bind fun s => each Scene.deleteWire (List.range s.wires.length) s

end Verif.Wires
