import Verif.Model.EdgeInPolygon
import Mathlib.Data.List.Basic

/-!
# The processing view: its nodes, their ports, the wires between them, and what is highlighted

Model of `src/ui/qt/utils/nodegraph/{node,port,wire,highlightable}.cpp`, of the wiring in
`src/ui/qt/processing_view/processing_scene.cpp` and `processing_view.cpp`, and of the constructors of the nodes
(`src/ui/qt/processing_view/processing_*.cpp`) as far as their ports and what is to be wired to them.

Simplifications.
* A pointer to an object of the domain is an `Entity`, a pointer to a node is the entity it shows: `index`
  (`processing_scene.hpp:121`) maps each entity added to the one node made for it. The planes and the axes are nodes too,
  without ports and not in `index`.
* A port is its node, its side and its rank in `input_ports` or `output_ports`.
* `Port::wires` is the list of the wires of the scene, in the order in which they were made, that begin or end at the port: a
  wire is appended there when it is made (`wire.cpp:31-36`). No wire is removed: scenes are deleted as a whole.
* Positions, texts, colours and styles are left out.
-/

namespace Verif.Graph
open Verif.Geom (Plane Axis)

/-- What a node shows: an object of the domain, by kind (`src/ui/qt/user_types.hpp:25-36`) and number, or a plane or an
axis. -/
inductive Entity where
  | polygon (i : Nat) | edge (i : Nat) | angle (i : Nat) | ce (i : Nat) | eip (i : Nat) | docz (i : Nat)
  | tcmlp (i : Nat) | policy (i : Nat) | interval (i : Nat) | meshline (i : Nat) | plane (p : Plane)
  | axis (a : Axis)
  deriving DecidableEq, Repr

/-- A port of a node (`src/ui/qt/utils/nodegraph/node.hpp:76-77`). -/
structure Port where
  node : Entity
  out : Bool
  rank : Nat
  deriving DecidableEq, Repr

/-- A wire: `begin`, `end` (`src/ui/qt/utils/nodegraph/wire.hpp`). -/
structure Wire where
  first : Port
  last : Port
  deriving DecidableEq, Repr

/-- The ports of a node and its `TO_WIRE` (`src/ui/qt/data_keys.hpp:26-53`): the entities with the rank of the input port. -/
structure Sockets where
  inputs : Nat
  outputs : Nat
  toWire : List (Entity × Nat)

/-- What the constructors read of the objects of a board. -/
structure Board where
  /-- The polygons of the planes in the order of `populate`, with the edges of each. -/
  polygons : List (Nat × List Nat)
  eips : List Nat
  angles : List Nat
  ces : List Nat
  tcmlps : List Nat
  policies : List Nat
  doczs : List Nat
  intervals : List Nat
  meshlines : List Nat
  /-- `EdgeState::conflict`: a `Conflict*`, written only by `ConflictEdgeInPolygon::auto_solve`. -/
  edgeConflict : Nat → Option Nat
  /-- `Angle::e0`, `e1`. -/
  angleEdges : Nat → Nat × Nat
  /-- `ConflictColinearEdgesState::edges`. -/
  ceEdges : Nat → List Nat
  /-- `ConflictEdgeInPolygon::edge`, and the polygons of `overlaps`. -/
  eipEdge : Nat → Nat
  eipPolygons : Nat → List Nat
  /-- `ConflictTooCloseMeshlinePolicies::meshline_policies`. -/
  tcmlpPolicies : Nat → Nat × Nat
  /-- `ConflictDiagonalOrCircularZoneState::angles`. -/
  doczAngles : Nat → List Nat
  /-- `MeshlinePolicyState::origins`, each an `IMeshLineOrigin`. -/
  policyOrigins : Nat → List Entity
  /-- `IntervalState`: the conflicts that are zones, `before.meshline_policy`, `after.meshline_policy`. -/
  intervalZones : Nat → List Nat
  intervalBefore : Nat → Option Nat
  intervalAfter : Nat → Option Nat
  /-- `Meshline::interval`, `policy`. -/
  meshlineInterval : Nat → Option Nat
  meshlinePolicy : Nat → Option Nat
  /-- The plane a polygon, an angle or a conflict of an edge in polygons is added to. -/
  planeOf : Entity → Plane
  /-- The axis another object is added to, other than an edge. -/
  axisOf : Entity → Axis

/-- What an origin of a policy is cast to (`down_up_cast`, `src/ui/qt/processing_view/processing_meshline_policy.cpp:61-66`):
edges, angles and the two kinds of conflicts. -/
def castOrigin : Entity → Option Entity
  | .edge i => some (.edge i)
  | .angle i => some (.angle i)
  | .ce i => some (.ce i)
  | .tcmlp i => some (.tcmlp i)
  | _ => none

/-- One input port for each element, and what is to be wired to it
(`src/ui/qt/processing_view/processing_meshline_policy.cpp:52-68`, `processing_conflict_colinear_edges.cpp:41-55`,
`processing_conflict_too_close_meshline_policies.cpp:42-51`, `processing_conflict_edge_in_polygon.cpp:52-63`), the first port
having rank `k`. -/
def eachPort (k : Nat) : List (Option Entity) → List (Entity × Nat)
  | [] => []
  | some e :: rest => (e, k) :: eachPort (k + 1) rest
  | none :: rest => eachPort (k + 1) rest

/-- The constructors of the nodes: `ProcessingPolygon` (`src/ui/qt/processing_view/processing_polygon.cpp:37`), `ProcessingEdge`
(`processing_edge.cpp:37-47`), `ProcessingAngle` (`processing_angle.cpp:46-66`), `ProcessingConflictColinearEdges`
(`processing_conflict_colinear_edges.cpp:41-57`), `ProcessingConflictEdgeInPolygon`
(`processing_conflict_edge_in_polygon.cpp:42-65`), `ProcessingConflictDiagonalOrCircularZone`
(`processing_conflict_diagonal_or_circular_zone.cpp:43-67`), `ProcessingConflictTooCloseMeshlinePolicies`
(`processing_conflict_too_close_meshline_policies.cpp:42-53`), `ProcessingMeshlinePolicy` (`processing_meshline_policy.cpp:52-72`),
`ProcessingInterval` (`processing_interval.cpp:47-107`), `ProcessingMeshline` (`processing_meshline.cpp:44-66`). -/
def sockets (b : Board) : Entity → Sockets
  | .plane _ => ⟨0, 0, []⟩
  | .axis _ => ⟨0, 0, []⟩
  | .polygon _ => ⟨0, 1, []⟩
  | .edge i => ⟨1, 1, match b.edgeConflict i with | some c => [(.eip c, 0)] | none => []⟩
  | .angle i => ⟨2, 1, [(.edge (b.angleEdges i).1, 0), (.edge (b.angleEdges i).2, 1)]⟩
  | .ce i => ⟨(b.ceEdges i).length, 1, eachPort 0 ((b.ceEdges i).map fun e => some (.edge e))⟩
  | .eip i => ⟨1 + (b.eipPolygons i).length, 1,
      (.edge (b.eipEdge i), 0) :: eachPort 1 ((b.eipPolygons i).map fun p => some (.polygon p))⟩
  | .docz i => ⟨1, 1, (b.doczAngles i).map fun a => (.angle a, 0)⟩
  | .tcmlp i => ⟨2, 1, eachPort 0 [some (.policy (b.tcmlpPolicies i).1), some (.policy (b.tcmlpPolicies i).2)]⟩
  | .policy i => ⟨(b.policyOrigins i).length, 1, eachPort 0 ((b.policyOrigins i).map castOrigin)⟩
  | .interval i =>
      let after := if b.intervalZones i = [] then 1 else 2
      ⟨after + 1, 1, (b.intervalZones i).map (fun z => (.docz z, 1))
        ++ (match b.intervalBefore i with | some p => [(.policy p, 0)] | none => [])
        ++ (match b.intervalAfter i with | some p => [(.policy p, after)] | none => [])⟩
  | .meshline i => ⟨2, 0, (match b.meshlineInterval i with | some v => [(.interval v, 0)] | none => [])
        ++ (match b.meshlinePolicy i with | some p => [(.policy p, 1)] | none => [])⟩

/-- The nodes added by `populate` (`src/ui/qt/processing_view/processing_view.cpp:147-191`), as the keys of `index`
(`processing_scene.cpp:142-168`). -/
def Board.shown (b : Board) : List Entity :=
  b.polygons.flatMap (fun p => .polygon p.1 :: p.2.map .edge) ++ b.eips.map .eip ++ b.angles.map .angle ++ b.ces.map .ce
    ++ b.tcmlps.map .tcmlp ++ b.policies.map .policy ++ b.doczs.map .docz ++ b.intervals.map .interval
    ++ b.meshlines.map .meshline

/-- All the nodes of the scene (`nodes`, `src/ui/qt/processing_view/processing_scene.cpp:142-168`): the planes and the axes
too (`processing_view.cpp:148, 169`). -/
def Board.nodes (b : Board) : List Entity :=
  [.plane .yz, .plane .zx, .plane .xy, .axis .x, .axis .y, .axis .z] ++ b.shown

/-- `Wire::traverse` (`src/ui/qt/utils/nodegraph/wire.cpp:110-117`). -/
def Wire.traverse (w : Wire) (p : Port) : Option Port :=
  if p = w.first then some w.last else if p = w.last then some w.first else none

/-- `Port::wires`: see the head of this file (`src/ui/qt/utils/nodegraph/wire.cpp:31-36`). -/
def wiresOf (ws : List Wire) (p : Port) : List Wire := ws.filter fun w => p = w.first ∨ p = w.last

/-- `Port::is_wired_to` (`src/ui/qt/utils/nodegraph/port.cpp:131-135`). -/
def isWiredTo (ws : List Wire) (p q : Port) : Bool := (wiresOf ws p).any fun w => (w.traverse q).isSome

/-- `Port::traverse` and `traverse_to_nodes` (`src/ui/qt/utils/nodegraph/port.cpp:149-169`). -/
def portNodes (ws : List Wire) (p : Port) : List Entity :=
  ((wiresOf ws p).filterMap fun w => w.traverse p).map (·.node)

/-- `Node::get_input_nodes` (`src/ui/qt/utils/nodegraph/node.cpp:195-215`). -/
def inputNodes (b : Board) (ws : List Wire) (n : Entity) : List Entity :=
  (List.range (sockets b n).inputs).flatMap fun k => portNodes ws ⟨n, false, k⟩

/-- `Node::get_output_nodes` (`src/ui/qt/utils/nodegraph/node.cpp:195-210, 218-220`). -/
def outputNodes (b : Board) (ws : List Wire) (n : Entity) : List Entity :=
  (List.range (sockets b n).outputs).flatMap fun k => portNodes ws ⟨n, true, k⟩

/-- `ProcessingScene::wire_to_destination_first_output_port` (`src/ui/qt/processing_view/processing_scene.cpp:312-323`) with
`wire_together` (301-309), on what remains of `TO_WIRE`. Reading the first output port of a node without any is undefined. -/
def wireAll (b : Board) (n : Entity) : List (Entity × Nat) → List Wire → Board.Outcome (List Wire)
  | [], ws => .ok ws
  | (e, k) :: rest, ws =>
    if e ∈ b.shown then
      if (sockets b e).outputs = 0 then .ub
      else if isWiredTo ws ⟨n, false, k⟩ ⟨e, true, 0⟩ then wireAll b n rest ws
      else wireAll b n rest (ws ++ [⟨⟨e, true, 0⟩, ⟨n, false, k⟩⟩])
    else wireAll b n rest ws

/-- The nodes in the order in which `populate` wires them (`src/ui/qt/processing_view/processing_view.cpp:192-217`). -/
def Board.toWire (b : Board) : List Entity :=
  b.polygons.flatMap (fun p => p.2.map .edge) ++ b.angles.map .angle ++ b.ces.map .ce ++ b.tcmlps.map .tcmlp
    ++ b.eips.map .eip ++ b.doczs.map .docz ++ b.policies.map .policy ++ b.meshlines.map .meshline
    ++ b.intervals.map .interval

/-- The wires after `populate` (`src/ui/qt/processing_view/processing_view.cpp:146-220`). -/
def populate (b : Board) : Board.Outcome (List Wire) :=
  Board.Outcome.fold (fun ws n => wireAll b n (sockets b n).toWire ws) [] b.toWire

/-- `Node::traverse_up`, `Node::traverse_down` (`src/ui/qt/utils/nodegraph/node.cpp:166-183`) on what remains of the nodes of
the loop: `out` is the set being filled. `none`: does not end. -/
def traverse (next : Entity → List Entity) (out : List Entity) : List Entity → Option (List Entity)
  | [] => some out
  | m :: rest =>
    if m ∈ out then traverse next out rest
    else do
      let out ← traverse next (m :: out) (next m)
      traverse next out rest
partial_fixpoint

/-- `Node::get_chain` (`src/ui/qt/utils/nodegraph/node.cpp:186-192`). The order of a `QSet` does not matter below. -/
def chain (b : Board) (ws : List Wire) (n : Entity) : Option (List Entity) := do
  let up ← traverse (inputNodes b ws) [] (inputNodes b ws n)
  let down ← traverse (outputNodes b ws) [] (outputNodes b ws n)
  return up.union down

/-- How the nodes look: `isSelected()`, `_is_highlighted` and `by_items` (`src/ui/qt/utils/nodegraph/highlightable.hpp:24-25`) of
each node, and the same of its children (ports and texts). All the children of a node get the same calls: one flag stands for
all of them. -/
structure Looks where
  selected : Entity → Bool
  lit : Entity → Bool
  by_ : Entity → List Entity
  childSelected : Entity → Bool
  childLit : Entity → Bool

/-- A scene just populated: nothing is selected (`src/ui/qt/utils/nodegraph/highlightable.hpp:24`). -/
def Looks.fresh : Looks := ⟨fun _ => false, fun _ => false, fun _ => [], fun _ => false, fun _ => false⟩

/-- A member of a node changes (`src/ui/qt/utils/nodegraph/highlightable.hpp:24-25`). -/
def put {α : Type} (f : Entity → α) (n : Entity) (v : α) : Entity → α := fun m => if m = n then v else f m

/-- `Node::set_highlighted` (`src/ui/qt/utils/nodegraph/node.cpp:241-246`) with `Highlightable::set_highlighted`
(`highlightable.cpp:20-33`), `by_item` being a node. The children are called without `by_item`, so that their `by_items` stays
empty and they take the value. -/
def setHighlighted (s : Looks) (m : Entity) (v : Bool) (n : Entity) : Looks :=
  let items := if v then n :: (s.by_ m).filter (· ≠ n) else (s.by_ m).filter (· ≠ n)
  let lit := if v then true else if items = [] then false else s.lit m
  { s with by_ := put s.by_ m items, lit := put s.lit m lit, childLit := put s.childLit m lit }

/-- The loop over the chain of a node (`src/ui/qt/utils/nodegraph/node.cpp:74-76, 91-93`). -/
def highlightAll (v : Bool) (n : Entity) (s : Looks) (ms : List Entity) : Looks :=
  ms.foldl (fun s m => setHighlighted s m v n) s

/-- `QGraphicsItem::setSelected` of a node, with `Node::itemChange` (`src/ui/qt/utils/nodegraph/node.cpp:68-78`): Qt only calls
it when the value changes. The node is visible. -/
def setSelected (b : Board) (ws : List Wire) (s : Looks) (n : Entity) (v : Bool) : Option Looks :=
  if s.selected n = v then some s
  else do
    let c ← chain b ws n
    let s := if v then setHighlighted s n false n else s
    let s := { s with childSelected := put s.childSelected n v }
    let s := highlightAll v n s c
    return { s with selected := put s.selected n v }

/-- The deselections of the other nodes by `QGraphicsItem::mouseReleaseEvent` (called at
`src/ui/qt/utils/nodegraph/node.cpp:84`). -/
def deselectAll (b : Board) (ws : List Wire) (s : Looks) : List Entity → Option Looks
  | [] => some s
  | n :: rest => do
    let s ← setSelected b ws s n false
    deselectAll b ws s rest

/-- `Node::mouseReleaseEvent` (`src/ui/qt/utils/nodegraph/node.cpp:83-95`) where the button was pressed. Before it, Qt
(`QGraphicsItem::mouseReleaseEvent`) with the control key toggles the node, and without it unselects every other item, the
children of the node too, and selects the node. -/
def release (b : Board) (ws : List Wire) (s : Looks) (n : Entity) (control : Bool) : Option Looks := do
  let s ← if control then setSelected b ws s n (!s.selected n)
    else do
      let s ← deselectAll b ws s (b.nodes.filter (· ≠ n))
      setSelected b ws { s with childSelected := fun _ => false } n true
  if s.selected n then
    let c ← chain b ws n
    return highlightAll true n { s with childSelected := put s.childSelected n true } c
  else return s

/-- What happens to the selection: `setSelected` from the rubber band or from another scene
(`src/ui/qt/processing_view/processing_scene.cpp:458-470`), or a click (`src/ui/qt/utils/nodegraph/node.cpp:83-95`). -/
inductive Event where
  | select (n : Entity) (v : Bool)
  | click (n : Entity) (control : Bool)

/-- One event (`src/ui/qt/utils/nodegraph/node.cpp:57-95`). -/
def Event.run (b : Board) (ws : List Wire) (s : Looks) : Event → Option Looks
  | .select n v => setSelected b ws s n v
  | .click n control => release b ws s n control

/-- The events in order (`src/ui/qt/utils/nodegraph/node.cpp:57-95`). -/
def runEvents (b : Board) (ws : List Wire) (s : Looks) : List Event → Option Looks
  | [] => some s
  | e :: rest => do
    let s ← e.run b ws s
    runEvents b ws s rest

/-- Is a wire painted as highlighted (`src/ui/qt/utils/nodegraph/wire.cpp:138`)? Its ports are children of their nodes. -/
def wireLit (s : Looks) (w : Wire) : Bool :=
  (s.childLit w.first.node || s.childSelected w.first.node) && (s.childLit w.last.node || s.childSelected w.last.node)

end Verif.Graph
