import Verif.Model.Graph
import Mathlib.Logic.Relation

/-! What the wires and the highlighting of the processing view are meant to show. -/

namespace Verif.Graph.Spec

/-- The object is on the board. -/
def OnBoard (b : Board) : Entity → Prop
  | .polygon i => ∃ es, (i, es) ∈ b.polygons
  | .edge i => ∃ p es, (p, es) ∈ b.polygons ∧ i ∈ es
  | .angle i => i ∈ b.angles
  | .ce i => i ∈ b.ces
  | .eip i => i ∈ b.eips
  | .docz i => i ∈ b.doczs
  | .tcmlp i => i ∈ b.tcmlps
  | .policy i => i ∈ b.policies
  | .interval i => i ∈ b.intervals
  | .meshline i => i ∈ b.meshlines
  | .plane _ => False
  | .axis _ => False

/-- The node is in the scene: it shows an object of the board, one of the three planes or one of the three axes. -/
def InScene (b : Board) : Entity → Prop
  | .plane _ => True
  | .axis _ => True
  | e => OnBoard b e

/-- The kinds of objects a meshline policy can come from. -/
def MakesPolicies : Entity → Prop
  | .edge _ => True
  | .angle _ => True
  | .ce _ => True
  | .tcmlp _ => True
  | _ => False

/-- Every origin of a policy is of such a kind: those passed to `add_meshline_policy` (`src/domain/board.cpp:91, 510, 529`,
`src/domain/conflicts/conflict_colinear_edges.cpp:74`, `conflict_too_close_meshline_policies.cpp:70`). -/
def Meant (b : Board) : Prop := ∀ i, ∀ o ∈ b.policyOrigins i, MakesPolicies o

/-- `ComesFrom b o e`: the object `e` holds `o` as something it comes from. -/
inductive ComesFrom (b : Board) : Entity → Entity → Prop
  | settled {i c} : b.edgeConflict i = some c → ComesFrom b (.eip c) (.edge i)
  | firstSide i : ComesFrom b (.edge (b.angleEdges i).1) (.angle i)
  | secondSide i : ComesFrom b (.edge (b.angleEdges i).2) (.angle i)
  | aligned {i e} : e ∈ b.ceEdges i → ComesFrom b (.edge e) (.ce i)
  | inside i : ComesFrom b (.edge (b.eipEdge i)) (.eip i)
  | covered {i p} : p ∈ b.eipPolygons i → ComesFrom b (.polygon p) (.eip i)
  | slanted {i a} : a ∈ b.doczAngles i → ComesFrom b (.angle a) (.docz i)
  | left i : ComesFrom b (.policy (b.tcmlpPolicies i).1) (.tcmlp i)
  | right i : ComesFrom b (.policy (b.tcmlpPolicies i).2) (.tcmlp i)
  | asked {i o} : o ∈ b.policyOrigins i → ComesFrom b o (.policy i)
  | zone {i z} : z ∈ b.intervalZones i → ComesFrom b (.docz z) (.interval i)
  | before {i p} : b.intervalBefore i = some p → ComesFrom b (.policy p) (.interval i)
  | after {i p} : b.intervalAfter i = some p → ComesFrom b (.policy p) (.interval i)
  | between {i v} : b.meshlineInterval i = some v → ComesFrom b (.interval v) (.meshline i)
  | at_ {i p} : b.meshlinePolicy i = some p → ComesFrom b (.policy p) (.meshline i)

/-- Both are on the board and the second comes from the first. -/
def Linked (b : Board) (o e : Entity) : Prop := OnBoard b o ∧ OnBoard b e ∧ ComesFrom b o e

/-- `m` is among what `n` comes from, directly or not, or among what comes from it. -/
def Related (b : Board) (n m : Entity) : Prop :=
  Relation.TransGen (Linked b) m n ∨ Relation.TransGen (Linked b) n m

end Verif.Graph.Spec

namespace Verif.Graph
open Spec

/-- What an event is meant to do to the selection. -/
def Event.selects (sel : Entity → Prop) : Event → Entity → Prop
  | .select n v, m => if m = n then v = true else sel m
  | .click n true, m => if m = n then ¬ sel n else sel m
  | .click n false, m => m = n

/-- The selection the events are meant to come to. -/
def selection (sel : Entity → Prop) : List Event → Entity → Prop
  | [] => sel
  | e :: rest => selection (e.selects sel) rest

/-- The event is about a node of the scene. -/
def Event.On (b : Board) : Event → Prop
  | .select n _ => InScene b n
  | .click n _ => InScene b n

end Verif.Graph
