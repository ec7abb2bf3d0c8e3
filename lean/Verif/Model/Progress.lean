import Verif.Model.Manager
import Verif.Model.Text
import Verif.Model.App

/-!
# The progress bars

What each loop tells its progress bar, and what the bars of the terminal and of the window show of it.

Simplifications.
* What a loop finds is a parameter, except for the policies that are too close, taken from the model of that loop.
* `int` and `size_t` counters are natural numbers; the width of the bar, which may go below 0, is computed modulo `2^64`.
-/

namespace Verif.Bar
open Verif.Csx (decimal)
open Verif.Mesh (Axis MeshParams Sorter)

/-- A call of `tick(i)` or of `tick(i, j)` (`src/utils/progress.hpp:24-25`). -/
inductive Call where
  | one (i : Nat)
  | two (i j : Nat)
  deriving DecidableEq

/-- The progress set by the bar of the terminal (`src/ui/cli/progress.cpp:47-61`). -/
def Call.terminal : Call → Nat
  | .one i => i + 1
  | .two _ j => j

/-- The text after the bar of the terminal (`src/ui/cli/progress.cpp:48,56`). -/
def Call.postfix (max : Nat) : Call → List Char
  | .one i => decimal (i + 1) ++ "/".toList ++ decimal max
  | .two i j => decimal i ++ "/".toList ++ decimal j ++ "/".toList ++ decimal max

/-- The value asked of the bar of the window (`src/ui/qt/progress.cpp:37-44`). -/
def Call.window : Call → Nat
  | .one i => i + 1
  | .two _ j => j + 1

/-- `QProgressBar::setValue` after `setRange(0, max)` (`src/ui/qt/progress.cpp:23,38,43`): a value out of the range changes nothing,
unless the range is empty. -/
def setValue (max value shown : Nat) : Nat := if max < value ∧ max ≠ 0 then shown else value

/-- What the bar of the window shows after the calls (`src/ui/qt/progress.cpp:18-44`); it shows nothing, `-1`, before the first one, here 0. -/
def windowShows (max : Nat) (calls : List Call) : Nat := calls.foldl (fun shown c => setValue max c.window shown) 0

/-- `bar_width` (`src/ui/cli/progress.cpp:19-23`), in the arithmetic of `size_t`. -/
def barWidth (prefixSize postfixSize : Nat) : Nat :=
  (((100 : Int) - prefixSize - postfixSize - 19) % 2 ^ 64).toNat

/-- The text before a bar (`src/main.cpp:24-29`). -/
def prefixText (step : Option Verif.Step) (message : String) : List Char :=
  decimal (Step.index step) ++ "/".toList ++ decimal Step.indexMax ++ " ".toList ++ message.toList

/-- The inner loop of `Board::adjust_edges_to_materials` over the edges of a polygon (`src/domain/board.cpp:218-247`): for each edge,
whether it is found; `found` and `i` before and after. -/
def adjustPolygon : List Bool → Nat × Nat → List Call × (Nat × Nat)
  | [], s => ([], s)
  | reversed :: rest, (found, i) =>
    let found := if reversed then found + 1 else found
    let (calls, s) := adjustPolygon rest (found, i + 1)
    (.two found (i + 1) :: calls, s)

/-- The loop of `Board::adjust_edges_to_materials` over the polygons (`src/domain/board.cpp:217-248`). -/
def adjustFrom : List (List Bool) → Nat × Nat → List Call × (Nat × Nat)
  | [], s => ([], s)
  | p :: rest, s =>
    let (calls, s) := adjustPolygon p s
    let (calls', s) := adjustFrom rest s
    (calls ++ calls', s)

/-- The bar of `Board::adjust_edges_to_materials` (`src/domain/board.cpp:212-250`): for each polygon and each of its edges, whether
the edge is to be reversed. The edges of the plane are those of its polygons. -/
def adjustCalls (polygons : List (List Bool)) : Nat × List Call :=
  ((polygons.map List.length).sum, (adjustFrom polygons (0, 0)).1)

/-- The first loop of `Board::detect_diagonal_angles` (`src/domain/board.cpp:264-275`): of each polygon, the number of edges and of
angles found. -/
def anglesFrom : List (Nat × Nat) → Nat × Nat → List Call × (Nat × Nat)
  | [], s => ([], s)
  | (edges, angles) :: rest, (found, k) =>
    let (calls, s) := anglesFrom rest (found + angles, k + edges)
    (.two (found + angles) (k + edges) :: calls, s)

/-- The loop of `Board::detect_diagonal_angles` over the edges of a polygon (`src/domain/board.cpp:281-305`), the polygons after it
having `others` edges: for each edge, the number of crossings found. -/
def crossPolygon (others : Nat) : List Nat → Nat × Nat → List Call × (Nat × Nat)
  | [], s => ([], s)
  | crossings :: rest, (found, k) =>
    let (calls, s) := crossPolygon others rest (found + crossings, k + others)
    (.two (found + crossings) (k + others) :: calls, s)

/-- The second loop of `Board::detect_diagonal_angles` (`src/domain/board.cpp:280-306`). -/
def crossFrom : List (List Nat) → Nat × Nat → List Call × (Nat × Nat)
  | [], s => ([], s)
  | p :: rest, s =>
    let (calls, s) := crossPolygon (rest.map List.length).sum p s
    let (calls', s) := crossFrom rest s
    (calls ++ calls', s)

/-- The bar of `Board::detect_diagonal_angles` (`src/domain/board.cpp:253-310`): of each polygon, the angles found, and for each edge
the crossings found with edges of the polygons after. -/
def anglesCalls (polygons : List (Nat × List Nat)) : Nat × List Call :=
  let edges := (polygons.map fun p => p.2.length).sum
  let (calls, s) := anglesFrom (polygons.map fun p => (p.2.length, p.1)) (0, 0)
  ((edges * edges - edges) / 2, calls ++ (crossFrom (polygons.map (·.2)) s).1)

/-- The inner loop of `Board::detect_edges_in_polygons` (`src/domain/board.cpp:322-446`): for each other polygon, the number of edges
found; `found` and `k` after. -/
def inPolygonsRow : List Nat → Nat × Nat → Nat × Nat
  | [], s => s
  | n :: rest, (found, k) => inPolygonsRow rest (found + n, k + 1)

/-- The outer loop of `Board::detect_edges_in_polygons` (`src/domain/board.cpp:321-448`). -/
def inPolygonsFrom (polygons : List Nat) (finds : Nat → Nat → Nat) : List Nat → Nat × Nat → List Call
  | [], _ => []
  | a :: rest, s =>
    let (found, k) := inPolygonsRow (polygons.map (finds a)) s
    .two found k :: inPolygonsFrom polygons finds rest (found, k)

/-- The bar of `Board::detect_edges_in_polygons` (`src/domain/board.cpp:315-450`): `finds` tells how many edges of a polygon are
found in another. -/
def inPolygonsCalls (polygons : List Nat) (finds : Nat → Nat → Nat) : Nat × List Call :=
  (polygons.length * polygons.length, inPolygonsFrom polygons finds polygons (0, 0))

/-- The loop of `Board::detect_colinear_edges` (`src/domain/board.cpp:460-485`): for each edge, nothing if it is diagonal, else the
number of edges after it that it is colinear with. -/
def colinearFrom : List (Option Nat) → Nat × Nat → List Call
  | [], _ => []
  | none :: rest, (found, k) => .two found (k + rest.length) :: colinearFrom rest (found, k + rest.length)
  | some n :: rest, (found, k) => .two (found + n) (k + rest.length) :: colinearFrom rest (found + n, k + rest.length)

/-- The bar of `Board::detect_colinear_edges` (`src/domain/board.cpp:453-487`). -/
def colinearCalls (edges : List (Option Nat)) : Nat × List Call :=
  ((edges.length * edges.length - edges.length) / 2, colinearFrom edges (0, 0))

/-- A loop that says `tick(found, ++i)` after each element: those of `Board::detect_individual_edges` (`src/domain/board.cpp:498-541`)
and of `ParserFromCsx::parse` (`src/infra/parsers/parser_from_csx.cpp:718-722`). -/
def eachFrom : List Bool → Nat × Nat → List Call × (Nat × Nat)
  | [], s => ([], s)
  | hit :: rest, (found, i) =>
    let found := if hit then found + 1 else found
    let (calls, s) := eachFrom rest (found, i + 1)
    (.two found (i + 1) :: calls, s)

/-- The bar of `Board::detect_individual_edges` (`src/domain/board.cpp:490-543`): which edges, and which angles, get policies. -/
def individualCalls (edges angles : List Bool) : Nat × List Call :=
  let (calls, s) := eachFrom edges (0, 0)
  (edges.length + angles.length, calls ++ (eachFrom angles s).1)

/-- The loops of `ParserFromCsx::parse` (`src/infra/parsers/parser_from_csx.cpp:714-724`) over the properties and their primitives. -/
def parseFrom : List (List Bool) → Nat × Nat → List Call
  | [], _ => []
  | p :: rest, s =>
    let (calls, s) := eachFrom p s
    calls ++ parseFrom rest s

/-- The bar of `ParserFromCsx::parse` (`src/infra/parsers/parser_from_csx.cpp:698-725`): of each property, which primitives are
used. A property has one `Primitives`. -/
def parseCalls (properties : List (List Bool)) : Nat × List Call :=
  ((properties.map List.length).sum, parseFrom properties (0, 0))

/-- The loop of `Board::detect_diagonal_zones` over the ranges between angles (`src/domain/board.cpp:576-585`). -/
def zoneRanges (found : Nat) : Nat → Nat → List Call × Nat
  | 0, k => ([], k)
  | n + 1, k =>
    let (calls, k') := zoneRanges found n (k + 1)
    (.two found k :: calls, k')

/-- The bar of `Board::detect_diagonal_zones` (`src/domain/board.cpp:546-606`), given the number of angles and of zones found for each
of the two axes. -/
def zonesCalls (angles first second : Nat) : Nat × List Call :=
  let (calls, k) := zoneRanges 0 (angles - 1) 0
  let (calls', k') := zoneRanges first (angles - 1) k
  ((angles - if 1 < angles then 1 else 0) * 2,
    calls ++ [.two first k] ++ calls' ++ [.two (first + second) k'])

/-- The bar of `Board::add_fixed_meshline_policies` (`src/domain/board.cpp:609-620`), given the number of policies. -/
def fixedCalls (n : Nat) : Nat × List Call := (n, (List.range n).map fun i => .one (i + 1))

/-- The loop of `MeshlinePolicyManager::detect_and_solve_too_close_meshline_policies`
(`src/domain/meshline_policy_manager.cpp:112-125`), with what it tells the bar. -/
def tooCloseFrom (S : Sorter Nat) (g : MeshParams) (possible : Nat) (found i : Nat) (a : Axis) : Option (List Call) :=
  match a.detectClosest S g.proximityLimit with
  | none => some [.two found possible]
  | some (p, q) =>
    match a.addTooClose p q with
    | none => tooCloseFrom S g possible found (i + 1) a
    | some b => do
      let calls ← tooCloseFrom S g possible (found + 1) (i + 1) (b.solveConflict g p q)
      some (.two (found + 1) (i + 1) :: calls)
partial_fixpoint

/-- The bar of `MeshlinePolicyManager::detect_and_solve_too_close_meshline_policies`
(`src/domain/meshline_policy_manager.cpp:106-127`); `none` when it does not end. -/
def tooCloseCalls (S : Sorter Nat) (g : MeshParams) (a : Axis) : Nat × Option (List Call) :=
  (a.policies.length, tooCloseFrom S g a.policies.length 0 0 a)

/-- The bar of `MeshlinePolicyManager::detect_intervals` (`src/domain/meshline_policy_manager.cpp:130-161`), given the number of
enabled policies. -/
def intervalsCalls (n : Nat) : Nat × List Call := (n, (List.range' 1 (n - 1)).map .one)

/-- The inner loop of `MeshlinePolicyManager::detect_intervals_per_diagonal_zones`
(`src/domain/meshline_policy_manager.cpp:174-183`). -/
def perZoneRow : List Bool → Nat × Nat → Nat × Nat
  | [], s => s
  | inside :: rest, (found, i) => perZoneRow rest (if inside then found + 1 else found, i + 1)

/-- The outer loop of `MeshlinePolicyManager::detect_intervals_per_diagonal_zones`
(`src/domain/meshline_policy_manager.cpp:171-186`). -/
def perZoneFrom (intervals : List Nat) (inside : Nat → Nat → Bool) : List Nat → Nat × Nat → List Call
  | [], _ => []
  | z :: rest, s =>
    let (found, i) := perZoneRow (intervals.map (inside z)) s
    .two found i :: perZoneFrom intervals inside rest (found, i)

/-- The bar of `MeshlinePolicyManager::detect_intervals_per_diagonal_zones` (`src/domain/meshline_policy_manager.cpp:164-188`). -/
def perZoneCalls (zones intervals : List Nat) (inside : Nat → Nat → Bool) : Nat × List Call :=
  (zones.length * intervals.length, perZoneFrom intervals inside zones (0, 0))

/-- The bar of `MeshlinePolicyManager::mesh` (`src/domain/meshline_policy_manager.cpp:191-242`), given the number of intervals and of
policies. -/
def meshCalls (intervals policies : Nat) : Nat × List Call :=
  (intervals + policies + 1,
    ((List.range intervals).map fun i => .one (i + 1)) ++ (List.range policies).map fun i => .one (intervals + i + 1))

/-- The bars of `auto_solve_all_diagonal_angles`, `auto_solve_all_diagonal_zones`, `auto_solve_all_edge_in_polygon` and
`auto_solve_all_colinear_edges` of `ConflictManager` (`src/domain/conflict_manager.cpp:239-290`), given the number of conflicts. -/
def solveCalls (n : Nat) : Nat × List Call := (n, (List.range n).map .one)

/-- The messages of the bars and whether they are ticked with two numbers (`src/domain/board.cpp:215,259,318,458,496,553,612`,
`src/domain/meshline_policy_manager.cpp:110,144,169,198`, `src/domain/conflict_manager.cpp:242,256,270,283`,
`src/infra/parsers/parser_from_csx.cpp:711`); `XY` stands for a plane and `X` for an axis, whose names have the same length. -/
def messages : List (String × Bool) :=
  [("[XY] Adjusting Edges to Materials ", true), ("[XY] Detecting diagonal Angles ", true),
    ("[XY] Detecting EDGES_IN_POLYGON conflicts ", true), ("[XY] Detecting COLINEAR_EDGES conflicts ", true),
    ("[XY] Detecting individual Edges ", true), ("[XY] Detecting diagonal zones ", true),
    ("[X] Adding fixed Meshline Policies ", false), ("[X] Detecting & solving TCMLP conflicts ", true),
    ("[X] Detecting Intervals ", false), ("[X] Detecting Intervals per diagonal zones", true),
    ("[X] Meshing Intervals + Meshline Policies ", false), ("[X] Solving ANGLE part of DIAGONAL_ZONE conflicts ", false),
    ("[X] Solving INTERVAL part of DIAGONAL_ZONE conflicts ", false), ("[XY] Solving EDGES_IN_POLYGON conflicts ", false),
    ("[X] Solving COLINEAR_EDGES conflicts ", false), ("Parsing primitives ", true)]

end Verif.Bar
