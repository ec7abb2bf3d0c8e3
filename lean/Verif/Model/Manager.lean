import Verif.Model.Interval
import Mathlib.Data.List.Pairwise

/-!
# The policies of an axis

Model of `src/domain/meshline_policy_manager.cpp`, of `ConflictManager::add_too_close_meshline_policies`
(`src/domain/conflict_manager.cpp`), of
`src/domain/conflicts/conflict_too_close_meshline_policies.cpp` and of the commit of
`src/ui/qt/edit/edit_model_meshline_policy.cpp`.

Simplifications. One axis; the three axes do not interact in these functions. The pointer of a policy is its
position in `line_policies[axis]`, which only grows. The state layer is left out (see `Verif.Model.Interval`).
`std::ranges::sort` is any function giving a sorted permutation: the order of equal elements is not assumed.
-/

namespace Verif.Mesh

/-- `std::ranges::sort` with the comparator `key a < key b` (`src/domain/meshline_policy_manager.cpp:83`, 146, 200, 235):
some sorted permutation. -/
structure Sorter (α : Type) where
  sort : (α → ℚ) → List α → List α
  perm : ∀ key l, (sort key l).Perm l
  sorted : ∀ key l, (sort key l).Pairwise fun a b => key a ≤ key b

/-- The global parameters used here (`src/domain/global.hpp:19-31`). -/
structure MeshParams where
  proximityLimit : ℚ
  smoothness : ℚ
  lmin : Nat
  dmax : ℚ

/-- What the managers hold for one axis: `MeshlinePolicyManagerState`
(`src/domain/meshline_policy_manager.hpp:29-33`) and `all_too_close_meshline_policies[axis]`
(`src/domain/conflict_manager.hpp:39`) as pairs of pointers. -/
structure Axis where
  policies : List Policy
  conflicts : List (Nat × Nat)
  intervals : List Interval
  meshlines : List ℚ

/-- Dereferences a pointer to a policy of the axis (`src/domain/meshline_policy_manager.cpp:75-240`). Never used outside
the list. -/
def Axis.get (a : Axis) : Policies := fun i => a.policies[i]?.getD ⟨0, .oneline, .none, false, 0⟩

/-- The pointers, in the order of `line_policies[axis]` (`create_view`, `src/utils/vector_utils.hpp:17-26`). -/
def Axis.pointers (a : Axis) : List Nat := List.range a.policies.length

/-- The pointers of the enabled policies (`erase_if`, `src/domain/meshline_policy_manager.cpp:78-81, 135-138`). -/
def Axis.enabledPointers (a : Axis) : List Nat := a.pointers.filter fun i => (a.get i).enabled

/-- Sets the state of a policy (`set_state`, `src/utils/state_management.hpp:278-292`, seen from the current timepoint). -/
def Axis.set (a : Axis) (i : Nat) (p : Policy) : Axis := { a with policies := a.policies.set i p }

/-- `MeshlinePolicyManager::add_meshline_policy` (`src/domain/meshline_policy_manager.cpp:50-71`): the new state
and whether a policy was created. -/
def Axis.addPolicy (g : MeshParams) (a : Axis) (kind : Kind) (normal : Facing) (coord : ℚ) (enabled : Bool) :
    Axis × Bool :=
  if (kind = .thirds ∧ normal = .none) ∨ (kind ≠ .thirds ∧ normal ≠ .none) then (a, false)
  else ({ a with policies := a.policies ++ [Policy.make g.dmax coord kind normal enabled] }, true)

/-- The loop of `detect_closest_meshline_policies` (`src/domain/meshline_policy_manager.cpp:91-97`) on the sorted
pointers. `best` is `none` while `smallest_space` is infinite. -/
def closestLoop (ps : Policies) : Option (ℚ × Nat × Nat) → List Nat → Option (ℚ × Nat × Nat)
  | best, i :: j :: rest =>
    let space := |(ps i).coord - (ps j).coord|
    let best := match best with
      | none => some (space, i, j)
      | some (s, b) => if space < s then some (space, i, j) else some (s, b)
    closestLoop ps best (j :: rest)
  | best, _ => best

/-- `detect_closest_meshline_policies` (`src/domain/meshline_policy_manager.cpp:74-103`). The limit is finite. -/
def Axis.detectClosest (S : Sorter Nat) (a : Axis) (limit : ℚ) : Option (Nat × Nat) :=
  match closestLoop a.get none (S.sort (fun i => (a.get i).coord) a.enabledPointers) with
  | none => none
  | some (space, pair) => if space ≤ limit then some pair else none

/-- `ConflictManager::add_too_close_meshline_policies` (`src/domain/conflict_manager.cpp:170-203`); `none` is the
null pointer. -/
def Axis.addTooClose (a : Axis) (i j : Nat) : Option Axis :=
  if a.conflicts.any fun c => c.1 == i || c.1 == j || c.2 == i || c.2 == j then none
  else
    let a := { a with conflicts := a.conflicts ++ [(i, j)] }
    let pi := { a.get i with enabled := false }
    let pj := { a.get j with enabled := false }
    some ((a.set i pi).set j pj)

/-- The choice of `ConflictTooCloseMeshlinePolicies::auto_solve`
(`src/domain/conflicts/conflict_too_close_meshline_policies.cpp:39-66`). -/
def mergeChoice (a b : Policy) : Option (Kind × Facing × ℚ) :=
  match a.kind, b.kind with
  | .oneline, .oneline => some (.oneline, .none, (a.coord + b.coord) / 2)
  | .oneline, _ => some (.oneline, .none, a.coord)
  | _, .oneline => some (.oneline, .none, b.coord)
  | .thirds, .thirds =>
    if a.normal ≠ b.normal then some (.halfs, .none, (a.coord + b.coord) / 2)
    else match a.normal with
      | .min => some (.thirds, .min, (a.coord + b.coord) / 2)
      | .max => some (.thirds, .max, (a.coord + b.coord) / 2)
      | .none => none
  | .halfs, .halfs => some (.halfs, .none, (a.coord + b.coord) / 2)
  | .halfs, .thirds => some (.halfs, .none, (a.coord + b.coord) / 2)
  | .thirds, .halfs => some (.halfs, .none, (a.coord + b.coord) / 2)

/-- `ConflictTooCloseMeshlinePolicies::auto_solve`
(`src/domain/conflicts/conflict_too_close_meshline_policies.cpp:33-82`). -/
def Axis.solveConflict (g : MeshParams) (a : Axis) (i j : Nat) : Axis :=
  match mergeChoice (a.get i) (a.get j) with
  | some (kind, normal, coord) => (a.addPolicy g kind normal coord true).1
  | none => a

/-- `MeshlinePolicyManager::detect_and_solve_too_close_meshline_policies`
(`src/domain/meshline_policy_manager.cpp:106-127`). -/
def Axis.solveTooClose (S : Sorter Nat) (g : MeshParams) (a : Axis) : Option Axis :=
  match a.detectClosest S g.proximityLimit with
  | none => some a
  | some (i, j) =>
    match a.addTooClose i j with
    | none => Axis.solveTooClose S g a
    | some b => Axis.solveTooClose S g (b.solveConflict g i j)
partial_fixpoint

/-- The loop of `MeshlinePolicyManager::detect_intervals` (`src/domain/meshline_policy_manager.cpp:151-157`) on
the sorted pointers. -/
def makeIntervals (g : MeshParams) (ps : Policies) : List Nat → Policies × List Interval
  | i :: j :: rest =>
    let (ps, interval) := Interval.make ps i j g.lmin g.smoothness g.dmax
    let (ps, intervals) := makeIntervals g ps (j :: rest)
    (ps, interval :: intervals)
  | _ => (ps, [])

/-- Writes back the policies after the meshing of an interval (`src/domain/meshline_policy_manager.cpp:215-240`). -/
def Axis.withPolicies (a : Axis) (ps : Policies) : Axis := { a with policies := a.pointers.map ps }

/-- `MeshlinePolicyManager::detect_intervals` (`src/domain/meshline_policy_manager.cpp:130-161`). -/
def Axis.detectIntervals (S : Sorter Nat) (g : MeshParams) (a : Axis) : Axis :=
  let (ps, intervals) := makeIntervals g a.get (S.sort (fun i => (a.get i).coord) a.enabledPointers)
  { a.withPolicies ps with intervals := a.intervals ++ intervals }

/-- The first loop of `MeshlinePolicyManager::mesh` (`src/domain/meshline_policy_manager.cpp:205-206`). -/
def solveAllD (ps : Policies) : List Interval → Option (Policies × List Interval)
  | [] => some (ps, [])
  | i :: rest => do
    let (ps, i) ← i.autoSolveD ps
    let (ps, rest) ← solveAllD ps rest
    return (ps, i :: rest)

/-- The second loop of `MeshlinePolicyManager::mesh` (`src/domain/meshline_policy_manager.cpp:211-218`), with the
lines of each interval. -/
def meshAll (ps : Policies) : List Interval → Option (Policies × List Interval × List (List ℚ))
  | [] => some (ps, [], [])
  | i :: rest => do
    let (ps, i, lines) ← i.solveAndMesh ps
    let (ps, rest, ls) ← meshAll ps rest
    return (ps, i :: rest, lines :: ls)

/-- `MeshlinePolicyManager::mesh` (`src/domain/meshline_policy_manager.cpp:191-242`). -/
def Axis.mesh (S : Sorter Interval) (T : Sorter ℚ) (a : Axis) : Option Axis := do
  let order := S.sort Interval.h a.intervals
  let (ps, order) ← solveAllD a.get order
  let (ps, order, lines) ← meshAll ps order
  let a := { a.withPolicies ps with intervals := order }
  let oneline := a.policies.filterMap Policy.mesh
  return { a with meshlines := T.sort id (a.meshlines ++ lines.flatten ++ oneline) }

/-- `MeshlinePolicyManager::get_meshline_policies_meshlines` (`src/domain/meshline_policy_manager.cpp:250-256`). -/
def Axis.policyLines (a : Axis) : List ℚ := (a.policies.filter (·.enabled)).map (·.coord)

/-- The lines written for an axis (`src/infra/serializers/serializer_to_csx.cpp:95-102`), before they are made text:
`withLines` is `with_meshlines`, `withPolicies` is `with_meshline_policies`. -/
def Axis.outputLines (a : Axis) (withLines withPolicies : Bool) : List ℚ :=
  (if withLines then a.meshlines else []) ++ if withPolicies then a.policyLines else []

/-- `MeshlinePolicyManager::get_mesh_cell_number` (`src/domain/meshline_policy_manager.cpp:269-274`), from the lines of the
three axes. `size_t` has 64 bits: the product wraps. -/
def cellNumber (x y z : List ℚ) : Nat :=
  [x, y, z].foldl (fun n axis => n * axis.length % 2 ^ 64) 1

/-- `EditModelMeshlinePolicy::commit` (`src/ui/qt/edit/edit_model_meshline_policy.cpp:49-87`), the part before the
steps are run again: the edited values, `d` already parsed; refused edits change nothing. -/
def Axis.editPolicy (a : Axis) (i : Nat) (kind : Kind) (normal : Facing) (enabled : Bool) (d : ℚ) : Axis :=
  let compatible := match kind, normal with
    | .oneline, .min => false
    | .oneline, .max => false
    | .oneline, .none => true
    | .halfs, .min => false
    | .halfs, .max => false
    | .halfs, .none => true
    | .thirds, .min => true
    | .thirds, .max => true
    | .thirds, .none => false
  if compatible then a.set i { a.get i with kind := kind, normal := normal, enabled := enabled, d := d } else a

end Verif.Mesh
