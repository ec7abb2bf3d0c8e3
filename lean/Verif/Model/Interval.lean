import Mathlib.Algebra.Order.Field.Rat
import Mathlib.Data.Rat.Defs

/-!
# Meshline policies and intervals

Model of `src/domain/mesh/meshline_policy.{hpp,cpp}` and `src/domain/mesh/interval.{hpp,cpp}`.

Simplifications. `double` and `Coord` are exact rationals. A policy is referred to by a number (its pointer);
the policies are a function from these numbers, so that two intervals share the `d` of their common policy.
The state layer is left out: `get_current_state` reads the value, `set_state` replaces it. The functions return
`none` when a `while` loop does not end. Iteration limits have their default value, `SIZE_MAX`, and are taken as
never reached.
-/

namespace Verif.Mesh

/-- `MeshlinePolicy::Policy` (`src/domain/mesh/meshline_policy.hpp:48-54`). -/
inductive Kind where
  | oneline | halfs | thirds
  deriving DecidableEq, Repr

/-- `MeshlinePolicy::Normal` (`src/domain/mesh/meshline_policy.hpp:56-60`). -/
inductive Facing where
  | none | min | max
  deriving DecidableEq, Repr

/-- `MeshlinePolicy` and the part of `MeshlinePolicyState` used here
(`src/domain/mesh/meshline_policy.hpp:37-89`). The origins are left out. -/
structure Policy where
  coord : ℚ
  kind : Kind
  normal : Facing
  enabled : Bool
  d : ℚ
  deriving DecidableEq, Repr

/-- The policies, by pointer (`src/domain/mesh/interval.hpp:48-57`, `meshline_policy` of each side). -/
abbrev Policies := Nat → Policy

/-- `MeshlinePolicyState` with another `d` (`src/domain/mesh/interval.cpp:28-30`, 371-380). -/
def Policies.setD (ps : Policies) (i : Nat) (d : ℚ) : Policies :=
  fun j => if j = i then { ps i with d := d } else ps j

/-- `equality_tolerance` (`src/domain/global.hpp:40`). -/
def tolerance : ℚ := 1 / 100000000

/-- `Interval::Side` (`src/domain/mesh/interval.hpp:48-57`), without the function `d_init_`. -/
structure Side where
  policy : Nat
  lmin : Nat
  smoothness : ℚ
  ls : List ℚ
  deriving DecidableEq, Repr

/-- `Interval` and `IntervalState` (`src/domain/mesh/interval.hpp:38-91`), without the conflicts. -/
structure Interval where
  dmax : ℚ
  before : Side
  after : Side
  h : ℚ
  m : ℚ
  deriving DecidableEq, Repr

/-- `d_init_` of the side before (`src/domain/mesh/interval.cpp:48-63`). -/
def dInitBefore (p : Policy) (d : ℚ) : ℚ :=
  match p.kind with
  | .oneline => 0
  | .halfs => d / 2
  | .thirds => match p.normal with
    | .max => 2 / 3 * d
    | .min => 1 / 3 * d
    | .none => d

/-- `d_init_` of the side after (`src/domain/mesh/interval.cpp:64-79`). -/
def dInitAfter (p : Policy) (d : ℚ) : ℚ :=
  match p.kind with
  | .oneline => 0
  | .halfs => d / 2
  | .thirds => match p.normal with
    | .max => 1 / 3 * d
    | .min => 2 / 3 * d
    | .none => d

/-- The constructor of `MeshlinePolicy` (`src/domain/mesh/meshline_policy.cpp:18-37`). -/
def Policy.make (dmax coord : ℚ) (kind : Kind) (normal : Facing) (enabled : Bool) : Policy :=
  ⟨coord, kind, normal, enabled, dmax / 2⟩

/-- `MeshlinePolicy::mesh` (`src/domain/mesh/meshline_policy.cpp:40-46`). -/
def Policy.mesh (p : Policy) : Option ℚ :=
  if p.enabled && p.kind == .oneline then some p.coord else none

/-- `calc_h` (`src/domain/mesh/interval.cpp:40-42`). -/
def calcH (a b : ℚ) : ℚ := |a - b| / 2

/-- The constructor of `Interval::Side` (`src/domain/mesh/interval.cpp:21-32`): the policy's `d` is lowered to
`h`. -/
def Side.make (ps : Policies) (policy lmin : Nat) (smoothness h : ℚ) : Policies × Side :=
  (if (ps policy).d > h then ps.setD policy h else ps, ⟨policy, lmin, smoothness, []⟩)

/-- The constructor of `Interval` (`src/domain/mesh/interval.cpp:45-87`). -/
def Interval.make (ps : Policies) (before after lmin : Nat) (smoothness dmax : ℚ) : Policies × Interval :=
  let h := calcH (ps before).coord (ps after).coord
  let (ps, b) := Side.make ps before lmin smoothness h
  let (ps, a) := Side.make ps after lmin smoothness h
  (ps, ⟨dmax, b, a, h, ((ps before).coord + (ps after).coord) / 2⟩)

/-- The loop of `find_ls` (`src/domain/mesh/interval.cpp:141-151`): the lines pushed from the given values of
`current_d` and `current_s`. -/
def findLs.loop (smoothness dmax s currentD currentS : ℚ) : Option (List ℚ) :=
  if currentS < s then do
    let d :=
      if currentD < dmax then
        if currentD * smoothness > dmax then dmax else currentD * smoothness
      else currentD
    let rest ← findLs.loop smoothness dmax s d (currentS + d)
    return (currentS + d) :: rest
  else some []
partial_fixpoint

/-- `find_ls` (`src/domain/mesh/interval.cpp:137-154`). -/
def findLs (d smoothness dmax s : ℚ) : Option (List ℚ) :=
  findLs.loop smoothness dmax s (min d dmax) 0

/-- The loop of `is_ls_valid_for_dmax_lmin_smoothness` (`src/domain/mesh/interval.cpp:179-183`). -/
def isLsValid.loop (smoothness dmax : ℚ) : List ℚ → Bool
  | a :: b :: c :: rest =>
    !(c - b > smoothness * (b - a) + tolerance || c - b > dmax + tolerance) && loop smoothness dmax (b :: c :: rest)
  | _ => true

/-- `is_ls_valid_for_dmax_lmin_smoothness` (`src/domain/mesh/interval.cpp:163-186`). -/
def isLsValid (ls : List ℚ) (d smoothness dmax : ℚ) (lmin : Nat) : Bool :=
  if d > dmax || ls.length < lmin || ls.isEmpty then false
  else match ls with
  | [] => false
  | a :: rest =>
    if a > smoothness * d + tolerance || a > dmax + tolerance then false
    else match rest with
    | [] => true
    | b :: _ =>
      if b - a > smoothness * a + tolerance || b - a > dmax + tolerance then false
      else isLsValid.loop smoothness dmax ls

/-- `find_dmax` of a side (`src/domain/mesh/interval.cpp:189-204`). -/
def findDmaxSide (side : Side) (dmax : ℚ) : ℚ :=
  match side.ls.reverse with
  | last :: previous :: _ => min dmax (side.smoothness * (last - previous))
  | [last] => min dmax (side.smoothness * last)
  | [] => dmax

/-- `find_dmax` of both sides (`src/domain/mesh/interval.cpp:209-211`). -/
def findDmax (a b : Side) (dmax : ℚ) : ℚ := min (findDmaxSide a dmax) (findDmaxSide b dmax)

/-- `Interval::update_ls` of a side (`src/domain/mesh/interval.cpp:220-222`) with `Interval::s`
(`src/domain/mesh/interval.cpp:90-97`). `dInit` is the side's `d_init_`, `dmax` and `h` those of the interval. -/
def Side.updateLs (side : Side) (dInit : Policy → ℚ → ℚ) (dmax h : ℚ) (ps : Policies) : Option Side := do
  let p := ps side.policy
  let ls ← findLs p.d side.smoothness dmax (h - dInit p p.d)
  return { side with ls := ls }

/-- The loop of `Interval::adjust_d_for_dmax_lmin` (`src/domain/mesh/interval.cpp:233-241`). -/
def adjustD.loop (dInit : ℚ → ℚ) (smoothness dmax h : ℚ) (lmin : Nat) (currentD : ℚ) (currentLs : List ℚ) : Option ℚ :=
  if isLsValid currentLs currentD smoothness dmax lmin then some currentD
  else do
    let d := currentD - currentD / 1000
    let ls ← findLs d smoothness dmax (h - dInit d)
    adjustD.loop dInit smoothness dmax h lmin d ls
partial_fixpoint

/-- `Interval::adjust_d_for_dmax_lmin` (`src/domain/mesh/interval.cpp:225-243`). -/
def adjustD (side : Side) (dInit : Policy → ℚ → ℚ) (dmax h : ℚ) (ps : Policies) : Option ℚ :=
  let p := ps side.policy
  adjustD.loop (dInit p) side.smoothness dmax h side.lmin (min p.d dmax) side.ls

/-- The loop of `Interval::adjust_smoothness_for_s` (`src/domain/mesh/interval.cpp:327-345`). -/
def adjustSmoothness.loop (d dmax s : ℚ) (nlines : Nat) (current : ℚ) : Option ℚ := do
  let next := if current - current / 10000 < 1 then 1 else current - current / 10000
  let ls ← findLs d next dmax s
  if ls.length > nlines then return current
  else if next = 1 then return next
  else adjustSmoothness.loop d dmax s nlines next
partial_fixpoint

/-- `Interval::adjust_smoothness_for_s` (`src/domain/mesh/interval.cpp:300-360`). -/
def adjustSmoothness (side : Side) (dInit : Policy → ℚ → ℚ) (dmax h : ℚ) (ps : Policies) : Option ℚ :=
  let p := ps side.policy
  adjustSmoothness.loop p.d dmax (h - dInit p p.d) side.ls.length side.smoothness

/-- `Interval::auto_solve_d` (`src/domain/mesh/interval.cpp:363-383`). The `dmax` used is that of the current
state until the last line; the lowered one is stored for later. -/
def Interval.autoSolveD (i : Interval) (ps : Policies) : Option (Policies × Interval) := do
  let before ← i.before.updateLs dInitBefore i.dmax i.h ps
  let after ← i.after.updateLs dInitAfter i.dmax i.h ps
  let dmax := findDmax before after i.dmax
  let before ← before.updateLs dInitBefore i.dmax i.h ps
  let after ← after.updateLs dInitAfter i.dmax i.h ps
  let db ← adjustD before dInitBefore i.dmax i.h ps
  let ps := ps.setD before.policy db
  let before ← before.updateLs dInitBefore i.dmax i.h ps
  let da ← adjustD after dInitAfter i.dmax i.h ps
  let ps := ps.setD after.policy da
  let after ← after.updateLs dInitAfter i.dmax i.h ps
  return (ps, { i with dmax := dmax, before := before, after := after })

/-- `Interval::auto_solve_smoothness` (`src/domain/mesh/interval.cpp:386-396`). -/
def Interval.autoSolveSmoothness (i : Interval) (ps : Policies) : Option Interval := do
  let before ← i.before.updateLs dInitBefore i.dmax i.h ps
  let after ← i.after.updateLs dInitAfter i.dmax i.h ps
  let sb ← adjustSmoothness before dInitBefore i.dmax i.h ps
  let sa ← adjustSmoothness after dInitAfter i.dmax i.h ps
  let before ← Side.updateLs { before with smoothness := sb } dInitBefore i.dmax i.h ps
  let after ← Side.updateLs { after with smoothness := sa } dInitAfter i.dmax i.h ps
  return { i with before := before, after := after }

/-- `Interval::mesh` (`src/domain/mesh/interval.cpp:399-434`), the coordinates of the lines. -/
def Interval.mesh (i : Interval) (ps : Policies) : List ℚ :=
  let b := ps i.before.policy
  let a := ps i.after.policy
  let dInitB := dInitBefore b b.d
  let dInitA := dInitAfter a a.d
  (if b.kind ≠ .oneline then [b.coord + dInitB] else []) ++
  (i.before.ls.dropLast.map fun l => b.coord + dInitB + l) ++
  [i.m] ++
  (i.after.ls.dropLast.reverse.map fun l => a.coord - dInitA - l) ++
  (if a.kind ≠ .oneline then [a.coord - dInitA] else [])

/-- What `MeshlinePolicyManager::mesh` does with one interval in its second loop
(`src/domain/meshline_policy_manager.cpp:212-214`). -/
def Interval.solveAndMesh (i : Interval) (ps : Policies) : Option (Policies × Interval × List ℚ) := do
  let (ps, i) ← i.autoSolveD ps
  let i ← i.autoSolveSmoothness ps
  return (ps, i, i.mesh ps)

end Verif.Mesh
