import Verif.Model.Manager

/-! # Specification vocabulary for the policies of an axis -/

namespace Verif.Mesh

/-- The kind and the normal of a policy agree. -/
def Policy.Coherent (p : Policy) : Prop := p.kind = .thirds ↔ p.normal ≠ .none

/-- `k` is the pointer of an enabled policy. -/
def Axis.Enabled (a : Axis) (k : Nat) : Prop := ∃ p, a.policies[k]? = some p ∧ p.enabled = true

/-- No enabled policy is in a too-close conflict yet, and the conflicts are about existing policies. -/
def Axis.Unmerged (a : Axis) : Prop :=
  ∀ c ∈ a.conflicts, (c.1 < a.policies.length ∧ c.2 < a.policies.length) ∧ ¬ a.Enabled c.1 ∧ ¬ a.Enabled c.2

/-- Enabled policies have pairwise different coordinates. -/
def Axis.Separated (a : Axis) : Prop :=
  ∀ i j, a.Enabled i → a.Enabled j → i ≠ j → (a.get i).coord ≠ (a.get j).coord

/-- Enabled policies have a positive `d`. -/
def Axis.PositiveD (a : Axis) : Prop := ∀ i, a.Enabled i → 0 < (a.get i).d

/-- All policies are coherent. -/
def Axis.Coherent (a : Axis) : Prop := ∀ p ∈ a.policies, p.Coherent

/-- The parameters are in their documented range. -/
structure MeshParams.InRange (g : MeshParams) : Prop where
  dmax_pos : 0 < g.dmax
  smoothness : 1 ≤ g.smoothness

/-- The part of the cell around a policy that lies below it: a half, or the rule of thirds, two thirds being on the side
it faces. -/
def Policy.lowShare (p : Policy) : ℚ :=
  if p.kind = .thirds then (if p.normal = .min then 2 / 3 else 1 / 3) else 1 / 2

/-- The line of `l` next above `c` is at distance `x`. -/
def NextAbove (l : List ℚ) (c x : ℚ) : Prop := 0 < x ∧ c + x ∈ l ∧ ∀ y ∈ l, c < y → c + x ≤ y

/-- The line of `l` next below `c` is at distance `x`. -/
def NextBelow (l : List ℚ) (c x : ℚ) : Prop := 0 < x ∧ c - x ∈ l ∧ ∀ y ∈ l, y < c → y ≤ c - x

/-- How the lines of an axis are with respect to its enabled policies: the policies are apart, those that ask for one line have
it, the others have none at their coordinate but the next lines, towards another policy, at their shares of a cell not larger
than `D`. -/
structure Axis.Drawn (limit D : ℚ) (a : Axis) : Prop where
  apart : ∀ i j, a.Enabled i → a.Enabled j → i ≠ j → limit < |(a.get i).coord - (a.get j).coord|
  oneline : ∀ k, a.Enabled k → (a.get k).kind = .oneline → (a.get k).coord ∈ a.meshlines
  off : ∀ k, a.Enabled k → (a.get k).kind ≠ .oneline → (a.get k).coord ∉ a.meshlines
  above : ∀ k, a.Enabled k → (a.get k).kind ≠ .oneline → (∃ j, a.Enabled j ∧ (a.get k).coord < (a.get j).coord) →
    ∃ d, d ≤ D ∧ NextAbove a.meshlines (a.get k).coord ((1 - (a.get k).lowShare) * d)
  below : ∀ k, a.Enabled k → (a.get k).kind ≠ .oneline → (∃ j, a.Enabled j ∧ (a.get j).coord < (a.get k).coord) →
    ∃ d, d ≤ D ∧ NextBelow a.meshlines (a.get k).coord ((a.get k).lowShare * d)

/-- What can be done to the policies of an axis: creating one, merging the too-close ones, an edit by the user,
detecting the intervals, meshing. -/
inductive AxisOp where
  | create (g : MeshParams) (kind : Kind) (normal : Facing) (coord : ℚ) (enabled : Bool)
  | merge (S : Sorter Nat) (g : MeshParams)
  | edit (i : Nat) (kind : Kind) (normal : Facing) (enabled : Bool) (d : ℚ)
  | detect (S : Sorter Nat) (g : MeshParams)
  | mesh (S : Sorter Interval) (T : Sorter ℚ)

/-- One operation; `none` when it does not end. -/
def AxisOp.run (a : Axis) : AxisOp → Option Axis
  | create g kind normal coord enabled => some (a.addPolicy g kind normal coord enabled).1
  | merge S g => a.solveTooClose S g
  | edit i kind normal enabled d => some (a.editPolicy i kind normal enabled d)
  | detect S g => some (a.detectIntervals S g)
  | mesh S T => a.mesh S T

end Verif.Mesh
