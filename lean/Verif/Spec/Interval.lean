import Verif.Model.Interval
import Mathlib.Data.List.Chain

/-! # Specification of the lines of a half interval

Written without reference to the loops of the code. -/

namespace Verif.Mesh.Spec

/-- The `i`-th spacing (from 0): geometric growth from `d` by the factor `smoothness`, never above `dmax`. -/
def spacing (d smoothness dmax : ℚ) (i : Nat) : ℚ := min (min d dmax * smoothness ^ (i + 1)) dmax

/-- Sum of the first `n` spacings. -/
def position (d smoothness dmax : ℚ) : Nat → ℚ
  | 0 => 0
  | n + 1 => position d smoothness dmax n + spacing d smoothness dmax n

/-- Differences between consecutive elements, the first being compared with `x`. -/
def gapsFrom (x : ℚ) : List ℚ → List ℚ
  | [] => []
  | y :: ys => (y - x) :: gapsFrom y ys

/-- Consecutive elements are in strictly increasing order. -/
abbrev Increasing (l : List ℚ) : Prop := l.IsChain (· < ·)

/-- Consecutive elements are at most `g` apart. -/
abbrev GapsAtMost (g : ℚ) (l : List ℚ) : Prop := l.IsChain fun a b => b - a ≤ g

end Verif.Mesh.Spec

namespace Verif.Mesh

/-- What an interval between two different policies, the first at the lower coordinate, satisfies when the
parameters are in their documented range (`smoothness` at least 1, `dmax` and `d` positive). -/
structure Interval.Ok (i : Interval) (ps : Policies) : Prop where
  dmax_pos : 0 < i.dmax
  distinct : i.before.policy ≠ i.after.policy
  coord_lt : (ps i.before.policy).coord < (ps i.after.policy).coord
  h_eq : i.h = ((ps i.after.policy).coord - (ps i.before.policy).coord) / 2
  m_eq : i.m = ((ps i.before.policy).coord + (ps i.after.policy).coord) / 2
  smooth_b : 1 ≤ i.before.smoothness
  smooth_a : 1 ≤ i.after.smoothness
  d_b : 0 < (ps i.before.policy).d
  d_a : 0 < (ps i.after.policy).d


end Verif.Mesh
