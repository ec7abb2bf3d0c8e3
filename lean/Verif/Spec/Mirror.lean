import Verif.Model.Run

/-! # The same structure, seen in a mirror -/

namespace Verif.Mirror
open Verif.Mesh (Kind Facing)

/-- The other side. -/
def flip : Facing → Facing
  | .min => .max
  | .max => .min
  | .none => .none

/-- A policy asked for, on the other side of 0. -/
def asked (p : Kind × Facing × ℚ × Bool) : Kind × Facing × ℚ × Bool := (p.1, flip p.2.1, -p.2.2.1, p.2.2.2)

/-- Lines on the other side of 0, in increasing order if they were. -/
def lines (l : List ℚ) : List ℚ := (l.map fun x => -x).reverse

/-- No two are within the limit. -/
def Spread (limit : ℚ) (l : List ℚ) : Prop := l.Pairwise fun c d => limit < |c - d|

/-- `d` comes right after `c`. -/
def Next (l : List ℚ) (c d : ℚ) : Prop := c ∈ l ∧ d ∈ l ∧ c < d ∧ ∀ e ∈ l, ¬ (c < e ∧ e < d)

/-- No two gaps are of the same size. -/
def Uneven (l : List ℚ) : Prop := ∀ c d c' d', Next l c d → Next l c' d' → d - c = d' - c' → c = c'

end Verif.Mirror
