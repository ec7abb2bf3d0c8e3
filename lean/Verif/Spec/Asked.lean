import Verif.Model.Run
import Verif.Spec.Moved

/-! # What is asked for on an axis, whatever the order -/

namespace Verif.Asked
open Verif.Mesh (Kind Facing tolerance)

/-- An enabled policy of this kind and side is asked for at `c`. -/
def asksFor (l : List (Kind × Facing × ℚ × Bool)) (c : ℚ) (kind : Kind) (side : Facing) : Prop := (kind, side, c, true) ∈ l

instance (l : List (Kind × Facing × ℚ × Bool)) (c : ℚ) (kind : Kind) (side : Facing) : Decidable (asksFor l c kind side) := by
  unfold asksFor; infer_instance

/-- What the policies asked for at `c` come to: a line there if one of them wants a line there; else a line on each side if one
wants both or one each; else a line on the side wanted. -/
def wish (l : List (Kind × Facing × ℚ × Bool)) (c : ℚ) : Option (Kind × Facing) :=
  if asksFor l c .oneline .none then some (.oneline, .none)
  else if asksFor l c .halfs .none ∨ asksFor l c .thirds .min ∧ asksFor l c .thirds .max then some (.halfs, .none)
  else if asksFor l c .thirds .min then some (.thirds, .min)
  else if asksFor l c .thirds .max then some (.thirds, .max)
  else none

/-- Coordinates that are the same, or not nearly so. -/
def Apart (l : List ℚ) : Prop := ∀ c ∈ l, ∀ d ∈ l, c = d ∨ tolerance ≤ |c - d|

/-- The same lines of the old mesh to keep, in any order and number if no two are nearly the same. -/
def SameFixed (l m : List ℚ) : Prop := l = m ∨ Apart l ∧ ∀ c, c ∈ l ↔ c ∈ m

end Verif.Asked
