import Verif.Model.Progress

/-! # What a progress bar is to show -/

namespace Verif.Bar.Spec
open Verif.Bar

/-- Numbers that never go down, from `a` or more to `b` in the end. -/
def Climbs : Nat → Nat → List Nat → Prop
  | a, b, [] => a = b
  | a, b, p :: ps => a ≤ p ∧ Climbs p b ps

instance : ∀ a b l, Decidable (Climbs a b l)
  | a, b, [] => inferInstanceAs (Decidable (a = b))
  | _, b, p :: ps => have := instDecidableClimbs p b ps; inferInstanceAs (Decidable (_ ∧ _))

/-- The number found that a call tells. -/
def found : Call → Option Nat
  | .one _ => none
  | .two i _ => some i

/-- The progress shown on the terminal never goes down and ends at its maximum, so that it is never beyond. -/
def Ends (bar : Nat × List Call) : Prop := Climbs 0 bar.1 (bar.2.map Call.terminal)

instance (bar : Nat × List Call) : Decidable (Ends bar) := by unfold Ends; infer_instance

/-- The number found never goes down and is `total` in the end. -/
def Finds (total : Nat) (bar : Nat × List Call) : Prop := Climbs 0 total (bar.2.filterMap found)

end Verif.Bar.Spec
