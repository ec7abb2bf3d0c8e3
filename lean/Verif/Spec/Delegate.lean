import Verif.Model.Delegate

/-!
# Specification of the cells of the dialog of a meshline policy
-/

namespace Verif.Dialog.Spec
open Verif.Mesh (Kind Facing)

/-- A kind of policy and a normal that go together: two thirds on the side of the normal, or no normal. -/
def Together (k : Kind) (n : Facing) : Prop := k = .thirds ↔ n ≠ .none

instance (k : Kind) (n : Facing) : Decidable (Together k n) := by unfold Together; infer_instance

/-- What is on the screen is what the new column holds, and the items of the new column are the last ones painted in their
rows. -/
def UpToDate (s : Sheet) : Prop :=
  s.policyIndex = some .new ∧ s.normalIndex = some .new ∧
  (s.policy .new).text = some (policyText (s.policy .new).data) ∧
  (s.normal .new).text = some (normalText (s.normal .new).data)

instance (s : Sheet) : Decidable (UpToDate s) := by unfold UpToDate; infer_instance

/-- Opening or leaving an editor. -/
def _root_.Verif.Dialog.Happening.opensOrCloses : Happening → Bool
  | .openPolicy _ | .openNormal _ | .close => true
  | _ => false

/-- Editors are opened and left with the screen up to date. -/
def Watched : Sheet → List Happening → Prop
  | _, [] => True
  | s, e :: es => (e.opensOrCloses = true → UpToDate s) ∧ ∀ s', s.step e = some s' → Watched s' es

/-- The whole table painted, row by row and from left to right. -/
def wholeTable : List Happening := [.paintPolicy .old, .paintPolicy .new, .paintNormal .old, .paintNormal .new]

/-- The whole table painted at first and after everything that happens. -/
def repainted (es : List Happening) : List Happening := wholeTable ++ es.flatMap fun e => e :: wholeTable

/-- The column of old values is as made: the values of the policy, not editable. -/
def OldKept (p : Mesh.Policy) (s : Sheet) : Prop :=
  (s.policy .old).data = p.kind ∧ (s.policy .old).editable = false ∧
  (s.normal .old).data = p.normal ∧ (s.normal .old).editable = false

end Verif.Dialog.Spec
