import Verif.Model.Sync

/-! What the selections of the views have to be. -/

namespace Verif.Sync.Spec
open Verif.Geom (Plane)
variable {α : Type}

/-- In each plane, what is selected is what is selected in the processing view, as far as the plane shows it. -/
def Agree (w : Scenes α) (s : State α) : Prop :=
  ∀ p e, e ∈ s.items p ↔ e ∈ s.nodes ∧ w.drawn p e = true ∧ s.visible p e = true

/-- No scene refuses what the others tell it. -/
def Open (s : State α) : Prop := s.lock = false ∧ (∀ p, s.locks p = false) ∧ s.chainLock = false

/-- What is drawn has a node. -/
def Complete (w : Scenes α) : Prop := ∀ p e, w.drawn p e = true → w.node e = true

/-- The scenes some actions come to. -/
def Reached [DecidableEq α] (w : Scenes α) (s : State α) : Prop :=
  ∃ visible as, runActions w (State.made visible) as = some s

/-- The action changes what is selected in the view it is done in. -/
def _root_.Verif.Sync.Action.Acts (w : Scenes α) (s : State α) : Action α → Prop
  | .press p e => w.drawn p e = true ∧ s.visible p e = true ∧ e ∉ s.items p
  | .away p => s.items p ≠ []
  | .select l => l ≠ s.nodes
  | .mode _ => False
  | .sight p visible => ∃ e ∈ s.items p, visible e = false

/-- The selection the action leaves in the view it is done in: a press adds to the selection of the view. -/
def _root_.Verif.Sync.Action.asks (s : State α) : Action α → α → Prop
  | .press p e, x => x = e ∨ x ∈ s.items p
  | .away _, _ => False
  | .select l, x => x ∈ l
  | .mode _, x => x ∈ s.nodes
  | .sight p visible, x => x ∈ s.items p ∧ visible x = true

/-- What is visible after an action. -/
def _root_.Verif.Sync.Action.sees (s : State α) : Action α → Plane → α → Prop
  | .sight p visible, q, x => (q = p ∧ visible x = true) ∨ (q ≠ p ∧ s.visible q x = true)
  | _, q, x => s.visible q x = true

end Verif.Sync.Spec
