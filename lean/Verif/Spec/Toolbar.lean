import Verif.Model.Toolbar
import Verif.Spec.Window

/-! The clicks of the user, and those that keep the history in order. -/

namespace Verif.Spec
open Verif

variable {σ : Type}

/-- The effect of a click. -/
def click (work : App.Work σ) : Button σ → Shell σ → Except Fault (Shell σ)
  | .edit step f, s => s.handleEditionFrom work step f
  | .next, s => s.meshNext work
  | .prev, s => s.meshPrev
  | .undo, s => s.undo
  | .redo, s => s.redo

/-- Is the button enabled? A dialog can always be confirmed. -/
def lit (s : Shell σ) : Button σ → Bool
  | .edit _ _ => true
  | .next => s.buttons.next
  | .prev => s.buttons.prev
  | .undo => s.buttons.undo
  | .redo => s.buttons.redo

/-- Many of them. -/
def clicks (work : App.Work σ) : List (Button σ) → Shell σ → Except Fault (Shell σ)
  | [], s => .ok s
  | b :: bs, s => match click work b s with
    | .error e => .error e
    | .ok s => clicks work bs s

/-- The timepoint shown. -/
def Shell.place (s : Shell σ) : Addr := s.window.world.care.current

/-- What is on the screen from the opening of a file on. -/
inductive OnScreen (work : App.Work σ) (P : List (Op σ Step) → Prop) : Shell σ → Prop
  | opened {s s' : Shell σ} {parser : World σ Step → Except Fault (Option (World σ Step))} : Reachable s.window.world →
      DoesOnly (fun _ => True) (accepting parser) → s.openFile work parser = .ok (true, s') → OnScreen work P s'
  | clicked {s s' : Shell σ} {b : Button σ} : OnScreen work P s → EditsOnly P [b] → click work b s = .ok s' →
      OnScreen work P s'

/-- The click keeps the history in order: it is Undo or Redo, or there was nothing to redo, or a timepoint was made, or
another timepoint is not shown. -/
def Orderly (b : Button σ) (s s' : Shell σ) : Prop :=
  b = .undo ∨ b = .redo ∨ s.buttons.redo = false ∨ ¬ Live s.window.world (Shell.place s') ∨ Shell.place s' = Shell.place s

/-- As `OnScreen`, all clicks being orderly. -/
inductive InOrder (work : App.Work σ) (P : List (Op σ Step) → Prop) : Shell σ → Prop
  | opened {s s' : Shell σ} {parser : World σ Step → Except Fault (Option (World σ Step))} : Reachable s.window.world →
      DoesOnly (fun _ => True) (accepting parser) → s.openFile work parser = .ok (true, s') → InOrder work P s'
  | clicked {s s' : Shell σ} {b : Button σ} : InOrder work P s → EditsOnly P [b] → click work b s = .ok s' →
      Orderly b s s' → InOrder work P s'

end Verif.Spec
