import Verif.Model.Window
import Verif.Spec.App

/-! What is assumed of the domain when it is used from the window, and the presses of its buttons. -/

namespace Verif.Spec
open Verif

variable {σ : Type}

/-- The precondition of each call, without that of a collection made by an edit: weaker than `Legal`. The allocator does
not return live memory. -/
def Careful (w : World σ Step) : Op σ Step → Prop
  | .makeNext new => ∀ w', w.stopBrowsing = .ok w' → ¬ Live w' new
  | .setNext i new _ => (∀ w', w.stopBrowsing = .ok w' → ¬ Live w' new) ∧ ∃ o, w.objs i = some o
  | op => Legal w op

/-- Careful calls in sequence. -/
inductive CarefulRun : World σ Step → List (Op σ Step) → World σ Step → Prop
  | nil (w : World σ Step) : CarefulRun w [] w
  | cons {w w1 w2 : World σ Step} {op : Op σ Step} {ops : List (Op σ Step)} :
      Careful w op → exec w op = .ok w1 → CarefulRun w1 ops w2 → CarefulRun w (op :: ops) w2

/-- `f` is a sequence of careful calls of the domain such that `P`. -/
def DoesOnly (P : List (Op σ Step) → Prop) (f : World σ Step → Except Fault (World σ Step)) : Prop :=
  ∀ w w', Reachable w → f w = .ok w' → ∃ ops, CarefulRun w ops w' ∧ (∀ op ∈ ops, BoardOp op) ∧ P ops

/-- What the user does on the window once a file is open: confirming a dialog, or the buttons. -/
inductive Button (σ : Type) where
  | edit (s : Step) (f : World σ Step → Except Fault (World σ Step))
  | next
  | prev
  | undo
  | redo

/-- The effect. -/
def push (work : App.Work σ) : Button σ → Window σ → Except Fault (Window σ)
  | .edit s f, m => m.handleEditionFrom work s f
  | .next, m => m.meshNext work
  | .prev, m => m.meshPrev
  | .undo, m => m.undo
  | .redo, m => m.redo

/-- Many of them. -/
def pushes (work : App.Work σ) : List (Button σ) → Window σ → Except Fault (Window σ)
  | [], m => .ok m
  | b :: bs, m => match push work b m with
    | .error e => .error e
    | .ok m => pushes work bs m

/-- The editions among them do only such calls. -/
def EditsOnly (P : List (Op σ Step) → Prop) (bs : List (Button σ)) : Prop :=
  ∀ b ∈ bs, ∀ s f, b = .edit s f → DoesOnly P f

/-- What a parser does to the history when it accepts the file. -/
def accepting (parser : World σ Step → Except Fault (Option (World σ Step))) (w : World σ Step) :
    Except Fault (World σ Step) :=
  match parser w with
  | .ok (some w') => .ok w'
  | .ok none => .error .noSuchObject
  | .error e => .error e

/-- The windows met from the opening of a file on: `work` and `parser` are what the board and the parser do. -/
inductive Opened (work : App.Work σ) (P : List (Op σ Step) → Prop) : Window σ → Prop
  | opened {m m' : Window σ} {parser : World σ Step → Except Fault (Option (World σ Step))} : Reachable m.world →
      DoesOnly (fun _ => True) (accepting parser) →
      m.openFile work parser = .ok (true, m') → Opened work P m'
  | pushed {m m' : Window σ} {b : Button σ} : Opened work P m → EditsOnly P [b] → push work b m = .ok m' →
      Opened work P m'

end Verif.Spec
