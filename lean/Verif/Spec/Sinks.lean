import Verif.Model.Sinks

/-!
# What is expected of messages
-/

namespace Verif.Log
open Verif.Files (UserAction)

/-- A message with something to answer. -/
def Asks (e : Event) : Prop := e.level = .question ∨ (e.actions ≠ [] ∧ .nothing ∉ e.actions)

/-- The user takes a button that the box has. -/
def Taken (exec : Shown → Button) : Prop :=
  ∀ text informative details level buttons default,
    buttons ≠ [] → exec (.box text informative details level buttons default) ∈ buttons

/-- A line that is no answer. -/
def NoAnswer (line : List Char) : Prop := line ∉ [['n'], ['y'], ['s'], ['c'], ['a']]

/-- The words that tell how grave a message is. -/
inductive Word : Level → List Char → Prop
  | question : Word .question ['Q', 'u', 'e', 's', 't', 'i', 'o', 'n']
  | info : Word .info ['I', 'n', 'f', 'o']
  | warning : Word .warning ['W', 'a', 'r', 'n', 'i', 'n', 'g']
  | error : Word .error ['E', 'r', 'r', 'o', 'r']

/-- The line that stands for an action. -/
inductive Stands : List Char → UserAction → Prop
  | n : Stands ['n'] .cancel
  | y : Stands ['y'] .ok
  | s : Stands ['s'] .save
  | c : Stands ['c'] .close
  | a : Stands ['a'] .abort

end Verif.Log
