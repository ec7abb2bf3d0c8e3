import Verif.Model.Title
import Verif.Spec.Session

/-! # What the title of the window is to say -/

namespace Verif.Files.Spec
open Verif.Files

variable {β : Type}

/-- The titles there can be. -/
inductive TitleReached (e : Env β) (p : Params) (d : Disk) : Titled β → Prop where
  | started : TitleReached e p d (.started e p d)
  | did {t t' : Titled β} {a : Act β} : TitleReached e p d t → Possible t.session a → t.run e a = some t' → TitleReached e p d t'

/-- The title names the file that the window has. -/
def Agrees (t : Titled β) : Prop := t.title = t.session.csxFile

/-- A file is chosen that is no document. -/
def Refused (e : Env β) (s : Session β) : Act β → Prop
  | .opens path => opened e s.disk path = none
  | _ => False

/-- A save of the document shown goes, as the user agrees, to another file than the one the window has. -/
def Redirected (s : Session β) : Act β → Prop
  | .saves answers => s.enabled = true ∧ s.params.output ≠ "" ∧ s.params.output ≠ s.csxFile ∧ answers.head? = some .save
  | _ => False

/-- A document was read from the file, or is written under a new name. -/
def Named (e : Env β) (s : Session β) : Act β → Prop
  | .opens path => opened e s.disk path ≠ none
  | .savesAs _ _ => s.enabled = true
  | _ => False

end Verif.Files.Spec
