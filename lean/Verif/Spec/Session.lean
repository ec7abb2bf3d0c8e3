import Verif.Model.Session

/-! # What a session of the window is to show, to write and to keep -/

namespace Verif.Files.Spec
open Verif.Files

variable {β : Type}

/-- The document in a file, meshed: the board and the file. -/
def opened (e : Env β) (d : Disk) (path : String) : Option (β × String) :=
  ((d path).bind e.parse).map fun b => (e.mesh b, path)

/-- The document shown after an action: opening shows the file chosen, or nothing when it is no document; a change changes
the board; nothing else shows another document. -/
def shownAfter (e : Env β) (d : Disk) (doc : Option (β × String)) : Act β → Option (β × String)
  | .opens path => opened e d path
  | .changes f => doc.map fun x => (f x.1, x.2)
  | _ => doc

/-- The dialogs give a name; the name of a temporary file is new. -/
def Possible (s : Session β) : Act β → Prop
  | .opens path => path ≠ ""
  | .savesAs path _ => path ≠ ""
  | .exports path => s.disk path = none
  | _ => True

/-- The sessions there can be, and the document each shows; `alone` when no other program writes files. -/
inductive Reached (e : Env β) (alone : Bool) (p : Params) (d : Disk) : Session β → Option (β × String) → Prop where
  | started : Reached e alone p d (Session.started e p d) (if p.input = "" then none else opened e d p.input)
  | did {s s' : Session β} {doc : Option (β × String)} {a : Act β} : Reached e alone p d s doc → Possible s a →
      (alone = true → ∀ d', a ≠ .others d') → a.run e s = some s' → Reached e alone p d s' (shownAfter e s.disk doc a)

/-- The disk writes whole what is written. -/
def Exact (e : Env β) : Prop := ∀ path, e.onWrite path = .written

/-- From `d` to `d'` no file changed but `out`, and if it did it holds the document of `path` with the board `b`. -/
def OnlyMeshed (e : Env β) (b : β) (path out : String) (d d' : Disk) : Prop :=
  ∀ q, d' q ≠ d q → q = out ∧ ∃ text, d path = some text ∧ d' q = some (e.renderCsx b text)

/-- The file a save goes to: the output of the command line or of the last save, else the file opened. -/
def Target (s : Session β) (out : String) : Prop :=
  (s.params.output ≠ "" ∧ out = s.params.output) ∨ (s.params.output = "" ∧ out = s.csxFile)

/-- Some file holds the board. -/
def Kept (e : Env β) (b : β) (d : Disk) : Prop := ∃ q text, d q = some (e.renderCsx b text)

end Verif.Files.Spec
