import Verif.Model.Session

/-!
# The title of the window

`MainWindow::update_title` (`src/ui/qt/main_window.cpp:169-174`) and where it is called, beside the session of `Verif.Model.Session`.
The title without a file is left out: it is the same for all of them.
-/

namespace Verif.Files

variable {β : Type}

/-- A session, and the file that the title names; it names none at first (`src/ui/qt/main_window.cpp:169-174`). -/
structure Titled (β : Type) where
  session : Session β
  title : String

namespace Titled

/-- `update_title` (`src/ui/qt/main_window.cpp:169-174`). -/
def updateTitle (t : Titled β) : Titled β := if t.session.csxFile ≠ "" then { t with title := t.session.csxFile } else t

/-- `parse_and_display` (`src/ui/qt/main_window.cpp:129-157`): the title is updated when the file was read (151). -/
def parseAndDisplay (e : Env β) (t : Titled β) : Titled β :=
  if t.session.csxFile = "" then t
  else match (t.session.disk t.session.params.input).bind e.parse with
    | none => { t with session := t.session.parseAndDisplay e }
    | some _ => { t.updateTitle with session := t.session.parseAndDisplay e }

/-- `src/main.cpp:83-85`. -/
def started (e : Env β) (p : Params) (d : Disk) : Titled β := parseAndDisplay e ⟨Session.made p d, ""⟩

/-- `on_a_file_open_triggered` once a file is chosen (`src/ui/qt/main_window.cpp:368-377`). -/
def opens (e : Env β) (t : Titled β) (path : String) : Titled β :=
  parseAndDisplay e { t with session := { t.session with csxFile := path, params := { t.session.params with input := path } } }

/-- `on_a_file_save_as_triggered` once a file is chosen (`src/ui/qt/main_window.cpp:446-462`): the title is updated (455) before the
file is written. The action is disabled without a board. -/
def savesAs (e : Env β) (t : Titled β) (path : String) (answers : List UserAction) : Option (Titled β) :=
  if t.session.enabled then
    let named := updateTitle { t with session := { t.session with csxFile := path } }
    (t.session.savesAs e path answers).map fun s => { named with session := s }
  else some t

/-- One action (`src/ui/qt/main_window.cpp:361-654, 743-759`); the others leave the title. -/
def run (e : Env β) (t : Titled β) : Act β → Option (Titled β)
  | .opens path => some (t.opens e path)
  | .savesAs path answers => t.savesAs e path answers
  | a => (a.run e t.session).map fun s => { t with session := s }

end Titled

end Verif.Files
