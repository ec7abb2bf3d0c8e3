import Verif.Model.Files

/-!
# A session of the window: opening, editing, saving and closing

Model of the part of `src/ui/qt/main_window.cpp` and `src/app/openemsh.cpp` that says which board is meshed, which file it is
read from and which file it is written to, over any sequence of actions. The operations on files are those of
`Verif.Model.Files`.

Simplifications.
* The board is what is current of it: editing, undoing, redoing and going to a step replace it (`Act.changes`).
* The file dialogs give any path; one that is cancelled does nothing and is no action.
* `Act.others` is what other programs do to the disk.
-/

namespace Verif.Files

variable {β : Type}

/-- `MainWindow` with its `OpenEMSH` and the disk (`src/ui/qt/main_window.hpp:28-33`, `src/app/openemsh.hpp:28-60`): `board` is
`oemsh.board`, a null pointer before the first file; `enabled` is what was last given to
`update_board_dependant_buttons_visibility` (`src/ui/qt/main_window.cpp:657-685`). -/
structure Session (β : Type) where
  csxFile : String
  isUnsaved : Bool
  params : Params
  board : Option β
  enabled : Bool
  disk : Disk

namespace Session

/-- The `MainWindow` of `Verif.Model.Files`, which has a board (`src/ui/qt/main_window.hpp:28-33`). -/
def window (s : Session β) (b : β) : Window β := ⟨s.csxFile, s.isUnsaved, s.params, b, s.disk⟩

/-- The session once the window did something to its members (`src/ui/qt/main_window.hpp:28-33`). -/
def became (s : Session β) (w : Window β) : Session β :=
  { s with csxFile := w.csxFile, isUnsaved := w.isUnsaved, params := w.params, disk := w.disk }

/-- The constructor (`src/ui/qt/main_window.cpp:56-123`) from what the command line gave. -/
def made (p : Params) (d : Disk) : Session β := ⟨p.input, false, p, none, false, d⟩

/-- `MainWindow::parse_and_display` (`src/ui/qt/main_window.cpp:129-157`), `OpenEMSH::parse` (`src/app/openemsh.cpp:118-127`) and
`run` (`src/ui/qt/main_window.cpp:643-647`): a file that is refused leaves the board there was. -/
def parseAndDisplay (e : Env β) (s : Session β) : Session β :=
  if s.csxFile = "" then s
  else match (s.disk s.params.input).bind e.parse with
    | none => { s with enabled := false }
    | some b => { s with enabled := true, board := some (e.mesh b), isUnsaved := true }

/-- `src/main.cpp:83-85`. -/
def started (e : Env β) (p : Params) (d : Disk) : Session β := parseAndDisplay e (made p d)

/-- `on_a_file_open_triggered` once a file is chosen (`src/ui/qt/main_window.cpp:368-377`). -/
def opens (e : Env β) (s : Session β) (path : String) : Session β :=
  parseAndDisplay e { s with csxFile := path, params := { s.params with input := path } }

/-- An edition, or a press that goes to another timepoint (`src/ui/qt/main_window.cpp:587-595, 636-654`): `f` gives the board
it leads to. It is done from a scene or with an action that is disabled without a board. -/
def changes (s : Session β) (f : β → β) : Session β :=
  if s.enabled then { s with board := s.board.map f, isUnsaved := true } else s

/-- `on_a_file_save_triggered` (`src/ui/qt/main_window.cpp:422-443`) from its action, which is disabled without a board.
`none` is the dereferencing of a null `board` (`src/app/openemsh.cpp:143`). -/
def saves (e : Env β) (s : Session β) (answers : List UserAction) : Option (Session β) :=
  if s.enabled then s.board.map fun b => s.became (onSave e (s.window b) answers).1 else some s

/-- `on_a_file_save_as_triggered` once a file is chosen (`src/ui/qt/main_window.cpp:446-462`). -/
def savesAs (e : Env β) (s : Session β) (path : String) (answers : List UserAction) : Option (Session β) :=
  if s.enabled then s.board.map fun b =>
    s.became (saveCsxFile e { s.window b with csxFile := path, params := { s.params with output := path } } answers).1
  else some s

/-- `on_a_appcsxcad_triggered` (`src/ui/qt/main_window.cpp:465-523`): the temporary file `path` is created empty (473), closed and
written (489), and the output and its format are put back (490-491). -/
def exports (e : Env β) (s : Session β) (path : String) : Option (Session β) :=
  if s.enabled then s.board.map fun b =>
    let d : Disk := fun q => if q = path then some "" else s.disk q
    { s with disk := (write e { s.params with output := path, format := .csx } b d).2 }
  else some s

/-- `closeEvent` (`src/ui/qt/main_window.cpp:743-759`): whether the window closes, and the session then. Nothing disables it. -/
def closes (e : Env β) (s : Session β) (answers : List UserAction) : Option (Bool × Session β) :=
  match s.board with
  | some b => some ((closeEvent e (s.window b) answers).1, s.became (closeEvent e (s.window b) answers).2)
  | none => if s.isUnsaved then none else some (true, s)

end Session

/-- What can be done with the window (`src/ui/qt/main_window.cpp:361-654`) while it is open; `asksClosing` is an attempt at
closing it (743-759) that it ignores. -/
inductive Act (β : Type) where
  | opens (path : String)
  | changes (f : β → β)
  | saves (answers : List UserAction)
  | savesAs (path : String) (answers : List UserAction)
  | exports (path : String)
  | asksClosing (answers : List UserAction)
  | others (d : Disk)

/-- One action (`src/ui/qt/main_window.cpp:361-654, 743-759`). A window that closed does nothing any more: `asksClosing` leads
nowhere when the event is accepted. -/
def Act.run (e : Env β) (s : Session β) : Act β → Option (Session β)
  | .opens path => some (s.opens e path)
  | .changes f => some (s.changes f)
  | .saves answers => s.saves e answers
  | .savesAs path answers => s.savesAs e path answers
  | .exports path => s.exports e path
  | .asksClosing answers => match s.closes e answers with
    | some (false, s') => some s'
    | _ => none
  | .others d => some { s with disk := d }

end Verif.Files
