/-!
# Reading and saving files

Model of the file handling of `src/main.cpp`, `src/app/openemsh.cpp` (`is_about_overwriting`, `write`), of the
end of `SerializerToCsx::visit` and of the saving and closing part of `src/ui/qt/main_window.cpp`.

Simplifications. A path is a string and two different paths are two different files (no links). The content
of a file is a string. Parsing, meshing and rendering are parameters. What happens to a file that the program
opens for writing is decided by `Env.onWrite`: the environment may refuse to open it or stop in the middle.
-/

namespace Verif.Files

/-- `OpenEMSH::Params::OutputFormat` (`src/app/openemsh.hpp:38-42`). -/
inductive Format where
  | csx | plantuml | prettyprint
  deriving DecidableEq, Repr

/-- The members of `OpenEMSH::Params` used here (`src/app/openemsh.hpp:28-45`). -/
structure Params where
  input : String
  output : String
  force : Bool
  format : Format

/-- What a write to a file ends as (`src/app/openemsh.cpp:147`, `src/infra/serializers/serializer_to_csx.cpp:130`). -/
inductive WriteOutcome where
  /-- everything is written -/
  | written
  /-- the file cannot be opened and stays as it is -/
  | notOpened
  /-- the file was opened, hence truncated, and holds something else than the whole text -/
  | truncated (content : String)

/-- File contents, for `src/app/openemsh.cpp:147` and `src/infra/serializers/serializer_to_csx.cpp:130`. -/
abbrev Disk := String → Option String

/-- Parameters of the model: the board type, how a file is parsed (`ParserFromCsx::run`), meshed
(`run_all_steps`), rendered from the board and the input document (`src/infra/serializers/serializer_to_csx.cpp:76-128`),
the other formats, whether pugixml can load a text, and what the disk does. -/
structure Env (β : Type) where
  parse : String → Option β
  mesh : β → β
  hasGrid : β → Bool
  loads : String → Bool
  renderCsx : β → String → String
  renderPlantuml : β → String
  onWrite : String → WriteOutcome

variable {β : Type}

/-- The end of the `cli` function (`src/ui/cli/cli.cpp:215-218`): the output defaults to the input. -/
def finalCallback (p : Params) : Params :=
  if p.output = "" then { p with output := p.input } else p

/-- Writing a text to a file (`src/app/openemsh.cpp:147`, `src/infra/serializers/serializer_to_csx.cpp:130`). -/
def Env.save (e : Env β) (d : Disk) (path text : String) : Disk := fun q =>
  if q = path then
    match e.onWrite path with
    | .written => some text
    | .notOpened => d q
    | .truncated c => some c
  else d q

/-- `OpenEMSH::is_about_overwriting` (`src/app/openemsh.cpp:130-137`). -/
def isAboutOverwriting (e : Env β) (p : Params) (board : Option β) (d : Disk) : Bool :=
  !p.force && p.format == .csx &&
    ((d p.output).isSome || (p.input == p.output && (match board with
      | some b => e.hasGrid b
      | none => false)))

/-- `OpenEMSH::write` (`src/app/openemsh.cpp:140-157`) with `SerializerToCsx::visit`
(`src/infra/serializers/serializer_to_csx.cpp:76-131`): an input that cannot be loaded again is an error, the
result of `save_file` (130) and the state of the `ofstream` (`openemsh.cpp:147-148`) are not looked at.
PRETTYPRINT writes to the error stream. -/
def write (e : Env β) (p : Params) (board : β) (d : Disk) : Bool × Disk :=
  match p.format with
  | .csx => match d p.input with
    | none => (false, d)
    | some text => if e.loads text then (true, e.save d p.output (e.renderCsx board text)) else (false, d)
  | .plantuml => (true, e.save d p.output (e.renderPlantuml board))
  | .prettyprint => (true, d)

/-- `main` without GUI (`src/main.cpp:35-73, 89`): whether the exit status is success, and the disk. -/
def main (e : Env β) (p : Params) (d : Disk) : Bool × Disk :=
  match (d p.input).bind e.parse with
  | none => (false, d)
  | some board =>
    if isAboutOverwriting e p (some board) d then (false, d)
    else write e p (e.mesh board) d

/-! ## The window -/

/-- `Logger::UserAction` (`src/utils/logger.hpp:27`). -/
inductive UserAction where
  | nothing | cancel | ok | save | close | abort
  deriving DecidableEq, Repr

/-- The members of `MainWindow` used here, with the parameters of its `OpenEMSH` and the disk. `board` is the
board displayed (`src/ui/qt/main_window.hpp:28-33`). -/
structure Window (β : Type) where
  csxFile : String
  isUnsaved : Bool
  params : Params
  board : β
  disk : Disk

/-- Next answer of the user; an exhausted list is a closed dialog, `from_qt` giving `NOTHING`
(`src/ui/qt/logger.cpp:19-29`). -/
def answer : List UserAction → UserAction × List UserAction
  | [] => (.nothing, [])
  | a :: as => (a, as)

/-- `MainWindow::save_csx_file` (`src/ui/qt/main_window.cpp:380-419`). Returns the remaining answers. -/
def saveCsxFile (e : Env β) (w : Window β) (answers : List UserAction) : Window β × List UserAction :=
  let w := { w with params := { w.params with format := .csx } }
  let write (answers : List UserAction) : Window β × List UserAction :=
    match write e w.params w.board w.disk with
    | (true, d) => ({ w with disk := d, isUnsaved := false }, answers)
    | (false, d) => ({ w with disk := d }, (answer answers).2)
  if isAboutOverwriting e w.params (some w.board) w.disk then
    match answer answers with
    | (.save, rest) => write rest
    | (_, rest) => (w, rest)
  else write answers

/-- `MainWindow::on_a_file_save_triggered` (`src/ui/qt/main_window.cpp:422-443`). -/
def onSave (e : Env β) (w : Window β) (answers : List UserAction) : Window β × List UserAction :=
  if w.params.output = "" then
    saveCsxFile e { w with params := { w.params with output := w.csxFile } } answers
  else if w.csxFile ≠ w.params.output then
    match answer answers with
    | (.save, rest) => saveCsxFile e { w with csxFile := w.params.output } rest
    | (_, rest) => (w, rest)
  else saveCsxFile e w answers

/-- `MainWindow::closeEvent` (`src/ui/qt/main_window.cpp:743-759`): whether the event is accepted. -/
def closeEvent (e : Env β) (w : Window β) (answers : List UserAction) : Bool × Window β :=
  if w.isUnsaved then
    match answer answers with
    | (.cancel, _) => (false, w)
    | (.save, rest) => (true, (onSave e w rest).1)
    | (_, _) => (true, w)
  else (true, w)

end Verif.Files
