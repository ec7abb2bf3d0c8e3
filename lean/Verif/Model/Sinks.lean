import Verif.Model.Files
import Verif.Model.Utils

/-!
# Where messages go

Model of the two sinks of the logger, `src/ui/cli/logger.cpp` and `src/ui/qt/logger.cpp`, and of the logger of the program
(`src/utils/logger.cpp`, `src/main.cpp:33`, `src/ui/qt/main_window.cpp:108`).

Simplifications.
* A `std::set<UserAction>` is the list of its members in the order of the enumeration (`src/utils/logger.hpp:27-34`).
* What is typed is the list of the lines to come; past the last one is the end of the input, where `getline` gives an empty line
  forever.
* A `QMessageBox` is what it shows and the buttons it has; `exec` says which button the user takes. A box made without a button
  gets `Ok` from Qt.
-/

namespace Verif.Log
open Verif.Files (UserAction)

/-- `Logger::Level` (`src/utils/logger.hpp:19-24`). -/
inductive Level where
  | question | info | warning | error
  deriving DecidableEq, Repr

/-- `Logger::LogEvent` (`src/utils/logger.hpp:38-46`). -/
structure Event where
  destination : Nat := 0
  level : Level
  actions : List UserAction := []
  default : Option UserAction := none
  message : List Char
  informative : List Char := []
  details : List Char := []
  deriving DecidableEq, Repr

/-- `to_string(Logger::Level)` (`src/ui/cli/logger.cpp:21-29`). -/
def levelText : Level → List Char
  | .question => "Question".toList
  | .info => "Info".toList
  | .warning => "Warning".toList
  | .error => "Error".toList

/-- `to_emoji` (`src/ui/cli/logger.cpp:32-46`). -/
def emoji : Level → List Char
  | .question => "❓".toList
  | .info => "ℹ️ ".toList
  | .warning => "⚠️ ".toList
  | .error => "⛔".toList

/-- `to_string(Logger::UserAction)` (`src/ui/cli/logger.cpp:49-59`). -/
def letter : UserAction → List Char
  | .nothing => []
  | .cancel => ['n']
  | .ok => ['y']
  | .save => ['s']
  | .close => ['c']
  | .abort => ['a']

/-- `from_string` (`src/ui/cli/logger.cpp:71-78`). -/
def fromLetter (s : List Char) : UserAction :=
  if s = ['n'] then .cancel else if s = ['y'] then .ok else if s = ['s'] then .save else if s = ['c'] then .close
  else if s = ['a'] then .abort else .nothing

/-- `views::join_with("/")` (`src/ui/cli/logger.cpp:66`). -/
def slashed : List (List Char) → List Char
  | [] => []
  | [s] => s
  | s :: rest => s ++ ['/'] ++ slashed rest

/-- `to_string(set<Logger::UserAction>)` (`src/ui/cli/logger.cpp:62-68`). -/
def choices (actions : List UserAction) : List Char := ['['] ++ slashed (actions.map letter) ++ [']']

/-- Is the message written on the terminal (`src/ui/cli/logger.cpp:87, 108`)? -/
def isWritten (verbose : Bool) (e : Event) : Bool := !(e.level == .info && !verbose)

/-- What is printed of a message (`src/ui/cli/logger.cpp:88-94`). -/
def printed (e : Event) : List Char :=
  emoji e.level ++ [' '] ++ levelText e.level ++ [':', ' '] ++ e.message ++
    (if e.informative.isEmpty then [] else ' ' :: e.informative) ++ (if e.details.isEmpty then [] else '\n' :: e.details)

/-- The loop of `LoggerSink::log` (`src/ui/cli/logger.cpp:99-106`): the answer, what is printed, the lines left. `none`: does not
end. -/
def ask (actions : List UserAction) : List (List Char) → List Char → Option (UserAction × List Char × List (List Char))
  | [], _ => none
  | line :: rest, out =>
    let out := out ++ [' '] ++ choices actions ++ " ? ".toList
    if fromLetter line = .nothing then ask actions rest out else some (fromLetter line, out, rest)

/-- `ui::cli::LoggerSink::log` (`src/ui/cli/logger.cpp:86-112`). -/
def cliLog (verbose interactive : Bool) (e : Event) (lines : List (List Char)) : Option (UserAction × List Char × List (List Char)) :=
  let out := if isWritten verbose e then printed e else []
  if interactive && e.level == .question && !e.actions.isEmpty then ask e.actions lines out
  else some (.nothing, if isWritten verbose e then out ++ ['\n'] else out, lines)

/-- The buttons of a `QMessageBox` (`src/ui/qt/logger.cpp:20-28, 83`). -/
inductive Button where
  | noButton | cancel | ok | save | close | abort | ignore
  deriving DecidableEq, Repr

/-- `from_qt` (`src/ui/qt/logger.cpp:19-29`). -/
def fromQt : Button → UserAction
  | .cancel => .cancel
  | .ok => .ok
  | .save => .save
  | .close => .close
  | .abort => .abort
  | _ => .nothing

/-- `to_qt(Logger::UserAction)` (`src/ui/qt/logger.cpp:32-42`). -/
def toQt : UserAction → Button
  | .nothing => .noButton
  | .cancel => .cancel
  | .ok => .ok
  | .save => .save
  | .close => .close
  | .abort => .abort

/-- What the window shows of a message (`src/ui/qt/logger.cpp:71-87`): in the status bar, or in a box. -/
inductive Shown where
  | status (message : List Char)
  | box (text informative details : List Char) (level : Level) (buttons : List Button) (default : Option Button)
  deriving DecidableEq, Repr

/-- The buttons a box has: `to_qt(set<Logger::UserAction>)` (`src/ui/qt/logger.cpp:45-50`), a flag of `NoButton` being none, and
`setStandardButtons` (81-83). -/
def buttons (interactive : Bool) (actions : List UserAction) : List Button :=
  let l := if interactive then (actions.map toQt).filter (· ≠ .noButton) else [.ignore]
  if l.isEmpty then [.ok] else l

/-- `ui::qt::LoggerSink::log` (`src/ui/qt/logger.cpp:70-89`). -/
def qtLog (interactive : Bool) (e : Event) (exec : Shown → Button) : UserAction × Shown :=
  if e.level ≠ .question ∧ (e.actions.isEmpty ∨ .nothing ∈ e.actions) then (.nothing, .status e.message)
  else
    let box := Shown.box e.message e.informative e.details e.level (buttons interactive e.actions) (e.default.map toQt)
    (fromQt (exec box), box)

/-- Actions as the numbers of the enumeration (`src/utils/logger.hpp:27-34`). -/
def number : UserAction → Nat
  | .nothing => 0
  | .cancel => 1
  | .ok => 2
  | .save => 3
  | .close => 4
  | .abort => 5

/-- The logger of the program: `register_sink` of the terminal (`src/main.cpp:33`), then of the window if there is one
(`src/ui/qt/main_window.cpp:108`). `cli` and `qt` are the numbers `Logger::id` gives (`src/utils/logger.cpp:14-16`). -/
def programLogger (gui : Bool) (cli qt : Nat) : Utils.Logger :=
  Utils.Logger.after (.register cli 0 false :: if gui then [.register qt 1 true] else [])

/-- What came of a message: the answer, what was written, what was shown (`src/utils/logger.cpp:52-64`). -/
structure Outcome where
  answer : Nat
  written : List Char := []
  shown : Option Shown := none
  deriving DecidableEq, Repr

/-- `Logger::log` (`src/utils/logger.cpp:52-64`) in the program. The sink of the terminal is not interactive there, so that nothing
is read (`src/main.cpp:33`). -/
def programLog (gui verbose : Bool) (cli qt : Nat) (e : Event) (exec : Shown → Button) : Outcome :=
  let l := programLogger gui cli qt
  let cliAnswer (s : Utils.Sink) := cliLog verbose s.interactive e []
  let r := l.log (fun s => if s.name = 0 then ((cliAnswer s).elim 0 fun a => number a.1) else number (qtLog s.interactive e exec).1)
    e.destination
  { answer := r.2
    written := if 0 ∈ r.1 then (cliAnswer ⟨0, false⟩).elim [] fun a => a.2.1 else []
    shown := if 1 ∈ r.1 then some (qtLog true e exec).2 else none }

end Verif.Log
