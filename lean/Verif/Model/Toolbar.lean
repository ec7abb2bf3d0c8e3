import Verif.Model.Window

/-! The four navigation buttons of the window and when they can be pressed. -/

namespace Verif

variable {σ : Type}

/-- Which of the actions `a_undo`, `a_redo`, `a_mesh_prev`, `a_mesh_next` are enabled (`src/ui/qt/main_window.cpp:661-664`).
The other actions that depend on a board are not modelled. -/
structure Buttons where
  undo : Bool
  redo : Bool
  prev : Bool
  next : Bool
  deriving DecidableEq, Repr

/-- `update_board_dependant_buttons_visibility(false)` (`src/ui/qt/main_window.cpp:657-685`). -/
def Buttons.off : Buttons := ⟨false, false, false, false⟩

/-- `update_navigation_buttons_visibility` (`src/ui/qt/main_window.cpp:688-693`). -/
def navigation (w : World σ Step) : Except Fault Buttons :=
  match w.canUndo 1 with
  | .error e => .error e
  | .ok u => match App.canGoBefore w with
    | .error e => .error e
    | .ok p => match App.canRunANextStep w with
      | .error e => .error e
      | .ok n => .ok ⟨u, w.canRedo 1, p, n⟩

/-- The window with its buttons. -/
structure Shell (σ : Type) where
  window : Window σ
  buttons : Buttons

namespace Shell

/-- The end of `go_to_current_state` and of `make_current_state_view` (`src/ui/qt/main_window.cpp:601, 631`): one of them
ends each press and each edition. -/
def refresh (m : Window σ) : Except Fault (Shell σ) := (navigation m.world).map fun b => ⟨m, b⟩

/-- A press of an action: Qt ignores a disabled one (`QAction::setEnabled`). -/
def trigger (enabled : Bool) (press : Window σ → Except Fault (Window σ)) (s : Shell σ) : Except Fault (Shell σ) :=
  if enabled then
    match press s.window with
    | .error e => .error e
    | .ok m => refresh m
  else .ok s

/-- `on_a_mesh_prev_triggered` (`src/ui/qt/main_window.cpp:548-553`). -/
def meshPrev (s : Shell σ) : Except Fault (Shell σ) := s.trigger s.buttons.prev Window.meshPrev

/-- `on_a_mesh_next_triggered` (`src/ui/qt/main_window.cpp:557-562`). -/
def meshNext (work : App.Work σ) (s : Shell σ) : Except Fault (Shell σ) :=
  s.trigger s.buttons.next (Window.meshNext work)

/-- `on_a_undo_triggered` (`src/ui/qt/main_window.cpp:565-570`). -/
def undo (s : Shell σ) : Except Fault (Shell σ) := s.trigger s.buttons.undo Window.undo

/-- `on_a_redo_triggered` (`src/ui/qt/main_window.cpp:573-578`). -/
def redo (s : Shell σ) : Except Fault (Shell σ) := s.trigger s.buttons.redo Window.redo

/-- `handle_edition_from` (`src/ui/qt/main_window.cpp:650-654`): the dialogs are opened from the scenes. -/
def handleEditionFrom (work : App.Work σ) (step : Step) (edit : World σ Step → Except Fault (World σ Step))
    (s : Shell σ) : Except Fault (Shell σ) := s.trigger true (Window.handleEditionFrom work step edit)

/-- `on_a_file_open_triggered` once a file is chosen (`src/ui/qt/main_window.cpp:368-377`), with the buttons of
`parse_and_display` (137, 148). -/
def openFile (work : App.Work σ) (parser : World σ Step → Except Fault (Option (World σ Step))) (s : Shell σ) :
    Except Fault (Bool × Shell σ) :=
  match s.window.openFile work parser with
  | .error e => .error e
  | .ok (false, m) => .ok (false, ⟨m, .off⟩)
  | .ok (true, m) => (refresh m).map fun s => (true, s)

end Shell
end Verif
