import Verif.Model.App

/-!
# The main window: its buttons and the scenes it keeps

Model of the part of `src/ui/qt/main_window.cpp`, `src/ui/qt/structure_view/structure_view.cpp` and
`src/ui/qt/processing_view/processing_view.cpp` that draws the scenes, keeps them by timepoint and shows them.

Simplifications.
* A scene is what was read of each registered object when it was drawn (`Scene`); the items are not modelled. Drawing reads
  the objects, which may settle a pending move (`actually_go`); the objects are left as they were, which changes nothing
  of what is read later (C01).
* Modes, styles, fits, the status bar, the cursor and the enabling of the buttons are not modelled.
* `connected` lists the timepoints in the order in which `make_current_state_view` connected the signals of their scenes;
  Qt delivers a signal once for each time it was connected.
-/

namespace Verif

/-- What was read of each registered object when a scene was populated (`src/ui/qt/processing_view/processing_view.cpp:146-220`,
`src/ui/qt/structure_view/structure_view.cpp:224-262`). -/
abbrev Scene (σ : Type) := Nat → Option σ

/-- The populating of a scene (`src/ui/qt/structure_view/structure_view.cpp:199`,
`src/ui/qt/processing_view/processing_view.cpp:119`): what each registered object reads now. -/
def drawScene {σ : Type} (w : World σ Step) : Scene σ := fun i =>
  if i ∈ w.care.originators then
    match w.getCurrentState i with
    | .ok r => some r.1
    | .error _ => none
  else none

/-- What `StructureView` and `ProcessingView` have in common: `board` (is it set?), `states`, `current_timepoint`
(`src/ui/qt/structure_view/structure_view.hpp:52`, `src/ui/qt/processing_view/processing_view.hpp:34`). -/
structure View (σ : Type) where
  hasBoard : Bool
  scenes : List (Addr × Scene σ)
  current : Option Addr

namespace View
variable {σ : Type}

/-- `init` (`src/ui/qt/structure_view/structure_view.cpp:63-65`, `src/ui/qt/processing_view/processing_view.cpp:36-38`). -/
def init (v : View σ) : View σ := { v with hasBoard := true }

/-- `clear` (`src/ui/qt/structure_view/structure_view.cpp:68-75`, `src/ui/qt/processing_view/processing_view.cpp:41-47`). -/
def clear (_ : View σ) : View σ := ⟨false, [], none⟩

/-- `states.contains` (`src/ui/qt/main_window.cpp:589-590`). -/
def contains (v : View σ) (t : Addr) : Bool := (v.scenes.lookup t).isSome

/-- `states.try_emplace`, `states.emplace` (`src/ui/qt/structure_view/structure_view.cpp:204`,
`src/ui/qt/processing_view/processing_view.cpp:127`): an existing scene is kept. -/
def emplace (v : View σ) (t : Addr) (s : Scene σ) : View σ :=
  if v.contains t then v else { v with scenes := v.scenes ++ [(t, s)] }

/-- `make_current_state` (`src/ui/qt/structure_view/structure_view.cpp:190-207`,
`src/ui/qt/processing_view/processing_view.cpp:110-129`). The `go_to_current_state` at its end finds the scene. -/
def makeCurrentState (w : World σ Step) (v : View σ) : View σ :=
  if v.hasBoard then { v.emplace w.care.current (drawScene w) with current := some w.care.current } else v

/-- `go_to_current_state` (`src/ui/qt/structure_view/structure_view.cpp:210-221`,
`src/ui/qt/processing_view/processing_view.cpp:132-143`). -/
def goToCurrentState (w : World σ Step) (v : View σ) : View σ :=
  if v.current = some w.care.current then v
  else if v.contains w.care.current then { v with current := some w.care.current }
  else v.makeCurrentState w

/-- The scene given by `setScene` (`src/ui/qt/structure_view/structure_view.cpp:215`,
`src/ui/qt/processing_view/processing_view.cpp:137`): that of `current_timepoint`. -/
def displayed (v : View σ) : Option (Scene σ) := v.current.bind fun t => v.scenes.lookup t

end View

/-- `MainWindow` and the history (`src/ui/qt/main_window.hpp:25-102`): the two views, and the timepoints whose scenes were
connected. -/
structure Window (σ : Type) where
  world : World σ Step
  structureView : View σ
  processingView : View σ
  connected : List Addr

namespace Window
variable {σ : Type}

/-- `make_current_state_view` (`src/ui/qt/main_window.cpp:608-633`). -/
def makeCurrentStateView (m : Window σ) : Window σ :=
  let w := m.world.pinCurrent
  { world := w
    structureView := m.structureView.makeCurrentState w
    processingView := m.processingView.makeCurrentState w
    connected := m.connected ++ [w.care.current] }

/-- `go_to_current_state` (`src/ui/qt/main_window.cpp:598-605`). -/
def goToCurrentState (m : Window σ) : Window σ :=
  { m with
    structureView := m.structureView.goToCurrentState m.world
    processingView := m.processingView.goToCurrentState m.world }

/-- `go_to_or_make_current_state` (`src/ui/qt/main_window.cpp:587-595`). -/
def goToOrMakeCurrentState (m : Window σ) : Window σ :=
  if m.structureView.contains m.world.care.current && m.processingView.contains m.world.care.current then
    m.goToCurrentState
  else m.makeCurrentStateView

/-- `on_a_mesh_prev_triggered` (`src/ui/qt/main_window.cpp:548-553`). -/
def meshPrev (m : Window σ) : Except Fault (Window σ) :=
  (App.goBeforePreviousStep m.world).map fun w => { m with world := w }.goToOrMakeCurrentState

/-- `on_a_mesh_next_triggered` (`src/ui/qt/main_window.cpp:557-562`). -/
def meshNext (work : App.Work σ) (m : Window σ) : Except Fault (Window σ) :=
  (App.runNextStep work m.world).map fun r => { m with world := r.2 }.goToOrMakeCurrentState

/-- `on_a_undo_triggered` (`src/ui/qt/main_window.cpp:565-570`). -/
def undo (m : Window σ) : Except Fault (Window σ) :=
  (m.world.undo 1).map fun w => { m with world := w }.goToOrMakeCurrentState

/-- `on_a_redo_triggered` (`src/ui/qt/main_window.cpp:573-578`). -/
def redo (m : Window σ) : Except Fault (Window σ) :=
  (m.world.redo 1).map fun w => { m with world := w }.goToOrMakeCurrentState

/-- `handle_edition_from` (`src/ui/qt/main_window.cpp:650-654`) with `run` (636-640). -/
def handleEditionFrom (work : App.Work σ) (s : Step) (edit : World σ Step → Except Fault (World σ Step))
    (m : Window σ) : Except Fault (Window σ) :=
  match App.goBefore s m.world with
  | .error e => .error e
  | .ok w1 => match edit w1 with
    | .error e => .error e
    | .ok w2 => (App.runFromStep work s w2).map fun r => { m with world := r.2 }.makeCurrentStateView

/-- `clear` (`src/ui/qt/main_window.cpp:177-182`). Deleting a scene drops its connections. -/
def clear (m : Window σ) : Window σ :=
  { m with structureView := m.structureView.clear, processingView := m.processingView.clear, connected := [] }

/-- `on_a_file_open_triggered` once a file is chosen (`src/ui/qt/main_window.cpp:368-377`), with `parse_and_display`
(129-157) and `run` (643-647). The result says whether the file was accepted. -/
def openFile (work : App.Work σ) (parser : World σ Step → Except Fault (Option (World σ Step))) (m : Window σ) :
    Except Fault (Bool × Window σ) :=
  let m := m.clear
  match App.parse parser m.world with
  | .error e => .error e
  | .ok (false, w) => .ok (false, { m with world := w })
  | .ok (true, w) =>
    let m : Window σ := { m with
      world := w, structureView := m.structureView.init, processingView := m.processingView.init }
    (App.runAllSteps work w).map fun r => (true, { m with world := r.2 }.makeCurrentStateView)

end Window
end Verif
