import Verif.Model.Sight
import Verif.Model.Caretaker

/-!
# The buttons that say what is shown, and the scenes of the timepoints

Model of the buttons of the planes, of the mesh, of the display modes and of the wires of `src/ui/qt/main_window.cpp`, and of
what `src/ui/qt/structure_view/structure_view.cpp` and `src/ui/qt/processing_view/processing_view.cpp` keep of them for the scene
of each timepoint. What a scene draws with these is in `Verif.Model.Sight`.

Simplifications.
* The timepoint that is current is given by each action; what the scenes are populated with is not modelled here
  (`Verif.Model.Window`).
* The buttons of a group are exclusive (`src/ui/qt/main_window.ui`): a group is the button of it that is checked.
* The zooms, rotations, positions and anchors are not modelled.
-/

namespace Verif.Show
open Verif.Graph (Mode MeshVisibility)
open Verif.Geom (Plane ViewAxis)

/-- `nodegraph::Wire::Style` (`src/ui/qt/utils/nodegraph/wire.hpp`). -/
inductive WireStyle where
  | curved | direct
  deriving DecidableEq, Repr

/-- What a `ProcessingScene` was told (`src/ui/qt/processing_view/processing_scene.hpp:138-140`, and the style of its wires,
`processing_scene.cpp:72-76`). -/
structure ProcessingLook where
  mode : Mode
  plane : Plane
  flags : ViewAxis → Bool
  wires : WireStyle

/-- A `ProcessingScene` once constructed, populated and initialised (`src/ui/qt/processing_view/processing_scene.cpp:45-69`,
`wire.cpp:24`). -/
def ProcessingLook.made : ProcessingLook := ⟨.selectedChain, .xy, fun _ => true, .curved⟩

/-- The checked button of each group. -/
structure Checked where
  plane : Plane
  mesh : MeshVisibility
  mode : Mode
  wires : WireStyle
  deriving DecidableEq

/-- The buttons of `src/ui/qt/main_window.ui:109, 206, 420, 592` when the window opens. -/
def Checked.made : Checked := ⟨.xy, .full, .selectedChain, .curved⟩

/-- `StructureView`, `ProcessingView` and the buttons (`src/ui/qt/structure_view/structure_view.hpp:52-77`,
`src/ui/qt/processing_view/processing_view.hpp:34-57`, `src/ui/qt/main_window.hpp:28-33`): the `mesh_visibility_on_view` of the three
scenes of each timepoint, `current_timepoint`, `displayed_plane`; the scene of each timepoint, `current_timepoint`,
`axes_displayed_on_structure_view`, `plane_displayed_on_structure_view`, `wire_style`; what is checked, and whether the buttons are
enabled. -/
structure Panel where
  structures : List (Addr × (Plane → MeshVisibility))
  structureCurrent : Option Addr
  displayedPlane : Plane
  processings : List (Addr × ProcessingLook)
  processingCurrent : Option Addr
  flags : ViewAxis → Bool
  plane : Plane
  wires : WireStyle
  checked : Checked
  enabled : Bool

/-- The window when it opens (`src/ui/qt/structure_view/structure_view.cpp:43-50`,
`src/ui/qt/processing_view/processing_view.cpp:19-26`, `src/ui/qt/main_window.cpp:71`). -/
def Panel.made : Panel := ⟨[], none, .xy, [], none, fun _ => true, .xy, .curved, .made, false⟩

namespace Panel

/-- `scene()` of the structure view: the one `setScene` was given (`src/ui/qt/structure_view/structure_view.cpp:164, 215`), which is
that of `current_timepoint` and of `displayed_plane`; a scene that is deleted leaves its view. -/
def structureScene (p : Panel) : Option (Plane → MeshVisibility) := p.structureCurrent.bind fun t => p.structures.lookup t

/-- `scene()` of the processing view (`src/ui/qt/processing_view/processing_view.cpp:137`). -/
def processingScene (p : Panel) : Option ProcessingLook := p.processingCurrent.bind fun t => p.processings.lookup t

/-- Changing what is kept for a timepoint, through the reference given by `states.at` (`src/ui/qt/structure_view/structure_view.cpp:186`,
`src/ui/qt/processing_view/processing_view.cpp:105`). -/
def alter {α : Type} (t : Addr) (f : α → α) (l : List (Addr × α)) : List (Addr × α) :=
  l.map fun x => if x.1 = t then (x.1, f x.2) else x

/-- `StructureView::set_mesh_visibility` (`src/ui/qt/structure_view/structure_view.cpp:156-159`). `get_current_state` (185-187) uses
`std::map::at`: without a current timepoint it throws, and nothing in `main` catches. -/
def setMeshVisibility (p : Panel) (v : MeshVisibility) : Except Fault Panel :=
  match p.structureCurrent with
  | none => .error .outOfRange
  | some t => match p.structures.lookup t with
    | none => .error .outOfRange
    | some _ => .ok { p with structures := alter t (fun _ _ => v) p.structures }

/-- `StructureView::set_display_plane` (`src/ui/qt/structure_view/structure_view.cpp:162-166`). -/
def setStructurePlane (p : Panel) (pl : Plane) : Except Fault Panel :=
  match p.structureScene with
  | none => .error .outOfRange
  | some _ => .ok { p with displayedPlane := pl }

/-- What `set_display_mode`, `set_display_view_axes` and `set_display_plane` of `ProcessingView`
(`src/ui/qt/processing_view/processing_view.cpp:80-94`) and `fit` (69-72) do with the current scene. -/
def onProcessing (p : Panel) (f : ProcessingLook → ProcessingLook) : Except Fault Panel :=
  match p.processingCurrent with
  | none => .error .outOfRange
  | some t => match p.processings.lookup t with
    | none => .error .outOfRange
    | some _ => .ok { p with processings := alter t f p.processings }

/-- `ProcessingView::set_display_mode` (`src/ui/qt/processing_view/processing_view.cpp:80-82`). -/
def setMode (p : Panel) (m : Mode) : Except Fault Panel := p.onProcessing fun l => { l with mode := m }

/-- `ProcessingView::set_display_view_axes` (`src/ui/qt/processing_view/processing_view.cpp:85-88`). -/
def setFlags (p : Panel) (f : ViewAxis → Bool) : Except Fault Panel :=
  { p with flags := f }.onProcessing fun l => { l with flags := f }

/-- `ProcessingView::set_display_plane` (`src/ui/qt/processing_view/processing_view.cpp:91-94`). -/
def setProcessingPlane (p : Panel) (pl : Plane) : Except Fault Panel :=
  { p with plane := pl }.onProcessing fun l => { l with plane := pl }

/-- `ProcessingView::set_wire_style` (`src/ui/qt/processing_view/processing_view.cpp:97-101`). -/
def setWires (p : Panel) (w : WireStyle) : Panel :=
  { p with wires := w, processings := p.processings.map fun x => (x.1, { x.2 with wires := w }) }

/-- `ProcessingView::fit` (`src/ui/qt/processing_view/processing_view.cpp:69-72`). -/
def fit (p : Panel) : Except Fault Panel := p.onProcessing id

/-- `states.try_emplace`, `states.emplace` (`src/ui/qt/structure_view/structure_view.cpp:204`,
`src/ui/qt/processing_view/processing_view.cpp:127`). -/
def emplace {α : Type} (l : List (Addr × α)) (t : Addr) (x : α) : List (Addr × α) :=
  if (l.lookup t).isSome then l else l ++ [(t, x)]

/-- `StructureView::make_current_state` (`src/ui/qt/structure_view/structure_view.cpp:190-207`) while there is a board; the
visibility of a new scene is FULL (`structure_scene.cpp:73`). -/
def makeStructure (p : Panel) (t : Addr) : Panel :=
  let v : MeshVisibility := match p.structureScene with
    | some v => v p.displayedPlane
    | none => .full
  { p with structures := emplace p.structures t (fun _ => v), structureCurrent := some t }

/-- `ProcessingView::make_current_state` (`src/ui/qt/processing_view/processing_view.cpp:110-129`) while there is a board. -/
def makeProcessing (p : Panel) (t : Addr) : Panel :=
  let m : Mode := match p.processingScene with
    | some l => l.mode
    | none => ProcessingLook.made.mode
  { p with processings := emplace p.processings t ⟨m, p.plane, p.flags, p.wires⟩, processingCurrent := some t }

/-- `update_show_buttons_pressing` (`src/ui/qt/main_window.cpp:696-711`), with `get_mesh_visibility`
(`src/ui/qt/structure_view/structure_view.cpp:151-153`: the first scene is that of the plane YZ) and `get_display_mode`
(`src/ui/qt/processing_view/processing_view.cpp:75-77`). -/
def updateShowButtons (p : Panel) : Except Fault Panel :=
  match p.structureScene, p.processingScene with
  | some v, some l => .ok { p with checked := { p.checked with mesh := v .yz, mode := l.mode } }
  | _, _ => .error .outOfRange

/-- `MainWindow::make_current_state_view` (`src/ui/qt/main_window.cpp:608-633`). -/
def makeCurrentStateView (p : Panel) (t : Addr) : Panel := (p.makeStructure t).makeProcessing t

/-- `MainWindow::go_to_current_state` (`src/ui/qt/main_window.cpp:598-605`) with those of the views
(`src/ui/qt/structure_view/structure_view.cpp:210-221`, `src/ui/qt/processing_view/processing_view.cpp:132-143`), whose scene exists when
it is called. -/
def goToCurrentState (p : Panel) (t : Addr) : Except Fault Panel :=
  updateShowButtons { p with structureCurrent := some t, processingCurrent := some t }

/-- `MainWindow::go_to_or_make_current_state` (`src/ui/qt/main_window.cpp:587-595`). -/
def goToOrMakeCurrentState (p : Panel) (t : Addr) : Except Fault Panel :=
  if (p.structures.lookup t).isSome && (p.processings.lookup t).isSome then p.goToCurrentState t
  else .ok (p.makeCurrentStateView t)

/-- `MainWindow::clear` (`src/ui/qt/main_window.cpp:177-182`) with those of the views (`src/ui/qt/structure_view/structure_view.cpp:68-75`,
`src/ui/qt/processing_view/processing_view.cpp:41-47`). -/
def clear (p : Panel) : Panel := { p with structures := [], structureCurrent := none, processings := [], processingCurrent := none }

/-- A button of a group: it is checked, then its slot runs. Qt ignores a disabled one. -/
def press (p : Panel) (check : Checked → Checked) (slot : Panel → Except Fault Panel) : Except Fault Panel :=
  if p.enabled then slot { p with checked := check p.checked } else .ok p

/-- `on_tb_plane_*_clicked` (`src/ui/qt/main_window.cpp:211-226`). -/
def clickPlane (p : Panel) (pl : Plane) : Except Fault Panel :=
  p.press (fun c => { c with plane := pl }) fun p => do
    let p ← p.setStructurePlane pl
    p.setProcessingPlane pl

/-- `on_tb_show_*_mesh_clicked` (`src/ui/qt/main_window.cpp:272-297`). -/
def clickMesh (p : Panel) (v : MeshVisibility) : Except Fault Panel :=
  p.press (fun c => { c with mesh := v }) fun p => do
    let p ← p.setMeshVisibility v
    let p ← p.setFlags v.flags
    p.fit

/-- `on_tb_show_selected_clicked`, `on_tb_show_displayed_clicked`, `on_tb_show_everything_clicked`
(`src/ui/qt/main_window.cpp:300-315`). -/
def clickMode (p : Panel) (m : Mode) : Except Fault Panel :=
  p.press (fun c => { c with mode := m }) fun p => do
    let p ← p.setMode m
    p.fit

/-- `on_tb_curved_wires_clicked`, `on_tb_direct_wires_clicked` (`src/ui/qt/main_window.cpp:318-325`). -/
def clickWires (p : Panel) (w : WireStyle) : Except Fault Panel :=
  p.press (fun c => { c with wires := w }) fun p => .ok (p.setWires w)

/-- The plane of the button clicked by the Page Up key (`src/ui/qt/main_window.cpp:715-723`). -/
def planeUp : Plane → Plane
  | .xy => .zx
  | .zx => .yz
  | .yz => .xy

/-- The plane of the button clicked by the Page Down key (`src/ui/qt/main_window.cpp:724-732`). -/
def planeDown : Plane → Plane
  | .xy => .yz
  | .zx => .xy
  | .yz => .zx

/-- `on_a_fit_triggered` (`src/ui/qt/main_window.cpp:238-245`): no one ever disables this action. -/
def clickFit (p : Panel) : Except Fault Panel := do
  let p ← p.fit
  match p.structureScene with
  | none => .error .useAfterFree
  | some _ => .ok p

/-- The end of `on_a_file_open_triggered` and of `parse_and_display` (`src/ui/qt/main_window.cpp:371-377, 129-157`): the file is
refused, or accepted with `t` current once it is meshed. -/
def openFile (p : Panel) (accepted : Option Addr) : Except Fault Panel :=
  match accepted with
  | none => .ok { p.clear with enabled := false }
  | some t => { p.clear with enabled := true }.makeCurrentStateView t |>.clickFit

end Panel

/-- What the user does (`src/ui/qt/main_window.cpp:211-377, 546-654, 714-741`): the buttons, the keys, Fit; a navigation or an
edition that makes a timepoint current; a file chosen. -/
inductive Deed where
  | plane (pl : Plane)
  | pageUp
  | pageDown
  | mesh (v : MeshVisibility)
  | mode (m : Mode)
  | wires (w : WireStyle)
  | fit
  | navigated (t : Addr)
  | edited (t : Addr)
  | file (accepted : Option Addr)

/-- One deed. The navigation buttons and the editions need a board (`src/ui/qt/main_window.cpp:657-685`). -/
def Deed.run (p : Panel) : Deed → Except Fault Panel
  | .plane pl => p.clickPlane pl
  | .pageUp => p.clickPlane (Panel.planeUp p.checked.plane)
  | .pageDown => p.clickPlane (Panel.planeDown p.checked.plane)
  | .mesh v => p.clickMesh v
  | .mode m => p.clickMode m
  | .wires w => p.clickWires w
  | .fit => p.clickFit
  | .navigated t => if p.enabled then p.goToOrMakeCurrentState t else .ok p
  | .edited t => if p.enabled then .ok (p.makeCurrentStateView t) else .ok p
  | .file accepted => p.openFile accepted

/-- Deeds one after the other. -/
def runDeeds : List Deed → Panel → Except Fault Panel
  | [], p => .ok p
  | d :: ds, p => do runDeeds ds (← d.run p)

end Verif.Show
