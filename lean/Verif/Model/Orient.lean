import Mathlib.Analysis.SpecialFunctions.Trigonometric.Basic
import Mathlib.Data.Rat.Floor
import Verif.Model.Geometry

/-!
Model of how `src/ui/qt/structure_view/structure_view.cpp` turns, zooms and fits what it shows, and of the axes that it draws in a
corner. `QGraphicsView` and `QTransform` are those of Qt: `scale`, `rotate`, `translate` and `map` of `QTransform` as documented,
`QGraphicsView::fitInView` as in its sources. Coordinates are reals, angles are in degrees and rational. The scroll bars move what is
shown and neither turn nor scale it: they are not modelled, nor is the font.
-/

namespace Verif.Orient

open Verif.Geom

/-- `QTransform`, without projection (`src/ui/qt/structure_view/structure_view.cpp:87`). -/
structure Transform where
  m11 : ℝ
  m12 : ℝ
  m21 : ℝ
  m22 : ℝ
  dx : ℝ
  dy : ℝ

namespace Transform

/-- The default constructor of `QTransform` (`src/ui/qt/structure_view/structure_view.cpp:87`). -/
def identity : Transform := ⟨1, 0, 0, 1, 0, 0⟩

/-- `QTransform::translate` (`src/ui/qt/structure_view/structure_view.cpp:88-89`). -/
noncomputable def translate (t : Transform) (x y : ℝ) : Transform :=
  { t with dx := t.dx + x * t.m11 + y * t.m21, dy := t.dy + y * t.m22 + x * t.m12 }

/-- `QTransform::scale` (`src/ui/qt/structure_view/structure_view.cpp:55, 90, 125, 127`). -/
noncomputable def scale (t : Transform) (x y : ℝ) : Transform :=
  { t with m11 := t.m11 * x, m12 := t.m12 * x, m21 := t.m21 * y, m22 := t.m22 * y }

/-- An angle in degrees, in radians (`QTransform::rotate`, `src/ui/qt/structure_view/structure_view.cpp:91, 176`). -/
noncomputable def radians (a : ℚ) : ℝ := (a : ℝ) * (Real.pi / 180)

/-- `QTransform::rotate` about the axis that comes out of the screen (`src/ui/qt/structure_view/structure_view.cpp:91, 176`). -/
noncomputable def rotate (t : Transform) (a : ℚ) : Transform :=
  let s := Real.sin (radians a)
  let c := Real.cos (radians a)
  { t with
    m11 := c * t.m11 + s * t.m21, m12 := c * t.m12 + s * t.m22
    m21 := - s * t.m11 + c * t.m21, m22 := - s * t.m12 + c * t.m22 }

/-- `QTransform::map` of a point (`src/ui/qt/structure_view/structure_view.cpp:94, 98-99`). -/
noncomputable def map (t : Transform) (x y : ℝ) : ℝ × ℝ := (t.m11 * x + t.m21 * y + t.dx, t.m12 * x + t.m22 * y + t.dy)

/-- The size of `QTransform::mapRect` of a rectangle: that of the smallest upright rectangle around the four corners
(`QGraphicsView::fitInView`, `src/ui/qt/structure_view/structure_view.cpp:147`). -/
noncomputable def mapSize (t : Transform) (w h : ℝ) : ℝ × ℝ := (|t.m11| * w + |t.m21| * h, |t.m12| * w + |t.m22| * h)

end Transform

/-- `unit` (`src/ui/qt/structure_view/structure_view.cpp:21`): both numbers are integers, so is their quotient. -/
def unit : ℤ := 100 / 3

/-- `std::fmod` (`src/ui/qt/structure_view/structure_view.cpp:175`): the quotient is truncated towards zero. -/
def fmod (a b : ℚ) : ℚ := a - b * (if 0 ≤ a / b then (⌊a / b⌋ : ℚ) else (⌈a / b⌉ : ℚ))

/-- What `StructureView` keeps (`src/ui/qt/structure_view/structure_view.hpp:70-77`) and the transformation that `QGraphicsView` keeps. -/
structure View where
  matrix : Transform
  rotation : ℚ
  plane : Plane

/-- `QWheelEvent`: the modifiers and the turn of the wheel (`src/ui/qt/structure_view/structure_view.cpp:121-142`). -/
structure Wheel where
  ctrl : Bool
  alt : Bool
  dx : ℤ
  dy : ℤ

namespace View

/-- The constructor (`src/ui/qt/structure_view/structure_view.cpp:44-57`). -/
noncomputable def made : View := ⟨Transform.identity.scale 1 (-1), 0, .xy⟩

/-- `QGraphicsView::scale` (`src/ui/qt/structure_view/structure_view.cpp:55, 125, 127`). -/
noncomputable def scale (v : View) (x y : ℝ) : View := { v with matrix := v.matrix.scale x y }

/-- `StructureView::rotate_view` (`src/ui/qt/structure_view/structure_view.cpp:174-177`). -/
noncomputable def rotateView (v : View) (a : ℚ) : View :=
  { v with rotation := fmod (v.rotation + a) 360, matrix := v.matrix.rotate a }

/-- `StructureView::reset_rotation` (`src/ui/qt/structure_view/structure_view.cpp:169-171`). -/
noncomputable def resetRotation (v : View) : View := v.rotateView (- v.rotation)

/-- `StructureView::wheelEvent` (`src/ui/qt/structure_view/structure_view.cpp:121-143`). Scrolling (135-141) changes nothing here. -/
noncomputable def wheel (v : View) (e : Wheel) : View :=
  if e.ctrl then
    if e.dy > 0 then v.scale (11 / 10) (11 / 10) else v.scale (1 / (11 / 10)) (1 / (11 / 10))
  else if e.alt then
    if e.dx > 0 then v.rotateView 5 else v.rotateView (-5)
  else v

open Classical in
/-- `QGraphicsView::fitInView` with `Qt::KeepAspectRatio` (`src/ui/qt/structure_view/structure_view.cpp:147`) of a rectangle of size
`w`, `h` in a viewport of size `vw`, `vh`: the scale is first reset to one, and nothing is done with empty rectangles. The part of
the viewport that is used leaves 2 on each side. -/
noncomputable def fitInView (v : View) (w h vw vh : ℝ) : View :=
  let one := v.matrix.mapSize 1 1
  if one.1 ≤ 0 ∨ one.2 ≤ 0 then v else
  let v := v.scale (1 / one.1) (1 / one.2)
  if vw - 4 ≤ 0 ∨ vh - 4 ≤ 0 then v else
  let size := v.matrix.mapSize w h
  if size.1 ≤ 0 ∨ size.2 ≤ 0 then v else
  let r := min ((vw - 4) / size.1) ((vh - 4) / size.2)
  v.scale r r

/-- `StructureView::fit` (`src/ui/qt/structure_view/structure_view.cpp:146-148`): `w`, `h` is the size of what bounds the polygons. -/
noncomputable def fit (v : View) (w h vw vh : ℝ) : View := v.fitInView (5 + w + 5) (5 + h + 5) vw vh

/-- The structure view in `MainWindow::on_a_fit_triggered` (`src/ui/qt/main_window.cpp:243-244`). -/
noncomputable def fitAction (v : View) (w h vw vh : ℝ) : View := v.resetRotation.fit w h vw vh

/-- `StructureView::set_display_plane` (`src/ui/qt/structure_view/structure_view.cpp:162-166`). -/
def setPlane (v : View) (p : Plane) : View := { v with plane := p }

/-- The transformation for the axes in the corner of a viewport of height `vh`
(`src/ui/qt/structure_view/structure_view.cpp:87-91`). -/
noncomputable def corner (v : View) (vh : ℝ) : Transform :=
  (((Transform.identity.translate 0 vh).translate (2 * unit) (-2 * unit)).scale 1 (-1)).rotate v.rotation

/-- The letter in `box_x` (`src/ui/qt/structure_view/structure_view.cpp:102-109`). -/
def letterX (v : View) : Char :=
  match v.plane with
  | .yz => 'y'
  | .zx => 'z'
  | .xy => 'x'

/-- The letter in `box_y` (`src/ui/qt/structure_view/structure_view.cpp:110-117`). -/
def letterY (v : View) : Char :=
  match v.plane with
  | .yz => 'z'
  | .zx => 'x'
  | .xy => 'y'

/-- What `drawForeground` draws (`src/ui/qt/structure_view/structure_view.cpp:24-41, 94-117`): where the axes meet, the two ends of
the arrows, the two letters and the centres of their boxes. -/
structure Corner where
  origin : ℝ × ℝ
  tipX : ℝ × ℝ
  tipY : ℝ × ℝ
  textX : Char × (ℝ × ℝ)
  textY : Char × (ℝ × ℝ)

/-- `StructureView::drawForeground` (`src/ui/qt/structure_view/structure_view.cpp:78-118`; the path is that of 24-41). -/
noncomputable def foreground (v : View) (vh : ℝ) : Corner where
  origin := (v.corner vh).map (0 * unit) (0 * unit)
  tipX := (v.corner vh).map (1 * unit) (0 * unit)
  tipY := (v.corner vh).map (0 * unit) (1 * unit)
  textX := (v.letterX, (v.corner vh).map (15 / 10 * unit) (0 * unit))
  textY := (v.letterY, (v.corner vh).map (0 * unit) (15 / 10 * unit))

end View

/-- What changes the view (`src/ui/qt/structure_view/structure_view.cpp:121-177`, `src/ui/qt/main_window.cpp:237-245`). -/
inductive Event where
  | wheel (e : Wheel)
  | fit (w h vw vh : ℝ)
  | plane (p : Plane)

/-- One event (`src/ui/qt/structure_view/structure_view.cpp:121-177`, `src/ui/qt/main_window.cpp:237-245`). -/
noncomputable def View.on (v : View) : Event → View
  | .wheel e => v.wheel e
  | .fit w h vw vh => v.fitAction w h vw vh
  | .plane p => v.setPlane p

end Verif.Orient
