import Verif.Model.Orient

/-! What is meant by the directions shown by a view. -/

namespace Verif.Orient

open Verif.Geom

/-- The views that are reached from the first one. -/
inductive Reach : View → Prop
  | made : Reach View.made
  | on {v : View} (e : Event) : Reach v → Reach (v.on e)

/-- The name of an axis. -/
def name : Axis → Char
  | .x => 'x'
  | .y => 'y'
  | .z => 'z'

/-- Two arrows that point the same way. -/
def SameWay (a b : ℝ × ℝ) : Prop := ∃ k : ℝ, 0 < k ∧ a.1 = k * b.1 ∧ a.2 = k * b.2

/-- Where a step of length one along an axis of the scene leads on the screen; `x` goes to the right and `y` down there. -/
noncomputable def Transform.step (t : Transform) : ViewAxis → ℝ × ℝ
  | .h => (t.m11, t.m12)
  | .v => (t.m21, t.m22)

/-- The angle in degrees by which a turn of the wheel turns the view, counterclockwise. -/
def turn (e : Wheel) : ℚ :=
  match e.ctrl, e.alt with
  | false, true => if 0 < e.dx then 5 else -5
  | _, _ => 0

/-- The view, and by how much the wheel turned it since it was made or fitted. -/
inductive Turned : View → ℚ → Prop
  | made : Turned View.made 0
  | wheel {v : View} {a : ℚ} (e : Wheel) : Turned v a → Turned (v.on (.wheel e)) (a + turn e)
  | fit {v : View} {a : ℚ} (w h vw vh : ℝ) : Turned v a → Turned (v.on (.fit w h vw vh)) 0
  | plane {v : View} {a : ℚ} (p : Plane) : Turned v a → Turned (v.on (.plane p)) a

/-- The view, and the plane that was chosen last, XY at first. -/
inductive Chosen : View → Plane → Prop
  | made : Chosen View.made .xy
  | wheel {v : View} {p : Plane} (e : Wheel) : Chosen v p → Chosen (v.on (.wheel e)) p
  | fit {v : View} {p : Plane} (w h vw vh : ℝ) : Chosen v p → Chosen (v.on (.fit w h vw vh)) p
  | plane {v : View} {p : Plane} (p' : Plane) : Chosen v p → Chosen (v.on (.plane p')) p'

/-- The first axis of the scene is seen at an angle from the right, counterclockwise. -/
def Heading (t : Transform) (a : ℚ) : Prop :=
  ∃ k : ℝ, 0 < k ∧ t.step .h = (k * Real.cos (a * Real.pi / 180), - (k * Real.sin (a * Real.pi / 180)))

/-- A scene is neither distorted nor mirrored: the second axis is seen a quarter of a turn counterclockwise from the first one, as
long as it. -/
def Faithful (t : Transform) : Prop :=
  t.step .h ≠ (0, 0) ∧ t.step .v = ((t.step .h).2, - (t.step .h).1)

end Verif.Orient
