import Verif.Model.Wires

/-! # Where wires are, and what may happen to them -/

namespace Verif.Wires

/-- The greater of two numbers. -/
def Greater (d a b : ℚ) : Prop := a ≤ d ∧ b ≤ d ∧ (d = a ∨ d = b)

/-- The point of the border of a node – of the port itself, if it is in none – in front of the middle of the port. -/
def Touches (anchor : Anchor) (g : Place) (p : Pt) : Prop :=
  let across := p.x - g.rect.left = g.rect.right - p.x
  let along := p.y - g.rect.top = g.rect.bottom - p.y
  match anchor, g.parent.getD g.rect with
  | .top, r => across ∧ p.y = r.top
  | .bottom, r => across ∧ p.y = r.bottom
  | .left, r => along ∧ p.x = r.left
  | .right, r => along ∧ p.x = r.right

/-- `c` is outwards from `p`, half as far as `q` is along that direction, but at least 50. -/
def Handle (anchor : Anchor) (p c q : Pt) : Prop :=
  match anchor with
  | .top => c.x = p.x ∧ Greater (p.y - c.y) 50 (|p.y - q.y| / 2)
  | .bottom => c.x = p.x ∧ Greater (c.y - p.y) 50 (|p.y - q.y| / 2)
  | .left => c.y = p.y ∧ Greater (p.x - c.x) 50 (|p.x - q.x| / 2)
  | .right => c.y = p.y ∧ Greater (c.x - p.x) 50 (|p.x - q.x| / 2)

/-- The path goes from the border of a node to the border of another, in the given style. -/
def Joins (style : Style) (b e : Port) (path : Path) : Prop :=
  ∃ p1 p2, Touches b.anchor b.place p1 ∧ Touches e.anchor e.place p2 ∧
    match style with
    | .direct => path = .line p1 p2
    | .curved => ∃ c1 c2, path = .cubic p1 c1 c2 p2 ∧ Handle b.anchor p1 c1 p2 ∧ Handle e.anchor p2 c2 p1

/-- What may happen to a scene. -/
inductive Event
  | addPort (anchor : Anchor) (place : Place) (visible : Bool)
  | addWire (b e : Nat)
  | show (p : Nat) (visible : Bool)
  | move (places : Nat → Place)
  | style (style : Style)

/-- What it does. -/
def Scene.on (s : Scene) : Event → Option Scene
  | .addPort anchor place visible => some (s.addPort anchor place visible)
  | .addWire b e => s.addWire b e
  | .show p v => s.setPortVisible v p
  | .move places => s.move places
  | .style st => s.setStyle st

/-- When it may happen: wires join different ports, and nodes do not change size around ports that stay where they are. -/
def Scene.Allows (s : Scene) : Event → Prop
  | .addPort _ _ _ => True
  | .addWire b e => b ≠ e ∧ s.port b ≠ none ∧ s.port e ≠ none
  | .show p _ => s.port p ≠ none
  | .move places => ∀ p x, s.port p = some x → x.place.rect.left = (places p).rect.left → x.place.rect.top = (places p).rect.top →
      ∀ pt, Touches x.anchor x.place pt → Touches x.anchor (places p) pt
  | .style _ => True

/-- The scenes there may be, before they are deleted. -/
inductive Reach : Scene → Prop
  | start : Reach ⟨[], []⟩
  | step {s s' : Scene} (e : Event) : Reach s → s.Allows e → s.on e = some s' → Reach s'

end Verif.Wires
