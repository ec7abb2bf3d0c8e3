import Verif.Model.PaintGraph
import Mathlib.Data.Rat.Defs
import Mathlib.Tactic.NormNum

/-! # C163, C164: what shows in the processing view -/

namespace Verif.Paint

variable {q : Shades}

/-- What is assumed of Qt: a lighter grey is a grey, not more than twice as light; a darker grey is a grey, not less than half as
light; lighter dark yellow is a yellow. -/
structure Shades.Plain (q : Shades) : Prop where
  lighter (v : Nat) : ∃ w, q.lighter ⟨v, v, v, 255⟩ 150 = ⟨w, w, w, 255⟩ ∧ w ≤ 2 * v
  darker (v : Nat) : ∃ w, q.darker ⟨v, v, v, 255⟩ 150 = ⟨w, w, w, 255⟩ ∧ v ≤ 2 * w
  yellow : ∃ w, q.lighter ⟨128, 128, 0, 255⟩ 150 = ⟨w, w, 0, 255⟩ ∧ 0 < w

theorem chosenGraph_known (q : Shades) (names : List String) :
    chosenGraph q names = mainGraph q ∨ chosenGraph q names = secondGraph q := by
  induction names with
  | nil => exact .inl rfl
  | cons n ns ih =>
    unfold chosenGraph
    split_ifs
    · exact .inl rfl
    · exact .inr rfl
    · exact ih

/-- The three ways a node can be shown. -/
def Mark.Same (m m' : Mark) : Prop := m.selected = m'.selected ∧ (m.selected = false → m.highlighted = m'.highlighted)

/-- In each style, hovered or not, a node that is selected, one that is highlighted and one that is neither are painted in three ways,
and selected ones in the same way, highlighted or not. -/
theorem C163 (hq : q.Plain) (names : List String) {m m' : Mark} (hh : m.hovered = m'.hovered) :
    paintNode (chosenGraph q names) m = paintNode (chosenGraph q names) m' ↔ m.Same m' := by
  obtain ⟨a, ha, ha'⟩ := hq.lighter 27
  obtain ⟨b, hb, hb'⟩ := hq.lighter 33
  obtain ⟨c, hc, hc'⟩ := hq.darker 222
  obtain ⟨d, hd, hd'⟩ := hq.darker 255
  obtain ⟨y, hy, hy'⟩ := hq.yellow
  rcases m with ⟨s, g, h⟩
  rcases m' with ⟨s', g', h'⟩
  simp only at hh
  subst hh
  rcases chosenGraph_known q names with hn | hn <;> rw [hn] <;> cases h <;> cases s <;> cases g <;> cases s' <;> cases g' <;>
    simp [paintNode, makeNode, Six.choose, Mark.Same, mainGraph, secondGraph, Color.white, Color.darkYellow, ha, hb, hc, hd, hy] <;>
    omega

/-- In each style, a wire between two nodes that are highlighted or selected is painted otherwise than one that has an end which is
neither, hovered or not. A wire with an end that is not visible is not painted. -/
theorem C163_wire (names : List String) (hovered : Bool) {b e b' e' : Mark} (h1 : b.highlighted = true ∨ b.selected = true)
    (h2 : e.highlighted = true ∨ e.selected = true)
    (h3 : ¬ ((b'.highlighted = true ∨ b'.selected = true) ∧ (e'.highlighted = true ∨ e'.selected = true))) (x : Option Mark) :
    paintWire (chosenGraph q names) false hovered (some b) (some e) ≠
      paintWire (chosenGraph q names) false hovered (some b') (some e') ∧
    paintWire (chosenGraph q names) false hovered (some b) (some e) ≠ none ∧
    paintWire (chosenGraph q names) false hovered none x = none ∧ paintWire (chosenGraph q names) false hovered x none = none := by
  have e1 : ((b.highlighted || b.selected) && (e.highlighted || e.selected)) = true := by simp [h1, h2]
  have e2 : ((b'.highlighted || b'.selected) && (e'.highlighted || e'.selected)) = false := by
    rw [Bool.eq_false_iff]
    simpa using h3
  refine ⟨?_, by simp [paintWire], rfl, by cases x <;> rfl⟩
  simp only [paintWire, e1, e2]
  rcases chosenGraph_known q names with hn | hn <;> rw [hn] <;> cases hovered <;>
    norm_num [makeWire, Six.choose, mainGraph, secondGraph]

/-- In each style and state, no text has the colour of what it is written on: a title that of the bar of its node, the others that of
the node. -/
theorem C164 (hq : q.Plain) (names : List String) (w : Words) (m : Mark) :
    (paintText (chosenGraph q names) w m).color ≠
      (if w = .title then (paintNode (chosenGraph q names) m).2 else (paintNode (chosenGraph q names) m).1) := by
  obtain ⟨a, ha, ha'⟩ := hq.lighter 27
  obtain ⟨b, hb, hb'⟩ := hq.lighter 33
  obtain ⟨c, hc, hc'⟩ := hq.darker 222
  obtain ⟨d, hd, hd'⟩ := hq.darker 255
  obtain ⟨y, hy, hy'⟩ := hq.yellow
  rcases m with ⟨s, g, h⟩
  rcases chosenGraph_known q names with hn | hn <;> rw [hn] <;> cases h <;> cases s <;> cases g <;> cases w <;>
    simp [paintText, paintNode, makeNode, makeTitle, makeTextNormal, makeTextEnabled, makeTextEnabledForSure, makeTextDisabled,
      makePortNormal, makePortEnabled, makePortDisabled, Six.choose, mainGraph, secondGraph, Color.white, Color.black, Color.darkYellow,
      Color.darkGreen, Color.green, Color.darkRed, Color.darkMagenta, ha, hb, hc, hd, hy] <;>
    omega

/-- In each style and state, what is enabled, what is enabled for sure, what is disabled and other lines are written in four colours;
the names of ports in three. -/
theorem C164_told (names : List String) (m : Mark) :
    ([Words.normal, .enabled, .enabledForSure, .disabled].map fun w => (paintText (chosenGraph q names) w m).color).Nodup ∧
    ([Words.portNormal, .portEnabled, .portDisabled].map fun w => (paintText (chosenGraph q names) w m).color).Nodup := by
  rcases m with ⟨s, g, h⟩
  rcases chosenGraph_known q names with hn | hn <;> rw [hn] <;> cases h <;> cases s <;> cases g <;>
    simp [paintText, makeTextNormal, makeTextEnabled, makeTextEnabledForSure, makeTextDisabled,
      makePortNormal, makePortEnabled, makePortDisabled, Six.choose, mainGraph, secondGraph, Color.white, Color.black,
      Color.darkGreen, Color.green, Color.darkRed, Color.darkMagenta]

/-- The style is that of the name chosen last, of those that are known: highlighted lines are dark magenta in the second one and white
in the first one. -/
theorem C164_style (names : List String) :
    (paintText (chosenGraph q ("2" :: names)) .normal ⟨false, true, false⟩).color = ⟨128, 0, 128, 255⟩ ∧
    (paintText (chosenGraph q ("Main" :: names)) .normal ⟨false, true, false⟩).color = ⟨255, 255, 255, 255⟩ ∧
    ∀ n, n ≠ "Main" → n ≠ "2" → chosenGraph q (n :: names) = chosenGraph q names :=
  ⟨rfl, rfl, fun n h1 h2 => by rw [chosenGraph, if_neg h1, if_neg h2]⟩

/-- Shades that are as assumed. -/
def plainShades : Shades where
  lighter c f := if c.r = c.b then ⟨c.r * f / 100, c.g * f / 100, c.b * f / 100, c.a⟩ else ⟨192, 192, 0, 255⟩
  darker c _ := c

example : plainShades.Plain where
  lighter v := ⟨v * 150 / 100, by simp [plainShades], by omega⟩
  darker v := ⟨v, rfl, by omega⟩
  yellow := ⟨192, by decide, by decide⟩

/-- Of `C163`: a highlighted node and one that is not. -/
example : paintNode (mainGraph plainShades) ⟨false, true, false⟩ = (⟨27, 27, 27, 255⟩, ⟨222, 222, 222, 255⟩) ∧
    paintNode (mainGraph plainShades) ⟨false, false, false⟩ = (⟨27, 27, 27, 255⟩, ⟨33, 33, 33, 255⟩) := by decide

end Verif.Paint
