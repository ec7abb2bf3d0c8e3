import Verif.Model.Paint
import Mathlib.Data.Rat.Defs

/-! # C159–C162: what shows in the structure view -/

namespace Verif.Paint

/-- The colour something is drawn with: of a polygon that of its inside. -/
def Drawn.color : Drawn → Color
  | .horizontal p | .vertical p | .circle p | .line p | .lines p => p.color
  | .rect c => c
  | .polygon c _ => c

/-- An item that is painted in the colours of its material. -/
def InMaterial (useMaterial : Bool) (i : Item) : Prop := useMaterial = true ∧ ∃ m, i = .polygon (some m)

theorem chosen_known (names : List String) : chosen names = main ∨ chosen names = second := by
  induction names with
  | nil => exact .inl rfl
  | cons n ns ih =>
    unfold chosen
    split
    · rename_i style h
      simp only [findStyle, availableStyles, List.find?_cons, List.find?_nil] at h
      split at h
      · simp only [Option.map_some, Option.some.injEq] at h
        exact .inl h.symm
      · split at h
        · simp only [Option.map_some, Option.some.injEq] at h
          exact .inr h.symm
        · simp at h
    · exact ih

/-- The style is that of the name chosen last, of those that are known. -/
theorem C159_style (names : List String) :
    chosen ("Main" :: names) = main ∧ chosen ("2" :: names) = second ∧
    ∀ n, n ≠ "Main" → n ≠ "2" → chosen (n :: names) = chosen names := by
  refine ⟨rfl, rfl, fun n h1 h2 => ?_⟩
  have : findStyle n = none := by
    simp [findStyle, availableStyles, List.find?_cons, h1.symm, h2.symm]
  rw [chosen, this]

/-- In each style, hovered or not, what is selected is painted otherwise than what is not. What is missing: hovered edges, and what is
painted in the colours of its material. -/
theorem C159_partial (names : List String) (useMaterial hovered : Bool) (i : Item) (hm : ¬ InMaterial useMaterial i)
    (he : ¬ (i = .edge ∧ hovered = true)) :
    paint (chosen names) useMaterial i ⟨true, hovered⟩ ≠ paint (chosen names) useMaterial i ⟨false, hovered⟩ := by
  rcases chosen_known names with h | h <;> rw [h]
  all_goals
    cases i with
    | polygon m =>
      cases m with
      | none => cases useMaterial <;> cases hovered <;> decide
      | some m =>
        cases useMaterial with
        | true => exact absurd ⟨rfl, m, rfl⟩ hm
        | false => cases hovered <;> intro hc <;> injection hc with h1 <;> injection h1 with h2 <;> revert h2 <;> decide
    | edge =>
      cases hovered with
      | true => exact absurd ⟨rfl, rfl⟩ he
      | false => cases useMaterial <;> decide
    | angle a b => cases a <;> cases b <;> cases useMaterial <;> cases hovered <;> decide
    | policy a => cases a <;> cases useMaterial <;> cases hovered <;> decide
    | _ => cases useMaterial <;> cases hovered <;> decide

/-- C159 is false: in each style a hovered edge is painted the same whether it is selected or not, and so is a hovered polygon in the
colours of its material. -/
theorem C159_false (names : List String) :
    (∀ u, paint (chosen names) u .edge ⟨true, true⟩ = paint (chosen names) u .edge ⟨false, true⟩) ∧
    ∀ m, paint (chosen names) true (.polygon (some m)) ⟨true, true⟩ =
      paint (chosen names) true (.polygon (some m)) ⟨false, true⟩ := by
  refine ⟨fun u => ?_, fun m => rfl⟩
  rcases chosen_known names with h | h <;> rw [h] <;> rfl

/-- A polygon is painted in the colours of its material if that is asked for, it has them, and it is selected or hovered. Else it is
painted with the style: one of its four fills. What is missing: a polygon that is neither selected nor hovered. -/
theorem C160_partial (style : StructureStyle) (useMaterial : Bool) (material : Option (Color × Color)) (s : State) :
    (∀ f e, useMaterial = true → material = some (f, e) → (s.selected = true ∨ s.hovered = true) →
      paint style useMaterial (.polygon material) s = [.polygon f ⟨e, 1, false⟩]) ∧
    ((useMaterial = false ∨ material = none ∨ s = ⟨false, false⟩) →
      paint style useMaterial (.polygon material) s = [.polygon
        (match s with
          | ⟨false, false⟩ => style.polygonShapeFillRegular
          | ⟨false, true⟩ => style.polygonShapeFillRegularHovered
          | ⟨true, false⟩ => style.polygonShapeFillSelected
          | ⟨true, true⟩ => style.polygonShapeFillSelectedHovered)
        (match s with
          | ⟨false, false⟩ => ⟨style.polygonShapeContourRegular, 0, false⟩
          | ⟨false, true⟩ => ⟨style.polygonShapeContourRegularHovered, 0, false⟩
          | ⟨true, false⟩ => ⟨style.polygonShapeContourSelected, 0, false⟩
          | ⟨true, true⟩ => ⟨style.polygonShapeContourSelectedHovered, 0, false⟩)]) := by
  rcases s with ⟨a, b⟩
  constructor
  · rintro f e rfl rfl h
    cases a <;> cases b <;> simp_all [paint, paintPolygon]
  · intro h
    cases a <;> cases b <;> cases useMaterial <;> cases material <;> simp_all [paint, paintPolygon, makePolygonShape]

/-- C160 is false: a polygon that is neither selected nor hovered is not painted in the colours of its material, though that is
asked for. -/
theorem C160_false (names : List String) : ∃ f e, paint (chosen names) true (.polygon (some (f, e))) ⟨false, false⟩ ≠
    [.polygon f ⟨e, 1, false⟩] := by
  refine ⟨⟨200, 100, 50, 255⟩, ⟨10, 20, 30, 255⟩, ?_⟩
  rcases chosen_known names with h | h <;> rw [h] <;> decide

/-- Selected, hovered or not: an angle shows in green the axes along which it is meshed and in red the others, a policy is green if it
is enabled and red if not. Not selected, they do not show. -/
theorem C161 (names : List String) (useMaterial hovered h v enabled : Bool) :
    (paint (chosen names) useMaterial (.angle h v) ⟨true, hovered⟩).map Drawn.color =
      [if h then ⟨0, 255, 0, 255⟩ else ⟨255, 0, 0, 255⟩, if v then ⟨0, 255, 0, 255⟩ else ⟨255, 0, 0, 255⟩, ⟨255, 0, 0, 255⟩] ∧
    (∀ d ∈ paint (chosen names) useMaterial (.policy enabled) ⟨true, hovered⟩,
      d.color = if enabled then ⟨0, 255, 0, 255⟩ else ⟨255, 0, 0, 255⟩) ∧
    (∀ d ∈ paint (chosen names) useMaterial (.angle h v) ⟨false, hovered⟩, d.color.a = 0) ∧
    ∀ d ∈ paint (chosen names) useMaterial (.policy enabled) ⟨false, hovered⟩, d.color.a = 0 := by
  rcases chosen_known names with hn | hn <;> rw [hn] <;> cases hovered <;> cases h <;> cases v <;> cases enabled <;>
    cases useMaterial <;> decide

/-- Conflicts and intervals show when they are selected, and only then. -/
theorem C161_selected (names : List String) (useMaterial : Bool) (s : State) {i : Item}
    (hi : i = .interval ∨ i = .ce ∨ i = .docz ∨ i = .tcmlp) :
    ∀ d ∈ paint (chosen names) useMaterial i s, 0 < d.color.a ↔ s.selected = true := by
  rcases s with ⟨a, b⟩
  rcases chosen_known names with hn | hn <;> rw [hn] <;> rcases hi with rfl | rfl | rfl | rfl <;> cases a <;> cases b <;>
    cases useMaterial <;> decide

/-- What fills a zone lets what is below be seen. What is missing: a hovered and selected zone of diagonals. -/
theorem C162_partial (names : List String) (useMaterial : Bool) (s : State) {i : Item}
    (hi : i = .interval ∨ i = .docz ∧ s ≠ ⟨true, true⟩) :
    ∀ d ∈ paint (chosen names) useMaterial i s, d.color.a < 255 := by
  rcases s with ⟨a, b⟩
  rcases chosen_known names with hn | hn <;> rw [hn] <;> rcases hi with rfl | ⟨rfl, h⟩ <;> cases a <;> cases b <;>
    cases useMaterial <;> first | decide | exact absurd rfl h

/-- C162 is false: a selected zone of diagonals hides what is below when it is hovered. -/
theorem C162_false (names : List String) (useMaterial : Bool) :
    ∃ d ∈ paint (chosen names) useMaterial .docz ⟨true, true⟩, d.color.a = 255 := by
  rcases chosen_known names with hn | hn <;> rw [hn] <;> cases useMaterial <;> decide

/-- Of `C159_partial`: in the second style a selected polygon without a material is red, else dark yellow. -/
example : paint (chosen ["2", "Main"]) true (.polygon none) ⟨true, false⟩ = [.polygon ⟨255, 0, 0, 255⟩ ⟨⟨0, 0, 0, 255⟩, 0, false⟩] ∧
    paint (chosen ["2", "Main"]) true (.polygon none) ⟨false, false⟩ = [.polygon ⟨128, 128, 0, 255⟩ ⟨⟨0, 0, 0, 255⟩, 0, false⟩] ∧
    ¬ InMaterial true (.polygon none) := ⟨by decide, by decide, fun h => by obtain ⟨-, m, hm⟩ := h; cases hm⟩

/-- Of `C160_partial`: a hovered polygon in the colours of its material. -/
example : paint main true (.polygon (some (⟨1, 2, 3, 4⟩, ⟨5, 6, 7, 8⟩))) ⟨false, true⟩ =
    [.polygon ⟨1, 2, 3, 4⟩ ⟨⟨5, 6, 7, 8⟩, 1, false⟩] := by decide

/-- Of `C161_selected` and `C162_partial`: a selected interval. -/
example : (paint main false .interval ⟨true, false⟩).map Drawn.color = [⟨0, 255, 0, 100⟩] := by decide

end Verif.Paint
