import Verif.Model.NodeText
import Verif.Props.PaintGraph
import Verif.Props.Plantuml

/-! # C165 to C167: what is written on the nodes of the processing view -/

namespace Verif.Paint
open Verif.Mesh (Kind Facing)
open Verif.Geom (Normal)
open Verif.Dialog (number)

/-- What a line says of a state that is on or off: its text ends so after the label, and in each style and state of the node its colour
is that of what is enabled, or that of what is disabled, which differ. -/
structure Says (l : List Char × Words) (label : String) (on : Bool) : Prop where
  text : l.1 = label.toList ++ (if on then "true" else "false").toList
  colour (q : Shades) (names : List String) (m : Mark) :
    ((paintText (chosenGraph q names) l.2 m).color = (paintText (chosenGraph q names) .enabled m).color ↔ on = true) ∧
    ((paintText (chosenGraph q names) l.2 m).color = (paintText (chosenGraph q names) .disabled m).color ↔ on = false)

theorem saysOn (label : String) (on : Bool) : Says (label.toList ++ Uml.yesNo on, stateWords (some on)) label on where
  text := by cases on <;> rfl
  colour q names m := by
    have h := (C164_told (q := q) names m).1
    simp only [List.map_cons, List.map_nil, List.nodup_cons, List.mem_cons, List.not_mem_nil, or_false, not_or] at h
    cases on
    · simp [stateWords, Ne.symm h.2.1.2]
    · simp [stateWords, h.2.1.2]

/-- The node of an edge says whether it is meshed, in the colour of it, and what is written on the nodes of two edges is the same only
if their normals and states are. -/
theorem C165 (e e' : EdgeFacts) :
    (∃ w l, writeEdge (some e) = some w ∧ w.lines[1]? = some l ∧ Says l "To mesh: " e.toMesh) ∧
    (writeEdge (some e) = writeEdge (some e') ↔ e = e') := by
  refine ⟨⟨_, _, rfl, rfl, saysOn _ _⟩, ⟨fun h => ?_, fun h => h ▸ rfl⟩⟩
  rcases e with ⟨i, n, a, b⟩
  rcases e' with ⟨i', n', a', b'⟩
  simp only [writeEdge, titleText, Option.map_some, Option.getD_some, Option.some.injEq, Written.mk.injEq, List.append_cancel_left_eq,
    List.cons.injEq, Prod.mk.injEq, and_true] at h
  obtain ⟨h1, h2, ⟨h3, -⟩, h4⟩ := h
  have := Uml.decimal_injective h1
  subst this
  have : n = n' := by cases n <;> cases n' <;> first | rfl | exact absurd h2 (by decide)
  subst this
  have : a = a' := by cases a <;> cases a' <;> first | rfl | exact absurd h3 (by decide)
  subst this
  have : b = b' := by cases b <;> cases b' <;> first | rfl | exact absurd h4 (by decide)
  subst this
  rfl

/-- The node of an angle says whether it is meshed along each axis of its view. -/
theorem C165_angle (a : AngleFacts) : ∃ w l l', writeAngle (some a) = some w ∧ w.lines[1]? = some l ∧ w.lines[2]? = some l' ∧
    Says l "To mesh [H]: " a.toMeshH ∧ Says l' "To mesh [V]: " a.toMeshV :=
  ⟨_, _, _, rfl, rfl, rfl, saysOn _ _, saysOn _ _⟩

/-- The node of a policy says whether it is enabled, and what is written on the nodes of two policies is the same only if they differ
in nothing but `d`, and this after six digits. -/
theorem C165_policy (p p' : PolicyFacts) :
    (∃ w l, writePolicy (some p) = some w ∧ w.lines[1]? = some l ∧ Says l "Is enabled: " p.enabled) ∧
    (writePolicy (some p) = writePolicy (some p') ↔
      p.id = p'.id ∧ p.normal = p'.normal ∧ p.enabled = p'.enabled ∧ p.policy = p'.policy ∧ number p.d = number p'.d) := by
  refine ⟨⟨_, _, rfl, rfl, saysOn _ _⟩, ⟨fun h => ?_, fun h => ?_⟩⟩
  · rcases p with ⟨i, n, a, k, d⟩
    rcases p' with ⟨i', n', a', k', d'⟩
    simp only [writePolicy, titleText, Option.map_some, Option.getD_some, Option.some.injEq, Written.mk.injEq,
      List.append_cancel_left_eq, List.cons.injEq, Prod.mk.injEq, and_true] at h
    obtain ⟨h1, h2, ⟨h3, -⟩, h4, h5⟩ := h
    refine ⟨Uml.decimal_injective h1, ?_, ?_, ?_, h5⟩
    · cases n <;> cases n' <;> first | rfl | exact absurd h2 (by decide)
    · cases a <;> cases a' <;> first | rfl | exact absurd h3 (by decide)
    · cases k <;> cases k' <;> first | rfl | exact absurd h4 (by decide)
  · obtain ⟨h1, h2, h3, h4, h5⟩ := h
    simp only [writePolicy, Option.map_some, Option.getD_some, h1, h2, h3, h4, h5]

/-- The ports of a conflict of colinear edges are one for each edge, in the same order; each ends with whether its edge is meshed, in
the colour of it. -/
theorem C165_ports (c : ColinearFacts) : ∃ w, writeColinear (some c) = some w ∧ w.lines.length = c.edges.length ∧
    ∀ i (h : i < c.edges.length), ∃ l, w.lines[i]? = some l ∧
      l.1 = "Normal: ".toList ++ Uml.normalText c.edges[i].normal ++ (if c.edges[i].toMesh then " enabled" else " disabled").toList ∧
      ∀ (q : Shades) (names : List String) (m : Mark),
        ((paintText (chosenGraph q names) l.2 m).color = (paintText (chosenGraph q names) .portEnabled m).color ↔
          c.edges[i].toMesh = true) ∧
        ((paintText (chosenGraph q names) l.2 m).color = (paintText (chosenGraph q names) .portDisabled m).color ↔
          c.edges[i].toMesh = false) := by
  refine ⟨_, rfl, List.length_map _, fun i h => ⟨_, (List.getElem?_map ..).trans (congrArg _ (List.getElem?_eq_getElem h)), ?_,
    fun q names m => ?_⟩⟩
  · dsimp only
    cases c.edges[i].toMesh <;> rfl
  · have h' := (C164_told (q := q) names m).2
    simp only [List.map_cons, List.map_nil, List.nodup_cons, List.mem_cons, List.not_mem_nil, or_false, not_or] at h'
    dsimp only
    cases c.edges[i].toMesh
    · simp [Ne.symm h'.2.1]
    · simp [h'.2.1]

/-- The lines of the nodes of intervals and of diagonal or circular zones give each value after its name, numbers after six digits. -/
theorem C165_values (i : IntervalFacts) (z : ZoneFacts) :
    (∃ w, writeInterval (some i) = some w ∧ w.lines.map Prod.fst =
      ["dmax: ".toList ++ number i.dmax, "Before.lmin: ".toList ++ Csx.decimal i.beforeLmin,
        "Before.Smoothness: ".toList ++ number i.beforeSmoothness, "After.lmin: ".toList ++ Csx.decimal i.afterLmin,
        "After.Smoothness: ".toList ++ number i.afterSmoothness]) ∧
    ∃ w, writeZone (some z) = some w ∧ w.lines.map Prod.fst =
      ["dmax: ".toList ++ number z.dmax, "lmin: ".toList ++ Csx.decimal z.lmin, "Minimal angle (°): ".toList ++ number z.minimalAngle] :=
  ⟨⟨_, rfl, rfl⟩, _, rfl, rfl⟩

/-- Two edges of one normal, one of them meshed. -/
example : writeEdge (some ⟨7, .xmin, true, false⟩) = some
    { title := "Edge - 7".toList
      lines := [("Normal: XMIN".toList, .normal), ("To mesh: true".toList, .enabled), ("To reverse: false".toList, .normal)] } ∧
    writeEdge (some ⟨7, .xmin, true, false⟩) ≠ writeEdge (some ⟨7, .xmin, false, false⟩) := by decide +kernel

/-- Of `C165_ports`: two edges. -/
example : (writeColinear (some ⟨3, [⟨1, .xmin, true, false⟩, ⟨2, .xmax, false, false⟩]⟩)).map (·.lines) =
    some [("Normal: XMIN enabled".toList, .portEnabled), ("Normal: XMAX disabled".toList, .portDisabled)] := by decide +kernel

/-- The lines of the node of a polygon give its material, if it has one, and its priority. -/
theorem C165_polygon (p p' : PolygonFacts) : ∃ w w', writePolygon (some p) = some w ∧ writePolygon (some p') = some w' ∧
    (w.lines = w'.lines ↔ p.material = p'.material ∧ p.priority = p'.priority) := by
  refine ⟨_, _, rfl, rfl, ⟨fun h => ?_, fun h => ?_⟩⟩
  · simp only [Option.map_some, Option.getD_some, Option.bind_some, List.append_cancel_left_eq, List.cons.injEq, Prod.mk.injEq,
      and_true] at h
    refine ⟨?_, Uml.decimal_injective h.2⟩
    have h1 := h.1
    revert h1
    rcases p.material with _ | k <;> rcases p'.material with _ | k' <;> intro h1
    · rfl
    · cases k' <;> exact absurd h1 (by decide)
    · cases k <;> exact absurd h1 (by decide)
    · cases k <;> cases k' <;> first | rfl | exact absurd h1 (by decide)
  · simp only [Option.map_some, Option.getD_some, Option.bind_some, h.1, h.2]

/-- The line of the node of a mesh line is its coordinate, as it is in the state diagram. -/
theorem C165_meshline (l : MeshlineFacts) : ∃ w, writeMeshline (some l) = some w ∧
    w.lines.map Prod.fst = ["Coord: ".toList ++ Csx.toString6 ⟨decide (l.coord < 0), |l.coord|⟩] :=
  ⟨_, rfl, rfl⟩

/-- A polygon and a mesh line. -/
example : writePolygon (some ⟨5, "gnd".toList, some .conductor, 2⟩) = some
    { title := "Polygon - 5 - gnd".toList
      lines := [("Type: CONDUCTOR".toList, .normal), ("Priority: 2".toList, .normal)] } ∧
    writeMeshline (some ⟨6, 1 / 4⟩) = some { title := "Meshline - 6".toList, lines := [("Coord: 0.250000".toList, .normal)] } := by
  decide +kernel

/-- What is written on the node of a policy gives `d`. -/
def DShown : Prop := ∀ p p' : PolicyFacts, writePolicy (some p) = writePolicy (some p') → p = p'

/-- It does not: two policies whose `d` differ in the seventh digit have the same node. -/
theorem C166_false : ¬ DShown := fun h =>
  absurd (h ⟨1, .min, true, .halfs, 1⟩ ⟨1, .min, true, .halfs, 1 + 1 / 10000000⟩ (by decide +kernel)) (by decide +kernel)

/-- For policies with the same `d`, it gives the rest. Missing: `d` itself, of which six digits are written. -/
theorem C166_partial {p p' : PolicyFacts} (hd : p.d = p'.d) (h : writePolicy (some p) = writePolicy (some p')) : p = p' := by
  obtain ⟨h1, h2, h3, h4, -⟩ := (C165_policy p p').2.mp h
  cases p; cases p'
  simp_all

/-- Two policies that differ in another thing. -/
example : writePolicy (some ⟨1, .min, true, .halfs, 1 / 2⟩) ≠ writePolicy (some ⟨1, .min, true, .thirds, 1 / 2⟩) := by decide +kernel

/-- A node can be made without an entity, as each constructor provides for. -/
def MadeWithout : Prop := writeEdge none ≠ none ∨ writeAngle none ≠ none ∨ writePolicy none ≠ none ∨ writeInterval none ≠ none ∨
  writeZone none ≠ none ∨ writeColinear none ≠ none ∨ writeMeshline none ≠ none ∨ writePolygon none ≠ none

/-- None can: the identifier is read through the null pointer. -/
theorem C167_false : ¬ MadeWithout := fun h => by
  rcases h with h | h | h | h | h | h | h | h <;> exact h rfl

theorem map_ne_none {α β : Type} (f : α → β) (o : Option α) : o.map f ≠ none ↔ o ≠ none := not_congr Option.map_eq_none_iff

/-- A node is made for each entity, and for nothing else. Missing: what the tests of the pointers are for. -/
theorem C167_partial (e : Option EdgeFacts) (a : Option AngleFacts) (p : Option PolicyFacts) (i : Option IntervalFacts)
    (z : Option ZoneFacts) (c : Option ColinearFacts) (l : Option MeshlineFacts) (g : Option PolygonFacts) :
    (writeEdge e ≠ none ↔ e ≠ none) ∧ (writeAngle a ≠ none ↔ a ≠ none) ∧ (writePolicy p ≠ none ↔ p ≠ none) ∧
    (writeInterval i ≠ none ↔ i ≠ none) ∧ (writeZone z ≠ none ↔ z ≠ none) ∧ (writeColinear c ≠ none ↔ c ≠ none) ∧
    (writeMeshline l ≠ none ↔ l ≠ none) ∧ (writePolygon g ≠ none ↔ g ≠ none) :=
  ⟨map_ne_none _ e, map_ne_none _ a, map_ne_none _ p, map_ne_none _ i, map_ne_none _ z, map_ne_none _ c,
    map_ne_none _ l, map_ne_none _ g⟩

/-- An angle that has a node. -/
example : (writeAngle (some ⟨4, 45, true, false⟩)).map (·.lines) = some [("Angle (°): 45".toList, .normal),
    ("To mesh [H]: true".toList, .enabled), ("To mesh [V]: false".toList, .disabled)] := by decide +kernel

end Verif.Paint
