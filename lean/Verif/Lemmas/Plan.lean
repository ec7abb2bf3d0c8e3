import Verif.Spec.Plan
import Verif.Lemmas.Build
import Verif.Props.Geometry

/-!
# The board made of any polygons
-/

namespace Verif.Board
open Verif.Geom Verif.Geom.Spec
open Verif.Mesh (tolerance)
open Spec

/-- The polygon a part was made of. -/
def Part.piece (q : Part) : Piece := ⟨q.plane, q.priority, q.z, q.points⟩

theorem makeParts_pieces (added : List Csx.Added) (h : ∀ x ∈ pieces added, x.points ≠ []) :
    ∃ parts, makeParts added = some parts ∧ parts.map Part.piece = pieces added ∧
      ∀ q ∈ parts, polygonEdges q.points = some q.edges := by
  induction added with
  | nil => exact ⟨[], rfl, rfl, by simp⟩
  | cons x rest ih =>
    cases x with
    | line axis c =>
      exact ih h
    | polygon plane m priority z points =>
      have hne : points ≠ [] := h ⟨plane, priority, z, points⟩ (by simp [pieces])
      obtain ⟨parts, h1, h2, h3⟩ := ih fun x hx => h x (by
        simp only [pieces, List.filterMap_cons, List.mem_cons] at hx ⊢
        exact Or.inr hx)
      obtain ⟨b, hb⟩ : ∃ b, detectBounding points = some b := by
        cases points with
        | nil => exact absurd rfl hne
        | cons p l => exact ⟨_, rfl⟩
      obtain ⟨es, hes⟩ : ∃ es, polygonEdges points = some es := by
        unfold polygonEdges detectEdges
        rw [List.getLast?_eq_some_getLast hne]
        exact ⟨_, rfl⟩
      refine ⟨⟨plane, m, priority, z, points, b, es⟩ :: parts, ?_, ?_, ?_⟩
      · unfold makeParts makePart
        rw [hb, hes, h1]
        rfl
      · simp [pieces, Part.piece] at h2 ⊢
        exact h2
      · intro q hq
        rcases List.mem_cons.1 hq with rfl | hq
        · exact hes
        · exact h3 q hq

/-- The edges of a part are the sides of its polygon. -/
theorem part_edges {q : Part} (h : polygonEdges q.points = some q.edges) :
    detectEdges q.points = some (q.edges.map Edge.seg) ∧ q.edges.length = q.points.length ∧
      ∀ i x, q.edges[i]? = some x → i < q.points.length ∧ x.seg = sideAt q.points i ∧
        x.normal = (edgeDirection x.seg).map (edgeNormal (detectRotation q.points)) := by
  unfold polygonEdges at h
  obtain ⟨es, hes, h⟩ := Option.map_eq_some_iff.1 h
  obtain ⟨hlen, hget⟩ := detectEdges_get hes
  have e : q.edges.map Edge.seg = es := by
    rw [← h, List.map_map]
    exact List.map_id es
  refine ⟨e.symm ▸ hes, by rw [← h, List.length_map, hlen], fun i x hx => ?_⟩
  rw [← h, List.getElem?_map, Option.map_eq_some_iff] at hx
  obtain ⟨s, hs, rfl⟩ := hx
  obtain ⟨hi, rfl⟩ := List.getElem?_eq_some_iff.1 hs
  exact ⟨hlen ▸ hi, hget i hi, rfl⟩

theorem normal_of_area {points : List Point} (h : 2 * tolerance ≤ |signedArea points|) {s : Segment}
    (hs : Horizontal s ∨ Vertical s) :
    ((edgeDirection s).map (edgeNormal (detectRotation points))).getD .none ≠ .none := by
  have hr : detectRotation points ≠ .colinear := fun hc => not_lt.2 h ((C34_sense points).2.2.1 hc)
  have hd : edgeDirection s = some .xmax ∨ edgeDirection s = some .xmin ∨ edgeDirection s = some .ymax ∨
      edgeDirection s = some .ymin := by
    rcases hs with hs | hs
    · rcases edgeDirection_h (horizontal_iff.1 hs) with h | h <;> simp [h.1]
    · rcases edgeDirection_v (vertical_iff.1 hs) with h | h <;> simp [h.1]
  generalize detectRotation points = r at hr
  rcases hd with h | h | h | h <;> rw [h] <;> cases r <;> simp_all [edgeNormal]

section
variable {angle : Ang → ℚ} {background : Option MaterialKind} {added : List Csx.Added} {parts : List Part}

theorem mem_edges_parts (hparts : ∀ q ∈ parts, polygonEdges q.points = some q.edges) {p : Plane} {n : Nat} :
    n ∈ (assemble angle background added parts).input.edges p ↔ ∃ i q k, parts[i]? = some q ∧ q.plane = p ∧
      k < q.points.length ∧ n = firstEdge parts i + k := by
  unfold Input.edges
  simp only [List.mem_flatMap, List.mem_map]
  constructor
  · rintro ⟨i, hi, e, he, rfl⟩
    obtain ⟨q, hq, hp⟩ := mem_polygons.1 hi
    obtain ⟨k, x, hx, rfl⟩ := (mem_polygon_edges hq).1 he
    exact ⟨i, q, k, hq, hp, ((part_edges (hparts q (List.mem_of_getElem? hq))).2.2 k x hx).1, rfl⟩
  · rintro ⟨i, q, k, hq, hp, hk, rfl⟩
    obtain ⟨-, hlen, -⟩ := part_edges (hparts q (List.mem_of_getElem? hq))
    have hx : q.edges[k]? = some (q.edges[k]'(hlen ▸ hk)) := List.getElem?_eq_getElem _
    exact ⟨i, mem_polygons.2 ⟨q, hq, hp⟩, _, (mem_polygon_edges hq).2 ⟨k, _, hx, rfl⟩, rfl⟩

/-- The edge with this number. -/
theorem edge_part (hparts : ∀ q ∈ parts, polygonEdges q.points = some q.edges) {i k : Nat} {q : Part} (hq : parts[i]? = some q)
    (hk : k < q.points.length) :
    (assemble angle background added parts).input.E (firstEdge parts i + k) = ⟨q.plane, sideAt q.points k,
      ((edgeDirection (sideAt q.points k)).map (edgeNormal (detectRotation q.points))).getD .none, true, false⟩ := by
  obtain ⟨-, hlen, hget⟩ := part_edges (hparts q (List.mem_of_getElem? hq))
  have hx : q.edges[k]? = some (q.edges[k]'(hlen ▸ hk)) := List.getElem?_eq_getElem _
  obtain ⟨-, h1, h2⟩ := hget k _ hx
  rw [edge_eq hq hx]
  unfold makeEdge
  rw [h2, h1]

theorem plan_built (hparts : ∀ q ∈ parts, polygonEdges q.points = some q.edges) (hplan : Plan (parts.map Part.piece))
    {E : Nat → BEdge} (hE : SameButReverse (assemble angle background added parts).input.E E) :
    Built { (assemble angle background added parts).input with E := E } ∧
    LinesApart { (assemble angle background added parts).input with E := E } := by
  have hme := @mem_edges_parts angle background added parts hparts
  have hmp := @mem_polygons angle background added parts
  have hmem : ∀ {i : Nat} {q : Part}, parts[i]? = some q → q.piece ∈ parts.map Part.piece := fun h =>
    List.mem_map_of_mem (List.mem_of_getElem? h)
  have hseg : ∀ {i : Nat} {q : Part} {k : Nat}, parts[i]? = some q → k < q.points.length →
      (E (firstEdge parts i + k)).seg = sideAt q.points k ∧ (E (firstEdge parts i + k)).plane = q.plane ∧
      (E (firstEdge parts i + k)).side =
        ((edgeDirection (sideAt q.points k)).map (edgeNormal (detectRotation q.points))).getD .none := by
    intro i q k hq hk
    obtain ⟨b, hb⟩ := hE (firstEdge parts i + k)
    rw [edge_part hparts hq hk] at hb
    rw [hb]
    exact ⟨rfl, rfl, rfl⟩
  have hin : ∀ {n : Nat} {e : Nat × Segment} {q : Part}, parts[n]? = some q → e ∈ ((assemble angle background added parts).input.P n).edges →
      ∃ k < q.points.length, e = (firstEdge parts n + k, sideAt q.points k) := by
    intro n e q hq he
    obtain ⟨k, x, hx, rfl⟩ := (mem_polygon_edges hq).1 he
    obtain ⟨h1, h2, -⟩ := (part_edges (hparts q (List.mem_of_getElem? hq))).2.2 k x hx
    exact ⟨k, h1, by rw [h2]⟩
  refine ⟨⟨fun p n hn => ?_, fun p n hn e he => ?_, fun p => edges_own (angle := angle) (background := background)
    (added := added) p, fun p n hn e he hs => ?_, fun p n hn => ?_⟩,
    ⟨fun p i hi j hj => ?_, fun p i hi j hj => ?_⟩⟩
  · obtain ⟨q, hq, -⟩ := hmp.1 hn
    have h1 := (part_edges (hparts q (List.mem_of_getElem? hq))).1
    show detectEdges ((assemble angle background added parts).input.P n).points = _
    rw [polygon_segments hq, polygon_eq hq]
    exact h1
  · obtain ⟨q, hq, rfl⟩ := hmp.1 hn
    obtain ⟨k, hk, rfl⟩ := hin hq he
    exact ⟨(hseg hq hk).1, (hseg hq hk).2.1⟩
  · obtain ⟨q, hq, rfl⟩ := hmp.1 hn
    obtain ⟨k, hk, rfl⟩ := hin hq he
    obtain ⟨hne, harea | hline⟩ := hplan.sided _ (hmem hq)
    · left
      show (E (firstEdge parts n + k)).side ≠ .none
      rw [(hseg hq hk).2.2]
      exact normal_of_area harea hs
    · right
      obtain ⟨j, hj, hkj, hsame⟩ := hline k hk hs
      refine ⟨firstEdge parts n + j, hme.2 ⟨n, q, j, hq, rfl, hj, rfl⟩, ?_, ?_⟩
      · show firstEdge parts n + k ≠ _
        omega
      · show SameLine (E (firstEdge parts n + k)).seg (E (firstEdge parts n + j)).seg
        rw [(hseg hq hk).1, (hseg hq hj).1]
        exact hsame
  · obtain ⟨q, hq, rfl⟩ := hmp.1 hn
    show ((assemble angle background added parts).input.P n).zmin ≤ _
    rw [polygon_eq hq]
    exact hplan.thick _ (hmem hq)
  · obtain ⟨i, q, k, hq, rfl, hk, rfl⟩ := hme.1 hi
    obtain ⟨i', q', k', hq', hp, hk', rfl⟩ := hme.1 hj
    show Horizontal (E _).seg → Horizontal (E _).seg → |(E _).seg.p0.y - (E _).seg.p0.y| < _ → (E _).seg.p0.y = (E _).seg.p0.y
    rw [(hseg hq hk).1, (hseg hq' hk').1]
    exact hplan.flat _ (hmem hq) _ (hmem hq') hp.symm k hk k' hk'
  · obtain ⟨i, q, k, hq, rfl, hk, rfl⟩ := hme.1 hi
    obtain ⟨i', q', k', hq', hp, hk', rfl⟩ := hme.1 hj
    show Vertical (E _).seg → Vertical (E _).seg → |(E _).seg.p0.x - (E _).seg.p0.x| < _ → (E _).seg.p0.x = (E _).seg.p0.x
    rw [(hseg hq hk).1, (hseg hq' hk').1]
    exact hplan.upright _ (hmem hq) _ (hmem hq') hp.symm k hk k' hk'

/-- The slanted edges of the board are the slanted sides. -/
theorem plan_slanted (hparts : ∀ q ∈ parts, polygonEdges q.points = some q.edges)
    {E : Nat → BEdge} (hE : SameButReverse (assemble angle background added parts).input.E E) (p : Plane) (s : Segment) :
    s ∈ slantedOf { (assemble angle background added parts).input with E := E } p ↔
      s ∈ slantedSides (parts.map Part.piece) p := by
  have hme := @mem_edges_parts angle background added parts hparts
  have hedge : ∀ {i : Nat} {q : Part} {k : Nat}, parts[i]? = some q → k < q.points.length →
      (E (firstEdge parts i + k)).seg = sideAt q.points k ∧ (E (firstEdge parts i + k)).toMesh = true := by
    intro i q k hq hk
    obtain ⟨b, hb⟩ := hE (firstEdge parts i + k)
    rw [edge_part hparts hq hk] at hb
    rw [hb]
    exact ⟨rfl, rfl⟩
  unfold slantedOf slantedSides
  simp only [List.mem_map, List.mem_filter, decide_eq_true_eq, List.mem_flatMap, List.mem_range]
  constructor
  · rintro ⟨_, ⟨⟨n, hn, rfl⟩, -, hs⟩, rfl⟩
    obtain ⟨i, q, k, hq, rfl, hk, rfl⟩ := hme.1 hn
    have h1 : (E (firstEdge parts i + k)).seg = _ := (hedge hq hk).1
    rw [h1] at hs ⊢
    exact ⟨_, ⟨⟨q, List.mem_of_getElem? hq, rfl⟩, rfl⟩, ⟨k, hk, rfl⟩, hs⟩
  · rintro ⟨_, ⟨⟨q, hq, rfl⟩, rfl⟩, ⟨k, hk, rfl⟩, hs⟩
    obtain ⟨i, hi⟩ := List.mem_iff_getElem?.1 hq
    obtain ⟨h1, h2⟩ := hedge hi hk
    exact ⟨E (firstEdge parts i + k), ⟨⟨_, hme.2 ⟨i, q, k, hi, rfl, hk, rfl⟩, rfl⟩, h2, by rw [h1]; exact hs⟩, h1⟩

end

end Verif.Board
