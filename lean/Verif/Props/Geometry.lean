import Verif.Lemmas.Geometry

/-!
# Theorems about planar geometry
-/

namespace Verif.Geom
open Verif.Mesh Spec

/-- An L shaped polygon, clockwise. -/
def ell : List Point := [⟨0, 0⟩, ⟨0, 2⟩, ⟨1, 2⟩, ⟨1, 1⟩, ⟨3, 1⟩, ⟨3, 0⟩]

/-! ## C33 -/

/-- The box found for a list of vertices contains each of them and each side is reached. -/
theorem C33_tight {points : List Point} {b : Bounding} (h : detectBounding points = some b) :
    (∀ p ∈ points, b.xmin ≤ p.x ∧ p.x ≤ b.xmax ∧ b.ymin ≤ p.y ∧ p.y ≤ b.ymax) ∧
    (∃ p ∈ points, p.x = b.xmin) ∧ (∃ p ∈ points, p.x = b.xmax) ∧
    (∃ p ∈ points, p.y = b.ymin) ∧ (∃ p ∈ points, p.y = b.ymax) := by
  cases points with
  | nil => simp [detectBounding] at h
  | cons p l =>
    simp only [detectBounding, List.head?_cons, Option.map_some, Option.some.injEq] at h
    obtain ⟨-, hm, h1, h2, h3, h4⟩ := detectBounding_spec ⟨p.x, p.x, p.y, p.y⟩ ⟨le_refl _, le_refl _⟩ (p :: l)
    rw [h] at hm h1 h2 h3 h4
    refine ⟨hm, ?_, ?_, ?_, ?_⟩
    · exact h1.elim (fun h => ⟨p, by simp, h.symm⟩) id
    · exact h2.elim (fun h => ⟨p, by simp, h.symm⟩) id
    · exact h3.elim (fun h => ⟨p, by simp, h.symm⟩) id
    · exact h4.elim (fun h => ⟨p, by simp, h.symm⟩) id

/-- The box is found exactly when there is a vertex. -/
theorem C33_defined (points : List Point) : (detectBounding points).isSome ↔ points ≠ [] := by
  cases points <;> simp [detectBounding]

/-- The bounding of each edge is the box of its two ends, and is within the box of the polygon. -/
theorem C33_edges {points : List Point} {b : Bounding} {edges : List Segment}
    (h : detectBounding points = some b) (he : detectEdges points = some edges) :
    ∀ e ∈ edges, b.xmin ≤ e.bounding.xmin ∧ e.bounding.xmax ≤ b.xmax ∧
      b.ymin ≤ e.bounding.ymin ∧ e.bounding.ymax ≤ b.ymax := by
  intro e hmem
  obtain ⟨hm, -⟩ := C33_tight h
  have hp1 : e.p1 ∈ points := by
    simp only [detectEdges, Option.map_eq_some_iff] at he
    obtain ⟨last, -, he⟩ := he
    rw [← detectEdges_p1 last points, he]
    exact List.mem_map_of_mem hmem
  have hp0 : e.p0 ∈ points := by
    simp only [detectEdges, Option.map_eq_some_iff] at he
    obtain ⟨last, hl, he⟩ := he
    have : e.p0 ∈ (detectEdges.loop last points).map (·.p0) := he ▸ List.mem_map_of_mem hmem
    rw [detectEdges_p0] at this
    rcases List.mem_cons.1 (List.dropLast_subset _ this) with h | h
    · rw [h]; exact List.mem_of_getLast? hl
    · exact h
  obtain ⟨a1, a2, a3, a4⟩ := hm _ hp0
  obtain ⟨b1, b2, b3, b4⟩ := hm _ hp1
  rw [segment_bounding_min_max]
  exact ⟨le_min a1 b1, max_le a2 b2, le_min a3 b3, max_le a4 b4⟩

example : detectBounding ell = some ⟨0, 3, 0, 2⟩ ∧ (detectEdges ell).isSome := by decide +kernel

/-! ## C34 -/

/-- The rotation is the sign of the area of the triangles seen from the first vertex, up to the tolerance. -/
theorem C34_sense (points : List Point) :
    (detectRotation points = .ccw ↔ 2 * tolerance ≤ signedArea points) ∧
    (detectRotation points = .cw ↔ signedArea points ≤ -(2 * tolerance)) ∧
    (detectRotation points = .colinear ↔ |signedArea points| < 2 * tolerance) := by
  rw [detectRotation_eq, area_signedArea, senseOf_ccw, senseOf_cw, senseOf_colinear]
  refine ⟨?_, ?_, ?_⟩
  · constructor <;> intro h <;> linarith
  · constructor <;> intro h <;> linarith
  · simp only [abs_lt]
    constructor <;> rintro ⟨h1, h2⟩ <;> constructor <;> linarith

/-- The starting vertex does not matter. -/
theorem C34_start_vertex (l m : List Point) : detectRotation (l ++ m) = detectRotation (m ++ l) := by
  rw [detectRotation_eq, detectRotation_eq, area_rotateMany]

/-- The position does not matter. -/
theorem C34_position (d : Point) (points : List Point) :
    detectRotation (points.map fun p => ⟨p.x + d.x, p.y + d.y⟩) = detectRotation points := by
  rw [detectRotation_eq, detectRotation_eq, area_translate]

/-- Taking the vertices in the reverse order flips the sense, and keeps flat polygons flat. -/
theorem C34_reverse (points : List Point) :
    (detectRotation points.reverse = .cw ↔ detectRotation points = .ccw) ∧
    (detectRotation points.reverse = .ccw ↔ detectRotation points = .cw) ∧
    (detectRotation points.reverse = .colinear ↔ detectRotation points = .colinear) := by
  rw [detectRotation_eq, detectRotation_eq, area_reverse, senseOf_neg]
  cases senseOf (area points) <;> simp [Rotation.flip]

/-- Enlarging keeps the sense. Shrinking keeps it or makes the polygon too small to have one. -/
theorem C34_scale {k : ℚ} (hk : 0 < k) (points : List Point) (h : detectRotation points ≠ .colinear) :
    let scaled := detectRotation (points.map fun p => ⟨k * p.x, k * p.y⟩)
    (1 ≤ k → scaled = detectRotation points) ∧ (scaled = detectRotation points ∨ scaled = .colinear) := by
  have hp := tolerance_pos
  simp only [detectRotation_eq, area_scale] at h ⊢
  have hk2 : 0 < k ^ 2 := by positivity
  generalize area points = q at h ⊢
  have key : ∀ q, tolerance ≤ q → (1 ≤ k → senseOf (k ^ 2 * q) = .ccw) ∧
      (senseOf (k ^ 2 * q) = .ccw ∨ senseOf (k ^ 2 * q) = .colinear) := by
    intro q hq
    refine ⟨fun h1 => ?_, ?_⟩
    · rw [senseOf_ccw]
      have : 1 ≤ k ^ 2 := one_le_pow₀ h1
      nlinarith
    · have : 0 < k ^ 2 * q := mul_pos hk2 (by linarith)
      by_cases hc : tolerance ≤ k ^ 2 * q
      · exact Or.inl (senseOf_ccw.2 hc)
      · refine Or.inr (senseOf_colinear.2 ?_)
        rw [abs_of_pos this]; linarith
  cases hs : senseOf q with
  | colinear => exact absurd hs h
  | ccw => exact key q (senseOf_ccw.1 hs)
  | cw =>
    have := key (-q) (by have := senseOf_cw.1 hs; linarith)
    rw [mul_neg, senseOf_neg] at this
    revert this
    cases senseOf (k ^ 2 * q) <;> simp [Rotation.flip]

/-- The polygon of a box turns clockwise when its two corners are given along the ascending diagonal, and
counterclockwise when along the descending one, unless it is too thin. -/
theorem C34_box (p1 p3 : Point) :
    (detectRotation (boxPoints p1 p3) = .cw ↔ tolerance ≤ (p3.x - p1.x) * (p3.y - p1.y)) ∧
    (detectRotation (boxPoints p1 p3) = .ccw ↔ (p3.x - p1.x) * (p3.y - p1.y) ≤ -tolerance) ∧
    (detectRotation (boxPoints p1 p3) = .colinear ↔ |(p3.x - p1.x) * (p3.y - p1.y)| < tolerance) := by
  have : area (boxPoints p1 p3) = - ((p3.x - p1.x) * (p3.y - p1.y)) := by
    simp [area, successors, boxPoints]; ring
  rw [detectRotation_eq, this, senseOf_neg]
  generalize (p3.x - p1.x) * (p3.y - p1.y) = q
  rw [← senseOf_ccw, ← senseOf_cw, ← senseOf_colinear]
  cases senseOf q <;> simp [Rotation.flip]

example : detectRotation ell = .cw ∧ detectRotation ell.reverse = .ccw ∧ signedArea ell = -8 ∧
    detectRotation (ell.map fun p => ⟨1 / 100000 * p.x, 1 / 100000 * p.y⟩) = .colinear ∧
    detectRotation (boxPoints ⟨0, 0⟩ ⟨2, -1⟩) = .ccw := by decide +kernel

/-! ## C35 -/

/-- The edges are found exactly when there is a vertex. Edge `i` ends at vertex `i`, where the next one starts, and
the first one starts at the last vertex. -/
theorem C35_cycle {points : List Point} {edges : List Segment} (h : detectEdges points = some edges) :
    edges.length = points.length ∧
    ∀ i, (hi : i < points.length) → ∃ e n : Segment,
      edges[i]? = some e ∧ edges[(i + 1) % points.length]? = some n ∧
      e.p1 = points[i] ∧ n.p0 = points[i] := by
  simp only [detectEdges, Option.map_eq_some_iff] at h
  obtain ⟨last, hl, rfl⟩ := h
  have h1 := detectEdges_p1 last points
  have h0 := detectEdges_p0 last points
  have hlen : (detectEdges.loop last points).length = points.length := by
    conv_rhs => rw [← h1]
    simp
  refine ⟨hlen, fun i hi => ?_⟩
  have hj : (i + 1) % points.length < points.length := Nat.mod_lt _ (by omega)
  refine ⟨(detectEdges.loop last points)[i]'(by omega),
    (detectEdges.loop last points)[(i + 1) % points.length]'(by omega),
    List.getElem?_eq_getElem _, List.getElem?_eq_getElem _, ?_, ?_⟩
  · have : ((detectEdges.loop last points).map (·.p1))[i]? = points[i]? := by rw [h1]
    rw [List.getElem?_map, List.getElem?_eq_getElem (by omega), List.getElem?_eq_getElem hi] at this
    simpa using this
  · have : ((detectEdges.loop last points).map (·.p0))[(i + 1) % points.length]? =
        (last :: points).dropLast[(i + 1) % points.length]? := by rw [h0]
    rw [List.getElem?_map, List.getElem?_eq_getElem (by omega)] at this
    have h2 : (last :: points).dropLast[(i + 1) % points.length]? = some points[i] := by
      rw [List.getElem?_dropLast, if_pos (by simp; omega)]
      by_cases hlt : i + 1 < points.length
      · rw [Nat.mod_eq_of_lt hlt, List.getElem?_cons_succ, List.getElem?_eq_getElem hi]
      · have : i + 1 = points.length := by omega
        rw [this, Nat.mod_self, List.getElem?_cons_zero]
        rw [List.getLast?_eq_getElem?] at hl
        rw [← hl, ← List.getElem?_eq_getElem hi]
        congr 1; omega
    rw [h2] at this
    simpa using this

/-- Every edge gets a direction, so its normal is never chosen from an uninitialised one. -/
theorem C35_direction (s : Segment) : (edgeDirection s).isSome := by
  cases h : s.axis with
  | diagonal => unfold edgeDirection; rw [h]; rfl
  | point => unfold edgeDirection; rw [h]; rfl
  | h => rcases edgeDirection_h h with h | h <;> rw [h.1] <;> rfl
  | v => rcases edgeDirection_v h with h | h <;> rw [h.1] <;> rfl

/-- The normal of each horizontal or vertical edge of a polygon points outwards: moving the edge in that direction
enlarges the area by the length of the edge times the displacement. -/
theorem C35_outward (l m : List Point) (a b : Point) (ε : ℚ) (hε : 0 < ε)
    (hrot : detectRotation (l ++ a :: b :: m) ≠ .colinear)
    (haxis : (Segment.mk a b).axis = .h ∨ (Segment.mk a b).axis = .v) :
    ∃ n, (edgeDirection ⟨a, b⟩).map (edgeNormal (detectRotation (l ++ a :: b :: m))) = some n ∧
      |signedArea (l ++ a :: a.advance ε (unit n) :: b.advance ε (unit n) :: b :: m)| =
        |signedArea (l ++ a :: b :: m)| +
          2 * ε * (if (Segment.mk a b).axis = .h then |b.x - a.x| else |b.y - a.y|) := by
  have hp := tolerance_pos
  have hs : ∀ pts, signedArea pts = 2 * area pts := fun pts => by rw [area_signedArea]; ring
  simp only [hs, area_push, detectRotation_eq] at hrot ⊢
  generalize area (l ++ a :: b :: m) = A at hrot ⊢
  have fin : ∀ (u : Point) (L : ℚ), 0 < L →
      (tolerance ≤ A ∧ u.x * (b.y - a.y) - u.y * (b.x - a.x) = L ∨
        A ≤ -tolerance ∧ u.x * (b.y - a.y) - u.y * (b.x - a.x) = -L) →
      |2 * (A + ε * (u.x * (b.y - a.y) - u.y * (b.x - a.x)))| = |2 * A| + 2 * ε * L := by
    intro u L hL h
    have hm := mul_pos hε hL
    rcases h with ⟨h1, h2⟩ | ⟨h1, h2⟩
    · rw [h2, abs_of_pos (by linarith), abs_of_pos (by linarith)]; ring
    · rw [h2, abs_of_neg (by linarith), abs_of_neg (by linarith)]; ring
  rcases haxis with h | h
  · rw [h]
    rcases edgeDirection_h h with ⟨hd, hl⟩ | ⟨hd, hl⟩
    · rw [hd]
      refine ⟨_, rfl, ?_⟩
      simp only [if_true]
      rw [abs_of_pos hl]
      refine fin _ _ hl ?_
      cases hr : senseOf A with
      | colinear => exact absurd hr hrot
      | ccw => exact Or.inl ⟨senseOf_ccw.1 hr, by simp [edgeNormal, unit]⟩
      | cw => exact Or.inr ⟨senseOf_cw.1 hr, by simp [edgeNormal, unit]⟩
    · rw [hd]
      refine ⟨_, rfl, ?_⟩
      simp only [if_true]
      rw [abs_of_neg hl]
      refine fin _ _ (by simp only at hl; linarith) ?_
      cases hr : senseOf A with
      | colinear => exact absurd hr hrot
      | ccw => exact Or.inl ⟨senseOf_ccw.1 hr, by simp [edgeNormal, unit]⟩
      | cw => exact Or.inr ⟨senseOf_cw.1 hr, by simp [edgeNormal, unit]⟩
  · rw [h]
    rcases edgeDirection_v h with ⟨hd, hl⟩ | ⟨hd, hl⟩
    · rw [hd]
      refine ⟨_, rfl, ?_⟩
      rw [if_neg (by simp), abs_of_pos hl]
      refine fin _ _ hl ?_
      cases hr : senseOf A with
      | colinear => exact absurd hr hrot
      | ccw => exact Or.inl ⟨senseOf_ccw.1 hr, by simp [edgeNormal, unit]⟩
      | cw => exact Or.inr ⟨senseOf_cw.1 hr, by simp [edgeNormal, unit]⟩
    · rw [hd]
      refine ⟨_, rfl, ?_⟩
      rw [if_neg (by simp), abs_of_neg hl]
      refine fin _ _ (by simp only at hl; linarith) ?_
      cases hr : senseOf A with
      | colinear => exact absurd hr hrot
      | ccw => exact Or.inl ⟨senseOf_ccw.1 hr, by simp [edgeNormal, unit]⟩
      | cw => exact Or.inr ⟨senseOf_cw.1 hr, by simp [edgeNormal, unit]⟩

/-- A flat polygon has no normals at all. -/
theorem C35_flat {points : List Point} {edges : List Edge} (h : polygonEdges points = some edges)
    (hrot : detectRotation points = .colinear) : ∀ e ∈ edges, e.normal = some .none := by
  simp only [polygonEdges, Option.map_eq_some_iff] at h
  obtain ⟨es, -, rfl⟩ := h
  intro e he
  obtain ⟨s, -, rfl⟩ := List.mem_map.1 he
  obtain ⟨d, hd⟩ := Option.isSome_iff_exists.1 (C35_direction s)
  simp [hd, hrot, edgeNormal]

/-- Each edge of a box has a normal that leads out of the box from any point of the edge, in whatever order the two
corners are given. -/
theorem C35_box {p1 p3 : Point} (hw : tolerance ≤ |p3.x - p1.x|) (hh : tolerance ≤ |p3.y - p1.y|)
    (harea : tolerance ≤ |(p3.x - p1.x) * (p3.y - p1.y)|) :
    ∃ edges, polygonEdges (boxPoints p1 p3) = some edges ∧ edges.length = 4 ∧
      ∀ e ∈ edges, ∃ n, e.normal = some n ∧
        ∀ q, On e.seg q → WithinBox p1 p3 q ∧ ∀ ε, 0 < ε → ¬ WithinBox p1 p3 (q.advance ε (unit n)) := by
  have hp := tolerance_pos
  obtain ⟨hcw, hccw, hcol⟩ := C34_box p1 p3
  have hne : detectRotation (boxPoints p1 p3) ≠ .colinear := fun h => by
    have := hcol.1 h; linarith
  have hx : p3.x - p1.x ≠ 0 := fun h => by rw [h, abs_zero] at hw; linarith
  have hy : p3.y - p1.y ≠ 0 := fun h => by rw [h, abs_zero] at hh; linarith
  have hEx : ∀ a b : Point, a.y = b.y → a.x = p1.x ∧ b.x = p3.x ∨ a.x = p3.x ∧ b.x = p1.x →
      (Segment.mk a b).axis = .h := by
    intro a b hab h
    refine axis_of_h ?_ hab.symm
    rcases h with ⟨h1, h2⟩ | ⟨h1, h2⟩ <;> simp only [h1, h2]
    · exact hw
    · rw [abs_sub_comm]; exact hw
  have hEy : ∀ a b : Point, a.x = b.x → a.y = p1.y ∧ b.y = p3.y ∨ a.y = p3.y ∧ b.y = p1.y →
      (Segment.mk a b).axis = .v := by
    intro a b hab h
    refine axis_of_v ?_ hab.symm
    rcases h with ⟨h1, h2⟩ | ⟨h1, h2⟩ <;> simp only [h1, h2]
    · exact hh
    · rw [abs_sub_comm]; exact hh
  refine ⟨_, rfl, rfl, ?_⟩
  intro e he
  have he' : e.normal = (edgeDirection e.seg).map (edgeNormal (detectRotation (boxPoints p1 p3))) ∧
      (e.seg = ⟨⟨p3.x, p1.y⟩, ⟨p1.x, p1.y⟩⟩ ∨ e.seg = ⟨⟨p1.x, p1.y⟩, ⟨p1.x, p3.y⟩⟩ ∨
        e.seg = ⟨⟨p1.x, p3.y⟩, ⟨p3.x, p3.y⟩⟩ ∨ e.seg = ⟨⟨p3.x, p3.y⟩, ⟨p3.x, p1.y⟩⟩) := by
    simp only [List.mem_map] at he
    obtain ⟨s, hs, rfl⟩ := he
    refine ⟨rfl, ?_⟩
    simpa [boxPoints, detectEdges.loop] using hs
  clear he
  obtain ⟨hn, hseg⟩ := he'
  rw [hn]
  clear hn
  -- One edge of the box, horizontal then vertical, for one order of the corners.
  have edgeH : ∀ (a b : Point) (r : Rotation), detectRotation (boxPoints p1 p3) = r →
      a.y = b.y → a.x = p1.x ∧ b.x = p3.x ∨ a.x = p3.x ∧ b.x = p1.x →
      (∀ n, (0 < b.x - a.x → n = edgeNormal r .xmax) → (b.x - a.x < 0 → n = edgeNormal r .xmin) →
        (n = .ymin ∧ a.y = min p1.y p3.y) ∨ (n = .ymax ∧ a.y = max p1.y p3.y)) →
      ∃ n, (edgeDirection ⟨a, b⟩).map (edgeNormal (detectRotation (boxPoints p1 p3))) = some n ∧
        ∀ q, On ⟨a, b⟩ q → WithinBox p1 p3 q ∧ ∀ ε, 0 < ε → ¬ WithinBox p1 p3 (q.advance ε (unit n)) := by
    intro a b r hr hab hend hside
    rw [hr]
    obtain ⟨n, hn, hn1, hn2⟩ : ∃ n, (edgeDirection ⟨a, b⟩).map (edgeNormal r) = some n ∧
        (0 < b.x - a.x → n = edgeNormal r .xmax) ∧ (b.x - a.x < 0 → n = edgeNormal r .xmin) := by
      rcases edgeDirection_h (hEx a b hab hend) with ⟨hd, hl⟩ | ⟨hd, hl⟩ <;> simp only at hl
      · exact ⟨_, by rw [hd]; rfl, fun _ => rfl, fun h => by linarith⟩
      · exact ⟨_, by rw [hd]; rfl, fun h => by linarith, fun _ => rfl⟩
    refine ⟨n, hn, ?_⟩
    rintro q ⟨t, t0, t1, hqx, hqy⟩
    simp only at hqx hqy
    have hqy' : q.y = a.y := by rw [hqy, ← hab]; ring
    have hside := hside n hn1 hn2
    have hx1 := min_le_left p1.x p3.x
    have hx2 := min_le_right p1.x p3.x
    have hx3 := le_max_left p1.x p3.x
    have hx4 := le_max_right p1.x p3.x
    have hyy := min_le_max (a := p1.y) (b := p3.y)
    refine ⟨⟨?_, ?_, ?_, ?_⟩, ?_⟩
    · rw [hqx]; rcases hend with ⟨h1, h2⟩ | ⟨h1, h2⟩ <;> rw [h1, h2] <;> nlinarith
    · rw [hqx]; rcases hend with ⟨h1, h2⟩ | ⟨h1, h2⟩ <;> rw [h1, h2] <;> nlinarith
    · rw [hqy']; rcases hside with ⟨-, h⟩ | ⟨-, h⟩ <;> rw [h]; exact hyy
    · rw [hqy']; rcases hside with ⟨-, h⟩ | ⟨-, h⟩ <;> rw [h]; exact hyy
    · rintro ε hε ⟨-, -, h3, h4⟩
      rcases hside with ⟨rfl, h⟩ | ⟨rfl, h⟩ <;> simp only [Point.advance, unit, hqy', h] at h3 h4 <;> linarith
  have edgeV : ∀ (a b : Point) (r : Rotation), detectRotation (boxPoints p1 p3) = r →
      a.x = b.x → a.y = p1.y ∧ b.y = p3.y ∨ a.y = p3.y ∧ b.y = p1.y →
      (∀ n, (0 < b.y - a.y → n = edgeNormal r .ymax) → (b.y - a.y < 0 → n = edgeNormal r .ymin) →
        (n = .xmin ∧ a.x = min p1.x p3.x) ∨ (n = .xmax ∧ a.x = max p1.x p3.x)) →
      ∃ n, (edgeDirection ⟨a, b⟩).map (edgeNormal (detectRotation (boxPoints p1 p3))) = some n ∧
        ∀ q, On ⟨a, b⟩ q → WithinBox p1 p3 q ∧ ∀ ε, 0 < ε → ¬ WithinBox p1 p3 (q.advance ε (unit n)) := by
    intro a b r hr hab hend hside
    rw [hr]
    obtain ⟨n, hn, hn1, hn2⟩ : ∃ n, (edgeDirection ⟨a, b⟩).map (edgeNormal r) = some n ∧
        (0 < b.y - a.y → n = edgeNormal r .ymax) ∧ (b.y - a.y < 0 → n = edgeNormal r .ymin) := by
      rcases edgeDirection_v (hEy a b hab hend) with ⟨hd, hl⟩ | ⟨hd, hl⟩ <;> simp only at hl
      · exact ⟨_, by rw [hd]; rfl, fun _ => rfl, fun h => by linarith⟩
      · exact ⟨_, by rw [hd]; rfl, fun h => by linarith, fun _ => rfl⟩
    refine ⟨n, hn, ?_⟩
    rintro q ⟨t, t0, t1, hqx, hqy⟩
    simp only at hqx hqy
    have hqx' : q.x = a.x := by rw [hqx, ← hab]; ring
    have hside := hside n hn1 hn2
    have hx1 := min_le_left p1.y p3.y
    have hx2 := min_le_right p1.y p3.y
    have hx3 := le_max_left p1.y p3.y
    have hx4 := le_max_right p1.y p3.y
    have hyy := min_le_max (a := p1.x) (b := p3.x)
    refine ⟨⟨?_, ?_, ?_, ?_⟩, ?_⟩
    · rw [hqx']; rcases hside with ⟨-, h⟩ | ⟨-, h⟩ <;> rw [h]; exact hyy
    · rw [hqx']; rcases hside with ⟨-, h⟩ | ⟨-, h⟩ <;> rw [h]; exact hyy
    · rw [hqy]; rcases hend with ⟨h1, h2⟩ | ⟨h1, h2⟩ <;> rw [h1, h2] <;> nlinarith
    · rw [hqy]; rcases hend with ⟨h1, h2⟩ | ⟨h1, h2⟩ <;> rw [h1, h2] <;> nlinarith
    · rintro ε hε ⟨h3, h4, -, -⟩
      rcases hside with ⟨rfl, h⟩ | ⟨rfl, h⟩ <;> simp only [Point.advance, unit, hqx', h] at h3 h4 <;> linarith
  obtain ⟨r, hr, hcase⟩ : ∃ r, detectRotation (boxPoints p1 p3) = r ∧
      (r = .cw ∧ (p1.x < p3.x ∧ p1.y < p3.y ∨ p3.x < p1.x ∧ p3.y < p1.y) ∨
       r = .ccw ∧ (p1.x < p3.x ∧ p3.y < p1.y ∨ p3.x < p1.x ∧ p1.y < p3.y)) := by
    rcases lt_or_gt_of_ne hx with sx | sx <;> rcases lt_or_gt_of_ne hy with sy | sy
    · exact ⟨_, hcw.2 (by rwa [abs_of_pos (mul_pos_of_neg_of_neg sx sy)] at harea),
        Or.inl ⟨rfl, Or.inr ⟨by linarith, by linarith⟩⟩⟩
    · exact ⟨_, hccw.2 (by rw [abs_of_neg (mul_neg_of_neg_of_pos sx sy)] at harea; linarith),
        Or.inr ⟨rfl, Or.inr ⟨by linarith, by linarith⟩⟩⟩
    · exact ⟨_, hccw.2 (by rw [abs_of_neg (mul_neg_of_pos_of_neg sx sy)] at harea; linarith),
        Or.inr ⟨rfl, Or.inl ⟨by linarith, by linarith⟩⟩⟩
    · exact ⟨_, hcw.2 (by rwa [abs_of_pos (mul_pos sx sy)] at harea),
        Or.inl ⟨rfl, Or.inl ⟨by linarith, by linarith⟩⟩⟩
  have mle : ∀ {a b : ℚ}, a < b → min a b = a ∧ max a b = b ∧ min b a = a ∧ max b a = b := fun h =>
    ⟨min_eq_left h.le, max_eq_right h.le, min_eq_right h.le, max_eq_left h.le⟩
  rcases hseg with h | h | h | h <;> rw [h]
  · refine edgeH _ _ r hr rfl (Or.inr ⟨rfl, rfl⟩) fun n h1 h2 => ?_
    simp only at h1 h2 ⊢
    rcases hcase with ⟨rfl, ⟨sx, sy⟩ | ⟨sx, sy⟩⟩ | ⟨rfl, ⟨sx, sy⟩ | ⟨sx, sy⟩⟩ <;>
      simp only [mle sy, edgeNormal] at h1 h2 ⊢ <;>
      first | (left; exact ⟨h2 (by linarith), trivial⟩) | (left; exact ⟨h1 (by linarith), trivial⟩) |
        (right; exact ⟨h2 (by linarith), trivial⟩) | (right; exact ⟨h1 (by linarith), trivial⟩)
  · refine edgeV _ _ r hr rfl (Or.inl ⟨rfl, rfl⟩) fun n h1 h2 => ?_
    simp only at h1 h2 ⊢
    rcases hcase with ⟨rfl, ⟨sx, sy⟩ | ⟨sx, sy⟩⟩ | ⟨rfl, ⟨sx, sy⟩ | ⟨sx, sy⟩⟩ <;>
      simp only [mle sx, edgeNormal] at h1 h2 ⊢ <;>
      first | (left; exact ⟨h2 (by linarith), trivial⟩) | (left; exact ⟨h1 (by linarith), trivial⟩) |
        (right; exact ⟨h2 (by linarith), trivial⟩) | (right; exact ⟨h1 (by linarith), trivial⟩)
  · refine edgeH _ _ r hr rfl (Or.inl ⟨rfl, rfl⟩) fun n h1 h2 => ?_
    simp only at h1 h2 ⊢
    rcases hcase with ⟨rfl, ⟨sx, sy⟩ | ⟨sx, sy⟩⟩ | ⟨rfl, ⟨sx, sy⟩ | ⟨sx, sy⟩⟩ <;>
      simp only [mle sy, edgeNormal] at h1 h2 ⊢ <;>
      first | (left; exact ⟨h2 (by linarith), trivial⟩) | (left; exact ⟨h1 (by linarith), trivial⟩) |
        (right; exact ⟨h2 (by linarith), trivial⟩) | (right; exact ⟨h1 (by linarith), trivial⟩)
  · refine edgeV _ _ r hr rfl (Or.inr ⟨rfl, rfl⟩) fun n h1 h2 => ?_
    simp only at h1 h2 ⊢
    rcases hcase with ⟨rfl, ⟨sx, sy⟩ | ⟨sx, sy⟩⟩ | ⟨rfl, ⟨sx, sy⟩ | ⟨sx, sy⟩⟩ <;>
      simp only [mle sx, edgeNormal] at h1 h2 ⊢ <;>
      first | (left; exact ⟨h2 (by linarith), trivial⟩) | (left; exact ⟨h1 (by linarith), trivial⟩) |
        (right; exact ⟨h2 (by linarith), trivial⟩) | (right; exact ⟨h1 (by linarith), trivial⟩)

example : detectRotation ([⟨0, 0⟩, ⟨0, 2⟩] ++ ⟨1, 2⟩ :: ⟨1, 1⟩ :: [⟨3, 1⟩, ⟨3, 0⟩]) ≠ .colinear ∧
    (Segment.mk ⟨1, 2⟩ ⟨1, 1⟩).axis = .v ∧
    (edgeDirection ⟨⟨1, 2⟩, ⟨1, 1⟩⟩).map (edgeNormal .cw) = some .xmax ∧
    ((polygonEdges (boxPoints ⟨0, 5⟩ ⟨3, 1⟩)).map fun l => l.map (·.normal)) =
      some [some .ymax, some .xmin, some .ymin, some .xmax] := by decide +kernel

/-! ## C37 -/

/-- The relation does not depend on which segment is asked. -/
theorem C37_symmetric (a b : Segment) : a.relationTo b = b.relationTo a := relationTo_comm a b

/-- The relation does not depend on the direction of either segment. -/
theorem C37_orientation (a b : Segment) :
    a.relationTo ⟨b.p1, b.p0⟩ = a.relationTo b ∧ Segment.relationTo ⟨a.p1, a.p0⟩ b = a.relationTo b := by
  refine ⟨relationTo_swap a b.p0 b.p1, ?_⟩
  rw [relationTo_comm, relationTo_swap b a.p0 a.p1, relationTo_comm]

example : (Segment.mk ⟨0, 0⟩ ⟨2, 2⟩).relationTo ⟨⟨0, 2⟩, ⟨2, 0⟩⟩ = .crossing ∧
    (Segment.mk ⟨0, 0⟩ ⟨2, 2⟩).relationTo ⟨⟨3, 3⟩, ⟨1, 1⟩⟩ = .overlapping ∧
    (Segment.mk ⟨0, 0⟩ ⟨2, 2⟩).relationTo ⟨⟨4, 4⟩, ⟨3, 3⟩⟩ = .colinear ∧
    (Segment.mk ⟨0, 0⟩ ⟨2, 2⟩).relationTo ⟨⟨4, 0⟩, ⟨3, 3⟩⟩ = .apart := by decide +kernel

/-! ## C38 -/

/-- The two view axes of a plane show its two axes, and going to the space and back is the identity. -/
theorem C38_view (plane : Plane) (v : ViewAxis) (a : Axis) :
    (transposeAxis plane a = some v ↔ transposeView plane v = a) ∧
    transposeView plane v = axes plane v ∧
    transposeView plane .h ≠ transposeView plane .v ∧
    (transposeAxis plane a = none ↔ a ≠ transposeView plane .h ∧ a ≠ transposeView plane .v) := by
  cases plane <;> cases v <;> cases a <;> decide

/-- A horizontal edge is meshed along the vertical axis of its plane, a vertical one along the horizontal one, others
along none. The coordinate used is the one along that axis. -/
theorem C38_segment (plane : Plane) (s : SegAxis) (p : Point) :
    (∀ a, transposeSeg plane s = some a ↔ ∃ v : ViewAxis, s = v.toSeg ∧ a = transposeView plane v.reverse) ∧
    (∀ v : ViewAxis, v.toSeg.toView = some v) ∧ (∀ v : ViewAxis, s.toView = some v → v.toSeg = s) ∧
    segCoord p .h = some p.y ∧ segCoord p .v = some p.x ∧ segCoord p .diagonal = none ∧ segCoord p .point = none := by
  refine ⟨?_, ?_, ?_, rfl, rfl, rfl, rfl⟩
  · intro a
    constructor
    · intro h
      cases s
      · exact ⟨.h, rfl, by cases plane <;> cases a <;> simp_all [transposeSeg, transposeView, ViewAxis.reverse]⟩
      · exact ⟨.v, rfl, by cases plane <;> cases a <;> simp_all [transposeSeg, transposeView, ViewAxis.reverse]⟩
      · cases plane <;> simp [transposeSeg] at h
      · cases plane <;> simp [transposeSeg] at h
    · rintro ⟨v, rfl, rfl⟩
      cases v <;> cases plane <;> rfl
  · intro v; cases v <;> rfl
  · intro v h; cases s <;> simp [SegAxis.toView] at h <;> rw [← h] <;> rfl

/-- Reversing is an involution without fixed point but NONE, and matches opposite vectors. -/
theorem C38_reverse (n : Normal) (v : ViewAxis) :
    n.reverse.reverse = n ∧ (n.reverse = n ↔ n = .none) ∧ v.reverse.reverse = v ∧ v.reverse ≠ v ∧
    (unit n.reverse).x = -(unit n).x ∧ (unit n.reverse).y = -(unit n).y := by
  refine ⟨by cases n <;> rfl, by cases n <;> decide, by cases v <;> rfl, by cases v <;> decide, ?_, ?_⟩ <;>
    cases n <;> simp [unit, Normal.reverse]

example : transposeSeg .yz .h = some .z ∧ transposeAxis .zx .x = some .v := by decide

/-! ## C39 -/

/-- Coordinate equality is not transitive. -/
theorem C39_false : ∃ a b c : ℚ, coordEq a b = true ∧ coordEq b c = true ∧ coordEq a c = false :=
  ⟨0, 6 / 1000000000, 12 / 1000000000, by decide +kernel⟩

/-- What is missing is transitivity. It is reflexive and symmetric, whatever lies between equal coordinates is equal
to both, different coordinates are strictly ordered, and a chain of `n` equalities spans less than `n` times the
tolerance. -/
theorem C39_partial :
    (∀ a, coordEq a a = true) ∧ (∀ a b, coordEq a b = coordEq b a) ∧
    (∀ a b c, a ≤ b → b ≤ c → coordEq a c = true → coordEq a b = true ∧ coordEq b c = true) ∧
    (∀ a b, coordEq a b = false → a < b ∨ b < a) ∧
    (∀ (f : Nat → ℚ) (n : Nat), 0 < n → (∀ i < n, coordEq (f i) (f (i + 1)) = true) →
      |f 0 - f n| < n * tolerance) := by
  refine ⟨coordEq_refl, coordEq_comm, ?_, ?_, ?_⟩
  · intro a b c h1 h2 h
    rw [coordEq_iff, abs_lt] at h
    rw [coordEq_iff, coordEq_iff, abs_lt, abs_lt]
    refine ⟨⟨?_, ?_⟩, ?_, ?_⟩ <;> linarith [tolerance_pos]
  · intro a b h
    rcases lt_trichotomy a b with h1 | h1 | h1
    · exact Or.inl h1
    · rw [h1, coordEq_refl] at h; exact absurd h (by simp)
    · exact Or.inr h1
  · intro f n hn h
    induction n with
    | zero => omega
    | succ n ih =>
      have h1 := h n (by omega)
      rw [coordEq_iff] at h1
      rcases Nat.eq_zero_or_pos n with rfl | hn
      · simpa using h1
      · have h2 := ih hn fun i hi => h i (by omega)
        have h3 := abs_sub_le (f 0) (f n) (f (n + 1))
        push_cast
        linarith

example : coordEq 1 (1 + 5 / 1000000000) = true ∧ coordEq 1 (1 + 1 / 100000000) = false := by decide +kernel

end Verif.Geom
