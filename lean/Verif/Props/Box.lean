import Verif.Lemmas.Box
import Verif.Props.Geometry
import Mathlib.Algebra.Order.Archimedean.Basic
import Mathlib.Data.Rat.Floor

/-!
# Theorems about points and polygons
-/

namespace Verif.Geom
open Verif.Mesh Spec

/-! ## C41 -/

/-- Whether the ray to the left crosses a vertical edge of a box of height at least twice the tolerance. -/
theorem crosses_iff {X y0 y1 x xmin y : ℚ} (hX : xmin ≤ X) (hH : 2 * tolerance ≤ |y1 - y0|)
    (hx : 2 * tolerance ≤ |X - x| * |y1 - y0|) (hy0 : 2 * tolerance ≤ |y0 - y|) (hy1 : 2 * tolerance ≤ |y1 - y|) :
    (Segment.mk ⟨X, y0⟩ ⟨X, y1⟩).relationTo ⟨⟨x, y⟩, ⟨xmin - 1, y⟩⟩ = .crossing ↔
      X < x ∧ (y0 - y) * (y1 - y) < 0 := by
  have hp := tolerance_pos
  have hne : X - x ≠ 0 := by intro h; rw [h, abs_zero] at hx; linarith
  have hn0 : y0 - y ≠ 0 := by intro h; rw [h, abs_zero] at hy0; linarith
  have hn1 : y1 - y ≠ 0 := by intro h; rw [h, abs_zero] at hy1; linarith
  have hXe : 1 ≤ |X - (xmin - 1)| := by rw [abs_of_pos (by linarith)]; linarith
  rcases lt_or_gt_of_ne hne with h | h
  · have hlen : 1 ≤ |xmin - 1 - x| := by rw [abs_of_neg (by linarith)]; linarith
    have l0 : 2 * tolerance ≤ |xmin - 1 - x| * |y0 - y| := by nlinarith [abs_nonneg (y0 - y)]
    have l1 : 2 * tolerance ≤ |xmin - 1 - x| * |y1 - y| := by nlinarith [abs_nonneg (y1 - y)]
    rcases lt_or_gt_of_ne (mul_ne_zero hn0 hn1) with hy | hy
    · have hc := crossing_v (X := X) (y0 := y0) (y1 := y1) (x := x) (xe := xmin - 1) (y := y)
        (mul_neg_of_neg_of_pos h (by linarith)) hy hx l0
      exact ⟨fun _ => ⟨by linarith, hy⟩, fun _ => hc⟩
    · have hc := not_crossing_away (X := X) (x := x) (xe := xmin - 1) hy l0 l1
      exact ⟨fun h' => absurd h' hc, fun h' => absurd h'.2 (by linarith)⟩
  · have hc := not_crossing_side (X := X) (y0 := y0) (y1 := y1) (x := x) (xe := xmin - 1) (y := y)
      (mul_pos h (by linarith)) hx (by nlinarith [abs_nonneg (y1 - y0)])
    exact ⟨fun h' => absurd h' hc, fun h' => absurd h'.1 (by linarith)⟩

/-- A point whose distance to the lines of the border is not small with respect to the height of the box is reported
inside exactly when it is inside, and outside exactly when it is outside. What is missing is points that are farther
than the tolerance from the lines, but less than the tolerance divided by half the height (see `C41_false`). -/
theorem C41_partial {p1 p3 q : Point} (hH : 2 * tolerance ≤ |p3.y - p1.y|)
    (hx1 : 2 * tolerance ≤ |p1.x - q.x| * |p3.y - p1.y|) (hx3 : 2 * tolerance ≤ |p3.x - q.x| * |p3.y - p1.y|)
    (hy1 : 2 * tolerance ≤ |p1.y - q.y|) (hy3 : 2 * tolerance ≤ |p3.y - q.y|) :
    (InsideBox p1 p3 q → relationToPoint (boxPoints p1 p3) q = some .inside) ∧
    (¬ WithinBox p1 p3 q → relationToPoint (boxPoints p1 p3) q = some .outside) := by
  have hp := tolerance_pos
  have hxn1 : p1.x ≠ q.x := by intro h; rw [h, sub_self, abs_zero] at hx1; linarith
  have hxn3 : p3.x ≠ q.x := by intro h; rw [h, sub_self, abs_zero] at hx3; linarith
  have hyn1 : p1.y ≠ q.y := by intro h; rw [h, sub_self, abs_zero] at hy1; linarith
  have hyn3 : p3.y ≠ q.y := by intro h; rw [h, sub_self, abs_zero] at hy3; linarith
  have hborder : ∀ e ∈ boxEdges p1 p3, e.hasPoint q = false := by
    intro e he
    rw [← Bool.not_eq_true]
    intro h
    obtain ⟨-, h⟩ := boxEdges_hasPoint.1 ⟨e, he, h⟩
    rcases h with h | h | h | h
    · exact hxn1 h.symm
    · exact hxn3 h.symm
    · exact hyn1 h.symm
    · exact hyn3 h.symm
  rw [relationToPoint_box]
  -- The first ray meets no vertex.
  have hscan : scanVertices q ⟨q, ⟨min p1.x p3.x - 1, q.y⟩⟩ (boxPoints p1 p3) = .clear := by
    cases hs : scanVertices q ⟨q, ⟨min p1.x p3.x - 1, q.y⟩⟩ (boxPoints p1 p3) with
    | clear => rfl
    | on =>
      obtain ⟨p, hpm, h⟩ := scan_on hs
      simp only [Point.eq, Bool.and_eq_true, coordEq_iff] at h
      rcases (mem_boxPoints.1 hpm).2 with h' | h' <;> rw [h'] at h <;> linarith [h.2]
    | retry =>
      obtain ⟨p, hpm, -, h⟩ := scan_retry hs
      obtain ⟨-, -, h3, h4⟩ := hasPoint_box h
      simp only [min_self, max_self] at h3 h4
      have hpq := le_antisymm h3 h4
      rcases (mem_boxPoints.1 hpm).2 with h' | h'
      · exact absurd (h'.symm.trans hpq) hyn1
      · exact absurd (h'.symm.trans hpq) hyn3
  have hloop : relationToPoint.loop (boxPoints p1 p3) (boxEdges p1 p3)
      ⟨min p1.x p3.x, max p1.x p3.x, min p1.y p3.y, max p1.y p3.y⟩ q 0 =
      some (if ((boxEdges p1 p3).countP fun e =>
        decide (e.relationTo ⟨q, ⟨min p1.x p3.x - 1, q.y⟩⟩ = .crossing)) % 2 = 1 then .inside else .outside) := by
    rw [relationToPoint.loop]
    simp only [rayEnd, hscan, countCrossings_some hborder]
  rw [hloop]
  -- Which edges it crosses.
  have c1 := crosses_iff (X := p1.x) (y0 := p1.y) (y1 := p3.y) (x := q.x) (y := q.y) (min_le_left p1.x p3.x)
    hH hx1 hy1 hy3
  have c3 := crosses_iff (X := p3.x) (y0 := p3.y) (y1 := p1.y) (x := q.x) (y := q.y) (min_le_right p1.x p3.x)
    (by rw [abs_sub_comm]; exact hH) (by rw [abs_sub_comm p1.y]; exact hx3) hy3 hy1
  have hq : (⟨q.x, q.y⟩ : Point) = q := rfl
  rw [hq] at c1 c3
  have d1 := crossing_h p3.x p1.x p1.y q.x (min p1.x p3.x - 1) q.y
  have d3 := crossing_h p1.x p3.x p3.y q.x (min p1.x p3.x - 1) q.y
  rw [hq] at d1 d3
  rw [mul_comm] at c3
  simp only [boxEdges, List.countP_cons, List.countP_nil, d1, d3, decide_false, Bool.false_eq_true, if_false,
    decide_eq_true_eq]
  have hbtw : (p1.y - q.y) * (p3.y - q.y) < 0 ↔ min p1.y p3.y < q.y ∧ q.y < max p1.y p3.y := by
    rw [min_lt_iff, lt_max_iff]
    constructor
    · intro h
      rcases lt_or_gt_of_ne hyn1 with h1 | h1 <;> rcases lt_or_gt_of_ne hyn3 with h3 | h3
      · nlinarith
      · exact ⟨Or.inl h1, Or.inr h3⟩
      · exact ⟨Or.inr h3, Or.inl h1⟩
      · nlinarith
    · rintro ⟨h1, h2⟩
      rcases h1 with h1 | h1 <;> rcases h2 with h2 | h2
      · linarith
      · exact mul_neg_of_neg_of_pos (by linarith) (by linarith)
      · exact mul_neg_of_pos_of_neg (by linarith) (by linarith)
      · linarith
  simp only [c1, c3]
  constructor
  · rintro ⟨i1, i2, i3, i4⟩
    have hb := hbtw.2 ⟨i3, i4⟩
    rw [min_lt_iff] at i1
    rw [lt_max_iff] at i2
    rcases lt_or_gt_of_ne hxn1 with h1 | h1 <;> rcases lt_or_gt_of_ne hxn3 with h3 | h3
    · exfalso; rcases i2 with h | h <;> linarith
    · simp [hb, h1, not_lt.2 (le_of_lt h3)]
    · simp [hb, h3, not_lt.2 (le_of_lt h1)]
    · exfalso; rcases i1 with h | h <;> linarith
  · intro hw
    by_cases hb : (p1.y - q.y) * (p3.y - q.y) < 0
    · rcases lt_or_gt_of_ne hxn1 with h1 | h1 <;> rcases lt_or_gt_of_ne hxn3 with h3 | h3
      · simp [hb, h1, h3]
      · exfalso
        obtain ⟨b1, b2⟩ := hbtw.1 hb
        exact hw ⟨min_le_iff.2 (Or.inl h1.le), le_max_iff.2 (Or.inr (le_of_lt h3)), b1.le, b2.le⟩
      · exfalso
        obtain ⟨b1, b2⟩ := hbtw.1 hb
        exact hw ⟨min_le_iff.2 (Or.inr h3.le), le_max_iff.2 (Or.inl (le_of_lt h1)), b1.le, b2.le⟩
      · simp [not_lt.2 (le_of_lt h1), not_lt.2 (le_of_lt h3)]
    · simp [hb]

/-- A point of the border of a box, even a flat one, is reported on the border. -/
theorem C41_border {p1 p3 q : Point} (h : OnBox p1 p3 q) : relationToPoint (boxPoints p1 p3) q = some .on := by
  obtain ⟨m, -, hm⟩ := box_ray p1 p3 q
  obtain ⟨r, hr, hon⟩ := loop_ends (edges := boxEdges p1 p3) m 0 (Nat.zero_le _) hm
  rw [relationToPoint_box, hr, hon (boxEdges_hasPoint.2 h)]

/-- A point reported on the border of a box is on it, or within the tolerance of a corner. -/
theorem C41_border_only {p1 p3 q : Point} (h : relationToPoint (boxPoints p1 p3) q = some .on) :
    OnBox p1 p3 q ∨ ∃ p ∈ boxPoints p1 p3, |p.x - q.x| < tolerance ∧ |p.y - q.y| < tolerance := by
  rw [relationToPoint_box] at h
  have := relationToPoint.loop.partial_correctness (boxPoints p1 p3) (boxEdges p1 p3)
    ⟨min p1.x p3.x, max p1.x p3.x, min p1.y p3.y, max p1.y p3.y⟩ q
    (fun _ r => r = .on → OnBox p1 p3 q ∨ ∃ p ∈ boxPoints p1 p3, |p.x - q.x| < tolerance ∧ |p.y - q.y| < tolerance)
    ?_ 0 .on h rfl
  · exact this
  · intro loop ih n r hr hon
    simp only at hr
    cases hs : scanVertices q ⟨q, rayEnd ⟨min p1.x p3.x, max p1.x p3.x, min p1.y p3.y, max p1.y p3.y⟩ q n⟩
        (boxPoints p1 p3) with
    | on =>
      obtain ⟨p, hp, h⟩ := scan_on hs
      simp only [Point.eq, Bool.and_eq_true, coordEq_iff] at h
      exact Or.inr ⟨p, hp, h⟩
    | retry => rw [hs] at hr; exact ih (n + 1) r hr hon
    | clear =>
      rw [hs] at hr
      simp only at hr
      cases hc : countCrossings q
          ⟨q, rayEnd ⟨min p1.x p3.x, max p1.x p3.x, min p1.y p3.y, max p1.y p3.y⟩ q n⟩ (boxEdges p1 p3) with
      | none => exact Or.inl (boxEdges_hasPoint.1 (countCrossings_none.1 hc))
      | some c =>
        rw [hc] at hr
        simp only [Option.some.injEq] at hr
        rw [hon] at hr
        split_ifs at hr

/-- A point inside a box, a hundred times the tolerance away from the border, reported outside. -/
theorem C41_false : ∃ p1 p3 q : Point, InsideBox p1 p3 q ∧
    (∀ p ∈ boxPoints p1 p3, 100 * tolerance ≤ |p.x - q.x| ∧ 100 * tolerance ≤ |p.y - q.y|) ∧
    relationToPoint (boxPoints p1 p3) q = some .outside := by
  refine ⟨⟨0, 0⟩, ⟨1, 1 / 1000⟩, ⟨1 - 1 / 1000000, 1 / 2000⟩, ?_, by decide +kernel, ?_⟩
  · norm_num [InsideBox]
  · rw [relationToPoint_box, relationToPoint.loop]
    decide +kernel

example : (2 * tolerance ≤ |(3 : ℚ) - 0| ∧ 2 * tolerance ≤ |(0 : ℚ) - 1| * |(3 : ℚ) - 0| ∧
    2 * tolerance ≤ |(2 : ℚ) - 1| * |(3 : ℚ) - 0| ∧ 2 * tolerance ≤ |(0 : ℚ) - 1| ∧ 2 * tolerance ≤ |(3 : ℚ) - 1|) ∧
    InsideBox ⟨0, 0⟩ ⟨2, 3⟩ ⟨1, 1⟩ ∧ OnBox ⟨0, 0⟩ ⟨2, 3⟩ ⟨2, 1⟩ := by
  refine ⟨by decide +kernel, ?_, ?_⟩ <;> norm_num [InsideBox, OnBox, WithinBox]

/-! ## C52 -/

/-- The question of where a point is with respect to a box is always answered. -/
theorem C52_box_partial (p1 p3 q : Point) : (relationToPoint (boxPoints p1 p3) q).isSome := by
  obtain ⟨m, -, hm⟩ := box_ray p1 p3 q
  obtain ⟨r, hr, -⟩ := loop_ends (edges := boxEdges p1 p3) m 0 (Nat.zero_le _) hm
  rw [relationToPoint_box, hr]; rfl

/-- For a polygon with at least one vertex, the question is always answered when no vertex is both exactly above or
below the point and very close to it (but not equal to it). In particular when the point is at least 1 left of the
right side of the polygon. What is missing is such vertices (see `C52_false`). -/
theorem C52_polygon_partial {points : List Point} {b : Bounding} (q : Point) (hb : detectBounding points = some b)
    (h : ∀ p ∈ points, p.x = q.x → p.eq q = false → 2 * tolerance ≤ |b.xmax + 1 - q.x| * |p.y - q.y|) :
    (relationToPoint points q).isSome := by
  have hpts : points ≠ [] := (C33_defined points).1 (by rw [hb]; rfl)
  obtain ⟨hm, -⟩ := C33_tight hb
  have hfar : ∀ p ∈ points, ∃ N : Nat, ∀ n ≥ N, 4 ≤ n → p.eq q = true ∨
      Segment.hasPoint ⟨q, rayEnd b q n⟩ p = false := by
    intro p hp
    by_cases hq : p.eq q = true
    · exact ⟨0, fun _ _ _ => Or.inl hq⟩
    · have hray : ∀ n ≥ 4, rayEnd b q n = ⟨b.xmax + 1, q.y + n⟩ := by
        intro n hn
        match n, hn with
        | n + 4, _ => rfl
      have hno : ∀ n, 4 ≤ n → Segment.hasPoint ⟨q, rayEnd b q n⟩ p = true →
          |(b.xmax + 1 - q.x) * (p.y - q.y) - n * (p.x - q.x)| < 2 * tolerance := by
        intro n hn hc
        simp only [Segment.hasPoint, Bool.and_eq_true, decide_eq_true_eq] at hc
        have hc := hc.1.1.1.1
        rw [rotation_triangle, senseOf_colinear, hray n hn] at hc
        have e : orient q ⟨b.xmax + 1, q.y + n⟩ p = (b.xmax + 1 - q.x) * (p.y - q.y) - n * (p.x - q.x) := by
          simp only [orient]; ring
        rw [e, abs_div, abs_two] at hc
        linarith
      rcases lt_trichotomy p.x q.x with hx | hx | hx
      · refine ⟨0, fun n _ hn => Or.inr ?_⟩
        rw [← Bool.not_eq_true]
        intro hc
        obtain ⟨-, h2, -, -⟩ := hasPoint_box hc
        rw [hray n hn] at h2
        rcases min_le_iff.1 h2 with h2 | h2
        · linarith
        · have := (hm p hp).2.1; simp only at h2; linarith
      · refine ⟨0, fun n _ hn => Or.inr ?_⟩
        rw [← Bool.not_eq_true]
        intro hc
        have h1 := hno n hn hc
        have h2 := h p hp hx (by simpa using hq)
        rw [hx, sub_self, mul_zero, sub_zero, abs_mul] at h1
        linarith
      · obtain ⟨N, hN⟩ := exists_nat_gt ((2 * tolerance + |(b.xmax + 1 - q.x) * (p.y - q.y)|) / (p.x - q.x))
        refine ⟨N, fun n hnN hn => Or.inr ?_⟩
        rw [← Bool.not_eq_true]
        intro hc
        have h1 := hno n hn hc
        rw [div_lt_iff₀ (by linarith)] at hN
        have h3 : (N : ℚ) ≤ n := by exact_mod_cast hnN
        have h4 : (N : ℚ) * (p.x - q.x) ≤ n * (p.x - q.x) := mul_le_mul_of_nonneg_right h3 (by linarith)
        have h5 := abs_lt.1 h1
        have h6 := le_abs_self ((b.xmax + 1 - q.x) * (p.y - q.y))
        linarith [h5.1]
  have hall : ∀ l : List Point, (∀ p ∈ l, p ∈ points) → ∃ N : Nat, ∀ n ≥ N, 4 ≤ n → ∀ p ∈ l, p.eq q = true ∨
      Segment.hasPoint ⟨q, rayEnd b q n⟩ p = false := by
    intro l
    induction l with
    | nil => exact fun _ => ⟨0, by simp⟩
    | cons p l ih =>
      intro hl
      obtain ⟨N, hN⟩ := ih fun p hp => hl p (by simp [hp])
      obtain ⟨M, hM⟩ := hfar p (hl p (by simp))
      refine ⟨max N M, fun n hn h4 p' hp' => ?_⟩
      rcases List.mem_cons.1 hp' with rfl | hp'
      · exact hM n (le_trans (le_max_right _ _) hn) h4
      · exact hN n (le_trans (le_max_left _ _) hn) h4 p' hp'
  obtain ⟨N, hN⟩ := hall points fun _ h => h
  have hscan : scanVertices q ⟨q, rayEnd b q (max N 4)⟩ points ≠ .retry := by
    intro hs
    obtain ⟨p, hp, h1, h2⟩ := scan_retry hs
    rcases hN (max N 4) (le_max_left _ _) (le_max_right _ _) p hp with h | h
    · rw [h] at h1; simp at h1
    · rw [h] at h2; simp at h2
  have hedges : ∃ edges, detectEdges points = some edges := by
    cases points with
    | nil => exact absurd rfl hpts
    | cons p l => exact ⟨_, by rw [detectEdges, List.getLast?_eq_some_getLast (List.cons_ne_nil p l)]; rfl⟩
  obtain ⟨edges, he⟩ := hedges
  obtain ⟨r, hr, -⟩ := loop_ends (edges := edges) (max N 4) 0 (Nat.zero_le _) hscan
  unfold relationToPoint
  rw [he, hb]
  simp only [Option.bind_eq_bind, Option.bind_some, hr]
  rfl

/-- A polygon and a point of it for which every ray meets a vertex, or nearly, so that the loop never ends. -/
theorem C52_false : ∃ (points : List Point) (q : Point), points.length = 4 ∧ detectRotation points ≠ .colinear ∧
    relationToPoint points q = none := by
  refine ⟨[⟨1 / 2, 0⟩, ⟨0, 11 / 1000000000⟩, ⟨-1, 0⟩, ⟨0, -1⟩], ⟨0, 0⟩, rfl, by decide +kernel, ?_⟩
  set points : List Point := [⟨1 / 2, 0⟩, ⟨0, 11 / 1000000000⟩, ⟨-1, 0⟩, ⟨0, -1⟩] with hpts
  have hb : detectBounding points = some ⟨-1, 1 / 2, -1, 11 / 1000000000⟩ := by decide +kernel
  have hscan : ∀ n, scanVertices ⟨0, 0⟩ ⟨⟨0, 0⟩, rayEnd ⟨-1, 1 / 2, -1, 11 / 1000000000⟩ ⟨0, 0⟩ n⟩ points = .retry := by
    intro n
    match n with
    | 0 => decide +kernel
    | 1 => decide +kernel
    | 2 => decide +kernel
    | 3 => decide +kernel
    | n + 4 =>
      have h2 : Segment.hasPoint ⟨⟨0, 0⟩, rayEnd ⟨-1, 1 / 2, -1, 11 / 1000000000⟩ ⟨0, 0⟩ (n + 4)⟩
          ⟨0, 11 / 1000000000⟩ = true := by
        have hn : (0 : ℚ) ≤ n := Nat.cast_nonneg n
        simp only [Segment.hasPoint, Bool.and_eq_true, decide_eq_true_eq, rayEnd]
        refine ⟨⟨⟨⟨?_, ?_⟩, ?_⟩, ?_⟩, ?_⟩
        · rw [rotation_triangle, senseOf_colinear]
          norm_num [orient, tolerance, abs_lt]
        · norm_num
        · norm_num
        · rw [le_max_iff]; right; push_cast; linarith
        · rw [ge_iff_le, min_le_iff]; left; norm_num
      have h1 : (⟨1 / 2, 0⟩ : Point).eq ⟨0, 0⟩ = false := by decide +kernel
      have h3 : (⟨0, 11 / 1000000000⟩ : Point).eq ⟨0, 0⟩ = false := by decide +kernel
      rw [hpts, scanVertices, scanVertices]
      simp only [h1, h3, h2, Bool.false_eq_true, if_false, if_true]
      split_ifs <;> rfl
  unfold relationToPoint
  rw [hb]
  cases he : detectEdges points with
  | none => rfl
  | some edges =>
    simp only [Option.bind_eq_bind, Option.bind_some]
    cases hr : relationToPoint.loop points edges ⟨-1, 1 / 2, -1, 11 / 1000000000⟩ ⟨0, 0⟩ 0 with
    | none => rfl
    | some r =>
      exfalso
      refine relationToPoint.loop.partial_correctness points edges ⟨-1, 1 / 2, -1, 11 / 1000000000⟩ ⟨0, 0⟩
        (fun _ _ => False) ?_ 0 r hr
      intro loop ih n r hr
      simp only [hscan n] at hr
      exact ih (n + 1) r hr

example : detectBounding ell = some ⟨0, 3, 0, 2⟩ ∧
    ∀ p ∈ ell, p.x = 1 → p.eq ⟨1, 1 / 2⟩ = false → 2 * tolerance ≤ |(3 : ℚ) + 1 - 1| * |p.y - 1 / 2| := by
  decide +kernel

end Verif.Geom
