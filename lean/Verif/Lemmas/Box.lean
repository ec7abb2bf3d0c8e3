import Verif.Lemmas.Geometry
import Mathlib.Algebra.Order.Field.Basic
import Mathlib.Tactic.Positivity

/-!
# Points and boxes
-/

namespace Verif.Geom
open Verif.Mesh Spec

/-! ## The loops -/

theorem scan_retry {q : Point} {ray : Segment} {pts : List Point} (h : scanVertices q ray pts = .retry) :
    ∃ p ∈ pts, p.eq q = false ∧ ray.hasPoint p = true := by
  induction pts with
  | nil => simp [scanVertices] at h
  | cons p pts ih =>
    rw [scanVertices] at h
    split_ifs at h with h1 h2
    · exact ⟨p, by simp, by simpa using h1, h2⟩
    · obtain ⟨p', hp, h⟩ := ih h
      exact ⟨p', by simp [hp], h⟩

theorem scan_on {q : Point} {ray : Segment} {pts : List Point} (h : scanVertices q ray pts = .on) :
    ∃ p ∈ pts, p.eq q = true := by
  induction pts with
  | nil => simp [scanVertices] at h
  | cons p pts ih =>
    rw [scanVertices] at h
    split_ifs at h with h1 h2
    · exact ⟨p, by simp, h1⟩
    · obtain ⟨p', hp, h⟩ := ih h
      exact ⟨p', by simp [hp], h⟩

theorem countCrossings_none {q : Point} {ray : Segment} {edges : List Segment} :
    countCrossings q ray edges = none ↔ ∃ e ∈ edges, e.hasPoint q = true := by
  induction edges with
  | nil => simp [countCrossings]
  | cons e edges ih =>
    rw [countCrossings]
    by_cases h : e.hasPoint q = true
    · simp [h]
    · simp [h, ih]

theorem countCrossings_some {q : Point} {ray : Segment} {edges : List Segment}
    (h : ∀ e ∈ edges, e.hasPoint q = false) :
    countCrossings q ray edges = some (edges.countP fun e => decide (e.relationTo ray = .crossing)) := by
  induction edges with
  | nil => simp [countCrossings]
  | cons e edges ih =>
    rw [countCrossings, if_neg (by simp [h e (by simp)]), ih fun e he => h e (by simp [he])]
    by_cases hc : e.relationTo ray = .crossing <;> simp [hc]

/-- Once some ray meets no vertex, the loop ends, with `on` when some edge has the point. -/
theorem loop_ends {pts : List Point} {edges : List Segment} {b : Bounding} {q : Point} (m n : Nat) (hn : n ≤ m)
    (h : scanVertices q ⟨q, rayEnd b q m⟩ pts ≠ .retry) :
    ∃ r, relationToPoint.loop pts edges b q n = some r ∧
      ((∃ e ∈ edges, e.hasPoint q = true) → r = .on) := by
  induction hk : m - n generalizing n with
  | zero =>
    obtain rfl : n = m := by omega
    rw [relationToPoint.loop]
    cases hs : scanVertices q ⟨q, rayEnd b q n⟩ pts with
    | retry => exact absurd hs h
    | on => exact ⟨_, rfl, fun _ => rfl⟩
    | clear =>
      cases hc : countCrossings q ⟨q, rayEnd b q n⟩ edges with
      | none => exact ⟨_, rfl, fun _ => rfl⟩
      | some c =>
        refine ⟨_, rfl, fun he => ?_⟩
        rw [countCrossings_none.2 he] at hc
        simp at hc
  | succ k ih =>
    rw [relationToPoint.loop]
    cases hs : scanVertices q ⟨q, rayEnd b q n⟩ pts with
    | retry => exact ih (n + 1) (by omega) (by omega)
    | on => exact ⟨_, rfl, fun _ => rfl⟩
    | clear =>
      cases hc : countCrossings q ⟨q, rayEnd b q n⟩ edges with
      | none => exact ⟨_, rfl, fun _ => rfl⟩
      | some c =>
        refine ⟨_, rfl, fun he => ?_⟩
        rw [countCrossings_none.2 he] at hc
        simp at hc

/-! ## Boxes -/

/-- The edges of a box. -/
def boxEdges (p1 p3 : Point) : List Segment :=
  [⟨⟨p3.x, p1.y⟩, ⟨p1.x, p1.y⟩⟩, ⟨⟨p1.x, p1.y⟩, ⟨p1.x, p3.y⟩⟩, ⟨⟨p1.x, p3.y⟩, ⟨p3.x, p3.y⟩⟩,
    ⟨⟨p3.x, p3.y⟩, ⟨p3.x, p1.y⟩⟩]

theorem detectBounding_box (p1 p3 : Point) : detectBounding (boxPoints p1 p3) =
    some ⟨min p1.x p3.x, max p1.x p3.x, min p1.y p3.y, max p1.y p3.y⟩ := by
  simp only [detectBounding, boxPoints, List.head?_cons, Option.map_some]
  have step : ∀ (b : Bounding) (p : Point) (l : List Point), b.xmin ≤ b.xmax → b.ymin ≤ b.ymax →
      detectBounding.loop b (p :: l) =
        detectBounding.loop ⟨min b.xmin p.x, max b.xmax p.x, min b.ymin p.y, max b.ymax p.y⟩ l := by
    intro b p l h1 h2
    rw [detectBounding_step, if_pos ⟨h1, h2⟩]
  rw [step _ _ _ (le_refl _) (le_refl _)]
  simp only [min_self, max_self]
  rw [step _ _ _ (le_refl _) (le_refl _)]
  simp only [min_self, max_self]
  rw [step _ _ _ (le_refl _) min_le_max]
  simp only [min_assoc, max_assoc, min_self, max_self]
  rw [step _ _ _ min_le_max min_le_max]
  simp only [detectBounding.loop, Option.some.injEq, Bounding.mk.injEq]
  refine ⟨?_, ?_, ?_, ?_⟩
  · rw [min_assoc, min_self]
  · rw [max_assoc, max_self]
  · exact min_eq_left (min_le_left _ _)
  · exact max_eq_left (le_max_left _ _)

theorem relationToPoint_box (p1 p3 q : Point) : relationToPoint (boxPoints p1 p3) q =
    relationToPoint.loop (boxPoints p1 p3) (boxEdges p1 p3)
      ⟨min p1.x p3.x, max p1.x p3.x, min p1.y p3.y, max p1.y p3.y⟩ q 0 := by
  unfold relationToPoint
  rw [detectBounding_box]
  rfl

theorem mem_boxPoints {p1 p3 p : Point} : p ∈ boxPoints p1 p3 ↔
    (p.x = p1.x ∨ p.x = p3.x) ∧ (p.y = p1.y ∨ p.y = p3.y) := by
  obtain ⟨x, y⟩ := p
  simp only [boxPoints, List.mem_cons, Point.mk.injEq, List.not_mem_nil, or_false]
  tauto

theorem hasPoint_box {s : Segment} {p : Point} (h : s.hasPoint p = true) :
    p.x ≤ max s.p0.x s.p1.x ∧ min s.p0.x s.p1.x ≤ p.x ∧ p.y ≤ max s.p0.y s.p1.y ∧ min s.p0.y s.p1.y ≤ p.y := by
  simp only [Segment.hasPoint, Bool.and_eq_true, decide_eq_true_eq] at h
  exact ⟨h.1.1.1.2, h.1.1.2, h.1.2, h.2⟩

theorem hasPoint_of {s : Segment} {p : Point} (h : orient s.p0 s.p1 p = 0)
    (h1 : p.x ≤ max s.p0.x s.p1.x) (h2 : min s.p0.x s.p1.x ≤ p.x)
    (h3 : p.y ≤ max s.p0.y s.p1.y) (h4 : min s.p0.y s.p1.y ≤ p.y) : s.hasPoint p = true := by
  simp only [Segment.hasPoint, Bool.and_eq_true, decide_eq_true_eq]
  refine ⟨⟨⟨⟨?_, h1⟩, h2⟩, h3⟩, h4⟩
  rw [rotation_triangle, h, senseOf_colinear]
  simpa using tolerance_pos

/-- An edge of a box has a point only if it is on the border of the box, and each point of the border is on an
edge. -/
theorem boxEdges_hasPoint {p1 p3 q : Point} : (∃ e ∈ boxEdges p1 p3, e.hasPoint q = true) ↔ OnBox p1 p3 q := by
  constructor
  · rintro ⟨e, he, h⟩
    obtain ⟨h1, h2, h3, h4⟩ := hasPoint_box h
    simp only [boxEdges, List.mem_cons, List.not_mem_nil, or_false] at he
    have a := min_le_left p1.x p3.x
    have b := min_le_right p1.x p3.x
    have c := le_max_left p1.x p3.x
    have d := le_max_right p1.x p3.x
    have a' := min_le_left p1.y p3.y
    have b' := min_le_right p1.y p3.y
    have c' := le_max_left p1.y p3.y
    have d' := le_max_right p1.y p3.y
    unfold OnBox WithinBox
    rcases he with rfl | rfl | rfl | rfl <;> simp only [min_self, max_self] at h1 h2 h3 h4
    · rw [min_comm] at h2; rw [max_comm] at h1
      exact ⟨⟨h2, h1, by linarith, by linarith⟩, Or.inr (Or.inr (Or.inl (le_antisymm h3 h4)))⟩
    · exact ⟨⟨by linarith, by linarith, h4, h3⟩, Or.inl (le_antisymm h1 h2)⟩
    · exact ⟨⟨h2, h1, by linarith, by linarith⟩, Or.inr (Or.inr (Or.inr (le_antisymm h3 h4)))⟩
    · rw [min_comm] at h4; rw [max_comm] at h3
      exact ⟨⟨by linarith, by linarith, h4, h3⟩, Or.inr (Or.inl (le_antisymm h1 h2))⟩
  · rintro ⟨⟨h1, h2, h3, h4⟩, h⟩
    have hm : ∀ e, e ∈ boxEdges p1 p3 ↔ e = ⟨⟨p3.x, p1.y⟩, ⟨p1.x, p1.y⟩⟩ ∨ e = ⟨⟨p1.x, p1.y⟩, ⟨p1.x, p3.y⟩⟩ ∨
        e = ⟨⟨p1.x, p3.y⟩, ⟨p3.x, p3.y⟩⟩ ∨ e = ⟨⟨p3.x, p3.y⟩, ⟨p3.x, p1.y⟩⟩ := by simp [boxEdges]
    rcases h with h | h | h | h
    · refine ⟨_, (hm _).2 (Or.inr (Or.inl rfl)), hasPoint_of ?_ ?_ ?_ ?_ ?_⟩ <;> simp [orient, h, *]
    · refine ⟨_, (hm _).2 (Or.inr (Or.inr (Or.inr rfl))), hasPoint_of ?_ ?_ ?_ ?_ ?_⟩ <;>
        simp only [orient, h, min_self, max_self, le_refl, sub_self, zero_mul, mul_zero]
      · rw [max_comm]; exact h4
      · rw [min_comm]; exact h3
    · refine ⟨_, (hm _).2 (Or.inl rfl), hasPoint_of ?_ ?_ ?_ ?_ ?_⟩ <;>
        simp only [orient, h, min_self, max_self, le_refl, sub_self, zero_mul, mul_zero]
      · rw [max_comm]; exact h2
      · rw [min_comm]; exact h1
    · refine ⟨_, (hm _).2 (Or.inr (Or.inr (Or.inl rfl))), hasPoint_of ?_ ?_ ?_ ?_ ?_⟩ <;>
        simp [orient, h, *]

/-- One of the first three rays of a point meets no vertex of a box, but vertices equal to the point. -/
theorem box_ray (p1 p3 q : Point) : ∃ m ≤ 2,
    scanVertices q ⟨q, rayEnd ⟨min p1.x p3.x, max p1.x p3.x, min p1.y p3.y, max p1.y p3.y⟩ q m⟩
      (boxPoints p1 p3) ≠ .retry := by
  have key : ∀ m, scanVertices q ⟨q, rayEnd ⟨min p1.x p3.x, max p1.x p3.x, min p1.y p3.y, max p1.y p3.y⟩ q m⟩
      (boxPoints p1 p3) = .retry → ∃ p, (p.x = p1.x ∨ p.x = p3.x) ∧ (p.y = p1.y ∨ p.y = p3.y) ∧ p ≠ q ∧
        Segment.hasPoint ⟨q, rayEnd ⟨min p1.x p3.x, max p1.x p3.x, min p1.y p3.y, max p1.y p3.y⟩ q m⟩ p = true := by
    intro m h
    obtain ⟨p, hp, hne, h⟩ := scan_retry h
    obtain ⟨h1, h2⟩ := mem_boxPoints.1 hp
    refine ⟨p, h1, h2, ?_, h⟩
    rintro rfl
    simp [Point.eq, coordEq_refl] at hne
  have a := min_le_left p1.x p3.x
  have b := min_le_right p1.x p3.x
  have c := le_max_left p1.x p3.x
  have d := le_max_right p1.x p3.x
  have pext : ∀ p : Point, p.x = q.x → p.y = q.y → p = q := by
    rintro ⟨x, y⟩ h1 h2; obtain ⟨x', y'⟩ := q; simp_all
  by_cases hx1 : q.x ≤ min p1.x p3.x
  · refine ⟨0, by omega, fun h => ?_⟩
    obtain ⟨p, hx, hy, hne, h⟩ := key 0 h
    obtain ⟨h1, h2, h3, h4⟩ := hasPoint_box h
    simp only [rayEnd, min_self, max_self] at h1 h2 h3 h4
    refine hne (pext p (le_antisymm ?_ ?_) (le_antisymm h3 h4))
    · rcases le_max_iff.1 h1 with h | h
      · exact h
      · rcases hx with hx | hx <;> linarith
    · rcases hx with hx | hx <;> linarith
  · rw [not_le] at hx1
    by_cases hx2 : max p1.x p3.x ≤ q.x
    · refine ⟨1, by omega, fun h => ?_⟩
      obtain ⟨p, hx, hy, hne, h⟩ := key 1 h
      obtain ⟨h1, h2, h3, h4⟩ := hasPoint_box h
      simp only [rayEnd, min_self, max_self] at h1 h2 h3 h4
      refine hne (pext p (le_antisymm ?_ ?_) (le_antisymm h3 h4))
      · rcases hx with hx | hx <;> linarith
      · rcases min_le_iff.1 h2 with h | h
        · exact h
        · rcases hx with hx | hx <;> linarith
    · rw [not_le] at hx2
      refine ⟨2, by omega, fun h => ?_⟩
      obtain ⟨p, hx, hy, hne, h⟩ := key 2 h
      obtain ⟨h1, h2, h3, h4⟩ := hasPoint_box h
      simp only [rayEnd, min_self, max_self] at h1 h2
      have hpq : p.x = q.x := le_antisymm h1 h2
      rcases lt_max_iff.1 hx2 with h5 | h5 <;> rcases min_lt_iff.1 hx1 with h6 | h6 <;>
        rcases hx with hx | hx <;> linarith

/-! ## Crossings with the ray to the left -/

theorem crossing_iff {e ray : Segment} : e.relationTo ray = .crossing ↔
    senseOf (orient e.p0 e.p1 ray.p0 / 2) ≠ senseOf (orient e.p0 e.p1 ray.p1 / 2) ∧
    senseOf (orient ray.p0 ray.p1 e.p0 / 2) ≠ senseOf (orient ray.p0 ray.p1 e.p1 / 2) := by
  rw [relationTo_eq]
  simp only [rotation_triangle]
  generalize senseOf (orient e.p0 e.p1 ray.p0 / 2) = r1
  generalize senseOf (orient e.p0 e.p1 ray.p1 / 2) = r2
  generalize senseOf (orient ray.p0 ray.p1 e.p0 / 2) = r3
  generalize senseOf (orient ray.p0 ray.p1 e.p1 / 2) = r4
  generalize (_ && _) = t
  cases r1 <;> cases r2 <;> cases r3 <;> cases r4 <;> cases t <;> simp [relationOf]

/-- A horizontal edge never crosses a horizontal ray. -/
theorem crossing_h (x0 x1 Y x xe y : ℚ) :
    ¬ (Segment.mk ⟨x0, Y⟩ ⟨x1, Y⟩).relationTo ⟨⟨x, y⟩, ⟨xe, y⟩⟩ = .crossing := by
  rw [crossing_iff]
  rintro ⟨h, -⟩
  apply h
  congr 2
  simp only [orient]; ring

theorem sense_same {u v : ℚ} (h : 0 < u * v) (hu : tolerance ≤ |u|) (hv : tolerance ≤ |v|) : senseOf u = senseOf v := by
  rcases lt_or_gt_of_ne (show u ≠ 0 by rintro rfl; simp at h) with h1 | h1
  · have h2 : v < 0 := by by_contra h3; nlinarith
    rw [abs_of_neg h1] at hu
    rw [abs_of_neg h2] at hv
    rw [senseOf_cw.2 (by linarith), senseOf_cw.2 (by linarith)]
  · have h2 : 0 < v := by by_contra h3; nlinarith
    rw [abs_of_pos h1] at hu
    rw [abs_of_pos h2] at hv
    rw [senseOf_ccw.2 hu, senseOf_ccw.2 hv]

theorem sense_differ {u v : ℚ} (h : u * v < 0) (hu : tolerance ≤ |u|) : senseOf u ≠ senseOf v := by
  have hp := tolerance_pos
  rcases lt_or_gt_of_ne (show u ≠ 0 by rintro rfl; simp at h) with h1 | h1
  · have h2 : 0 < v := by by_contra h3; nlinarith
    rw [abs_of_neg h1] at hu
    rw [senseOf_cw.2 (by linarith)]
    intro h3
    have := senseOf_cw.1 h3.symm
    linarith
  · have h2 : v < 0 := by by_contra h3; nlinarith
    rw [abs_of_pos h1] at hu
    rw [senseOf_ccw.2 hu]
    intro h3
    have := senseOf_ccw.1 h3.symm
    linarith

/-- A vertical edge is crossed by a horizontal ray when its ends are on both sides of it, and those of the ray on
both sides of the edge. -/
theorem crossing_v {X y0 y1 x xe y : ℚ} (hx : (X - x) * (X - xe) < 0) (hy : (y0 - y) * (y1 - y) < 0)
    (h1 : 2 * tolerance ≤ |X - x| * |y1 - y0|) (h2 : 2 * tolerance ≤ |xe - x| * |y0 - y|) :
    (Segment.mk ⟨X, y0⟩ ⟨X, y1⟩).relationTo ⟨⟨x, y⟩, ⟨xe, y⟩⟩ = .crossing := by
  have hp := tolerance_pos
  rw [crossing_iff]
  have hyne : y1 - y0 ≠ 0 := by rintro h; rw [h, abs_zero] at h1; linarith
  have hxne : xe - x ≠ 0 := by rintro h; rw [h, abs_zero] at h2; linarith
  constructor
  · have e1 : orient ⟨X, y0⟩ ⟨X, y1⟩ ⟨x, y⟩ / 2 = (y1 - y0) * (X - x) / 2 := by simp only [orient]; ring
    have e2 : orient ⟨X, y0⟩ ⟨X, y1⟩ ⟨xe, y⟩ / 2 = (y1 - y0) * (X - xe) / 2 := by simp only [orient]; ring
    simp only [e1, e2]
    refine sense_differ ?_ ?_
    · have : (y1 - y0) * (X - x) / 2 * ((y1 - y0) * (X - xe) / 2) = (y1 - y0) ^ 2 / 4 * ((X - x) * (X - xe)) := by ring
      rw [this]
      exact mul_neg_of_pos_of_neg (by positivity) hx
    · rw [abs_div, abs_mul, abs_two, mul_comm]; linarith
  · have e1 : orient ⟨x, y⟩ ⟨xe, y⟩ ⟨X, y0⟩ / 2 = (xe - x) * (y0 - y) / 2 := by simp only [orient]; ring
    have e2 : orient ⟨x, y⟩ ⟨xe, y⟩ ⟨X, y1⟩ / 2 = (xe - x) * (y1 - y) / 2 := by simp only [orient]; ring
    simp only [e1, e2]
    refine sense_differ ?_ ?_
    · have : (xe - x) * (y0 - y) / 2 * ((xe - x) * (y1 - y) / 2) = (xe - x) ^ 2 / 4 * ((y0 - y) * (y1 - y)) := by ring
      rw [this]
      exact mul_neg_of_pos_of_neg (by positivity) hy
    · rw [abs_div, abs_mul, abs_two]; linarith

/-- A vertical edge is not crossed by a horizontal ray that is wholly on one side of it. -/
theorem not_crossing_side {X y0 y1 x xe y : ℚ} (hx : 0 < (X - x) * (X - xe))
    (h1 : 2 * tolerance ≤ |X - x| * |y1 - y0|) (h2 : 2 * tolerance ≤ |X - xe| * |y1 - y0|) :
    ¬ (Segment.mk ⟨X, y0⟩ ⟨X, y1⟩).relationTo ⟨⟨x, y⟩, ⟨xe, y⟩⟩ = .crossing := by
  have hp := tolerance_pos
  rw [crossing_iff]
  rintro ⟨h, -⟩
  have hyne : y1 - y0 ≠ 0 := by rintro h; rw [h, abs_zero] at h1; linarith
  apply h
  have e1 : orient ⟨X, y0⟩ ⟨X, y1⟩ ⟨x, y⟩ / 2 = (y1 - y0) * (X - x) / 2 := by simp only [orient]; ring
  have e2 : orient ⟨X, y0⟩ ⟨X, y1⟩ ⟨xe, y⟩ / 2 = (y1 - y0) * (X - xe) / 2 := by simp only [orient]; ring
  simp only [e1, e2]
  refine sense_same ?_ ?_ ?_
  · have : (y1 - y0) * (X - x) / 2 * ((y1 - y0) * (X - xe) / 2) = (y1 - y0) ^ 2 / 4 * ((X - x) * (X - xe)) := by ring
    rw [this]
    exact mul_pos (by positivity) hx
  · rw [abs_div, abs_mul, abs_two, mul_comm]; linarith
  · rw [abs_div, abs_mul, abs_two, mul_comm]; linarith

/-- A vertical edge wholly above or below is not crossed by a horizontal ray. -/
theorem not_crossing_away {X y0 y1 x xe y : ℚ} (hy : 0 < (y0 - y) * (y1 - y))
    (h1 : 2 * tolerance ≤ |xe - x| * |y0 - y|) (h2 : 2 * tolerance ≤ |xe - x| * |y1 - y|) :
    ¬ (Segment.mk ⟨X, y0⟩ ⟨X, y1⟩).relationTo ⟨⟨x, y⟩, ⟨xe, y⟩⟩ = .crossing := by
  have hp := tolerance_pos
  rw [crossing_iff]
  rintro ⟨-, h⟩
  have hxne : xe - x ≠ 0 := by rintro h; rw [h, abs_zero] at h1; linarith
  apply h
  have e1 : orient ⟨x, y⟩ ⟨xe, y⟩ ⟨X, y0⟩ / 2 = (xe - x) * (y0 - y) / 2 := by simp only [orient]; ring
  have e2 : orient ⟨x, y⟩ ⟨xe, y⟩ ⟨X, y1⟩ / 2 = (xe - x) * (y1 - y) / 2 := by simp only [orient]; ring
  simp only [e1, e2]
  refine sense_same ?_ ?_ ?_
  · have : (xe - x) * (y0 - y) / 2 * ((xe - x) * (y1 - y) / 2) = (xe - x) ^ 2 / 4 * ((y0 - y) * (y1 - y)) := by ring
    rw [this]
    exact mul_pos (by positivity) hy
  · rw [abs_div, abs_mul, abs_two]; linarith
  · rw [abs_div, abs_mul, abs_two]; linarith

end Verif.Geom
