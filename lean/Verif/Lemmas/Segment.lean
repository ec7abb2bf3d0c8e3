import Verif.Lemmas.Geometry
import Mathlib.Algebra.Order.Field.Basic

/-!
# Overlap, merge and intersection of segments
-/

namespace Verif.Geom
open Verif.Mesh Spec

theorem ite_max (a b : ℚ) : (if b ≤ a then a else b) = max a b := by
  split_ifs with h
  · rw [max_eq_left h]
  · rw [max_eq_right (not_le.1 h).le]

theorem ite_min (a b : ℚ) : (if a ≤ b then a else b) = min a b := by
  split_ifs with h
  · rw [min_eq_left h]
  · rw [min_eq_right (not_le.1 h).le]

theorem pick_iff {amin amax bmin bmax ra rb : ℚ} (ha : amin ≤ amax) (hb : bmin ≤ bmax) :
    (max amin bmin ≤ min amax bmax →
      pick amin bmin amin amax bmin bmax ra rb = some (if bmin ≤ amin then ra else rb) ∧
      pick amax bmax amin amax bmin bmax ra rb = some (if amax ≤ bmax then ra else rb)) ∧
    (¬ max amin bmin ≤ min amax bmax → pick amin bmin amin amax bmin bmax ra rb = none) := by
  rw [max_le_iff, le_min_iff, le_min_iff]
  unfold pick
  refine ⟨fun ⟨⟨_, h1⟩, h2, _⟩ => ⟨?_, ?_⟩, fun h => ?_⟩
  · by_cases h : bmin ≤ amin
    · rw [if_pos ⟨h, h1⟩, if_pos h]
    · rw [if_neg (fun h' => h h'.1), if_pos ⟨(not_le.1 h).le, h2⟩, if_neg h]
  · by_cases h : amax ≤ bmax
    · rw [if_pos ⟨h2, h⟩, if_pos h]
    · rw [if_neg (fun h' => h h'.2), if_pos ⟨h1, (not_le.1 h).le⟩, if_neg h]
  · rw [if_neg, if_neg]
    · exact fun h' => h ⟨⟨ha, le_trans h'.1 hb⟩, h'.2, hb⟩
    · exact fun h' => h ⟨⟨ha, h'.2⟩, le_trans h'.1 ha, hb⟩

theorem bounding_le (s : Segment) : s.bounding.xmin ≤ s.bounding.xmax ∧ s.bounding.ymin ≤ s.bounding.ymax := by
  rw [segment_bounding_min_max]; exact ⟨min_le_max, min_le_max⟩

/-- `overlap` of segments found parallel, from their boxes. -/
theorem overlap_eq {a b : Segment} (hp : areParallel a b = true) :
    overlap a b = if a.bounding.overlap b.bounding = true then
      some ⟨⟨max a.bounding.xmin b.bounding.xmin, max a.bounding.ymin b.bounding.ymin⟩,
        ⟨min a.bounding.xmax b.bounding.xmax, min a.bounding.ymax b.bounding.ymax⟩⟩ else none := by
  obtain ⟨ax, ay⟩ := bounding_le a
  obtain ⟨bx, by'⟩ := bounding_le b
  unfold overlap
  rw [if_pos hp]
  simp only [Bounding.overlap, ge_iff_le, Bool.and_eq_true, decide_eq_true_eq]
  obtain ⟨hx, hx'⟩ := pick_iff (ra := a.bounding.xmin) (rb := b.bounding.xmin) ax bx
  obtain ⟨hX, -⟩ := pick_iff (ra := a.bounding.xmax) (rb := b.bounding.xmax) ax bx
  obtain ⟨hy, hy'⟩ := pick_iff (ra := a.bounding.ymin) (rb := b.bounding.ymin) ay by'
  obtain ⟨hY, -⟩ := pick_iff (ra := a.bounding.ymax) (rb := b.bounding.ymax) ay by'
  by_cases h1 : max a.bounding.xmin b.bounding.xmin ≤ min a.bounding.xmax b.bounding.xmax
  · by_cases h2 : max a.bounding.ymin b.bounding.ymin ≤ min a.bounding.ymax b.bounding.ymax
    · rw [if_pos ⟨h1, h2⟩, (hx h1).1, (hX h1).2, (hy h2).1, (hY h2).2]
      simp only [Option.bind_eq_bind, Option.bind_some, Option.getD_some, Option.pure_def, ite_max, ite_min]
    · rw [if_neg (fun h => h2 h.2), (hx h1).1, hy' h2]; rfl
  · rw [if_neg (fun h => h1 h.1), hx' h1]; rfl

/-- `merge` of segments found parallel, from their boxes. -/
theorem merge_eq {a b : Segment} (hp : areParallel a b = true) :
    merge a b = if a.bounding.overlap b.bounding = true then
      some ⟨⟨min a.bounding.xmin b.bounding.xmin, min a.bounding.ymin b.bounding.ymin⟩,
        ⟨max a.bounding.xmax b.bounding.xmax, max a.bounding.ymax b.bounding.ymax⟩⟩ else none := by
  obtain ⟨ax, ay⟩ := bounding_le a
  obtain ⟨bx, by'⟩ := bounding_le b
  unfold merge
  rw [if_pos hp]
  simp only [Bounding.overlap, ge_iff_le, Bool.and_eq_true, decide_eq_true_eq]
  obtain ⟨hx, hx'⟩ := pick_iff (ra := b.bounding.xmin) (rb := a.bounding.xmin) ax bx
  obtain ⟨hX, -⟩ := pick_iff (ra := b.bounding.xmax) (rb := a.bounding.xmax) ax bx
  obtain ⟨hy, hy'⟩ := pick_iff (ra := b.bounding.ymin) (rb := a.bounding.ymin) ay by'
  obtain ⟨hY, -⟩ := pick_iff (ra := b.bounding.ymax) (rb := a.bounding.ymax) ay by'
  by_cases h1 : max a.bounding.xmin b.bounding.xmin ≤ min a.bounding.xmax b.bounding.xmax
  · by_cases h2 : max a.bounding.ymin b.bounding.ymin ≤ min a.bounding.ymax b.bounding.ymax
    · rw [if_pos ⟨h1, h2⟩, (hx h1).1, (hX h1).2, (hy h2).1, (hY h2).2]
      simp only [Option.bind_eq_bind, Option.bind_some, Option.getD_some, Option.pure_def, ite_max, ite_min,
        min_comm b.bounding.xmin, max_comm b.bounding.xmax, min_comm b.bounding.ymin, max_comm b.bounding.ymax]
    · rw [if_neg (fun h => h2 h.2), (hx h1).1, hy' h2]; rfl
  · rw [if_neg (fun h => h1 h.1), hx' h1]; rfl

/-! ## Segments of an ascending line -/

theorem axis_point {s : Segment} (hx : s.p1.x = s.p0.x) (hy : s.p1.y = s.p0.y) : s.axis = .point := by
  unfold Segment.axis vectorAxis
  simp [Point.sub, hx, hy, coordEq_refl]

theorem axis_vertical {s : Segment} (hx : s.p1.x = s.p0.x) (h : s.axis ≠ .point) : s.axis = .v := by
  unfold Segment.axis vectorAxis at h ⊢
  have : coordEq (s.p1.sub s.p0).x 0 = true := by simp [Point.sub, hx, coordEq_refl]
  rw [this] at h ⊢
  by_cases h1 : coordEq (s.p1.sub s.p0).y 0 = true
  · simp [h1] at h
  · simp [h1]

theorem parallel_of_line {o v : Point} {a b : Segment} {a0 a1 b0 b1 : ℚ} (hvx : 0 ≤ v.x)
    (ha0 : At o v a0 a.p0) (ha1 : At o v a1 a.p1) (hb0 : At o v b0 b.p0) (hb1 : At o v b1 b.p1)
    (ha : a.axis ≠ .point) (hb : b.axis ≠ .point) : areParallel a b = true := by
  unfold areParallel
  rcases hvx.eq_or_lt with h | h
  · have h1 : a.axis = .v := axis_vertical (by rw [ha0.1, ha1.1, ← h]; ring) ha
    have h2 : b.axis = .v := axis_vertical (by rw [hb0.1, hb1.1, ← h]; ring) hb
    simp [h1, h2]
  · have hna : a1 - a0 ≠ 0 := fun h0 => ha (axis_point (by rw [ha0.1, ha1.1]; linear_combination v.x * h0)
      (by rw [ha0.2, ha1.2]; linear_combination v.y * h0))
    have hnb : b1 - b0 ≠ 0 := fun h0 => hb (axis_point (by rw [hb0.1, hb1.1]; linear_combination v.x * h0)
      (by rw [hb0.2, hb1.2]; linear_combination v.y * h0))
    have e1 : (a.p1.sub a.p0).x = (a1 - a0) * v.x := by simp only [Point.sub, ha0.1, ha1.1]; ring
    have e2 : (a.p1.sub a.p0).y = (a1 - a0) * v.y := by simp only [Point.sub, ha0.2, ha1.2]; ring
    have e3 : (b.p1.sub b.p0).x = (b1 - b0) * v.x := by simp only [Point.sub, hb0.1, hb1.1]; ring
    have e4 : (b.p1.sub b.p0).y = (b1 - b0) * v.y := by simp only [Point.sub, hb0.2, hb1.2]; ring
    have : slopesEq (a.p1.sub a.p0) (b.p1.sub b.p0) = true := by
      unfold slopesEq
      rw [e1, e2, e3, e4, mul_div_mul_left _ _ hna, mul_div_mul_left _ _ hnb, coordEq_refl]
      simp [hna, hnb, h.ne']
    rw [this]; simp

theorem at_mono {o v : Point} (hvx : 0 ≤ v.x) {s t : ℚ} :
    min (o.x + s * v.x) (o.x + t * v.x) = o.x + min s t * v.x ∧
    max (o.x + s * v.x) (o.x + t * v.x) = o.x + max s t * v.x := by
  rcases le_total s t with h | h
  · have : o.x + s * v.x ≤ o.x + t * v.x := by nlinarith
    rw [min_eq_left h, max_eq_right h, min_eq_left this, max_eq_right this]; exact ⟨rfl, rfl⟩
  · have : o.x + t * v.x ≤ o.x + s * v.x := by nlinarith
    rw [min_eq_right h, max_eq_left h, min_eq_right this, max_eq_left this]; exact ⟨rfl, rfl⟩

theorem mono_min {c k s t : ℚ} (hk : 0 ≤ k) : min (c + s * k) (c + t * k) = c + min s t * k :=
  (at_mono (o := ⟨c, 0⟩) (v := ⟨k, 0⟩) hk).1

theorem mono_max {c k s t : ℚ} (hk : 0 ≤ k) : max (c + s * k) (c + t * k) = c + max s t * k :=
  (at_mono (o := ⟨c, 0⟩) (v := ⟨k, 0⟩) hk).2

theorem bounding_of_line {o v : Point} {a : Segment} {a0 a1 : ℚ} (hvx : 0 ≤ v.x) (hvy : 0 ≤ v.y)
    (ha0 : At o v a0 a.p0) (ha1 : At o v a1 a.p1) :
    a.bounding = ⟨o.x + min a0 a1 * v.x, o.x + max a0 a1 * v.x, o.y + min a0 a1 * v.y, o.y + max a0 a1 * v.y⟩ := by
  rw [segment_bounding_min_max, ha0.1, ha0.2, ha1.1, ha1.2, mono_min hvx, mono_max hvx, mono_min hvy, mono_max hvy]

/-- The points of a segment of a line. -/
theorem on_iff {o v : Point} {a : Segment} {a0 a1 : ℚ} (ha0 : At o v a0 a.p0) (ha1 : At o v a1 a.p1) (q : Point) :
    On a q ↔ ∃ t, min a0 a1 ≤ t ∧ t ≤ max a0 a1 ∧ At o v t q := by
  constructor
  · rintro ⟨t, h0, h1, hx, hy⟩
    refine ⟨a0 + t * (a1 - a0), ?_, ?_, ?_, ?_⟩
    · rcases le_total a0 a1 with h | h
      · rw [min_eq_left h]; nlinarith
      · rw [min_eq_right h]; nlinarith
    · rcases le_total a0 a1 with h | h
      · rw [max_eq_right h]; nlinarith
      · rw [max_eq_left h]; nlinarith
    · rw [hx, ha0.1, ha1.1]; ring
    · rw [hy, ha0.2, ha1.2]; ring
  · rintro ⟨t, h0, h1, hx, hy⟩
    by_cases h : a1 - a0 = 0
    · have : a1 = a0 := by linarith
      rw [this, min_self] at h0
      rw [this, max_self] at h1
      have ht : t = a0 := le_antisymm h1 h0
      refine ⟨0, le_refl _, zero_le_one, ?_, ?_⟩
      · rw [hx, ha0.1, ht]; ring
      · rw [hy, ha0.2, ht]; ring
    · refine ⟨(t - a0) / (a1 - a0), ?_, ?_, ?_, ?_⟩
      · rcases lt_or_gt_of_ne h with h' | h'
        · have h3 : a1 ≤ a0 := by linarith
          rw [max_eq_left h3] at h1
          exact div_nonneg_of_nonpos (by linarith) h'.le
        · have h3 : a0 ≤ a1 := by linarith
          rw [min_eq_left h3] at h0
          exact div_nonneg (by linarith) h'.le
      · rcases lt_or_gt_of_ne h with h' | h'
        · have h3 : a1 ≤ a0 := by linarith
          rw [min_eq_right h3] at h0
          rw [div_le_one_of_neg h']; linarith
        · have h3 : a0 ≤ a1 := by linarith
          rw [max_eq_right h3] at h1
          rw [div_le_one h']; linarith
      · rw [hx, ha0.1, ha1.1]; field_simp; ring
      · rw [hy, ha0.2, ha1.2]; field_simp; ring

theorem at_inj {o v : Point} (hv : v.x ≠ 0 ∨ v.y ≠ 0) {s t : ℚ} {q : Point} (hs : At o v s q) (ht : At o v t q) :
    s = t := by
  rcases hv with h | h
  · have := hs.1.symm.trans ht.1
    exact mul_right_cancel₀ h (by linarith)
  · have := hs.2.symm.trans ht.2
    exact mul_right_cancel₀ h (by linarith)

theorem boxes_overlap_iff {o v : Point} {a b : Segment} {a0 a1 b0 b1 : ℚ} (hvx : 0 ≤ v.x) (hvy : 0 ≤ v.y)
    (hv : v.x ≠ 0 ∨ v.y ≠ 0)
    (ha0 : At o v a0 a.p0) (ha1 : At o v a1 a.p1) (hb0 : At o v b0 b.p0) (hb1 : At o v b1 b.p1) :
    a.bounding.overlap b.bounding = true ↔ max (min a0 a1) (min b0 b1) ≤ min (max a0 a1) (max b0 b1) := by
  rw [bounding_of_line hvx hvy ha0 ha1, bounding_of_line hvx hvy hb0 hb1]
  simp only [Bounding.overlap, ge_iff_le, Bool.and_eq_true, decide_eq_true_eq, mono_min hvx, mono_max hvx,
    mono_min hvy, mono_max hvy]
  generalize max (min a0 a1) (min b0 b1) = lo
  generalize min (max a0 a1) (max b0 b1) = hi
  constructor
  · rintro ⟨h1, h2⟩
    by_contra h
    rw [not_le] at h
    rcases hv with h' | h'
    · have := mul_lt_mul_of_pos_right h (lt_of_le_of_ne hvx h'.symm)
      linarith
    · have := mul_lt_mul_of_pos_right h (lt_of_le_of_ne hvy h'.symm)
      linarith
  · intro h
    exact ⟨by nlinarith, by nlinarith⟩

/-! ## Crossing segments -/

/-- Where two lines through `a` and `b` meet, as a point of `b`. -/
theorem crossing_point {a b : Segment} (h1 : Separated a.p0 a.p1 b.p0 b.p1) (h2 : Separated b.p0 b.p1 a.p0 a.p1) :
    let av := a.p1.sub a.p0
    let bv := b.p1.sub b.p0
    let div := av.x * bv.y - av.y * bv.x
    let m := (av.x * a.p0.y - av.x * b.p0.y - av.y * a.p0.x + av.y * b.p0.x) / div
    div ≠ 0 ∧ 0 ≤ m ∧ m ≤ 1 ∧ On a (b.p0.advance m bv) ∧ On b (b.p0.advance m bv) := by
  intro av bv div m
  have hd1 : div = orient a.p0 a.p1 b.p1 - orient a.p0 a.p1 b.p0 := by
    simp only [div, av, bv, Point.sub, orient]; ring
  have hd2 : div = orient b.p0 b.p1 a.p0 - orient b.p0 b.p1 a.p1 := by
    simp only [div, av, bv, Point.sub, orient]; ring
  have hm : m = - orient a.p0 a.p1 b.p0 / div := by
    simp only [m, av, Point.sub, orient]; congr 1; ring
  have hdiv : div ≠ 0 := by
    rw [hd1]; rcases h1 with h | h
    · exact ne_of_gt (by linarith)
    · exact ne_of_lt (by linarith)
  have frac : ∀ u v : ℚ, (u < 0 ∧ 0 < v ∨ v < 0 ∧ 0 < u) → 0 ≤ -u / (v - u) ∧ -u / (v - u) ≤ 1 := by
    intro u v h
    rcases h with h | h
    · have : 0 < v - u := by linarith
      exact ⟨div_nonneg (by linarith) this.le, by rw [div_le_one this]; linarith⟩
    · have : v - u < 0 := by linarith
      exact ⟨div_nonneg_of_nonpos (by linarith) this.le, by rw [div_le_one_of_neg this]; linarith⟩
  have hmr := frac _ _ h1
  rw [← hd1, ← hm] at hmr
  refine ⟨hdiv, hmr.1, hmr.2, ?_, ?_⟩
  · have hs := frac _ _ h2
    have e : orient b.p0 b.p1 a.p1 - orient b.p0 b.p1 a.p0 = -div := by rw [hd2]; ring
    rw [e, neg_div_neg_eq] at hs
    refine ⟨orient b.p0 b.p1 a.p0 / div, hs.1, hs.2, ?_, ?_⟩
    · simp only [Point.advance]
      rw [hm]
      field_simp
      simp only [div, av, bv, Point.sub, orient]; ring
    · simp only [Point.advance]
      rw [hm]
      field_simp
      simp only [div, av, bv, Point.sub, orient]; ring
  · refine ⟨m, hmr.1, hmr.2, ?_, ?_⟩
    · simp only [Point.advance, bv, Point.sub]; ring
    · simp only [Point.advance, bv, Point.sub]; ring

theorem crossing_unique {a b : Segment} (h1 : Separated a.p0 a.p1 b.p0 b.p1)
    {p q : Point} (hpa : On a p) (hpb : On b p) (hqa : On a q) (hqb : On b q) : p = q := by
  obtain ⟨s, -, -, hsx, hsy⟩ := hpa
  obtain ⟨t, -, -, htx, hty⟩ := hpb
  obtain ⟨s', -, -, hsx', hsy'⟩ := hqa
  obtain ⟨t', -, -, htx', hty'⟩ := hqb
  have hdiv : orient a.p0 a.p1 b.p1 - orient a.p0 a.p1 b.p0 ≠ 0 := by
    rcases h1 with h | h
    · exact ne_of_gt (by linarith)
    · exact ne_of_lt (by linarith)
  have e1 : (s - s') * (a.p1.x - a.p0.x) = (t - t') * (b.p1.x - b.p0.x) := by
    linear_combination (-1) * hsx + hsx' + htx - htx'
  have e2 : (s - s') * (a.p1.y - a.p0.y) = (t - t') * (b.p1.y - b.p0.y) := by
    linear_combination (-1) * hsy + hsy' + hty - hty'
  have e3 : (t - t') * (orient a.p0 a.p1 b.p1 - orient a.p0 a.p1 b.p0) = 0 := by
    simp only [orient]
    linear_combination (-(a.p1.x - a.p0.x)) * e2 + (a.p1.y - a.p0.y) * e1
  have ht : t = t' := by
    rcases mul_eq_zero.1 e3 with h | h
    · linarith
    · exact absurd h hdiv
  obtain ⟨px, py⟩ := p
  obtain ⟨qx, qy⟩ := q
  simp only at htx hty htx' hty'
  rw [htx, hty, htx', hty', ht]

theorem separated_of_rotation {a b c d : Point} (h1 : detectRotation [a, b, c] ≠ .colinear)
    (h2 : detectRotation [a, b, d] ≠ .colinear) (h : detectRotation [a, b, c] ≠ detectRotation [a, b, d]) :
    Separated a b c d := by
  have hp := tolerance_pos
  rw [rotation_triangle] at h1 h
  rw [rotation_triangle] at h2 h
  unfold Separated
  cases h3 : senseOf (orient a b c / 2) with
  | colinear => exact absurd h3 h1
  | cw =>
    cases h4 : senseOf (orient a b d / 2) with
    | colinear => exact absurd h4 h2
    | cw => rw [h3, h4] at h; exact absurd rfl h
    | ccw => left; have := senseOf_cw.1 h3; have := senseOf_ccw.1 h4; constructor <;> linarith
  | ccw =>
    cases h4 : senseOf (orient a b d / 2) with
    | colinear => exact absurd h4 h2
    | ccw => rw [h3, h4] at h; exact absurd rfl h
    | cw => right; have := senseOf_ccw.1 h3; have := senseOf_cw.1 h4; constructor <;> linarith

theorem relationTo_crossing {a b : Segment} (h : a.relationTo b = .crossing) :
    detectRotation [a.p0, a.p1, b.p0] ≠ detectRotation [a.p0, a.p1, b.p1] ∧
    detectRotation [b.p0, b.p1, a.p0] ≠ detectRotation [b.p0, b.p1, a.p1] := by
  rw [relationTo_eq, relationOf] at h
  split_ifs at h with h1 h2 h3
  exact h3

end Verif.Geom
