import Verif.Lemmas.Segment

/-!
# Theorems about overlapping and crossing segments
-/

namespace Verif.Geom
open Verif.Mesh Spec

/-! ## C36 -/

/-- For segments going down, the overlap and the merge take the wrong corners of the boxes. -/
theorem C36_false : ∃ (a b r s : Segment) (p q : Point), a.relationTo b = .overlapping ∧
    overlap a b = some r ∧ merge a b = some s ∧
    (On r p ∧ ¬ On a p ∧ ¬ On b p) ∧ (On a q ∧ ¬ On s q) := by
  refine ⟨⟨⟨0, 4⟩, ⟨3, 1⟩⟩, ⟨⟨1, 3⟩, ⟨4, 0⟩⟩, ⟨⟨1, 1⟩, ⟨3, 3⟩⟩, ⟨⟨0, 0⟩, ⟨4, 4⟩⟩, ⟨1, 1⟩, ⟨0, 4⟩, ?_⟩
  refine ⟨by decide +kernel, by decide +kernel, by decide +kernel, ⟨⟨0, by norm_num⟩, ?_, ?_⟩, ⟨0, by norm_num⟩, ?_⟩ <;>
  · rintro ⟨t, -, -, h1, h2⟩
    simp only at h1 h2
    linarith

/-- For segments of one line that does not go down (horizontal, vertical or ascending), neither too short to have an
axis: when they have a common point, the overlap is made of the common points, and the merge of the points of either;
when they have none, there is no overlap and no merge. What is missing is descending lines. -/
theorem C36_partial {o v : Point} {a b : Segment} {a0 a1 b0 b1 : ℚ} (hvx : 0 ≤ v.x) (hvy : 0 ≤ v.y)
    (ha0 : At o v a0 a.p0) (ha1 : At o v a1 a.p1) (hb0 : At o v b0 b.p0) (hb1 : At o v b1 b.p1)
    (ha : a.axis ≠ .point) (hb : b.axis ≠ .point) :
    ((∃ q, On a q ∧ On b q) →
      (∃ r, overlap a b = some r ∧ ∀ q, On r q ↔ On a q ∧ On b q) ∧
      (∃ r, merge a b = some r ∧ ∀ q, On r q ↔ On a q ∨ On b q)) ∧
    ((¬ ∃ q, On a q ∧ On b q) → overlap a b = none ∧ merge a b = none) := by
  have hpar := parallel_of_line hvx ha0 ha1 hb0 hb1 ha hb
  have hv : v.x ≠ 0 ∨ v.y ≠ 0 := by
    by_contra h
    push Not at h
    exact ha (axis_point (by rw [ha0.1, ha1.1, h.1]; ring) (by rw [ha0.2, ha1.2, h.2]; ring))
  have hbox := boxes_overlap_iff hvx hvy hv ha0 ha1 hb0 hb1
  have hcommon : (∃ q, On a q ∧ On b q) ↔ max (min a0 a1) (min b0 b1) ≤ min (max a0 a1) (max b0 b1) := by
    constructor
    · rintro ⟨q, h1, h2⟩
      obtain ⟨s, s0, s1, hs⟩ := (on_iff ha0 ha1 q).1 h1
      obtain ⟨t, t0, t1, ht⟩ := (on_iff hb0 hb1 q).1 h2
      obtain rfl := at_inj hv hs ht
      exact (max_le s0 t0).trans (le_min s1 t1)
    · intro h
      refine ⟨⟨o.x + max (min a0 a1) (min b0 b1) * v.x, o.y + max (min a0 a1) (min b0 b1) * v.y⟩,
        (on_iff ha0 ha1 _).2 ⟨_, le_max_left _ _, h.trans (min_le_left _ _), rfl, rfl⟩,
        (on_iff hb0 hb1 _).2 ⟨_, le_max_right _ _, h.trans (min_le_right _ _), rfl, rfl⟩⟩
  rw [hcommon, overlap_eq hpar, merge_eq hpar]
  refine ⟨fun h => ?_, fun h => ?_⟩
  · rw [if_pos (hbox.2 h), if_pos (hbox.2 h), bounding_of_line hvx hvy ha0 ha1, bounding_of_line hvx hvy hb0 hb1]
    simp only [mono_min hvx, mono_max hvx, mono_min hvy, mono_max hvy]
    refine ⟨⟨_, rfl, fun q => ?_⟩, _, rfl, fun q => ?_⟩
    · rw [on_iff (o := o) (v := v) ⟨rfl, rfl⟩ ⟨rfl, rfl⟩, on_iff ha0 ha1, on_iff hb0 hb1, min_eq_left h, max_eq_right h]
      constructor
      · rintro ⟨t, t0, t1, ht⟩
        exact ⟨⟨t, (le_max_left _ _).trans t0, t1.trans (min_le_left _ _), ht⟩,
          t, (le_max_right _ _).trans t0, t1.trans (min_le_right _ _), ht⟩
      · rintro ⟨⟨s, s0, s1, hs⟩, t, t0, t1, ht⟩
        obtain rfl := at_inj hv hs ht
        exact ⟨s, max_le s0 t0, le_min s1 t1, hs⟩
    · have hle : min (min a0 a1) (min b0 b1) ≤ max (max a0 a1) (max b0 b1) :=
        (min_le_left _ _).trans (min_le_max.trans (le_max_left _ _))
      rw [on_iff (o := o) (v := v) ⟨rfl, rfl⟩ ⟨rfl, rfl⟩, on_iff ha0 ha1, on_iff hb0 hb1, min_eq_left hle, max_eq_right hle]
      rw [max_le_iff, le_min_iff, le_min_iff] at h
      constructor
      · rintro ⟨t, t0, t1, ht⟩
        by_cases h1 : min a0 a1 ≤ t ∧ t ≤ max a0 a1
        · exact Or.inl ⟨t, h1.1, h1.2, ht⟩
        · refine Or.inr ⟨t, ?_, ?_, ht⟩
          · by_contra h2
            rw [not_le] at h2
            rcases min_le_iff.1 t0 with h3 | h3
            · exact h1 ⟨h3, h2.le.trans h.2.1⟩
            · exact absurd h3 (not_le.2 h2)
          · by_contra h2
            rw [not_le] at h2
            rcases le_max_iff.1 t1 with h3 | h3
            · exact h1 ⟨h.1.2.trans h2.le, h3⟩
            · exact absurd h3 (not_le.2 h2)
      · rintro (⟨t, t0, t1, ht⟩ | ⟨t, t0, t1, ht⟩)
        · exact ⟨t, (min_le_left _ _).trans t0, t1.trans (le_max_left _ _), ht⟩
        · exact ⟨t, (min_le_right _ _).trans t0, t1.trans (le_max_right _ _), ht⟩
  · rw [if_neg (fun h' => h (hbox.1 h')), if_neg (fun h' => h (hbox.1 h'))]
    exact ⟨rfl, rfl⟩

example : At ⟨0, 0⟩ ⟨1, 2⟩ 0 ⟨0, 0⟩ ∧ At ⟨0, 0⟩ ⟨1, 2⟩ 3 ⟨3, 6⟩ ∧ At ⟨0, 0⟩ ⟨1, 2⟩ 5 ⟨5, 10⟩ ∧
    At ⟨0, 0⟩ ⟨1, 2⟩ 1 ⟨1, 2⟩ ∧ (Segment.mk ⟨0, 0⟩ ⟨3, 6⟩).axis ≠ .point ∧
    overlap ⟨⟨0, 0⟩, ⟨3, 6⟩⟩ ⟨⟨5, 10⟩, ⟨1, 2⟩⟩ = some ⟨⟨1, 2⟩, ⟨3, 6⟩⟩ ∧
    merge ⟨⟨0, 0⟩, ⟨3, 6⟩⟩ ⟨⟨5, 10⟩, ⟨1, 2⟩⟩ = some ⟨⟨0, 0⟩, ⟨5, 10⟩⟩ := by
  refine ⟨?_, ?_, ?_, ?_, by decide +kernel, by decide +kernel, by decide +kernel⟩ <;> norm_num [At]

/-- A horizontal segment and a vertical one have no overlap and are not merged, in whatever order. -/
theorem C36_across {a b : Segment} (ha : |a.p1.y - a.p0.y| < Mesh.tolerance)
    (ha' : Mesh.tolerance ≤ |a.p1.x - a.p0.x|) (hb : b.p0.x = b.p1.x) :
    overlap a b = none ∧ overlap b a = none ∧ merge a b = none ∧ merge b a = none := by
  have h1 : b.p1.x - b.p0.x = 0 := by rw [hb, sub_self]
  have hax : a.axis = .h := by
    have h1 : coordEq (a.p1.y - a.p0.y) 0 = true := by rw [coordEq_iff, sub_zero]; exact ha
    have h2 : coordEq (a.p1.x - a.p0.x) 0 = false := by
      rw [← Bool.not_eq_true, coordEq_iff, sub_zero]; exact not_lt.2 ha'
    simp [Segment.axis, vectorAxis, Point.sub, h1, h2]
  have hbx : b.axis ≠ .h := by
    intro h
    unfold Segment.axis vectorAxis at h
    simp only [Point.sub, h1, coordEq_refl] at h
    split_ifs at h
  have p1 : areParallel a b = false := by
    simp [areParallel, hax, hbx, slopesEq, Point.sub, h1]
  have p2 : areParallel b a = false := by
    simp [areParallel, hax, hbx, slopesEq, Point.sub, h1]
  simp [overlap, merge, p1, p2]

example : |(1 : ℚ) - 1| < Mesh.tolerance ∧ Mesh.tolerance ≤ |(5 : ℚ) - 0| ∧
    merge ⟨⟨0, 1⟩, ⟨5, 1⟩⟩ ⟨⟨2, 0⟩, ⟨2, 3⟩⟩ = none := by decide +kernel

/-! ## C51 -/

/-- Segments reported as crossing, no end of one being too close to the line of the other, have exactly one common
point. -/
theorem C51_crossing {a b : Segment} (h : a.relationTo b = .crossing)
    (h1 : detectRotation [a.p0, a.p1, b.p0] ≠ .colinear) (h2 : detectRotation [a.p0, a.p1, b.p1] ≠ .colinear)
    (h3 : detectRotation [b.p0, b.p1, a.p0] ≠ .colinear) (h4 : detectRotation [b.p0, b.p1, a.p1] ≠ .colinear) :
    ∃ c, (On a c ∧ On b c) ∧ ∀ q, On a q → On b q → q = c := by
  obtain ⟨n1, n2⟩ := relationTo_crossing h
  have s1 := separated_of_rotation h1 h2 n1
  have s2 := separated_of_rotation h3 h4 n2
  obtain ⟨-, -, -, hc1, hc2⟩ := crossing_point s1 s2
  exact ⟨_, ⟨hc1, hc2⟩, fun q hq1 hq2 => crossing_unique s1 hq1 hq2 hc1 hc2⟩

/-- The point given by `intersection` for two such segments is their common point, exactly when one of them is
diagonal, and up to the tolerance when one is horizontal and the other vertical. What is missing is two segments of
the same axis (see `C51_false`), or one too short to have an axis. -/
theorem C51_intersection_partial {a b : Segment} {c : Point} (h : a.relationTo b = .crossing)
    (h1 : detectRotation [a.p0, a.p1, b.p0] ≠ .colinear) (h2 : detectRotation [a.p0, a.p1, b.p1] ≠ .colinear)
    (h3 : detectRotation [b.p0, b.p1, a.p0] ≠ .colinear) (h4 : detectRotation [b.p0, b.p1, a.p1] ≠ .colinear)
    (hca : On a c) (hcb : On b c) :
    (a.axis = .diagonal ∨ b.axis = .diagonal → intersection a b = some c) ∧
    (a.axis = .h ∧ b.axis = .v ∨ a.axis = .v ∧ b.axis = .h →
      ∃ p, intersection a b = some p ∧ |p.x - c.x| < tolerance ∧ |p.y - c.y| < tolerance) := by
  obtain ⟨n1, n2⟩ := relationTo_crossing h
  have s1 := separated_of_rotation h1 h2 n1
  have s2 := separated_of_rotation h3 h4 n2
  obtain ⟨hdiv, hm0, hm1, hc1, hc2⟩ := crossing_point s1 s2
  have near : ∀ {u w t : ℚ}, 0 ≤ t → t ≤ 1 → |w - u| < tolerance → |u - (u + t * (w - u))| < tolerance := by
    intro u w t t0 t1 h
    have e : u - (u + t * (w - u)) = -(t * (w - u)) := by ring
    rw [e, abs_neg, abs_mul, abs_of_nonneg t0]
    have := abs_nonneg (w - u)
    nlinarith
  refine ⟨fun hd => ?_, fun hd => ?_⟩
  · have : intersection a b = some (b.p0.advance ((((a.p1.sub a.p0).x * a.p0.y - (a.p1.sub a.p0).x * b.p0.y
        - (a.p1.sub a.p0).y * a.p0.x + (a.p1.sub a.p0).y * b.p0.x)) /
        ((a.p1.sub a.p0).x * (b.p1.sub b.p0).y - (a.p1.sub a.p0).y * (b.p1.sub b.p0).x)) (b.p1.sub b.p0)) := by
      unfold intersection
      rw [if_neg, if_neg, if_pos hd]
      · simp only
        rw [if_pos hdiv, if_pos ⟨hm0, hm1⟩]
      · rintro ⟨h1, h2⟩; rw [h1, h2] at hd; simp at hd
      · rintro ⟨h1, h2⟩; rw [h1, h2] at hd; simp at hd
    rw [this, crossing_unique s1 hca hcb hc1 hc2]
  · obtain ⟨s, s0, s1, hsx, hsy⟩ := hca
    obtain ⟨t, t0, t1, htx, hty⟩ := hcb
    unfold intersection
    rcases hd with ⟨ha, hb⟩ | ⟨ha, hb⟩
    · rw [if_pos ⟨ha, hb⟩]
      refine ⟨_, rfl, ?_, ?_⟩
      · rw [htx]; exact near t0 t1 (axis_v hb).2
      · rw [hsy]; exact near s0 s1 (axis_h ha).2
    · rw [if_neg (by rw [ha, hb]; simp), if_pos ⟨ha, hb⟩]
      refine ⟨_, rfl, ?_, ?_⟩
      · rw [hsx]; exact near s0 s1 (axis_v ha).2
      · rw [hty]; exact near t0 t1 (axis_h hb).2

/-- Two long segments that are both nearly horizontal can be reported as crossing, with no intersection given. -/
theorem C51_false : ∃ a b : Segment, a.relationTo b = .crossing ∧ a.axis = .h ∧ b.axis = .h ∧
    (∃ c, On a c ∧ On b c) ∧ intersection a b = none := by
  refine ⟨⟨⟨0, 0⟩, ⟨1000, 1 / 200000000⟩⟩, ⟨⟨0, 1 / 200000000⟩, ⟨1000, 0⟩⟩, by decide +kernel, by decide +kernel,
    by decide +kernel, ⟨⟨500, 1 / 400000000⟩, ⟨1 / 2, ?_⟩, ⟨1 / 2, ?_⟩⟩, by decide +kernel⟩ <;> norm_num

example : (Segment.mk ⟨0, 0⟩ ⟨2, 2⟩).relationTo ⟨⟨0, 1⟩, ⟨4, 1⟩⟩ = .crossing ∧
    detectRotation [⟨0, 0⟩, ⟨2, 2⟩, ⟨0, 1⟩] ≠ .colinear ∧ detectRotation [⟨0, 0⟩, ⟨2, 2⟩, ⟨4, 1⟩] ≠ .colinear ∧
    detectRotation [⟨0, 1⟩, ⟨4, 1⟩, ⟨0, 0⟩] ≠ .colinear ∧ detectRotation [⟨0, 1⟩, ⟨4, 1⟩, ⟨2, 2⟩] ≠ .colinear ∧
    intersection ⟨⟨0, 0⟩, ⟨2, 2⟩⟩ ⟨⟨0, 1⟩, ⟨4, 1⟩⟩ = some ⟨1, 1⟩ := by decide +kernel

end Verif.Geom
