import Verif.Lemmas.Conflict
import Mathlib.Tactic.Linarith
import Mathlib.Tactic.Positivity

/-!
# Lemmas about edges in polygons
-/

namespace Verif.Board
open Verif.Geom Verif.Geom.Spec
open Verif.Mesh (Kind Facing Sorter tolerance)
open Spec

theorem sameEnds_iff {a b : Segment} : a.eq b = true ↔ SameEnds a b := by
  unfold Segment.eq SameEnds Near Point.eq
  simp only [Bool.or_eq_true, Bool.and_eq_true, coordEq_iff]

theorem merge_parallel {a b r : Segment} (h : merge a b = some r) : areParallel a b = true := by
  unfold merge at h
  split_ifs at h with hp
  exact hp

theorem merge_shape {a b r : Segment} (h : merge a b = some r) : r.p0.x ≤ r.p1.x ∧ r.p0.y ≤ r.p1.y := by
  rw [merge_eq (merge_parallel h)] at h
  split_ifs at h
  obtain rfl := Option.some.inj h
  obtain ⟨h1, h2⟩ := bounding_le a
  exact ⟨(min_le_left _ _).trans (h1.trans (le_max_left _ _)), (min_le_left _ _).trans (h2.trans (le_max_left _ _))⟩

theorem joinRanges_shape (n : Normal) (l : List Overlap) : ∀ m,
    joinRanges n m l = m ∨
      ((joinRanges n m l).p0.x ≤ (joinRanges n m l).p1.x ∧ (joinRanges n m l).p0.y ≤ (joinRanges n m l).p1.y) := by
  induction l with
  | nil => intro m; exact Or.inl (by rw [joinRanges])
  | cons o rest ih =>
    intro m
    unfold joinRanges
    split_ifs
    · cases hm : merge o.range m with
      | none => exact Or.inl rfl
      | some r =>
        right
        simp only [Option.elim_some]
        rcases ih r with h | h
        · rw [h]; exact merge_shape hm
        · exact h
    · exact Or.inl rfl

/-- The parameters of a segment lie on a line. -/
def Param (o v : Point) (s : Segment) (t0 t1 : ℚ) : Prop := At o v t0 s.p0 ∧ At o v t1 s.p1

theorem merge_line {o v : Point} {a b r : Segment} {a0 a1 b0 b1 : ℚ} (hvx : 0 ≤ v.x) (hvy : 0 ≤ v.y)
    (hv : v.x ≠ 0 ∨ v.y ≠ 0) (ha : Param o v a a0 a1) (hb : Param o v b b0 b1) (h : merge a b = some r) :
    Param o v r (min (min a0 a1) (min b0 b1)) (max (max a0 a1) (max b0 b1)) ∧
    max (min a0 a1) (min b0 b1) ≤ min (max a0 a1) (max b0 b1) := by
  have hbox := boxes_overlap_iff hvx hvy hv ha.1 ha.2 hb.1 hb.2
  rw [merge_eq (merge_parallel h)] at h
  split_ifs at h with ho
  refine ⟨?_, hbox.1 ho⟩
  rw [← Option.some.inj h, bounding_of_line hvx hvy ha.1 ha.2, bounding_of_line hvx hvy hb.1 hb.2]
  simp only [mono_min hvx, mono_max hvx, mono_min hvy, mono_max hvy]
  exact ⟨⟨rfl, rfl⟩, rfl, rfl⟩

/-- `t` is a parameter of the segment between the ends of these parameters. -/
def Between (t0 t1 t : ℚ) : Prop := min t0 t1 ≤ t ∧ t ≤ max t0 t1

theorem joinRanges_line {o v : Point} (hvx : 0 ≤ v.x) (hvy : 0 ≤ v.y) (hv : v.x ≠ 0 ∨ v.y ≠ 0) (n : Normal)
    (l : List Overlap) : ∀ (m : Segment) (m0 m1 : ℚ), Param o v m m0 m1 →
    (∀ ov ∈ l, ∃ t0 t1, Param o v ov.range t0 t1) →
    ∃ r0 r1, Param o v (joinRanges n m l) r0 r1 ∧ ∀ t, Between r0 r1 t → Between m0 m1 t ∨
      ∃ ov ∈ l, ov.other ≠ some n ∧ ∃ t0 t1, Param o v ov.range t0 t1 ∧ Between t0 t1 t := by
  induction l with
  | nil => intro m m0 m1 hm _; rw [joinRanges]; exact ⟨m0, m1, hm, fun t h => Or.inl h⟩
  | cons ov rest ih =>
    intro m m0 m1 hm hl
    unfold joinRanges
    split_ifs with hn
    · cases hr : merge ov.range m with
      | none => exact ⟨m0, m1, hm, fun t h => Or.inl h⟩
      | some r =>
        show ∃ r0 r1, Param o v (joinRanges n r rest) r0 r1 ∧ _
        obtain ⟨t0, t1, ht⟩ := hl ov (by simp)
        obtain ⟨hp, hov⟩ := merge_line hvx hvy hv ht hm hr
        obtain ⟨r0, r1, h1, h2⟩ := ih r _ _ hp fun x hx => hl x (by simp [hx])
        refine ⟨r0, r1, h1, fun t h => ?_⟩
        rcases h2 t h with h' | ⟨x, hx, h3, h4⟩
        · have hle : min (min t0 t1) (min m0 m1) ≤ max (max t0 t1) (max m0 m1) :=
            (min_le_left _ _).trans (min_le_max.trans (le_max_left _ _))
          unfold Between at h'
          rw [min_eq_left hle, max_eq_right hle] at h'
          rw [max_le_iff, le_min_iff, le_min_iff] at hov
          by_cases hb : Between m0 m1 t
          · exact Or.inl hb
          · refine Or.inr ⟨ov, by simp, hn, t0, t1, ht, ?_⟩
            unfold Between at hb ⊢
            rcases min_le_iff.1 h'.1 with g1 | g1 <;> rcases le_max_iff.1 h'.2 with g2 | g2
            · exact ⟨g1, g2⟩
            · exact ⟨g1, by by_contra hc; exact hb ⟨hov.2.1.trans (not_le.1 hc).le, g2⟩⟩
            · exact ⟨by by_contra hc; exact hb ⟨g1, (not_le.1 hc).le.trans hov.1.2⟩, g2⟩
            · exact absurd ⟨g1, g2⟩ hb
        · exact Or.inr ⟨x, by simp [hx], h3, h4⟩
    · exact ⟨m0, m1, hm, fun t h => Or.inl h⟩

theorem on_param {o v : Point} {a : Segment} {a0 a1 : ℚ} (ha : Param o v a a0 a1) (q : Point) :
    On a q ↔ ∃ t, Between a0 a1 t ∧ At o v t q := by
  rw [on_iff ha.1 ha.2]
  simp only [Between, and_assoc]

theorem sortOverlaps_perm (S : Sorter Overlap) (vec : Point) (l : List Overlap) : (sortOverlaps S vec l).Perm l := by
  unfold sortOverlaps
  cases overlapKey vec with
  | none => exact List.Perm.refl _
  | some key => exact S.perm key l

theorem near_small {p q : Point} (h : Near p q) : -tolerance < p.x - q.x ∧ p.x - q.x < tolerance ∧
    -tolerance < p.y - q.y ∧ p.y - q.y < tolerance :=
  ⟨(abs_lt.1 h.1).1, (abs_lt.1 h.1).2, (abs_lt.1 h.2).1, (abs_lt.1 h.2).2⟩

theorem not_goesDown {r s : Segment} (h : SameEnds r s) (hx : r.p0.x ≤ r.p1.x) (hy : r.p0.y ≤ r.p1.y) :
    ¬ GoesDown s := by
  rintro ⟨g1, g2, g3⟩
  rcases mul_neg_iff.1 g3 with ⟨k1, k2⟩ | ⟨k1, k2⟩
  · rw [abs_of_pos k1] at g1
    rw [abs_of_neg k2] at g2
    rcases h with ⟨n1, n2⟩ | ⟨n1, n2⟩ <;> have m1 := near_small n1 <;> have m2 := near_small n2 <;> linarith
  · rw [abs_of_neg k1] at g1
    rw [abs_of_pos k2] at g2
    rcases h with ⟨n1, n2⟩ | ⟨n1, n2⟩ <;> have m1 := near_small n1 <;> have m2 := near_small n2 <;> linarith

/-! ## Lines that go down -/

/-- The box of a part of a line that goes down, from the parameter `t0` to the parameter `t1`. -/
def DownBox (o v : Point) (s : Segment) (t0 t1 : ℚ) : Prop :=
  s.bounding = ⟨o.x + t0 * v.x, o.x + t1 * v.x, o.y + t1 * v.y, o.y + t0 * v.y⟩

theorem downBox_of_param {o v : Point} {a : Segment} {a0 a1 : ℚ} (hvx : 0 < v.x) (hvy : v.y < 0) (ha : Param o v a a0 a1) :
    DownBox o v a (min a0 a1) (max a0 a1) := by
  unfold DownBox
  rw [segment_bounding_min_max, ha.1.1, ha.1.2, ha.2.1, ha.2.2]
  rcases le_total a0 a1 with h | h
  · rw [min_eq_left h, max_eq_right h, min_eq_left (by nlinarith), max_eq_right (by nlinarith),
      min_eq_right (by nlinarith), max_eq_left (by nlinarith)]
  · rw [min_eq_right h, max_eq_left h, min_eq_right (by nlinarith), max_eq_left (by nlinarith),
      min_eq_left (by nlinarith), max_eq_right (by nlinarith)]

theorem merge_down {o v : Point} {a b r : Segment} {a0 a1 b0 b1 : ℚ} (hvx : 0 < v.x) (hvy : v.y < 0)
    (ha : DownBox o v a a0 a1) (hb : DownBox o v b b0 b1) (h : merge a b = some r) :
    DownBox o v r (min a0 b0) (max a1 b1) ∧ max a0 b0 ≤ min a1 b1 := by
  unfold DownBox at ha hb
  have hs := merge_shape h
  rw [merge_eq (merge_parallel h)] at h
  split_ifs at h with ho
  have hr := (Option.some.inj h).symm
  refine ⟨?_, ?_⟩
  · unfold DownBox
    rw [segment_bounding_min_max, min_eq_left hs.1, min_eq_left hs.2, max_eq_right hs.1, max_eq_right hs.2, hr, ha, hb]
    have e1 : ∀ p q : ℚ, min (o.x + p * v.x) (o.x + q * v.x) = o.x + min p q * v.x := by
      intro p q
      rcases le_total p q with h | h
      · rw [min_eq_left h, min_eq_left (by nlinarith)]
      · rw [min_eq_right h, min_eq_right (by nlinarith)]
    have e2 : ∀ p q : ℚ, max (o.x + p * v.x) (o.x + q * v.x) = o.x + max p q * v.x := by
      intro p q
      rcases le_total p q with h | h
      · rw [max_eq_right h, max_eq_right (by nlinarith)]
      · rw [max_eq_left h, max_eq_left (by nlinarith)]
    have e3 : ∀ p q : ℚ, min (o.y + p * v.y) (o.y + q * v.y) = o.y + max p q * v.y := by
      intro p q
      rcases le_total p q with h | h
      · rw [max_eq_right h, min_eq_right (by nlinarith)]
      · rw [max_eq_left h, min_eq_left (by nlinarith)]
    have e4 : ∀ p q : ℚ, max (o.y + p * v.y) (o.y + q * v.y) = o.y + min p q * v.y := by
      intro p q
      rcases le_total p q with h | h
      · rw [min_eq_left h, max_eq_left (by nlinarith)]
      · rw [min_eq_right h, max_eq_right (by nlinarith)]
    simp only [e1, e2, e3, e4]
  · rw [ha, hb] at ho
    simp only [Bounding.overlap, Bool.and_eq_true, decide_eq_true_eq, ge_iff_le, max_le_iff, le_min_iff] at ho
    obtain ⟨⟨⟨g1, g2⟩, g3, g4⟩, -⟩ := ho
    have e : ∀ p q : ℚ, o.x + p * v.x ≤ o.x + q * v.x → p ≤ q := fun p q hpq => by
      by_contra hc
      nlinarith [not_le.1 hc]
    exact max_le (le_min (e _ _ g1) (e _ _ g3)) (le_min (e _ _ g2) (e _ _ g4))

theorem joinRanges_down {o v : Point} (hvx : 0 < v.x) (hvy : v.y < 0) (n : Normal)
    (l : List Overlap) : ∀ (m : Segment) (m0 m1 : ℚ), m0 ≤ m1 → DownBox o v m m0 m1 →
    (∀ ov ∈ l, ∃ t0 t1, Param o v ov.range t0 t1) →
    ∃ r0 r1, r0 ≤ r1 ∧ DownBox o v (joinRanges n m l) r0 r1 ∧ ∀ t, r0 ≤ t → t ≤ r1 → (m0 ≤ t ∧ t ≤ m1) ∨
      ∃ ov ∈ l, ov.other ≠ some n ∧ ∃ t0 t1, Param o v ov.range t0 t1 ∧ Between t0 t1 t := by
  induction l with
  | nil => intro m m0 m1 h01 hm _; rw [joinRanges]; exact ⟨m0, m1, h01, hm, fun t h h' => Or.inl ⟨h, h'⟩⟩
  | cons ov rest ih =>
    intro m m0 m1 h01 hm hl
    unfold joinRanges
    split_ifs with hn
    · cases hr : merge ov.range m with
      | none => exact ⟨m0, m1, h01, hm, fun t h h' => Or.inl ⟨h, h'⟩⟩
      | some r =>
        show ∃ r0 r1, r0 ≤ r1 ∧ DownBox o v (joinRanges n r rest) r0 r1 ∧ _
        obtain ⟨t0, t1, ht⟩ := hl ov (by simp)
        obtain ⟨hp, hov⟩ := merge_down hvx hvy (downBox_of_param hvx hvy ht) hm hr
        obtain ⟨r0, r1, h1, h2, h3⟩ := ih r _ _ ((min_le_right _ _).trans (h01.trans (le_max_right _ _))) hp
          fun x hx => hl x (by simp [hx])
        refine ⟨r0, r1, h1, h2, fun t g g' => ?_⟩
        rcases h3 t g g' with h' | ⟨x, hx, h3, h4⟩
        · rw [max_le_iff, le_min_iff, le_min_iff] at hov
          by_cases hb : m0 ≤ t ∧ t ≤ m1
          · exact Or.inl hb
          · refine Or.inr ⟨ov, by simp, hn, t0, t1, ht, ?_⟩
            unfold Between
            rcases min_le_iff.1 h'.1 with g1 | g1 <;> rcases le_max_iff.1 h'.2 with g2 | g2
            · exact ⟨g1, g2⟩
            · exact ⟨g1, by by_contra hc; exact hb ⟨hov.2.1.trans (not_le.1 hc).le, g2⟩⟩
            · exact ⟨by by_contra hc; exact hb ⟨g1, (not_le.1 hc).le.trans hov.1.2⟩, g2⟩
            · exact absurd ⟨g1, g2⟩ hb
        · exact Or.inr ⟨x, by simp [hx], h3, h4⟩
    · exact ⟨m0, m1, h01, hm, fun t h h' => Or.inl ⟨h, h'⟩⟩

theorem at_neg {o v q : Point} {t : ℚ} (h : At o v t q) : At o ⟨-v.x, -v.y⟩ (-t) q :=
  ⟨by rw [h.1]; ring, by rw [h.2]; ring⟩

/-! ## Ranges that cover an edge -/

theorem axis_ne_point {s : Segment} :
    s.axis ≠ .point ↔ tolerance ≤ |s.p1.x - s.p0.x| ∨ tolerance ≤ |s.p1.y - s.p0.y| := by
  unfold Segment.axis vectorAxis
  by_cases h1 : coordEq (s.p1.sub s.p0).x 0 = true <;> by_cases h2 : coordEq (s.p1.sub s.p0).y 0 = true <;>
    simp only [h1, h2] <;> simp only [coordEq_iff, Point.sub, sub_zero, not_lt] at h1 h2 <;> simp [h1, h2]

theorem wider_axis {o v : Point} {a b : Segment} {a0 a1 b0 b1 : ℚ} (ha : Param o v a a0 a1) (hb : Param o v b b0 b1)
    (h : |a1 - a0| ≤ |b1 - b0|) (hp : a.axis ≠ .point) : b.axis ≠ .point := by
  rw [axis_ne_point] at hp ⊢
  have e : ∀ c k s t : ℚ, |c + s * k - (c + t * k)| = |s - t| * |k| := by
    intro c k s t
    rw [← abs_mul]; congr 1; ring
  rw [ha.1.1, ha.1.2, ha.2.1, ha.2.2, e, e] at hp
  rw [hb.1.1, hb.1.2, hb.2.1, hb.2.2, e, e]
  rcases hp with hp | hp
  · exact Or.inl (hp.trans (mul_le_mul_of_nonneg_right h (abs_nonneg _)))
  · exact Or.inr (hp.trans (mul_le_mul_of_nonneg_right h (abs_nonneg _)))

theorem joinRanges_covers {o v : Point} (hvx : 0 ≤ v.x) (hvy : 0 ≤ v.y) (hv : v.x ≠ 0 ∨ v.y ≠ 0) (n : Normal)
    (p0 p1 : Overlap → ℚ) (T : ℚ) (l : List Overlap) : ∀ (m : Segment) (m0 m1 : ℚ), Param o v m m0 m1 → m0 ≤ m1 →
    m1 ≤ T → m.axis ≠ .point →
    (∀ ov ∈ l, ov.other ≠ some n ∧ Param o v ov.range (p0 ov) (p1 ov) ∧ p0 ov ≤ p1 ov ∧ p1 ov ≤ T ∧ m0 ≤ p0 ov ∧
      ov.range.axis ≠ .point) →
    (l.Pairwise fun a b => p0 a ≤ p0 b) →
    (∀ t, m0 ≤ t → t ≤ T → t ≤ m1 ∨ ∃ ov ∈ l, p0 ov ≤ t ∧ t ≤ p1 ov) →
    Param o v (joinRanges n m l) m0 T := by
  induction l with
  | nil =>
    intro m m0 m1 hm h01 h1T _ _ _ hcov
    rw [joinRanges]
    have : T ≤ m1 := by
      rcases hcov T (h01.trans h1T) le_rfl with h | ⟨ov, h, -⟩
      · exact h
      · simp at h
    rw [le_antisymm this h1T]
    exact hm
  | cons ov rest ih =>
    intro m m0 m1 hm h01 h1T hax hl hs hcov
    obtain ⟨g1, g2, g3, g4, g5, g6⟩ := hl ov (by simp)
    have hs' := List.pairwise_cons.1 hs
    have hle : p0 ov ≤ m1 := by
      by_contra hc
      rw [not_le] at hc
      rcases hcov ((m1 + p0 ov) / 2) (by linarith) (by linarith) with h | ⟨w, hw, h2, h3⟩
      · linarith
      · have : p0 ov ≤ p0 w := by
          rcases List.mem_cons.1 hw with rfl | hw
          · exact le_rfl
          · exact hs'.1 w hw
        linarith
    have hpar := parallel_of_line hvx g2.1 g2.2 hm.1 hm.2 g6 hax
    have hbox := boxes_overlap_iff hvx hvy hv g2.1 g2.2 hm.1 hm.2
    have hmerge := merge_eq hpar
    rw [if_pos] at hmerge
    swap
    · rw [hbox, min_eq_left g3, max_eq_right g3, min_eq_left h01, max_eq_right h01]
      exact max_le (le_min g3 hle) (le_min (g5.trans g3) h01)
    have hline := merge_line hvx hvy hv g2 hm hmerge
    rw [min_eq_left g3, max_eq_right g3, min_eq_left h01, max_eq_right h01, min_eq_right g5] at hline
    rw [joinRanges, if_pos g1, hmerge, Option.elim_some]
    refine ih _ m0 (max (p1 ov) m1) hline.1 (h01.trans (le_max_right _ _)) (max_le g4 h1T) ?_
      (fun w hw => hl w (by simp [hw])) hs'.2 ?_
    · refine wider_axis hm hline.1 ?_ hax
      rw [abs_of_nonneg (by linarith), abs_of_nonneg (by linarith [le_max_right (p1 ov) m1])]
      linarith [le_max_right (p1 ov) m1]
    · intro t h1 h2
      rcases hcov t h1 h2 with h | ⟨w, hw, h3, h4⟩
      · exact Or.inl (h.trans (le_max_right _ _))
      · rcases List.mem_cons.1 hw with rfl | hw
        · exact Or.inl (h4.trans (le_max_left _ _))
        · exact Or.inr ⟨w, hw, h3, h4⟩

theorem sortOverlaps_sorted (S : Sorter Overlap) {o v : Point} (hvx : 0 ≤ v.x) (hvy : 0 ≤ v.y)
    (hv : v.x ≠ 0 ∨ v.y ≠ 0) {edge : Segment} {t0 t1 : ℚ} (he : Param o v edge t0 t1) (h01 : t0 < t1)
    {l : List Overlap} {p0 p1 : Overlap → ℚ} (hl : ∀ ov ∈ l, Param o v ov.range (p0 ov) (p1 ov)) :
    (sortOverlaps S (edge.p1.sub edge.p0) l).Pairwise fun a b => p0 a ≤ p0 b := by
  have hperm := sortOverlaps_perm S (edge.p1.sub edge.p0) l
  have hx : (edge.p1.sub edge.p0).x = (t1 - t0) * v.x := by
    show edge.p1.x - edge.p0.x = _
    rw [he.1.1, he.2.1]; ring
  have hy : (edge.p1.sub edge.p0).y = (t1 - t0) * v.y := by
    show edge.p1.y - edge.p0.y = _
    rw [he.1.2, he.2.2]; ring
  have hd : 0 < t1 - t0 := by linarith
  rcases hvx.eq_or_lt with h | h
  · have hvy' : 0 < v.y := lt_of_le_of_ne hvy (by
      rcases hv with hv | hv
      · exact absurd h.symm hv
      · exact hv.symm)
    have hk : overlapKey (edge.p1.sub edge.p0) = some fun o => o.range.p0.y := by
      have h0 : (edge.p1.sub edge.p0).x = 0 := by rw [hx, ← h]; ring
      have h1 : 0 < (edge.p1.sub edge.p0).y := by rw [hy]; positivity
      unfold overlapKey
      rw [if_neg (by rw [h0]; simp), if_neg (by rw [h0]; simp), if_pos h1]
    have hs := S.sorted (fun o : Overlap => o.range.p0.y) l
    unfold sortOverlaps at hperm ⊢
    rw [hk] at hperm ⊢
    refine hs.imp_of_mem ?_
    intro a b ha hb hab
    have ea := (hl a (hperm.mem_iff.1 ha)).1.2
    have eb := (hl b (hperm.mem_iff.1 hb)).1.2
    rw [ea, eb] at hab
    exact le_of_mul_le_mul_right (by linarith) hvy'
  · have hk : overlapKey (edge.p1.sub edge.p0) = some fun o => o.range.p0.x := by
      have h1 : 0 < (edge.p1.sub edge.p0).x := by rw [hx]; positivity
      unfold overlapKey
      rw [if_pos h1]
    have hs := S.sorted (fun o : Overlap => o.range.p0.x) l
    unfold sortOverlaps at hperm ⊢
    rw [hk] at hperm ⊢
    refine hs.imp_of_mem ?_
    intro a b ha hb hab
    have ea := (hl a (hperm.mem_iff.1 ha)).1.1
    have eb := (hl b (hperm.mem_iff.1 hb)).1.1
    rw [ea, eb] at hab
    exact le_of_mul_le_mul_right (by linarith) h

end Verif.Board
