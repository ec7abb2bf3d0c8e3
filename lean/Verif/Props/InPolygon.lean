import Verif.Lemmas.InPolygon
import Verif.Lemmas.ManagerMesh

/-!
# Theorems about edges in polygons
-/

namespace Verif.Board
open Verif.Geom Verif.Geom.Spec
open Verif.Mesh (Kind Facing Sorter tolerance)
open Spec

/-! ## C32 and C53 -/

/-- The edge may be beside the line of the ranges here, if the line does not go down or the edge clearly does. -/
theorem covered_up (S : Sorter Overlap) {edge : BEdge} {overlaps : List Overlap} {o v : Point}
    (hv : v.x ≠ 0 ∨ v.y ≠ 0) (hline : ∀ ov ∈ overlaps, ∃ t0 t1, At o v t0 ov.range.p0 ∧ At o v t1 ov.range.p1)
    (hdir : (0 ≤ v.x ∧ 0 ≤ v.y) ∨ GoesDown edge.seg) (h : solveInPolygon S edge overlaps = some false) :
    ∃ r : Segment, SameEnds r edge.seg ∧ ∃ first ∈ overlaps, ∀ q, On r q →
      On first.range q ∨ ∃ ov ∈ overlaps, ov.other ≠ some edge.side ∧ On ov.range q := by
  unfold solveInPolygon at h
  have hperm := sortOverlaps_perm S (edge.seg.p1.sub edge.seg.p0) overlaps
  cases hs : sortOverlaps S (edge.seg.p1.sub edge.seg.p0) overlaps with
  | nil => rw [hs] at h; simp at h
  | cons front rest =>
    rw [hs] at h hperm
    simp only [Option.some.injEq, Bool.not_eq_false', sameEnds_iff] at h
    refine ⟨_, h, front, hperm.mem_iff.1 (by simp), ?_⟩
    rcases hdir with ⟨hvx, hvy⟩ | hdown
    · obtain ⟨f0, f1, hf⟩ := hline front (hperm.mem_iff.1 (by simp))
      obtain ⟨r0, r1, hr, hcov⟩ := joinRanges_line hvx hvy hv edge.side (front :: rest) front.range f0 f1 hf
        fun ov hov => hline ov (hperm.mem_iff.1 hov)
      intro q hq
      obtain ⟨t, ht, hat⟩ := (on_param hr q).1 hq
      rcases hcov t ht with h' | ⟨ov, hov, hother, t0, t1, hp, hb⟩
      · exact Or.inl ((on_param hf q).2 ⟨t, h', hat⟩)
      · exact Or.inr ⟨ov, hperm.mem_iff.1 hov, hother, (on_param hp q).2 ⟨t, hb, hat⟩⟩
    · rcases joinRanges_shape edge.side (front :: rest) front.range with h' | h'
      · rw [h']
        exact fun q hq => Or.inl hq
      · exact absurd hdown (not_goesDown h h'.1 h'.2)

theorem covered_down (S : Sorter Overlap) {edge : BEdge} {overlaps : List Overlap} {o v : Point} {e0 e1 : ℚ}
    (hvx : 0 < v.x) (hvy : v.y < 0) (he : Param o v edge.seg e0 e1)
    (hline : ∀ ov ∈ overlaps, ∃ t0 t1, At o v t0 ov.range.p0 ∧ At o v t1 ov.range.p1)
    (h : solveInPolygon S edge overlaps = some false) :
    ∃ r : Segment, SameEnds r edge.seg ∧ ∃ first ∈ overlaps, ∀ q, On r q →
      On first.range q ∨ ∃ ov ∈ overlaps, ov.other ≠ some edge.side ∧ On ov.range q := by
  unfold solveInPolygon at h
  have hperm := sortOverlaps_perm S (edge.seg.p1.sub edge.seg.p0) overlaps
  cases hs : sortOverlaps S (edge.seg.p1.sub edge.seg.p0) overlaps with
  | nil => rw [hs] at h; simp at h
  | cons front rest =>
    rw [hs] at h hperm
    simp only [Option.some.injEq, Bool.not_eq_false', sameEnds_iff] at h
    rcases joinRanges_shape edge.side (front :: rest) front.range with h' | h'
    · rw [h'] at h
      exact ⟨_, h, front, hperm.mem_iff.1 (by simp), fun q hq => Or.inl hq⟩
    · obtain ⟨f0, f1, hf⟩ := hline front (hperm.mem_iff.1 (by simp))
      obtain ⟨r0, r1, h01, hr, hcov⟩ := joinRanges_down hvx hvy edge.side (front :: rest) front.range _ _ min_le_max
        (downBox_of_param hvx hvy hf) fun ov hov => hline ov (hperm.mem_iff.1 hov)
      set j := joinRanges edge.side front.range (front :: rest)
      clear_value j
      obtain ⟨q, hq⟩ : ∃ r : Segment, r = ⟨⟨o.x + r0 * v.x, o.y + r0 * v.y⟩, ⟨o.x + r1 * v.x, o.y + r1 * v.y⟩⟩ := ⟨_, rfl⟩
      have hqp : Param o v q r0 r1 := by rw [hq]; exact ⟨⟨rfl, rfl⟩, rfl, rfl⟩
      refine ⟨q, ?_, front, hperm.mem_iff.1 (by simp), ?_⟩
      · unfold DownBox at hr
        rw [segment_bounding_min_max, min_eq_left h'.1, min_eq_left h'.2, max_eq_right h'.1, max_eq_right h'.2] at hr
        obtain ⟨k1, k2, k3, k4⟩ := Bounding.mk.inj hr
        have q1 : q.p0.x = j.p0.x ∧ q.p0.y = j.p1.y ∧ q.p1.x = j.p1.x ∧ q.p1.y = j.p0.y := by
          rw [hq, k1, k2, k3, k4]; exact ⟨rfl, rfl, rfl, rfl⟩
        obtain ⟨q1, q2, q3, q4⟩ := q1
        have hd : (edge.seg.p0.x ≤ edge.seg.p1.x ∧ edge.seg.p1.y ≤ edge.seg.p0.y) ∨
            (edge.seg.p1.x ≤ edge.seg.p0.x ∧ edge.seg.p0.y ≤ edge.seg.p1.y) := by
          rw [he.1.1, he.1.2, he.2.1, he.2.2]
          rcases le_total e0 e1 with g | g
          · exact Or.inl ⟨by nlinarith, by nlinarith⟩
          · exact Or.inr ⟨by nlinarith, by nlinarith⟩
        have near : ∀ p p' : Point, -tolerance < p.x - p'.x → p.x - p'.x < tolerance → -tolerance < p.y - p'.y →
            p.y - p'.y < tolerance → Near p p' := fun p p' a b c d => ⟨abs_lt.2 ⟨a, b⟩, abs_lt.2 ⟨c, d⟩⟩
        obtain ⟨s1, s2⟩ := h'
        rcases hd with ⟨d1, d2⟩ | ⟨d1, d2⟩
        · left
          rcases h with ⟨n1, n2⟩ | ⟨n1, n2⟩ <;> obtain ⟨a1, a2, a3, a4⟩ := near_small n1 <;>
            obtain ⟨b1, b2, b3, b4⟩ := near_small n2 <;> constructor <;> apply near <;>
            simp only [q1, q2, q3, q4] <;> linarith
        · right
          rcases h with ⟨n1, n2⟩ | ⟨n1, n2⟩ <;> obtain ⟨a1, a2, a3, a4⟩ := near_small n1 <;>
            obtain ⟨b1, b2, b3, b4⟩ := near_small n2 <;> constructor <;> apply near <;>
            simp only [q1, q2, q3, q4] <;> linarith
      · intro p hp
        obtain ⟨t, ht, hat⟩ := (on_param hqp p).1 hp
        unfold Between at ht
        rw [min_eq_left h01, max_eq_right h01] at ht
        rcases hcov t ht.1 ht.2 with h' | ⟨ov, hov, hother, t0, t1, hp, hb⟩
        · exact Or.inl ((on_param hf p).2 ⟨t, h', hat⟩)
        · exact Or.inr ⟨ov, hperm.mem_iff.1 hov, hother, (on_param hp p).2 ⟨t, hb, hat⟩⟩

/-- An edge is left unmeshed only if a range with the ends of the edge, up to the tolerance, is made of points of the
ranges reported for it, which are on the line of the edge. Of these, those that come from an edge with the same side do
not count, except the first in order. -/
theorem C32_covered (S : Sorter Overlap) {edge : BEdge} {overlaps : List Overlap} {o v : Point}
    (hv : v.x ≠ 0 ∨ v.y ≠ 0) (he : ∃ t0 t1, At o v t0 edge.seg.p0 ∧ At o v t1 edge.seg.p1)
    (hline : ∀ ov ∈ overlaps, ∃ t0 t1, At o v t0 ov.range.p0 ∧ At o v t1 ov.range.p1)
    (h : solveInPolygon S edge overlaps = some false) :
    ∃ r : Segment, SameEnds r edge.seg ∧ ∃ first ∈ overlaps, ∀ q, On r q →
      On first.range q ∨ ∃ ov ∈ overlaps, ov.other ≠ some edge.side ∧ On ov.range q := by
  obtain ⟨e0, e1, he⟩ := he
  have hneg : ∀ ov ∈ overlaps, ∃ t0 t1, At o ⟨-v.x, -v.y⟩ t0 ov.range.p0 ∧ At o ⟨-v.x, -v.y⟩ t1 ov.range.p1 :=
    fun ov hov => let ⟨t0, t1, h0, h1⟩ := hline ov hov; ⟨-t0, -t1, at_neg h0, at_neg h1⟩
  rcases le_or_gt 0 v.x with hx | hx <;> rcases le_or_gt 0 v.y with hy | hy
  · exact covered_up S hv hline (Or.inl ⟨hx, hy⟩) h
  · rcases hx.lt_or_eq with hx | hx
    · exact covered_down S hx hy he hline h
    · exact covered_up S (v := ⟨-v.x, -v.y⟩) (by simpa using hv) hneg
        (Or.inl ⟨by simp [← hx], by simpa using hy.le⟩) h
  · rcases hy.lt_or_eq with hy | hy
    · exact covered_down S (v := ⟨-v.x, -v.y⟩) (by simpa using hx) (by simpa using hy) ⟨at_neg he.1, at_neg he.2⟩ hneg h
    · exact covered_up S (v := ⟨-v.x, -v.y⟩) (by simpa using hv) hneg
        (Or.inl ⟨by simpa using hx.le, by simp [← hy]⟩) h
  · exact covered_up S (v := ⟨-v.x, -v.y⟩) (by simpa using hv) hneg
      (Or.inl ⟨by simpa using hx.le, by simpa using hy.le⟩) h

/-- An edge that goes down by less than two tolerances, covered by two ranges whose join does not go down. -/
example : solveInPolygon (Sorter.insertion _) ⟨.xy, ⟨⟨0, 1 / 200000000⟩, ⟨4, 0⟩⟩, .ymin, true, false⟩
    [⟨1, ⟨⟨2, 1 / 400000000⟩, ⟨4, 0⟩⟩, none⟩, ⟨2, ⟨⟨0, 1 / 200000000⟩, ⟨2, 1 / 400000000⟩⟩, none⟩] = some false ∧
    (At ⟨4, 0⟩ ⟨-4, 1 / 200000000⟩ 1 ⟨0, 1 / 200000000⟩ ∧ At ⟨4, 0⟩ ⟨-4, 1 / 200000000⟩ 0 ⟨4, 0⟩) ∧
    At ⟨4, 0⟩ ⟨-4, 1 / 200000000⟩ (1 / 2) ⟨2, 1 / 400000000⟩ := by
  refine ⟨by decide +kernel, ?_⟩
  norm_num [At]

/-- An edge covered by two ranges, given in disorder. -/
example : solveInPolygon (Sorter.insertion _) ⟨.xy, ⟨⟨0, 0⟩, ⟨4, 0⟩⟩, .ymin, true, false⟩
    [⟨1, ⟨⟨2, 0⟩, ⟨4, 0⟩⟩, none⟩, ⟨2, ⟨⟨0, 0⟩, ⟨3, 0⟩⟩, some .ymax⟩] = some false ∧
    solveInPolygon (Sorter.insertion _) ⟨.xy, ⟨⟨0, 0⟩, ⟨4, 0⟩⟩, .ymin, true, false⟩
    [⟨1, ⟨⟨3, 0⟩, ⟨4, 0⟩⟩, none⟩, ⟨2, ⟨⟨0, 0⟩, ⟨2, 0⟩⟩, some .ymax⟩] = some true ∧
    (At ⟨0, 0⟩ ⟨1, 0⟩ 2 ⟨2, 0⟩ ∧ At ⟨0, 0⟩ ⟨1, 0⟩ 4 ⟨4, 0⟩) := by
  refine ⟨by decide +kernel, by decide +kernel, ?_⟩
  norm_num [At]

/-- The first range counts even if it comes from an edge with the same side: an edge whose only overlap is with such an
edge is left unmeshed. -/
theorem C53_false : ∃ (edge : BEdge) (ov : Overlap), (∀ S, solveInPolygon S edge [ov] = some false) ∧
    ov.other = some edge.side ∧ edge.side ≠ .none := by
  refine ⟨⟨.xy, ⟨⟨0, 0⟩, ⟨4, 0⟩⟩, .ymin, true, false⟩, ⟨1, ⟨⟨0, 0⟩, ⟨4, 0⟩⟩, some .ymin⟩, fun S => ?_, rfl, by simp⟩
  unfold solveInPolygon
  have := sortOverlaps_perm S ((⟨4, 0⟩ : Point).sub ⟨0, 0⟩) [⟨1, ⟨⟨0, 0⟩, ⟨4, 0⟩⟩, some .ymin⟩]
  rw [List.perm_singleton] at this
  simp only [this]
  decide +kernel

/-- Ranges that come from edges with the same side are never joined: when all do, the edge is left unmeshed only if one of
them has the ends of the edge by itself. What is missing is that one, see `C53_false`. -/
theorem C53_partial (S : Sorter Overlap) {edge : BEdge} {overlaps : List Overlap}
    (hall : ∀ ov ∈ overlaps, ov.other = some edge.side) (h : solveInPolygon S edge overlaps = some false) :
    ∃ ov ∈ overlaps, SameEnds ov.range edge.seg := by
  unfold solveInPolygon at h
  have hperm := sortOverlaps_perm S (edge.seg.p1.sub edge.seg.p0) overlaps
  cases hs : sortOverlaps S (edge.seg.p1.sub edge.seg.p0) overlaps with
  | nil => rw [hs] at h; simp at h
  | cons front rest =>
    rw [hs] at h hperm
    have hf : front ∈ overlaps := hperm.mem_iff.1 (by simp)
    dsimp only at h
    rw [joinRanges.eq_def] at h
    dsimp only at h
    rw [if_neg (by simp [hall front hf])] at h
    simp only [Option.some.injEq, Bool.not_eq_false', sameEnds_iff] at h
    exact ⟨front, hf, h⟩

/-- Two ranges from edges with the same side that cover the edge together leave it meshed. -/
example : (∀ ov ∈ [(⟨1, ⟨⟨0, 0⟩, ⟨2, 0⟩⟩, some .ymin⟩ : Overlap), ⟨1, ⟨⟨2, 0⟩, ⟨4, 0⟩⟩, some .ymin⟩],
      ov.other = some (⟨.xy, ⟨⟨0, 0⟩, ⟨4, 0⟩⟩, .ymin, true, false⟩ : BEdge).side) ∧
    solveInPolygon (Sorter.insertion _) ⟨.xy, ⟨⟨0, 0⟩, ⟨4, 0⟩⟩, .ymin, true, false⟩
      [⟨1, ⟨⟨0, 0⟩, ⟨2, 0⟩⟩, some .ymin⟩, ⟨1, ⟨⟨2, 0⟩, ⟨4, 0⟩⟩, some .ymin⟩] = some true ∧
    solveInPolygon (Sorter.insertion _) ⟨.xy, ⟨⟨0, 0⟩, ⟨4, 0⟩⟩, .ymin, true, false⟩
      [⟨1, ⟨⟨0, 0⟩, ⟨4, 0⟩⟩, some .ymin⟩] = some false := by decide +kernel

/-! ## C55 -/

/-- For an edge going towards its lower end, ranges that cover it may not be joined: here one of them is the whole edge,
but the two others, which come first, do not touch. -/
theorem C55_false : ∃ (edge : BEdge) (overlaps : List Overlap),
    solveInPolygon (Sorter.insertion _) edge overlaps = some true ∧
    (∃ ov ∈ overlaps, SameEnds ov.range edge.seg) ∧ ∀ ov ∈ overlaps, ov.other = none := by
  refine ⟨⟨.xy, ⟨⟨10, 0⟩, ⟨0, 0⟩⟩, .ymax, true, false⟩,
    [⟨1, ⟨⟨9, 0⟩, ⟨10, 0⟩⟩, none⟩, ⟨2, ⟨⟨5, 0⟩, ⟨6, 0⟩⟩, none⟩, ⟨3, ⟨⟨0, 0⟩, ⟨10, 0⟩⟩, none⟩], by decide +kernel,
    ⟨⟨3, ⟨⟨0, 0⟩, ⟨10, 0⟩⟩, none⟩, by simp, ?_⟩, by simp⟩
  unfold SameEnds Near
  decide +kernel

/-- An edge of a line that does not go down, followed upwards, is left unmeshed if ranges of it, followed upwards and
none too short, cover it, and none comes from an edge with the same side. What is missing: edges followed downwards, and
lines that go down. -/
theorem C55_partial (S : Sorter Overlap) {edge : BEdge} {overlaps : List Overlap} {o v : Point} {t0 t1 : ℚ}
    (hvx : 0 ≤ v.x) (hvy : 0 ≤ v.y) (he0 : At o v t0 edge.seg.p0) (he1 : At o v t1 edge.seg.p1) (h01 : t0 < t1)
    (p0 p1 : Overlap → ℚ)
    (hl : ∀ ov ∈ overlaps, At o v (p0 ov) ov.range.p0 ∧ At o v (p1 ov) ov.range.p1 ∧ t0 ≤ p0 ov ∧ p0 ov ≤ p1 ov ∧
      p1 ov ≤ t1 ∧ ov.range.axis ≠ .point ∧ ov.other ≠ some edge.side)
    (hcov : ∀ t, t0 ≤ t → t ≤ t1 → ∃ ov ∈ overlaps, p0 ov ≤ t ∧ t ≤ p1 ov) :
    solveInPolygon S edge overlaps = some false := by
  have hv : v.x ≠ 0 ∨ v.y ≠ 0 := by
    by_contra hc
    push Not at hc
    obtain ⟨ov, hov, -⟩ := hcov t0 le_rfl h01.le
    obtain ⟨g1, g2, -, -, -, g3, -⟩ := hl ov hov
    exact g3 (axis_point (by rw [g1.1, g2.1, hc.1]; ring) (by rw [g1.2, g2.2, hc.2]; ring))
  have hperm := sortOverlaps_perm S (edge.seg.p1.sub edge.seg.p0) overlaps
  have hsort := sortOverlaps_sorted S hvx hvy hv ⟨he0, he1⟩ h01
    fun ov hov => ⟨(hl ov hov).1, (hl ov hov).2.1⟩
  unfold solveInPolygon
  cases hs : sortOverlaps S (edge.seg.p1.sub edge.seg.p0) overlaps with
  | nil =>
    rw [hs] at hperm
    obtain ⟨ov, hov, -⟩ := hcov t0 le_rfl h01.le
    exact absurd (hperm.mem_iff.2 hov) (by simp)
  | cons front rest =>
    rw [hs] at hperm hsort
    obtain ⟨g1, g2, g3, g4, g5, g6, g7⟩ := hl front (hperm.mem_iff.1 (by simp))
    have hfront : p0 front = t0 := by
      obtain ⟨ov, hov, h1, -⟩ := hcov t0 le_rfl h01.le
      refine le_antisymm ?_ g3
      rcases List.mem_cons.1 (hperm.mem_iff.2 hov) with rfl | h
      · exact h1
      · exact ((List.pairwise_cons.1 hsort).1 ov h).trans h1
    have := joinRanges_covers hvx hvy hv edge.side p0 p1 t1 (front :: rest) front.range (p0 front) (p1 front)
      ⟨g1, g2⟩ g4 g5 g6
      (fun ov hov => by
        obtain ⟨k1, k2, k3, k4, k5, k6, k7⟩ := hl ov (hperm.mem_iff.1 hov)
        exact ⟨k7, ⟨k1, k2⟩, k4, k5, hfront ▸ k3, k6⟩) hsort
      (fun t h1 h2 => by
        obtain ⟨ov, hov, h3⟩ := hcov t (hfront ▸ h1) h2
        exact Or.inr ⟨ov, hperm.mem_iff.2 hov, h3⟩)
    rw [hfront] at this
    simp only [Option.some.injEq, Bool.not_eq_false', sameEnds_iff]
    left
    have near : ∀ {t p q}, At o v t p → At o v t q → Near p q := by
      intro t p q h1 h2
      unfold Near
      rw [h1.1, h1.2, h2.1, h2.2]
      simp [tolerance_pos]
    exact ⟨near this.1 he0, near this.2 he1⟩

/-- A vertical edge covered by three ranges given in disorder. -/
example : ∃ (edge : BEdge) (overlaps : List Overlap) (p0 p1 : Overlap → ℚ),
    At ⟨1, 0⟩ ⟨0, 1⟩ 2 edge.seg.p0 ∧ At ⟨1, 0⟩ ⟨0, 1⟩ 9 edge.seg.p1 ∧
    (∀ ov ∈ overlaps, At ⟨1, 0⟩ ⟨0, 1⟩ (p0 ov) ov.range.p0 ∧ At ⟨1, 0⟩ ⟨0, 1⟩ (p1 ov) ov.range.p1 ∧ 2 ≤ p0 ov ∧
      p0 ov ≤ p1 ov ∧ p1 ov ≤ 9 ∧ ov.range.axis ≠ .point ∧ ov.other ≠ some edge.side) ∧
    (∀ t, 2 ≤ t → t ≤ 9 → ∃ ov ∈ overlaps, p0 ov ≤ t ∧ t ≤ p1 ov) := by
  refine ⟨⟨.xy, ⟨⟨1, 2⟩, ⟨1, 9⟩⟩, .xmin, true, false⟩,
    [⟨1, ⟨⟨1, 6⟩, ⟨1, 9⟩⟩, none⟩, ⟨1, ⟨⟨1, 2⟩, ⟨1, 4⟩⟩, some .xmax⟩, ⟨1, ⟨⟨1, 3⟩, ⟨1, 6⟩⟩, none⟩],
    fun ov => ov.range.p0.y, fun ov => ov.range.p1.y, by norm_num [At], by norm_num [At], ?_, ?_⟩
  · unfold At
    decide +kernel
  · intro t h1 h2
    rcases le_total t 3 with h | h
    · exact ⟨⟨1, ⟨⟨1, 2⟩, ⟨1, 4⟩⟩, some .xmax⟩, by simp, h1, by show t ≤ 4; linarith⟩
    · rcases le_total t 6 with h' | h'
      · exact ⟨⟨1, ⟨⟨1, 3⟩, ⟨1, 6⟩⟩, none⟩, by simp, h, h'⟩
      · exact ⟨⟨1, ⟨⟨1, 6⟩, ⟨1, 9⟩⟩, none⟩, by simp, h', h2⟩

/-- Joining copies of a flat or upright segment with the segment gives it back, up to the order of its ends. -/
theorem joinRanges_same {n : Normal} {s : Segment} (hs : (s.axis = .h ∧ s.p0.y = s.p1.y) ∨ (s.axis = .v ∧ s.p0.x = s.p1.x)) :
    ∀ (l : List Overlap), (∀ o ∈ l, o.range = s ∧ o.other ≠ some n) →
    ∀ m, m = s ∨ m = ⟨⟨s.bounding.xmin, s.bounding.ymin⟩, ⟨s.bounding.xmax, s.bounding.ymax⟩⟩ →
      (joinRanges n m l).eq s = true := by
  have hself : ∀ p : Point, p.eq p = true := fun p => by simp [Point.eq, coordEq_refl]
  have hc : (⟨⟨s.bounding.xmin, s.bounding.ymin⟩, ⟨s.bounding.xmax, s.bounding.ymax⟩⟩ : Segment) = s ∨
      (⟨⟨s.bounding.xmin, s.bounding.ymin⟩, ⟨s.bounding.xmax, s.bounding.ymax⟩⟩ : Segment) = ⟨s.p1, s.p0⟩ := by
    obtain ⟨⟨x0, y0⟩, ⟨x1, y1⟩⟩ := s
    simp only [Segment.bounding] at hs ⊢
    rcases hs with ⟨-, rfl⟩ | ⟨-, rfl⟩
    · rcases lt_trichotomy x0 x1 with h | h | h
      · left; simp [h, not_lt.2 h.le]
      · left; simp [h]
      · right; simp [h, not_lt.2 h.le]
    · rcases lt_trichotomy y0 y1 with h | h | h
      · left; simp [h, not_lt.2 h.le]
      · left; simp [h]
      · right; simp [h, not_lt.2 h.le]
  have heq : ∀ m, m = s ∨ m = ⟨⟨s.bounding.xmin, s.bounding.ymin⟩, ⟨s.bounding.xmax, s.bounding.ymax⟩⟩ → m.eq s = true := by
    rintro m (rfl | rfl)
    · simp [Segment.eq, hself]
    · rcases hc with h | h <;> rw [h] <;> simp [Segment.eq, hself]
  intro l
  induction l with
  | nil => exact fun _ m hm => heq m hm
  | cons o rest ih =>
    intro hl m hm
    obtain ⟨h1, h2⟩ := hl o (by simp)
    unfold joinRanges
    rw [if_pos h2, h1]
    cases hmerge : merge s m with
    | none => exact heq m hm
    | some r =>
      refine ih (fun o ho => hl o (by simp [ho])) r (Or.inr ?_)
      have hb : m.bounding = s.bounding := by
        rcases hm with rfl | rfl
        · rfl
        · rcases hc with h | h <;> rw [h]
          simp only [Segment.bounding]
          refine Bounding.mk.injEq .. |>.mpr ⟨?_, ?_, ?_, ?_⟩ <;> split_ifs <;> linarith
      unfold merge at hmerge
      rw [hb] at hmerge
      have hxle : s.bounding.xmin ≤ s.bounding.xmax := by
        simp only [Segment.bounding]; split_ifs <;> linarith
      have hyle : s.bounding.ymin ≤ s.bounding.ymax := by
        simp only [Segment.bounding]; split_ifs <;> linarith
      split_ifs at hmerge
      simp only [pick, ge_iff_le, le_refl, true_and, hxle, hyle, if_true, and_true, Option.getD_some] at hmerge
      exact (Option.some.inj hmerge).symm

/-- C55, whole ranges: when each range reported is the whole of a flat or upright edge, from no edge with the same side, the edge
is left unmeshed, in whichever direction it is followed. -/
theorem C55_whole (S : Sorter Overlap) {edge : BEdge} {overlaps : List Overlap}
    (hs : (edge.seg.axis = .h ∧ edge.seg.p0.y = edge.seg.p1.y) ∨ (edge.seg.axis = .v ∧ edge.seg.p0.x = edge.seg.p1.x))
    (hne : overlaps ≠ []) (hall : ∀ ov ∈ overlaps, ov.range = edge.seg ∧ ov.other ≠ some edge.side) :
    solveInPolygon S edge overlaps = some false := by
  have hperm := sortOverlaps_perm S (edge.seg.p1.sub edge.seg.p0) overlaps
  unfold solveInPolygon
  cases hso : sortOverlaps S (edge.seg.p1.sub edge.seg.p0) overlaps with
  | nil =>
    rw [hso] at hperm
    exact absurd hperm.symm.eq_nil hne
  | cons front rest =>
    rw [hso] at hperm
    have hall' : ∀ ov ∈ front :: rest, ov.range = edge.seg ∧ ov.other ≠ some edge.side :=
      fun ov hov => hall ov (hperm.mem_iff.1 hov)
    have := joinRanges_same hs (front :: rest) hall' front.range (Or.inl (hall' front (by simp)).1)
    simp only [this, Bool.not_true]

/-- Two boxes over an edge followed downwards. -/
example : (⟨.xy, ⟨⟨5, 3⟩, ⟨5, 1⟩⟩, .xmax, true, false⟩ : BEdge).seg.axis = .v ∧
    solveInPolygon (Sorter.insertion _) ⟨.xy, ⟨⟨5, 3⟩, ⟨5, 1⟩⟩, .xmax, true, false⟩
      [⟨1, ⟨⟨5, 3⟩, ⟨5, 1⟩⟩, none⟩, ⟨2, ⟨⟨5, 3⟩, ⟨5, 1⟩⟩, none⟩] = some false := by decide +kernel

end Verif.Board
