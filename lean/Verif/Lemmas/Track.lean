import Verif.Lemmas.Lane
import Verif.Lemmas.Box
import Verif.Lemmas.Segment
import Verif.Props.Box

/-!
# Horizontal and vertical edges against the sides of a box

`pt o a c` is the point at `a` along the edge and `c` across it: `o` tells whether the edge is horizontal.
-/

namespace Verif.Board
open Verif.Geom Verif.Geom.Spec
open Verif.Mesh (tolerance)
open Spec

/-- The same value, or values clearly apart. -/
abbrev Apart (g a b : ℚ) : Prop := a = b ∨ g ≤ |a - b|

def pt (o : Bool) (a c : ℚ) : Point := if o then ⟨a, c⟩ else ⟨c, a⟩

/-! ## Rotations -/

theorem sense_eq_iff {c u v : ℚ} (hu : u = 0 ∨ 2 * tolerance ≤ |c| * |u|) (hv : v = 0 ∨ 2 * tolerance ≤ |c| * |v|) :
    senseOf (c * u / 2) = senseOf (c * v / 2) ↔ (u = 0 ∧ v = 0) ∨ 0 < u * v := by
  have hp := tolerance_pos
  have half : ∀ w, 2 * tolerance ≤ |c| * |w| → tolerance ≤ |c * w / 2| := by
    intro w h
    rw [abs_div, abs_mul, abs_two]; linarith
  have zero : senseOf (c * 0 / 2) = .colinear := by
    rw [senseOf_colinear]; simpa using hp
  have nonzero : ∀ w, 2 * tolerance ≤ |c| * |w| → senseOf (c * w / 2) ≠ .colinear := by
    intro w h h'
    rw [senseOf_colinear] at h'
    linarith [half w h]
  have ne : ∀ w, 2 * tolerance ≤ |c| * |w| → w ≠ 0 ∧ c ≠ 0 := by
    intro w h
    constructor
    · rintro rfl
      rw [abs_zero, mul_zero] at h; linarith
    · rintro rfl
      rw [abs_zero, zero_mul] at h; linarith
  rcases hu with rfl | hu <;> rcases hv with rfl | hv
  · simp
  · rw [zero]
    constructor
    · intro h
      exact absurd h.symm (nonzero v hv)
    · rintro (h | h)
      · exact absurd h.2 (ne v hv).1
      · simp at h
  · rw [zero]
    constructor
    · intro h
      exact absurd h (nonzero u hu)
    · rintro (h | h)
      · exact absurd h.1 (ne u hu).1
      · simp at h
  · have hcc : 0 < c ^ 2 := by have := (ne u hu).2; positivity
    have e : c * u / 2 * (c * v / 2) = c ^ 2 / 4 * (u * v) := by ring
    constructor
    · intro h
      right
      by_contra hn
      have : u * v < 0 := lt_of_le_of_ne (not_lt.1 hn) (mul_ne_zero (ne u hu).1 (ne v hv).1)
      exact sense_differ (by rw [e]; exact mul_neg_of_pos_of_neg (by positivity) this) (half u hu) h
    · rintro (h | h)
      · exact absurd h.1 (ne u hu).1
      · exact sense_same (by rw [e]; positivity) (half u hu) (half v hv)

theorem orient_pt (o : Bool) (a b c d e f : ℚ) :
    orient (pt o a b) (pt o c d) (pt o e f) = (if o then 1 else -1) * ((c - a) * (f - b) - (d - b) * (e - a)) := by
  cases o <;> simp [pt, orient]

theorem abs_side (o : Bool) (c : ℚ) : |(if o then 1 else -1) * c| = |c| := by
  cases o <;> simp

/-! ## Bounding boxes -/

theorem bounding_along (o : Bool) (x0 x1 y : ℚ) : (Segment.mk (pt o x0 y) (pt o x1 y)).bounding =
    if o then ⟨min x0 x1, max x0 x1, y, y⟩ else ⟨y, y, min x0 x1, max x0 x1⟩ := by
  rw [segment_bounding_min_max]
  cases o <;> simp [pt]

theorem axis_along (o : Bool) {x0 x1 y : ℚ} (h : tolerance ≤ |x0 - x1|) :
    (Segment.mk (pt o x0 y) (pt o x1 y)).axis = if o then .h else .v := by
  have h1 : coordEq (x1 - x0) 0 = false := by
    rw [← Bool.not_eq_true, coordEq_iff, sub_zero, abs_sub_comm]
    exact not_lt.2 h
  unfold Segment.axis vectorAxis
  cases o <;> simp [pt, Point.sub, coordEq_refl, h1]

theorem axis_across (o : Bool) {x y0 y1 : ℚ} (h : tolerance ≤ |y0 - y1|) :
    (Segment.mk (pt o x y0) (pt o x y1)).axis = if o then .v else .h := by
  have h1 : coordEq (y1 - y0) 0 = false := by
    rw [← Bool.not_eq_true, coordEq_iff, sub_zero, abs_sub_comm]
    exact not_lt.2 h
  unfold Segment.axis vectorAxis
  cases o <;> simp [pt, Point.sub, coordEq_refl, h1]

theorem touching_iff {a b c d : ℚ} (hab : a ≤ b) (hcd : c ≤ d) : touching a b c d = true ↔ max a c ≤ min b d := by
  simp only [touching, Bool.or_eq_true, Bool.and_eq_true, decide_eq_true_eq, max_le_iff, le_min_iff]
  constructor
  · rintro (((⟨h1, h2⟩ | ⟨h1, h2⟩) | ⟨h1, h2⟩) | ⟨h1, h2⟩) <;> refine ⟨⟨hab, ?_⟩, ?_, hcd⟩ <;> linarith
  · rintro ⟨⟨-, h1⟩, h2, -⟩
    rcases le_total a c with h | h
    · exact Or.inl (Or.inr ⟨h, h1⟩)
    · exact Or.inl (Or.inl (Or.inl ⟨h, h2⟩))

/-! ## The sides of a box -/

/-- A side across. -/
theorem meet_across (o : Bool) {x0 x1 y X y0 y1 : ℚ} (hx : (1 / 5000 : ℚ) ≤ |x0 - x1|) (hy : (1 / 5000 : ℚ) ≤ |y0 - y1|)
    (hX0 : Apart (1 / 5000) X x0) (hX1 : Apart (1 / 5000) X x1) (hy0 : Apart (1 / 5000) y0 y)
    (hy1 : Apart (1 / 5000) y1 y) :
    meet ⟨pt o x0 y, pt o x1 y⟩ ⟨pt o X y0, pt o X y1⟩ =
      if (X - x0) * (X - x1) ≤ 0 ∧ (y0 - y) * (y1 - y) ≤ 0 then ([pt o X y], none) else ([], none) := by
  have ht : tolerance = 1 / 100000000 := rfl
  have big : ∀ a b : ℚ, 1 / 5000 ≤ |a| → 1 / 5000 ≤ |b| → 2 * tolerance ≤ |a| * |b| := by
    intro a b ha hb
    have := mul_le_mul ha hb (by norm_num) (abs_nonneg a)
    rw [ht]; linarith
  have gap : ∀ a b c : ℚ, Apart (1 / 5000) a b → 1 / 5000 ≤ |c| → a - b = 0 ∨ 2 * tolerance ≤ |c| * |a - b| := by
    intro a b c h hc
    rcases h with h | h
    · left; rw [h, sub_self]
    · right; exact big _ _ hc h
  set κ : ℚ := if o then 1 else -1 with hκ
  have hκc : ∀ c : ℚ, |κ * c| = |c| := fun c => abs_side o c
  have e1 : ∀ t, orient (pt o x0 y) (pt o x1 y) (pt o X t) / 2 = (κ * (x1 - x0)) * (t - y) / 2 := by
    intro t; rw [orient_pt]; ring
  have e2 : ∀ t, orient (pt o X y0) (pt o X y1) (pt o t y) / 2 = (κ * (y1 - y0)) * (X - t) / 2 := by
    intro t; rw [orient_pt]; ring
  have cx : 1 / 5000 ≤ |κ * (x1 - x0)| := by rw [hκc, abs_sub_comm]; exact hx
  have cy : 1 / 5000 ≤ |κ * (y1 - y0)| := by rw [hκc, abs_sub_comm]; exact hy
  have i1 := sense_eq_iff (c := κ * (x1 - x0)) (gap y0 y _ hy0 cx) (gap y1 y _ hy1 cx)
  have i2 := sense_eq_iff (c := κ * (y1 - y0)) (gap X x0 _ hX0 cy) (gap X x1 _ hX1 cy)
  have n1 : ¬ (y0 - y = 0 ∧ y1 - y = 0) := by
    rintro ⟨h1, h2⟩
    have : y0 - y1 = 0 := by linarith
    rw [this, abs_zero] at hy
    norm_num at hy
  have n2 : ¬ (X - x0 = 0 ∧ X - x1 = 0) := by
    rintro ⟨h1, h2⟩
    have : x0 - x1 = 0 := by linarith
    rw [this, abs_zero] at hx
    norm_num at hx
  have hrel : (Segment.mk (pt o x0 y) (pt o x1 y)).relationTo ⟨pt o X y0, pt o X y1⟩ =
      if (X - x0) * (X - x1) ≤ 0 ∧ (y0 - y) * (y1 - y) ≤ 0 then .crossing else .apart := by
    rw [relationTo_eq]
    simp only [rotation_triangle, e1, e2]
    have k1 : senseOf (κ * (x1 - x0) * (y0 - y) / 2) ≠ senseOf (κ * (x1 - x0) * (y1 - y) / 2) ↔ (y0 - y) * (y1 - y) ≤ 0 := by
      rw [ne_eq, i1]
      simp [n1]
    have k2 : senseOf (κ * (y1 - y0) * (X - x0) / 2) ≠ senseOf (κ * (y1 - y0) * (X - x1) / 2) ↔ (X - x0) * (X - x1) ≤ 0 := by
      rw [ne_eq, i2]
      simp [n2]
    have k3 : ¬ (senseOf (κ * (x1 - x0) * (y0 - y) / 2) = .colinear ∧ senseOf (κ * (x1 - x0) * (y1 - y) / 2) = .colinear) := by
      rintro ⟨h1, h2⟩
      rcases i1.1 (h1.trans h2.symm) with h | h
      · exact n1 h
      · have hz : y0 - y ≠ 0 := fun h' => by rw [h', zero_mul] at h; exact lt_irrefl _ h
        have := (gap y0 y _ hy0 cx).resolve_left hz
        rw [senseOf_colinear, abs_div, abs_mul, abs_two] at h1
        linarith
    unfold relationOf
    rw [if_neg (fun h => k3 ⟨h.1, h.2.1⟩)]
    by_cases hc : (X - x0) * (X - x1) ≤ 0 ∧ (y0 - y) * (y1 - y) ≤ 0
    · rw [if_pos hc, if_pos ⟨k1.2 hc.2, k2.2 hc.1⟩]
    · rw [if_neg hc, if_neg (fun h => hc ⟨k2.1 h.2, k1.1 h.1⟩)]
  unfold meet
  rw [hrel]
  by_cases hc : (X - x0) * (X - x1) ≤ 0 ∧ (y0 - y) * (y1 - y) ≤ 0
  · rw [if_pos hc, if_pos hc]
    have a1 := axis_along o (y := y) (show tolerance ≤ |x0 - x1| by rw [ht]; linarith)
    have a2 := axis_across o (x := X) (show tolerance ≤ |y0 - y1| by rw [ht]; linarith)
    simp only [intersection, a1, a2]
    cases o <;> simp [pt]
  · rw [if_neg hc, if_neg hc]

/-- A side along, on another line. -/
theorem meet_along_off (o : Bool) {x0 x1 y X0 X1 Y : ℚ} (hx : (1 / 5000 : ℚ) ≤ |x0 - x1|)
    (hy : (1 / 5000 : ℚ) ≤ |Y - y|) :
    meet ⟨pt o x0 y, pt o x1 y⟩ ⟨pt o X0 Y, pt o X1 Y⟩ = ([], none) := by
  have ht : tolerance = 1 / 100000000 := rfl
  set κ : ℚ := if o then 1 else -1 with hκ
  have hκc : ∀ c : ℚ, |κ * c| = |c| := fun c => abs_side o c
  have e1 : ∀ t, orient (pt o x0 y) (pt o x1 y) (pt o t Y) / 2 = (κ * (x1 - x0)) * (Y - y) / 2 := by
    intro t; rw [orient_pt]; ring
  have hn : senseOf (κ * (x1 - x0) * (Y - y) / 2) ≠ .colinear := by
    intro h
    rw [senseOf_colinear, abs_div, abs_mul, abs_two, hκc, abs_sub_comm x1] at h
    have := mul_le_mul hx hy (by norm_num) (abs_nonneg _)
    rw [ht] at h
    linarith
  have hrel : (Segment.mk (pt o x0 y) (pt o x1 y)).relationTo ⟨pt o X0 Y, pt o X1 Y⟩ = .apart := by
    rw [relationTo_eq]
    simp only [rotation_triangle, e1]
    unfold relationOf
    rw [if_neg (fun h => hn h.1), if_neg (fun h => h.1 rfl)]
  unfold meet
  rw [hrel]

/-- A side along, on the same line. -/
theorem meet_along_on (o : Bool) {x0 x1 y X0 X1 : ℚ} (hx : (1 / 5000 : ℚ) ≤ |x0 - x1|) (hX : (1 / 5000 : ℚ) ≤ |X0 - X1|)
    (h00 : Apart (1 / 5000) x0 X0) (h01 : Apart (1 / 5000) x0 X1) (h10 : Apart (1 / 5000) x1 X0)
    (h11 : Apart (1 / 5000) x1 X1) :
    meet ⟨pt o x0 y, pt o x1 y⟩ ⟨pt o X0 y, pt o X1 y⟩ =
      if max (min x0 x1) (min X0 X1) ≤ min (max x0 x1) (max X0 X1) then
        ([pt o (max (min x0 x1) (min X0 X1)) y, pt o (min (max x0 x1) (max X0 X1)) y],
          if max (min x0 x1) (min X0 X1) = min (max x0 x1) (max X0 X1) then none
          else some ⟨pt o (max (min x0 x1) (min X0 X1)) y, pt o (min (max x0 x1) (max X0 X1)) y⟩)
      else ([], none) := by
  have ht : tolerance = 1 / 100000000 := rfl
  have e1 : ∀ a b c, orient (pt o a y) (pt o b y) (pt o c y) / 2 = 0 := by
    intro a b c; rw [orient_pt]; ring
  have z : senseOf 0 = .colinear := by rw [senseOf_colinear]; simpa using tolerance_pos
  have hpar : areParallel ⟨pt o x0 y, pt o x1 y⟩ ⟨pt o X0 y, pt o X1 y⟩ = true := by
    unfold areParallel
    rw [axis_along o (by rw [ht]; linarith), axis_along o (by rw [ht]; linarith)]
    cases o <;> simp
  have hrel : (Segment.mk (pt o x0 y) (pt o x1 y)).relationTo ⟨pt o X0 y, pt o X1 y⟩ =
      if max (min x0 x1) (min X0 X1) ≤ min (max x0 x1) (max X0 X1) then .overlapping else .colinear := by
    rw [relationTo_eq]
    simp only [rotation_triangle, e1, z, bounding_along]
    have t1 := touching_iff (min_le_max (a := X0) (b := X1)) (min_le_max (a := x0) (b := x1))
    have t2 := touching_iff (le_refl y) (le_refl y)
    rw [max_comm (min X0 X1), min_comm (max X0 X1)] at t1
    simp only [max_self, min_self, le_refl, iff_true] at t2
    by_cases hc : max (min x0 x1) (min X0 X1) ≤ min (max x0 x1) (max X0 X1)
    · rw [if_pos hc]
      cases o <;> simp [relationOf, t1.2 hc, t2]
    · rw [if_neg hc]
      have t1' : touching (min X0 X1) (max X0 X1) (min x0 x1) (max x0 x1) = false := by
        rw [← Bool.not_eq_true, t1]; exact hc
      cases o <;> simp [relationOf, t1', t2]
  unfold meet
  rw [hrel]
  by_cases hc : max (min x0 x1) (min X0 X1) ≤ min (max x0 x1) (max X0 X1)
  · rw [if_pos hc, if_pos hc]
    have hb : (Segment.mk (pt o x0 y) (pt o x1 y)).bounding.overlap (Segment.mk (pt o X0 y) (pt o X1 y)).bounding = true := by
      simp only [bounding_along, Bounding.overlap]
      cases o <;> simpa [and_assoc] using hc
    have ho : overlap ⟨pt o x0 y, pt o x1 y⟩ ⟨pt o X0 y, pt o X1 y⟩ =
        some ⟨pt o (max (min x0 x1) (min X0 X1)) y, pt o (min (max x0 x1) (max X0 X1)) y⟩ := by
      rw [overlap_eq hpar, if_pos hb]
      simp only [bounding_along]
      cases o <;> simp [pt]
    simp only [ho]
    congr 1
    -- The ends are the same or clearly apart.
    have hlohi : Apart (1 / 5000) (max (min x0 x1) (min X0 X1)) (min (max x0 x1) (max X0 X1)) := by
      have hx' : Apart (1 / 5000) x0 x1 := Or.inr hx
      have hx'' : Apart (1 / 5000) x1 x0 := Or.inr (by rw [abs_sub_comm]; exact hx)
      have hX' : Apart (1 / 5000) X0 X1 := Or.inr hX
      have hX'' : Apart (1 / 5000) X1 X0 := Or.inr (by rw [abs_sub_comm]; exact hX)
      have sw : ∀ a b, Apart (1 / 5000) a b → Apart (1 / 5000) b a := by
        rintro a b (h | h)
        · exact Or.inl h.symm
        · exact Or.inr (by rw [abs_sub_comm]; exact h)
      have all : ∀ a ∈ [x0, x1, X0, X1], ∀ b ∈ [x0, x1, X0, X1], Apart (1 / 5000) a b := by
        intro a ha b hb
        simp only [List.mem_cons, List.not_mem_nil, or_false] at ha hb
        rcases ha with rfl | rfl | rfl | rfl <;> rcases hb with rfl | rfl | rfl | rfl <;>
          first | exact Or.inl rfl | assumption | (apply sw; assumption)
      have m1 : ∀ a b : ℚ, min a b = a ∨ min a b = b := fun a b => min_choice a b
      have m2 : ∀ a b : ℚ, max a b = a ∨ max a b = b := fun a b => max_choice a b
      have lo : max (min x0 x1) (min X0 X1) ∈ [x0, x1, X0, X1] := by
        rcases m2 (min x0 x1) (min X0 X1) with h | h <;> rw [h]
        · rcases m1 x0 x1 with h | h <;> simp [h]
        · rcases m1 X0 X1 with h | h <;> simp [h]
      have hi : min (max x0 x1) (max X0 X1) ∈ [x0, x1, X0, X1] := by
        rcases m1 (max x0 x1) (max X0 X1) with h | h <;> rw [h]
        · rcases m2 x0 x1 with h | h <;> simp [h]
        · rcases m2 X0 X1 with h | h <;> simp [h]
      exact all _ lo _ hi
    generalize max (min x0 x1) (min X0 X1) = lo at hlohi hc ⊢
    generalize min (max x0 x1) (max X0 X1) = hi at hlohi hc ⊢
    by_cases he : lo = hi
    · rw [if_pos he, if_pos]
      subst he
      exact axis_point rfl rfl
    · rw [if_neg he, if_neg]
      rw [axis_along o (by rw [ht]; linarith [hlohi.resolve_left he])]
      cases o <;> simp
  · rw [if_neg hc, if_neg hc]

/-! ## Points and the box -/

theorem scan_clear {q : Point} {ray : Segment} {pts : List Point} (h : scanVertices q ray pts = .clear) :
    ∀ p ∈ pts, p.eq q = false ∧ ray.hasPoint p = false := by
  induction pts with
  | nil => simp
  | cons p pts ih =>
    rw [scanVertices] at h
    split_ifs at h with h1 h2
    intro p' hp'
    rcases List.mem_cons.1 hp' with rfl | hp'
    · exact ⟨by simpa using h1, by simpa using h2⟩
    · exact ih h p' hp'

/-- A point outside a box, each of its coordinates clearly apart from those of the box or equal to them. -/
theorem relation_outside {p1 p3 q : Point} (hh : (1 / 5000 : ℚ) ≤ |p3.y - p1.y|)
    (hx1 : Apart (1 / 10000) p1.x q.x) (hx3 : Apart (1 / 10000) p3.x q.x) (hy1 : Apart (1 / 10000) p1.y q.y)
    (hy3 : Apart (1 / 10000) p3.y q.y) (h : ¬ WithinBox p1 p3 q) :
    relationToPoint (boxPoints p1 p3) q = some .outside := by
  have ht : tolerance = 1 / 100000000 := rfl
  have hp := tolerance_pos
  have a1 := min_le_left p1.x p3.x
  have a2 := min_le_right p1.x p3.x
  have a3 := le_max_left p1.x p3.x
  have a4 := le_max_right p1.x p3.x
  have b1 := min_le_left p1.y p3.y
  have b2 := min_le_right p1.y p3.y
  have b3 := le_max_left p1.y p3.y
  have b4 := le_max_right p1.y p3.y
  have hnon : ¬ ∃ e ∈ boxEdges p1 p3, e.hasPoint q = true := fun h' => h (boxEdges_hasPoint.1 h').1
  have hnoedge : ∀ e ∈ boxEdges p1 p3, e.hasPoint q = false := by
    intro e he
    by_contra hc
    exact hnon ⟨e, he, by simpa using hc⟩
  have hnov : ∀ ray, scanVertices q ray (boxPoints p1 p3) ≠ .on := by
    intro ray hon
    obtain ⟨p, hpm, hpe⟩ := scan_on hon
    obtain ⟨hpx, hpy⟩ := mem_boxPoints.1 hpm
    simp only [Point.eq, Bool.and_eq_true, coordEq_iff] at hpe
    have ex : p.x = q.x := by
      have : Apart (1 / 10000) p.x q.x := by rcases hpx with h | h <;> rw [h] <;> assumption
      refine this.resolve_right fun h' => ?_
      rw [ht] at hpe; linarith [hpe.1]
    have ey : p.y = q.y := by
      have : Apart (1 / 10000) p.y q.y := by rcases hpy with h | h <;> rw [h] <;> assumption
      refine this.resolve_right fun h' => ?_
      rw [ht] at hpe; linarith [hpe.2]
    apply h
    unfold WithinBox
    rw [← ex, ← ey]
    rcases hpx with h1 | h1 <;> rcases hpy with h2 | h2 <;> rw [h1, h2] <;> refine ⟨?_, ?_, ?_, ?_⟩ <;> assumption
  -- The products with the sides.
  have big : ∀ X, Apart (1 / 10000) X q.x → X ≠ q.x → ∀ Z, |Z| = |p3.y - p1.y| → 2 * tolerance ≤ |X - q.x| * |Z| := by
    intro X hX hne Z hZ
    rw [hZ]
    have := mul_le_mul (hX.resolve_left hne) hh (by norm_num) (abs_nonneg _)
    rw [ht]; linarith
  have hZ : |p1.y - p3.y| = |p3.y - p1.y| := abs_sub_comm _ _
  have count : ∀ ray : Segment, (∃ xe, ray = ⟨q, ⟨xe, q.y⟩⟩) →
      (((Segment.mk ⟨p1.x, p1.y⟩ ⟨p1.x, p3.y⟩).relationTo ray = .crossing ∧
          (Segment.mk ⟨p3.x, p3.y⟩ ⟨p3.x, p1.y⟩).relationTo ray = .crossing) ∨
        (¬ (Segment.mk ⟨p1.x, p1.y⟩ ⟨p1.x, p3.y⟩).relationTo ray = .crossing ∧
          ¬ (Segment.mk ⟨p3.x, p3.y⟩ ⟨p3.x, p1.y⟩).relationTo ray = .crossing)) →
      ∃ c, countCrossings q ray (boxEdges p1 p3) = some c ∧ c % 2 = 0 := by
    rintro ray ⟨xe, rfl⟩ hc
    refine ⟨_, countCrossings_some hnoedge, ?_⟩
    have h1 := crossing_h p3.x p1.x p1.y q.x xe q.y
    have h2 := crossing_h p1.x p3.x p3.y q.x xe q.y
    simp only [boxEdges, List.countP_cons, List.countP_nil, decide_eq_true_eq]
    rcases hc with ⟨c1, c2⟩ | ⟨c1, c2⟩ <;> simp [h1, h2, c1, c2]
  rw [relationToPoint_box, relationToPoint.loop]
  cases hs : scanVertices q ⟨q, rayEnd ⟨min p1.x p3.x, max p1.x p3.x, min p1.y p3.y, max p1.y p3.y⟩ q 0⟩
    (boxPoints p1 p3) with
  | on => exact absurd hs (hnov _)
  | clear =>
    have hcl := scan_clear hs
    obtain ⟨c, hc, hodd⟩ := count ⟨q, rayEnd ⟨min p1.x p3.x, max p1.x p3.x, min p1.y p3.y, max p1.y p3.y⟩ q 0⟩
      ⟨_, rfl⟩ (by
        simp only [rayEnd]
        by_cases hl : q.x < min p1.x p3.x
        · -- Left of the box.
          right
          have n1 : p1.x ≠ q.x := by intro h; linarith
          have n3 : p3.x ≠ q.x := by intro h; linarith
          have side : ∀ X, min p1.x p3.x ≤ X → 1 ≤ |X - (min p1.x p3.x - 1)| := by
            intro X h; rw [abs_of_pos (by linarith)]; linarith
          have long : ∀ X Z, min p1.x p3.x ≤ X → |Z| = |p3.y - p1.y| →
              2 * tolerance ≤ |X - (min p1.x p3.x - 1)| * |Z| := by
            intro X Z h hz
            have := mul_le_mul (side X h) hh (by norm_num) (abs_nonneg _)
            rw [hz, ht]; linarith
          exact ⟨not_crossing_side (mul_pos (by linarith) (by linarith)) (big _ hx1 n1 _ rfl) (long _ _ a1 rfl),
            not_crossing_side (mul_pos (by linarith) (by linarith)) (big _ hx3 n3 _ hZ) (long _ _ a2 hZ)⟩
        · rw [not_lt] at hl
          have len : 1 ≤ |min p1.x p3.x - 1 - q.x| := by rw [abs_of_neg (by linarith)]; linarith
          have far : ∀ Y, Apart (1 / 10000) Y q.y → Y ≠ q.y → 2 * tolerance ≤ |min p1.x p3.x - 1 - q.x| * |Y - q.y| := by
            intro Y hY hne
            have := mul_le_mul len (hY.resolve_left hne) (by norm_num) (abs_nonneg _)
            rw [ht]; linarith
          by_cases hy : q.y < min p1.y p3.y ∨ max p1.y p3.y < q.y
          · right
            have n1 : p1.y ≠ q.y := by intro h'; rcases hy with hy | hy <;> linarith
            have n3 : p3.y ≠ q.y := by intro h'; rcases hy with hy | hy <;> linarith
            have pos : 0 < (p1.y - q.y) * (p3.y - q.y) := by
              rcases hy with hy | hy
              · exact mul_pos (by linarith) (by linarith)
              · exact mul_pos_of_neg_of_neg (by linarith) (by linarith)
            exact ⟨not_crossing_away pos (far _ hy1 n1) (far _ hy3 n3),
              not_crossing_away (by rw [mul_comm]; exact pos) (far _ hy3 n3) (far _ hy1 n1)⟩
          · rw [not_or, not_lt, not_lt] at hy
            have hr : max p1.x p3.x < q.x := by
              by_contra hc
              exact h ⟨hl, not_lt.1 hc, hy.1, hy.2⟩
            have n1 : p1.x ≠ q.x := by intro h'; linarith
            have n3 : p3.x ≠ q.x := by intro h'; linarith
            -- No vertex on the ray.
            have nv : ∀ X Y, (⟨X, Y⟩ : Point) ∈ boxPoints p1 p3 → Y ≠ q.y := by
              intro X Y hm hY
              subst hY
              have hX : min p1.x p3.x ≤ X ∧ X ≤ max p1.x p3.x := by
                rcases (mem_boxPoints.1 hm).1 with h' | h' <;> simp only at h' <;> rw [h'] <;> constructor <;> assumption
              have := (hcl _ hm).2
              rw [hasPoint_of] at this
              · exact Bool.noConfusion this
              · simp only [orient, rayEnd]; ring
              · simp only [rayEnd]; exact le_max_iff.2 (Or.inl (by linarith [hX.2]))
              · simp only [rayEnd]; exact min_le_iff.2 (Or.inr (by linarith [hX.1]))
              · simp [rayEnd]
              · simp [rayEnd]
            have m1 : p1.y ≠ q.y := nv p1.x p1.y (mem_boxPoints.2 ⟨Or.inl rfl, Or.inl rfl⟩)
            have m3 : p3.y ≠ q.y := nv p1.x p3.y (mem_boxPoints.2 ⟨Or.inl rfl, Or.inr rfl⟩)
            have neg : (p1.y - q.y) * (p3.y - q.y) < 0 := by
              rcases le_total p1.y p3.y with h' | h'
              · rw [min_eq_left h', max_eq_right h'] at hy
                have c1 : p1.y < q.y := lt_of_le_of_ne hy.1 m1
                have c3 : q.y < p3.y := lt_of_le_of_ne hy.2 (Ne.symm m3)
                exact mul_neg_of_neg_of_pos (by linarith) (by linarith)
              · rw [min_eq_right h', max_eq_left h'] at hy
                have c1 : p3.y < q.y := lt_of_le_of_ne hy.1 m3
                have c3 : q.y < p1.y := lt_of_le_of_ne hy.2 (Ne.symm m1)
                exact mul_neg_of_pos_of_neg (by linarith) (by linarith)
            left
            exact ⟨crossing_v (mul_neg_of_neg_of_pos (by linarith) (by linarith)) neg (big _ hx1 n1 _ rfl) (far _ hy1 m1),
              crossing_v (mul_neg_of_neg_of_pos (by linarith) (by linarith)) (by rw [mul_comm]; exact neg)
                (big _ hx3 n3 _ hZ) (far _ hy3 m3)⟩)
    simp [hc, hodd]
  | retry =>
    -- A corner on the first ray: the point is right of the box.
    obtain ⟨p, hpm, hpe, hpr⟩ := scan_retry hs
    obtain ⟨hpx, hpy⟩ := mem_boxPoints.1 hpm
    obtain ⟨g1, g2, g3, g4⟩ := hasPoint_box hpr
    simp only [rayEnd, min_self, max_self] at g1 g2 g3 g4
    have hpq : p.y = q.y := le_antisymm g3 g4
    have hymin : min p1.y p3.y ≤ q.y := by rw [← hpq]; rcases hpy with h' | h' <;> rw [h'] <;> assumption
    have hymax : q.y ≤ max p1.y p3.y := by rw [← hpq]; rcases hpy with h' | h' <;> rw [h'] <;> assumption
    have hpxm : min p1.x p3.x ≤ p.x := by rcases hpx with h' | h' <;> rw [h'] <;> assumption
    have hge : min p1.x p3.x ≤ q.x := by
      rcases le_max_iff.1 g1 with h' | h' <;> linarith
    have hr : max p1.x p3.x < q.x := by
      by_contra hc
      exact h ⟨hge, not_lt.1 hc, hymin, hymax⟩
    have n1 : p1.x ≠ q.x := by intro h'; linarith
    have n3 : p3.x ≠ q.x := by intro h'; linarith
    simp only
    rw [relationToPoint.loop]
    cases hs1 : scanVertices q ⟨q, rayEnd ⟨min p1.x p3.x, max p1.x p3.x, min p1.y p3.y, max p1.y p3.y⟩ q (0 + 1)⟩
      (boxPoints p1 p3) with
    | on => exact absurd hs1 (hnov _)
    | retry =>
      obtain ⟨p', hpm', -, hpr'⟩ := scan_retry hs1
      obtain ⟨hpx', -⟩ := mem_boxPoints.1 hpm'
      obtain ⟨-, g2', -, -⟩ := hasPoint_box hpr'
      simp only [rayEnd, zero_add] at g2'
      have : p'.x ≤ max p1.x p3.x := by rcases hpx' with h' | h' <;> rw [h'] <;> assumption
      rcases min_le_iff.1 g2' with h' | h' <;> linarith
    | clear =>
      obtain ⟨c, hc, hodd⟩ := count ⟨q, rayEnd ⟨min p1.x p3.x, max p1.x p3.x, min p1.y p3.y, max p1.y p3.y⟩ q (0 + 1)⟩
        ⟨_, rfl⟩ (by
          simp only [rayEnd, zero_add]
          right
          have side : ∀ X, X ≤ max p1.x p3.x → 1 ≤ |X - (max p1.x p3.x + 1)| := by
            intro X h; rw [abs_of_neg (by linarith)]; linarith
          have long : ∀ X Z, X ≤ max p1.x p3.x → |Z| = |p3.y - p1.y| →
              2 * tolerance ≤ |X - (max p1.x p3.x + 1)| * |Z| := by
            intro X Z h hz
            have := mul_le_mul (side X h) hh (by norm_num) (abs_nonneg _)
            rw [hz, ht]; linarith
          exact ⟨not_crossing_side (mul_pos_of_neg_of_neg (by linarith) (by linarith)) (big _ hx1 n1 _ rfl) (long _ _ a3 rfl),
            not_crossing_side (mul_pos_of_neg_of_neg (by linarith) (by linarith)) (big _ hx3 n3 _ hZ) (long _ _ a4 hZ)⟩)
      simp [hc, hodd]

/-- Points and boxes, each coordinate of the point clearly apart from those of the box or equal to them. -/
theorem relation_box {p1 p3 q : Point} (hh : (1 / 5000 : ℚ) ≤ |p3.y - p1.y|)
    (hx1 : Apart (1 / 10000) p1.x q.x) (hx3 : Apart (1 / 10000) p3.x q.x) (hy1 : Apart (1 / 10000) p1.y q.y)
    (hy3 : Apart (1 / 10000) p3.y q.y) :
    (InsideBox p1 p3 q → pointRelation (boxPoints p1 p3) q = .ok .inside) ∧
    (OnBox p1 p3 q → pointRelation (boxPoints p1 p3) q = .ok .on) ∧
    (¬ WithinBox p1 p3 q → pointRelation (boxPoints p1 p3) q = .ok .outside) := by
  have ht : tolerance = 1 / 100000000 := rfl
  have out : ∀ r, relationToPoint (boxPoints p1 p3) q = some r → pointRelation (boxPoints p1 p3) q = .ok r := by
    intro r hr
    unfold pointRelation
    rw [hr]
    rfl
  refine ⟨fun h => out _ ?_, fun h => out _ (C41_border h), fun h => out _ (relation_outside hh hx1 hx3 hy1 hy3 h)⟩
  have hne : ∀ a b : ℚ, min a b < q.x → q.x < max a b → a ≠ q.x ∧ b ≠ q.x := by
    intro a b h1 h2
    constructor
    · rintro rfl
      rcases le_total q.x b with h | h <;> simp [h] at h1 h2
    · rintro rfl
      rcases le_total a q.x with h | h <;> simp [h] at h1 h2
  have hne' : ∀ a b : ℚ, min a b < q.y → q.y < max a b → a ≠ q.y ∧ b ≠ q.y := by
    intro a b h1 h2
    constructor
    · rintro rfl
      rcases le_total q.y b with h | h <;> simp [h] at h1 h2
    · rintro rfl
      rcases le_total a q.y with h | h <;> simp [h] at h1 h2
  obtain ⟨i1, i2, i3, i4⟩ := h
  obtain ⟨x1, x3⟩ := hne _ _ i1 i2
  obtain ⟨y1, y3⟩ := hne' _ _ i3 i4
  have gx1 := hx1.resolve_left x1
  have gx3 := hx3.resolve_left x3
  have gy1 := hy1.resolve_left y1
  have gy3 := hy3.resolve_left y3
  have px1 := mul_le_mul gx1 hh (by norm_num) (abs_nonneg _)
  have px3 := mul_le_mul gx3 hh (by norm_num) (abs_nonneg _)
  refine (C41_partial ?_ ?_ ?_ ?_ ?_).1 ⟨i1, i2, i3, i4⟩ <;> rw [ht] <;> linarith

end Verif.Board
