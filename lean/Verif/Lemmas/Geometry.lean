import Verif.Spec.Geometry
import Verif.Model.Geometry
import Mathlib.Tactic.Linarith
import Mathlib.Tactic.Ring
import Mathlib.Tactic.LinearCombination
import Mathlib.Tactic.FieldSimp
import Mathlib.Algebra.Order.Ring.Abs

/-!
# Facts about the geometric functions
-/

namespace Verif.Geom
open Verif.Mesh Spec

theorem tolerance_pos : (0 : ℚ) < tolerance := by unfold tolerance; norm_num

/-! ## Coordinates -/

theorem coordEq_iff {a b : ℚ} : coordEq a b = true ↔ |a - b| < tolerance := by simp [coordEq]

theorem coordEq_refl (a : ℚ) : coordEq a a = true := by simp [coordEq_iff, tolerance_pos]

theorem coordEq_comm (a b : ℚ) : coordEq a b = coordEq b a := by
  simp only [coordEq, abs_sub_comm]

theorem coordEq_neg_zero (a : ℚ) : coordEq (-a) 0 = coordEq a 0 := by
  simp [coordEq]

/-! ## Rotation -/

/-- The rotation read off an area. -/
def senseOf (q : ℚ) : Rotation := if coordEq q 0 then .colinear else if q > 0 then .ccw else .cw

theorem detectRotation_eq (pts : List Point) : detectRotation pts = senseOf (area pts) := rfl

/-- Turning the other way round. -/
def Rotation.flip : Rotation → Rotation
  | .cw => .ccw | .ccw => .cw | .colinear => .colinear

theorem flip_flip (r : Rotation) : r.flip.flip = r := by cases r <;> rfl

theorem flip_inj {r s : Rotation} : r.flip = s.flip ↔ r = s := by cases r <;> cases s <;> simp [Rotation.flip]

theorem flip_colinear {r : Rotation} : r.flip = .colinear ↔ r = .colinear := by cases r <;> simp [Rotation.flip]

theorem senseOf_colinear {q : ℚ} : senseOf q = .colinear ↔ |q| < tolerance := by
  unfold senseOf
  by_cases h : coordEq q 0 = true
  · have h' := h; rw [coordEq_iff] at h'; simp_all
  · have h' := h; rw [coordEq_iff] at h'
    simp only [h, sub_zero] at h' ⊢
    split_ifs <;> simp_all

theorem senseOf_ccw {q : ℚ} : senseOf q = .ccw ↔ tolerance ≤ q := by
  have hp := tolerance_pos
  unfold senseOf
  by_cases h : coordEq q 0 = true
  · have h' := h
    rw [coordEq_iff, sub_zero, abs_lt] at h'
    simp only [h, if_true]
    constructor
    · intro h; cases h
    · intro h; linarith
  · have h' := h
    rw [coordEq_iff, sub_zero, abs_lt, not_and_or] at h'
    simp only [h]
    by_cases h2 : q > 0
    · simp only [h2, if_true]
      refine ⟨fun _ => ?_, fun _ => rfl⟩
      rcases h' with h' | h' <;> linarith
    · simp only [h2, if_false]
      constructor
      · intro h; cases h
      · intro h; exfalso; linarith

theorem senseOf_neg (q : ℚ) : senseOf (-q) = (senseOf q).flip := by
  have hp := tolerance_pos
  unfold senseOf
  rw [coordEq_neg_zero]
  by_cases h : coordEq q 0 = true
  · simp [h, Rotation.flip]
  · have hq : q ≠ 0 := by rintro rfl; exact h (coordEq_refl 0)
    simp only [h]
    rcases lt_or_gt_of_ne hq with h2 | h2
    · have : ¬ q > 0 := by linarith
      simp [h2, this, Rotation.flip]
    · have : ¬ -q > 0 := by linarith
      simp [h2, this, Rotation.flip]

theorem senseOf_cw {q : ℚ} : senseOf q = .cw ↔ q ≤ -tolerance := by
  have h := senseOf_neg (-q)
  rw [neg_neg] at h
  constructor
  · intro hq
    rw [hq] at h
    have : senseOf (-q) = .ccw := by
      revert h; cases senseOf (-q) <;> simp [Rotation.flip]
    rw [senseOf_ccw] at this
    linarith
  · intro hq
    have : senseOf (-q) = .ccw := senseOf_ccw.2 (by linarith)
    rw [h, this]; rfl

theorem area_triangle (a b c : Point) : area [a, b, c] = orient a b c / 2 := by
  simp [area, successors, orient]; ring

theorem rotation_triangle (a b c : Point) : detectRotation [a, b, c] = senseOf (orient a b c / 2) := by
  rw [detectRotation_eq, area_triangle]

theorem rotation_swap (a b c : Point) : detectRotation [b, a, c] = (detectRotation [a, b, c]).flip := by
  rw [rotation_triangle, rotation_triangle, ← senseOf_neg]
  congr 1; simp only [orient]; ring

/-! ### The area of a closed line -/

/-- The cross product. -/
def cross (a b : Point) : ℚ := a.x * b.y - b.x * a.y

/-- Sum of the cross products along an open line. -/
def walk : List Point → ℚ
  | [] => 0
  | [_] => 0
  | a :: b :: rest => cross a b + walk (b :: rest)

theorem area_eq_sum (pts : List Point) :
    area pts = ((pts.zip (successors pts)).map fun p => cross p.1 p.2).sum / 2 := by
  unfold area
  have : ∀ l : List (Point × Point), (l.map fun (a, b) => a.x * b.y).sum - (l.map fun (a, b) => b.x * a.y).sum
      = (l.map fun p => cross p.1 p.2).sum := by
    intro l
    induction l with
    | nil => simp
    | cons p l ih =>
      simp only [List.map_cons, List.sum_cons, cross] at ih ⊢
      linarith
  simp only [this]

theorem sum_zip_walk (a : Point) (l : List Point) (z : Point) :
    (((a :: l).zip (l ++ [z])).map fun p => cross p.1 p.2).sum = walk (a :: l ++ [z]) := by
  induction l generalizing a with
  | nil => simp [walk]
  | cons b l ih =>
    have := ih b
    simp only [List.cons_append, List.zip_cons_cons, List.map_cons, List.sum_cons, walk] at this ⊢
    rw [this]

theorem area_cons (a : Point) (l : List Point) : area (a :: l) = walk (a :: l ++ [a]) / 2 := by
  rw [area_eq_sum]
  congr 1
  exact sum_zip_walk a l a

theorem walk_append (l : List Point) (b : Point) (m : List Point) :
    walk (l ++ b :: m) = walk (l ++ [b]) + walk (b :: m) := by
  induction l with
  | nil => simp [walk]
  | cons a l ih =>
    cases l with
    | nil => simp [walk]
    | cons c l =>
      simp only [List.cons_append, walk] at ih ⊢
      rw [ih]; ring

theorem cross_swap (a b : Point) : cross b a = - cross a b := by simp only [cross]; ring

theorem walk_reverse (l : List Point) : walk l.reverse = - walk l := by
  induction l with
  | nil => simp [walk]
  | cons a l ih =>
    cases l with
    | nil => simp [walk]
    | cons b l =>
      rw [List.reverse_cons, List.reverse_cons, List.append_assoc]
      change walk (l.reverse ++ b :: [a]) = _
      rw [walk_append, ← List.reverse_cons, ih]
      simp only [walk, cross_swap a b]; ring

theorem area_rotate (a : Point) (l : List Point) : area (l ++ [a]) = area (a :: l) := by
  cases l with
  | nil => rfl
  | cons b l =>
    rw [List.cons_append, area_cons, area_cons]
    congr 1
    have h1 := walk_append (b :: l) a [b]
    have h2 : walk (a :: (b :: l) ++ [a]) = cross a b + walk (b :: l ++ [a]) := by simp [walk]
    simp only [List.cons_append, List.append_assoc, List.nil_append] at h1 h2 ⊢
    rw [h1, h2]
    simp only [walk]; ring

theorem area_rotateMany (l m : List Point) : area (l ++ m) = area (m ++ l) := by
  induction l generalizing m with
  | nil => simp
  | cons a l ih =>
    have := ih (m ++ [a])
    rw [← List.append_assoc, area_rotate] at this
    simpa using this

theorem area_reverse (l : List Point) : area l.reverse = - area l := by
  cases l with
  | nil => simp [area, successors]
  | cons a l =>
    rw [List.reverse_cons, area_rotate, area_cons, area_cons]
    have := walk_reverse (a :: l ++ [a])
    simp only [List.reverse_append, List.reverse_cons, List.reverse_nil, List.nil_append, List.cons_append] at this ⊢
    rw [this]; ring

theorem walk_translate (d : Point) (l : List Point) (a : Point) (z : Point) :
    walk ((a :: l ++ [z]).map fun p => ⟨p.x + d.x, p.y + d.y⟩)
      = walk (a :: l ++ [z]) + cross d z - cross d a := by
  induction l generalizing a with
  | nil => simp [walk, cross]; ring
  | cons b l ih =>
    have := ih b
    simp only [List.cons_append, List.map_cons, walk, cross] at this ⊢
    rw [this]; ring

theorem area_translate (d : Point) (l : List Point) :
    area (l.map fun p => ⟨p.x + d.x, p.y + d.y⟩) = area l := by
  cases l with
  | nil => rfl
  | cons a l =>
    rw [List.map_cons, area_cons, area_cons]
    have := walk_translate d l a a
    simp only [List.cons_append, List.map_cons, List.map_append, List.map_nil] at this ⊢
    rw [this]; ring

theorem walk_scale (k : ℚ) (l : List Point) :
    walk (l.map fun p => ⟨k * p.x, k * p.y⟩) = k ^ 2 * walk l := by
  induction l with
  | nil => simp [walk]
  | cons a l ih =>
    cases l with
    | nil => simp [walk]
    | cons b l =>
      simp only [List.map_cons, walk, cross] at ih ⊢
      rw [ih]; ring

theorem area_scale (k : ℚ) (l : List Point) :
    area (l.map fun p => ⟨k * p.x, k * p.y⟩) = k ^ 2 * area l := by
  cases l with
  | nil => simp [area, successors]
  | cons a l =>
    rw [List.map_cons, area_cons, area_cons]
    have := walk_scale k (a :: l ++ [a])
    simp only [List.cons_append, List.map_cons, List.map_append, List.map_nil] at this ⊢
    rw [this]; ring

theorem fan_walk (o b : Point) (l : List Point) :
    fan o (b :: l) = walk (b :: l) + cross o b - cross o ((b :: l).getLast (by simp)) := by
  induction l generalizing b with
  | nil => simp [fan, walk]
  | cons c l ih =>
    simp only [fan, walk, ih c, List.getLast_cons_cons]
    simp only [orient, cross]; ring

/-- The shoelace sum is the sum of the triangles seen from the first vertex. -/
theorem area_signedArea (l : List Point) : area l = signedArea l / 2 := by
  cases l with
  | nil => simp [area, successors, signedArea]
  | cons a l =>
    rw [area_cons]
    congr 1
    cases l with
    | nil => simp [walk, cross, signedArea, fan]
    | cons b l =>
      show walk (a :: (b :: l) ++ [a]) = fan a (b :: l)
      rw [fan_walk]
      have h : walk (a :: (b :: l) ++ [a]) = cross a b + walk (b :: l ++ [a]) := by simp [walk]
      have h2 : b :: l = (b :: l).dropLast ++ [(b :: l).getLast (by simp)] := (List.dropLast_append_getLast _).symm
      have h3 : walk (b :: l ++ [a]) = walk (b :: l) + cross ((b :: l).getLast (by simp)) a := by
        conv_lhs => rw [h2]
        rw [List.append_assoc]
        change walk ((b :: l).dropLast ++ (b :: l).getLast (by simp) :: [a]) = _
        rw [walk_append, ← h2]; simp [walk]
      rw [h, h3, cross_swap a]; ring

/-- Replacing the edge from `a` to `b` by the detour through `c` and `d`. -/
theorem area_detour (l m : List Point) (a b c d : Point) :
    area (l ++ a :: c :: d :: b :: m) - area (l ++ a :: b :: m)
      = (cross a c + cross c d + cross d b - cross a b) / 2 := by
  rw [area_rotateMany l, area_rotateMany l]
  simp only [List.cons_append, area_cons, walk]
  ring

/-! ## Segments -/

theorem segment_bounding_swap (p q : Point) : (Segment.mk q p).bounding = (Segment.mk p q).bounding := by
  unfold Segment.bounding
  simp only [Bounding.mk.injEq]
  refine ⟨?_, ?_, ?_, ?_⟩ <;> split_ifs <;> linarith

theorem touching_comm (a b c d : ℚ) : touching a b c d = touching c d a b := by
  unfold touching
  generalize (decide (a ≥ c) && decide (a ≤ d)) = p
  generalize (decide (b ≥ c) && decide (b ≤ d)) = q
  generalize (decide (c ≥ a) && decide (c ≤ b)) = r
  generalize (decide (d ≥ a) && decide (d ≤ b)) = s
  revert p q r s; decide

/-- The decision of `Segment::relation_to` from its four rotations and the test on the bounding boxes. -/
def relationOf (r1 r2 r3 r4 : Rotation) (t : Bool) : SegmentRel :=
  if r1 = .colinear ∧ r2 = .colinear ∧ r3 = .colinear ∧ r4 = .colinear then
    if t then .overlapping else .colinear
  else if r1 ≠ r2 ∧ r3 ≠ r4 then .crossing
  else .apart

theorem relationTo_eq (a b : Segment) : a.relationTo b = relationOf
    (detectRotation [a.p0, a.p1, b.p0]) (detectRotation [a.p0, a.p1, b.p1])
    (detectRotation [b.p0, b.p1, a.p0]) (detectRotation [b.p0, b.p1, a.p1])
    (touching b.bounding.xmin b.bounding.xmax a.bounding.xmin a.bounding.xmax &&
      touching b.bounding.ymin b.bounding.ymax a.bounding.ymin a.bounding.ymax) := rfl

theorem relationTo_comm (a b : Segment) : a.relationTo b = b.relationTo a := by
  rw [relationTo_eq, relationTo_eq, touching_comm b.bounding.xmin, touching_comm b.bounding.ymin]
  generalize detectRotation [a.p0, a.p1, b.p0] = r1
  generalize detectRotation [a.p0, a.p1, b.p1] = r2
  generalize detectRotation [b.p0, b.p1, a.p0] = r3
  generalize detectRotation [b.p0, b.p1, a.p1] = r4
  generalize (_ && _) = t
  cases r1 <;> cases r2 <;> cases r3 <;> cases r4 <;> rfl

theorem relationTo_swap (a : Segment) (p q : Point) :
    a.relationTo ⟨q, p⟩ = a.relationTo ⟨p, q⟩ := by
  rw [relationTo_eq, relationTo_eq, segment_bounding_swap p q]
  simp only [rotation_swap p q]
  generalize detectRotation [a.p0, a.p1, p] = r1
  generalize detectRotation [a.p0, a.p1, q] = r2
  generalize detectRotation [p, q, a.p0] = r3
  generalize detectRotation [p, q, a.p1] = r4
  generalize (_ && _) = t
  cases r1 <;> cases r2 <;> cases r3 <;> cases r4 <;> rfl

theorem segment_bounding_min_max (s : Segment) :
    s.bounding = ⟨min s.p0.x s.p1.x, max s.p0.x s.p1.x, min s.p0.y s.p1.y, max s.p0.y s.p1.y⟩ := by
  unfold Segment.bounding
  simp only [Bounding.mk.injEq]
  refine ⟨?_, ?_, ?_, ?_⟩ <;> split_ifs with h <;>
    first
      | (rw [min_eq_left h.le]) | (rw [min_eq_right (not_lt.1 h)])
      | (rw [max_eq_left (le_of_lt h)]) | (rw [max_eq_right (not_lt.1 h)])

/-! ### Axis and direction -/

theorem axis_h {s : Segment} (h : s.axis = .h) : tolerance ≤ |s.p1.x - s.p0.x| ∧ |s.p1.y - s.p0.y| < tolerance := by
  unfold Segment.axis vectorAxis at h
  split_ifs at h with h1 h2 h3
  rw [coordEq_iff] at h2 h3
  simp only [Point.sub, sub_zero, not_lt] at h2 h3
  exact ⟨h2, h3⟩

theorem axis_v {s : Segment} (h : s.axis = .v) : tolerance ≤ |s.p1.y - s.p0.y| ∧ |s.p1.x - s.p0.x| < tolerance := by
  unfold Segment.axis vectorAxis at h
  split_ifs at h with h1 h2 h3
  rw [Bool.and_eq_true, coordEq_iff, coordEq_iff, not_and] at h1
  rw [coordEq_iff] at h2
  simp only [Point.sub, sub_zero, not_lt] at h1 h2
  exact ⟨h1 h2, h2⟩

theorem edgeDirection_h {s : Segment} (h : s.axis = .h) :
    (edgeDirection s = some .xmax ∧ 0 < s.p1.x - s.p0.x) ∨ (edgeDirection s = some .xmin ∧ s.p1.x - s.p0.x < 0) := by
  have hp := tolerance_pos
  have h1 := (axis_h h).1
  unfold edgeDirection
  rw [h]
  have hv : (s.p1.sub s.p0).x = s.p1.x - s.p0.x := rfl
  rcases lt_trichotomy (s.p1.x - s.p0.x) 0 with h2 | h2 | h2
  · right
    refine ⟨(if_neg ?_).trans (if_pos ?_), h2⟩ <;> rw [hv] <;> linarith
  · rw [h2, abs_zero] at h1; linarith
  · left; exact ⟨if_pos h2, h2⟩

theorem edgeDirection_v {s : Segment} (h : s.axis = .v) :
    (edgeDirection s = some .ymax ∧ 0 < s.p1.y - s.p0.y) ∨ (edgeDirection s = some .ymin ∧ s.p1.y - s.p0.y < 0) := by
  have hp := tolerance_pos
  have h1 := (axis_v h).1
  unfold edgeDirection
  rw [h]
  have hv : (s.p1.sub s.p0).y = s.p1.y - s.p0.y := rfl
  rcases lt_trichotomy (s.p1.y - s.p0.y) 0 with h2 | h2 | h2
  · right
    refine ⟨(if_neg ?_).trans (if_pos ?_), h2⟩ <;> rw [hv] <;> linarith
  · rw [h2, abs_zero] at h1; linarith
  · left; exact ⟨if_pos h2, h2⟩

theorem axis_of_h {s : Segment} (h : tolerance ≤ |s.p1.x - s.p0.x|) (h0 : s.p1.y = s.p0.y) : s.axis = .h := by
  have hp := tolerance_pos
  unfold Segment.axis vectorAxis
  have h1 : coordEq (s.p1.sub s.p0).x 0 = false := by
    rw [← Bool.not_eq_true, coordEq_iff]; simpa [Point.sub] using h
  have h2 : coordEq (s.p1.sub s.p0).y 0 = true := by
    rw [coordEq_iff]; simpa [Point.sub, h0] using hp
  simp [h1, h2]

theorem axis_of_v {s : Segment} (h : tolerance ≤ |s.p1.y - s.p0.y|) (h0 : s.p1.x = s.p0.x) : s.axis = .v := by
  have hp := tolerance_pos
  unfold Segment.axis vectorAxis
  have h1 : coordEq (s.p1.sub s.p0).y 0 = false := by
    rw [← Bool.not_eq_true, coordEq_iff]; simpa [Point.sub] using h
  have h2 : coordEq (s.p1.sub s.p0).x 0 = true := by
    rw [coordEq_iff]; simpa [Point.sub, h0] using hp
  simp [h1, h2]

theorem area_push (l m : List Point) (a b u : Point) (ε : ℚ) :
    area (l ++ a :: a.advance ε u :: b.advance ε u :: b :: m) =
      area (l ++ a :: b :: m) + ε * (u.x * (b.y - a.y) - u.y * (b.x - a.x)) := by
  have := area_detour l m a b (a.advance ε u) (b.advance ε u)
  simp only [Point.advance, cross] at this ⊢
  linear_combination this

/-! ## Polygons -/

theorem detectEdges_p1 (prev : Point) (l : List Point) :
    (detectEdges.loop prev l).map (·.p1) = l := by
  induction l generalizing prev with
  | nil => rfl
  | cons p l ih => simp [detectEdges.loop, ih]

theorem detectEdges_p0 (prev : Point) (l : List Point) :
    (detectEdges.loop prev l).map (·.p0) = (prev :: l).dropLast := by
  induction l generalizing prev with
  | nil => rfl
  | cons p l ih => simp [detectEdges.loop, ih]

/-- One step of the loop of `detect_bounding`. -/
theorem detectBounding_step (b : Bounding) (p : Point) (rest : List Point) :
    detectBounding.loop b (p :: rest) =
      if b.xmin ≤ b.xmax ∧ b.ymin ≤ b.ymax then
        detectBounding.loop ⟨min b.xmin p.x, max b.xmax p.x, min b.ymin p.y, max b.ymax p.y⟩ rest
      else detectBounding.loop b (p :: rest) := by
  split_ifs with hb
  · conv_lhs => rw [detectBounding.loop]
    congr 1
    obtain ⟨x0, x1, y0, y1⟩ := b
    simp only at hb ⊢
    by_cases h1 : p.x < x0 <;> by_cases h2 : p.x > x1 <;> by_cases h3 : p.y < y0 <;> by_cases h4 : p.y > y1 <;>
      simp only [h1, h2, h3, h4, if_true, if_false, Bounding.mk.injEq] <;>
      first
        | (exfalso; linarith [hb.1, hb.2])
        | (refine ⟨?_, ?_, ?_, ?_⟩ <;>
            first
              | (rw [min_eq_left (by linarith)]) | (rw [min_eq_right (by linarith)])
              | (rw [max_eq_left (by linarith)]) | (rw [max_eq_right (by linarith)]))
  · rfl

theorem detectBounding_spec (b : Bounding) (hb : b.xmin ≤ b.xmax ∧ b.ymin ≤ b.ymax) (l : List Point) :
    let r := detectBounding.loop b l
    (r.xmin ≤ b.xmin ∧ b.xmax ≤ r.xmax ∧ r.ymin ≤ b.ymin ∧ b.ymax ≤ r.ymax) ∧
    (∀ p ∈ l, r.xmin ≤ p.x ∧ p.x ≤ r.xmax ∧ r.ymin ≤ p.y ∧ p.y ≤ r.ymax) ∧
    (r.xmin = b.xmin ∨ ∃ p ∈ l, p.x = r.xmin) ∧ (r.xmax = b.xmax ∨ ∃ p ∈ l, p.x = r.xmax) ∧
    (r.ymin = b.ymin ∨ ∃ p ∈ l, p.y = r.ymin) ∧ (r.ymax = b.ymax ∨ ∃ p ∈ l, p.y = r.ymax) := by
  induction l generalizing b with
  | nil => simp [detectBounding.loop]
  | cons p l ih =>
    rw [detectBounding_step, if_pos hb]
    have hb' : min b.xmin p.x ≤ max b.xmax p.x ∧ min b.ymin p.y ≤ max b.ymax p.y :=
      ⟨(min_le_left _ _).trans (hb.1.trans (le_max_left _ _)),
       (min_le_left _ _).trans (hb.2.trans (le_max_left _ _))⟩
    have := ih ⟨min b.xmin p.x, max b.xmax p.x, min b.ymin p.y, max b.ymax p.y⟩ hb'
    revert this
    generalize detectBounding.loop ⟨min b.xmin p.x, max b.xmax p.x, min b.ymin p.y, max b.ymax p.y⟩ l = r
    rintro ⟨⟨h1, h2, h3, h4⟩, hm, ha, hb2, hc, hd⟩
    simp only [le_min_iff, max_le_iff] at h1 h2 h3 h4
    refine ⟨⟨h1.1, h2.1, h3.1, h4.1⟩, ?_, ?_, ?_, ?_, ?_⟩
    · intro q hq
      rcases List.mem_cons.1 hq with rfl | hq
      · exact ⟨h1.2, h2.2, h3.2, h4.2⟩
      · exact hm q hq
    · rcases ha with ha | ⟨q, hq, ha⟩
      · rcases min_choice b.xmin p.x with hc | hc
        · left; rw [ha]; exact hc
        · right; exact ⟨p, by simp, by rw [ha]; exact hc.symm⟩
      · exact Or.inr ⟨q, by simp [hq], ha⟩
    · rcases hb2 with ha | ⟨q, hq, ha⟩
      · rcases max_choice b.xmax p.x with hc | hc
        · left; rw [ha]; exact hc
        · right; exact ⟨p, by simp, by rw [ha]; exact hc.symm⟩
      · exact Or.inr ⟨q, by simp [hq], ha⟩
    · rcases hc with ha | ⟨q, hq, ha⟩
      · rcases min_choice b.ymin p.y with hc | hc
        · left; rw [ha]; exact hc
        · right; exact ⟨p, by simp, by rw [ha]; exact hc.symm⟩
      · exact Or.inr ⟨q, by simp [hq], ha⟩
    · rcases hd with ha | ⟨q, hq, ha⟩
      · rcases max_choice b.ymax p.y with hc | hc
        · left; rw [ha]; exact hc
        · right; exact ⟨p, by simp, by rw [ha]; exact hc.symm⟩
      · exact Or.inr ⟨q, by simp [hq], ha⟩

end Verif.Geom
