import Verif.Spec.Moved
import Mathlib.Tactic.Ring
import Mathlib.Tactic.Linarith
import Mathlib.Algebra.BigOperators.Group.List.Basic
import Mathlib.Algebra.Order.Group.MinMax

/-! # Planar geometry, when everything in the plane is moved -/

namespace Verif.Moved
open Verif.Geom
open Verif.Mesh (tolerance)

variable {v : Point}

theorem coordEq_add (a b c : ℚ) : coordEq (a + c) (b + c) = coordEq a b := by simp [coordEq]

theorem sub_point (a b : Point) : (point v a).sub (point v b) = a.sub b := by
  simp [Point.sub, point]

theorem eq_point (a b : Point) : (point v a).eq (point v b) = a.eq b := by
  simp [Point.eq, point, coordEq_add]

theorem axis_segment (s : Segment) : (segment v s).axis = s.axis := by
  simp [Segment.axis, segment, sub_point]

theorem point_injective : Function.Injective (point v) := by
  intro a b h
  cases a
  cases b
  simpa [point] using h

theorem segment_injective : Function.Injective (segment v) := by
  intro a b h
  cases a
  cases b
  simp only [segment, Segment.mk.injEq] at h ⊢
  exact ⟨point_injective h.1, point_injective h.2⟩

theorem point_neg (p : Point) : point ⟨-v.x, -v.y⟩ (point v p) = p := by
  cases p
  simp [point]

theorem segment_neg (s : Segment) : segment ⟨-v.x, -v.y⟩ (segment v s) = s := by
  cases s
  simp [segment, point_neg]

theorem points_neg (l : List Point) : (l.map (point v)).map (point ⟨-v.x, -v.y⟩) = l := by
  simp [Function.comp_def, point_neg]

/-! ## Areas -/

theorem sum_zip_left {α : Type} (f : α → ℚ) : ∀ (l m : List α), l.length = m.length →
    ((l.zip m).map fun p => f p.1).sum = (l.map f).sum
  | [], [], _ => rfl
  | a :: l, b :: m, h => by
    simp only [List.zip_cons_cons, List.map_cons, List.sum_cons]
    rw [sum_zip_left f l m (by simpa using h)]

theorem sum_zip_right {α : Type} (f : α → ℚ) : ∀ (l m : List α), l.length = m.length →
    ((l.zip m).map fun p => f p.2).sum = (m.map f).sum
  | [], [], _ => rfl
  | a :: l, b :: m, h => by
    simp only [List.zip_cons_cons, List.map_cons, List.sum_cons]
    rw [sum_zip_right f l m (by simpa using h)]

theorem successors_length {α : Type} (l : List α) : l.length = (successors l).length := by
  cases l <;> simp [successors]

theorem sum_successors {α : Type} (f : α → ℚ) (l : List α) : ((successors l).map f).sum = (l.map f).sum := by
  cases l with
  | nil => rfl
  | cons a l => simp [successors, add_comm]

theorem successors_map {α β : Type} (f : α → β) (l : List α) : successors (l.map f) = (successors l).map f := by
  cases l <;> simp [successors]

theorem sum_map_add4 {α : Type} (f g h k : α → ℚ) : ∀ l : List α,
    (l.map fun a => f a + g a + h a + k a).sum = (l.map f).sum + (l.map g).sum + (l.map h).sum + (l.map k).sum
  | [] => by simp
  | a :: l => by
    simp only [List.map_cons, List.sum_cons, sum_map_add4 f g h k l]
    ring

theorem sum_map_mulr {α : Type} (f : α → ℚ) (c : ℚ) : ∀ l : List α, (l.map fun a => f a * c).sum = (l.map f).sum * c
  | [] => by simp
  | a :: l => by
    simp only [List.map_cons, List.sum_cons, sum_map_mulr f c l]
    ring

theorem area_points (l : List Point) : area (l.map (point v)) = area l := by
  unfold area
  rw [successors_map, List.zip_map, List.map_map, List.map_map]
  have hl := successors_length l
  have e1 : ((fun p : Point × Point => p.1.x * p.2.y) ∘ Prod.map (point v) (point v)) =
      fun p => p.1.x * p.2.y + p.1.x * v.y + p.2.y * v.x + v.x * v.y := by
    funext p
    simp only [Function.comp_apply, Prod.map, point]
    ring
  have e2 : ((fun p : Point × Point => p.2.x * p.1.y) ∘ Prod.map (point v) (point v)) =
      fun p => p.2.x * p.1.y + p.2.x * v.y + p.1.y * v.x + v.x * v.y := by
    funext p
    simp only [Function.comp_apply, Prod.map, point]
    ring
  have e3 := sum_map_add4 (fun p : Point × Point => p.1.x * p.2.y) (fun p => p.1.x * v.y) (fun p => p.2.y * v.x)
    (fun _ => v.x * v.y) (l.zip (successors l))
  have e4 := sum_map_add4 (fun p : Point × Point => p.2.x * p.1.y) (fun p => p.2.x * v.y) (fun p => p.1.y * v.x)
    (fun _ => v.x * v.y) (l.zip (successors l))
  have f1 := sum_zip_left (fun p : Point => p.x * v.y) l _ hl
  have f2 := sum_zip_right (fun p : Point => p.y * v.x) l _ hl
  have f3 := sum_zip_right (fun p : Point => p.x * v.y) l _ hl
  have f4 := sum_zip_left (fun p : Point => p.y * v.x) l _ hl
  rw [sum_successors] at f2 f3
  simp only [e1, e2, e3, e4, f1, f2, f3, f4]
  ring

theorem rotation_points (l : List Point) : detectRotation (l.map (point v)) = detectRotation l := by
  unfold detectRotation
  rw [area_points]

theorem rotation3 (a b d : Point) : detectRotation [point v a, point v b, point v d] = detectRotation [a, b, d] :=
  rotation_points [a, b, d]

/-! ## Segments -/

/-- A box moved. -/
def bounding (v : Point) (b : Bounding) : Bounding := ⟨b.xmin + v.x, b.xmax + v.x, b.ymin + v.y, b.ymax + v.y⟩

theorem bounding_segment (s : Segment) : (segment v s).bounding = bounding v s.bounding := by
  simp only [Segment.bounding, segment, point, bounding, Bounding.mk.injEq, add_lt_add_iff_right, gt_iff_lt]
  refine ⟨?_, ?_, ?_, ?_⟩ <;> split <;> rfl

theorem overlap_bounding (a b : Bounding) : (bounding v a).overlap (bounding v b) = a.overlap b := by
  simp only [Bounding.overlap, bounding, min_add_add_right, max_add_add_right, ge_iff_le, add_le_add_iff_right]

theorem overlapStrict_bounding (a b : Bounding) : (bounding v a).overlapStrict (bounding v b) = a.overlapStrict b := by
  simp only [Bounding.overlapStrict, bounding, min_add_add_right, max_add_add_right, gt_iff_lt, add_lt_add_iff_right]

theorem overlap1D_add (a b d e c : ℚ) : overlap1D (a + c) (b + c) (d + c) (e + c) = overlap1D a b d e := by
  simp only [overlap1D, min_add_add_right, max_add_add_right, ge_iff_le, add_le_add_iff_right]

theorem contains1D_add (a b d c : ℚ) : contains1D (a + c) (b + c) (d + c) = contains1D a b d := by
  simp [contains1D]

theorem touching_add (a b d e c : ℚ) : touching (a + c) (b + c) (d + c) (e + c) = touching a b d e := by
  simp [touching]

theorem relationTo_segment (a b : Segment) : (segment v a).relationTo (segment v b) = a.relationTo b := by
  have e : ∀ s : Segment, (segment v s).p0 = point v s.p0 ∧ (segment v s).p1 = point v s.p1 := fun _ => ⟨rfl, rfl⟩
  unfold Segment.relationTo
  simp only [bounding_segment, (e _).1, (e _).2, rotation3]
  simp only [bounding, touching_add]

theorem hasPoint_segment (s : Segment) (p : Point) : (segment v s).hasPoint (point v p) = s.hasPoint p := by
  have e : (segment v s).p0 = point v s.p0 ∧ (segment v s).p1 = point v s.p1 := ⟨rfl, rfl⟩
  unfold Segment.hasPoint
  rw [e.1, e.2, rotation3]
  simp only [point, min_add_add_right, max_add_add_right, ge_iff_le, add_le_add_iff_right]

theorem vector_segment (s : Segment) : (segment v s).p1.sub (segment v s).p0 = s.p1.sub s.p0 := sub_point _ _

theorem areParallel_segment (a b : Segment) : areParallel (segment v a) (segment v b) = areParallel a b := by
  unfold areParallel
  simp only [axis_segment, vector_segment]

theorem intersection_segment (a b : Segment) :
    intersection (segment v a) (segment v b) = (intersection a b).map (point v) := by
  unfold intersection
  simp only [axis_segment, vector_segment]
  have e : ∀ s : Segment, (segment v s).p0 = point v s.p0 := fun _ => rfl
  have hm : ∀ A B : Point, A.x * (point v a.p0).y - A.x * (point v b.p0).y - A.y * (point v a.p0).x + A.y * (point v b.p0).x =
      A.x * a.p0.y - A.x * b.p0.y - A.y * a.p0.x + A.y * b.p0.x := fun A B => by
    simp only [point]
    ring
  simp only [e, hm _ ⟨0, 0⟩]
  split
  · rfl
  split
  · rfl
  split
  · split
    · split
      · simp only [Option.map_some, Option.some.injEq, Point.advance, point, Point.mk.injEq]
        constructor <;> ring
      · rfl
    · rfl
  · rfl

theorem pick_add (a b amin amax bmin bmax ra rb c : ℚ) :
    pick (a + c) (b + c) (amin + c) (amax + c) (bmin + c) (bmax + c) (ra + c) (rb + c) =
      (pick a b amin amax bmin bmax ra rb).map (· + c) := by
  unfold pick
  simp only [ge_iff_le, add_le_add_iff_right]
  split_ifs <;> rfl

theorem pick_max {amin amax bmin bmax ra rb r sa sb : ℚ} (ha : amin ≤ amax) (hb : bmin ≤ bmax)
    (h : pick amin bmin amin amax bmin bmax ra rb = some r) : ∃ s, pick amax bmax amin amax bmin bmax sa sb = some s := by
  have h1 : amin ≤ bmax ∧ bmin ≤ amax := by
    unfold pick at h
    split_ifs at h with h1 h2
    · exact ⟨h1.2, h1.1.trans ha⟩
    · exact ⟨h2.1.trans hb, h2.2⟩
  unfold pick
  split_ifs with h2 h3
  · exact ⟨_, rfl⟩
  · exact ⟨_, rfl⟩
  · exact absurd ⟨h1.1, not_lt.mp fun h4 => h2 ⟨h1.2, h4.le⟩⟩ h3

theorem bounding_le (s : Segment) : s.bounding.xmin ≤ s.bounding.xmax ∧ s.bounding.ymin ≤ s.bounding.ymax := by
  unfold Segment.bounding
  constructor <;> (simp only; split_ifs <;> linarith)

/-- The four choices of `overlap` and `merge`, moved. -/
theorem four_picks {axl axh bxl bxh ayl ayh byl byh : ℚ} (hax : axl ≤ axh) (hbx : bxl ≤ bxh) (hay : ayl ≤ ayh) (hby : byl ≤ byh)
    (p q p' q' r s r' s' : ℚ) :
    ((pick (axl + v.x) (bxl + v.x) (axl + v.x) (axh + v.x) (bxl + v.x) (bxh + v.x) (p + v.x) (q + v.x)).bind fun xmin =>
      (pick (ayl + v.y) (byl + v.y) (ayl + v.y) (ayh + v.y) (byl + v.y) (byh + v.y) (r + v.y) (s + v.y)).bind fun ymin =>
        some (⟨⟨xmin, ymin⟩, ⟨(pick (axh + v.x) (bxh + v.x) (axl + v.x) (axh + v.x) (bxl + v.x) (bxh + v.x) (p' + v.x)
          (q' + v.x)).getD 0, (pick (ayh + v.y) (byh + v.y) (ayl + v.y) (ayh + v.y) (byl + v.y) (byh + v.y) (r' + v.y)
          (s' + v.y)).getD 0⟩⟩ : Segment)) =
    ((pick axl bxl axl axh bxl bxh p q).bind fun xmin => (pick ayl byl ayl ayh byl byh r s).bind fun ymin =>
        some (⟨⟨xmin, ymin⟩, ⟨(pick axh bxh axl axh bxl bxh p' q').getD 0, (pick ayh byh ayl ayh byl byh r' s').getD 0⟩⟩ :
          Segment)).map (segment v) := by
  simp only [pick_add]
  cases hx : pick axl bxl axl axh bxl bxh p q with
  | none => rfl
  | some x =>
    cases hy : pick ayl byl ayl ayh byl byh r s with
    | none => rfl
    | some y =>
      obtain ⟨x', hx'⟩ := pick_max (sa := p') (sb := q') hax hbx hx
      obtain ⟨y', hy'⟩ := pick_max (sa := r') (sb := s') hay hby hy
      simp [hx', hy', segment, point]

theorem overlap_segment (a b : Segment) : overlap (segment v a) (segment v b) = (overlap a b).map (segment v) := by
  unfold overlap
  rw [areParallel_segment]
  split
  · simp only [bounding_segment]
    exact four_picks (bounding_le a).1 (bounding_le b).1 (bounding_le a).2 (bounding_le b).2 _ _ _ _ _ _ _ _
  · rfl

theorem merge_segment (a b : Segment) : merge (segment v a) (segment v b) = (merge a b).map (segment v) := by
  unfold merge
  rw [areParallel_segment]
  split
  · simp only [bounding_segment]
    exact four_picks (bounding_le a).1 (bounding_le b).1 (bounding_le a).2 (bounding_le b).2 _ _ _ _ _ _ _ _
  · rfl

theorem eq_segment (a b : Segment) : (segment v a).eq (segment v b) = a.eq b := by
  simp only [Segment.eq, segment, eq_point]

/-! ## Polygons -/

theorem edgeDirection_segment (s : Segment) : edgeDirection (segment v s) = edgeDirection s := by
  unfold edgeDirection
  simp only [axis_segment, vector_segment]

theorem edgesLoop_points : ∀ (l : List Point) (p : Point),
    detectEdges.loop (point v p) (l.map (point v)) = (detectEdges.loop p l).map (segment v)
  | [], _ => rfl
  | q :: l, p => by
    simp only [List.map_cons, detectEdges.loop, edgesLoop_points l q]
    rfl

theorem detectEdges_points (l : List Point) : detectEdges (l.map (point v)) = (detectEdges l).map fun es => es.map (segment v) := by
  unfold detectEdges
  rw [List.getLast?_map]
  cases l.getLast? with
  | none => rfl
  | some p => simp [edgesLoop_points]

/-- An edge moved. -/
def edge (v : Point) (e : Edge) : Edge := { e with seg := segment v e.seg }

theorem polygonEdges_points (l : List Point) : polygonEdges (l.map (point v)) = (polygonEdges l).map fun es => es.map (edge v) := by
  unfold polygonEdges
  rw [detectEdges_points, rotation_points]
  cases detectEdges l with
  | none => rfl
  | some es => simp [edge, edgeDirection_segment, Function.comp_def]

theorem boundingLoop_points : ∀ (l : List Point) (b : Bounding),
    detectBounding.loop (bounding v b) (l.map (point v)) = bounding v (detectBounding.loop b l)
  | [], _ => rfl
  | p :: l, b => by
    have s1 : ∀ b : Bounding, (if (point v p).x < (bounding v b).xmin then { bounding v b with xmin := (point v p).x }
        else bounding v b) = bounding v (if p.x < b.xmin then { b with xmin := p.x } else b) := fun b => by
      simp only [bounding, point, add_lt_add_iff_right]
      split <;> rfl
    have s2 : ∀ b : Bounding, (if (point v p).x > (bounding v b).xmax then { bounding v b with xmax := (point v p).x }
        else bounding v b) = bounding v (if p.x > b.xmax then { b with xmax := p.x } else b) := fun b => by
      simp only [bounding, point, add_lt_add_iff_right, gt_iff_lt]
      split <;> rfl
    have s3 : ∀ b : Bounding, (if (point v p).y < (bounding v b).ymin then { bounding v b with ymin := (point v p).y }
        else bounding v b) = bounding v (if p.y < b.ymin then { b with ymin := p.y } else b) := fun b => by
      simp only [bounding, point, add_lt_add_iff_right]
      split <;> rfl
    have s4 : ∀ b : Bounding, (if (point v p).y > (bounding v b).ymax then { bounding v b with ymax := (point v p).y }
        else bounding v b) = bounding v (if p.y > b.ymax then { b with ymax := p.y } else b) := fun b => by
      simp only [bounding, point, add_lt_add_iff_right, gt_iff_lt]
      split <;> rfl
    rw [List.map_cons, detectBounding.loop, detectBounding.loop]
    rw [s1, s2, s3, s4]
    exact boundingLoop_points l _

theorem detectBounding_points (l : List Point) : detectBounding (l.map (point v)) = (detectBounding l).map (bounding v) := by
  unfold detectBounding
  rw [List.head?_map]
  cases l.head? with
  | none => rfl
  | some p =>
    simp only [Option.map_some, Option.some.injEq]
    exact boundingLoop_points l ⟨p.x, p.x, p.y, p.y⟩

theorem rangeZ_add (a b c : ℚ) : rangeZ (a + c) (b + c) = ((rangeZ a b).1 + c, (rangeZ a b).2 + c) := by
  simp only [rangeZ, add_lt_add_iff_right, gt_iff_lt, Prod.mk.injEq]
  constructor <;> split <;> rfl

theorem boxPoints_point (p q : Point) : boxPoints (point v p) (point v q) = (boxPoints p q).map (point v) := rfl

theorem rayEnd_point (b : Bounding) (p : Point) : ∀ n : Nat, rayEnd (bounding v b) (point v p) n = point v (rayEnd b p n)
  | 0 => by simp only [rayEnd, bounding, point, Point.mk.injEq, and_true]; ring
  | 1 => by simp only [rayEnd, bounding, point, Point.mk.injEq, and_true]; ring
  | 2 => by simp only [rayEnd, bounding, point, Point.mk.injEq, true_and]; ring
  | 3 => by simp only [rayEnd, bounding, point, Point.mk.injEq, true_and]; ring
  | n + 4 => by
    simp only [rayEnd, bounding, point, Point.mk.injEq]
    constructor <;> ring

theorem scan_points (p : Point) (ray : Segment) : ∀ l : List Point,
    scanVertices (point v p) (segment v ray) (l.map (point v)) = scanVertices p ray l
  | [] => rfl
  | q :: l => by
    simp only [List.map_cons, scanVertices, eq_point, hasPoint_segment, scan_points p ray l]

theorem count_segments (p : Point) (ray : Segment) : ∀ l : List Segment,
    countCrossings (point v p) (segment v ray) (l.map (segment v)) = countCrossings p ray l
  | [] => rfl
  | e :: l => by
    simp only [List.map_cons, countCrossings, hasPoint_segment, relationTo_segment, count_segments p ray l]

theorem relationLoop_some (points : List Point) (edges : List Segment) (b : Bounding) (p : Point) (n : Nat) (r : PolygonRel)
    (h : relationToPoint.loop points edges b p n = some r) :
    relationToPoint.loop (points.map (point v)) (edges.map (segment v)) (bounding v b) (point v p) n = some r := by
  revert h
  apply relationToPoint.loop.partial_correctness (points := points) (edges := edges) (b := b) (point := p)
    (motive := fun n r => relationToPoint.loop (points.map (point v)) (edges.map (segment v)) (bounding v b) (point v p) n = some r)
  intro f ih n r h
  rw [relationToPoint.loop]
  have e : (⟨point v p, rayEnd (bounding v b) (point v p) n⟩ : Segment) = segment v ⟨p, rayEnd b p n⟩ := by
    rw [rayEnd_point]
    rfl
  simp only [e, scan_points, count_segments]
  dsimp only at h
  revert h
  cases scanVertices p ⟨p, rayEnd b p n⟩ points with
  | on => exact id
  | retry => exact ih _ _
  | clear => exact id

theorem bounding_neg (b : Bounding) : bounding ⟨-v.x, -v.y⟩ (bounding v b) = b := by
  cases b
  simp [bounding]

theorem relationLoop_points (points : List Point) (edges : List Segment) (b : Bounding) (p : Point) (n : Nat) :
    relationToPoint.loop (points.map (point v)) (edges.map (segment v)) (bounding v b) (point v p) n =
      relationToPoint.loop points edges b p n := by
  cases h : relationToPoint.loop points edges b p n with
  | some r => exact relationLoop_some points edges b p n r h
  | none =>
    cases h' : relationToPoint.loop (points.map (point v)) (edges.map (segment v)) (bounding v b) (point v p) n with
    | none => rfl
    | some r =>
      have := relationLoop_some (v := ⟨-v.x, -v.y⟩) _ _ _ _ _ _ h'
      have e : (edges.map (segment v)).map (segment ⟨-v.x, -v.y⟩) = edges := by simp [Function.comp_def, segment_neg]
      rw [points_neg, e, bounding_neg, point_neg, h] at this
      cases this

theorem relationToPoint_points (points : List Point) (p : Point) :
    relationToPoint (points.map (point v)) (point v p) = relationToPoint points p := by
  unfold relationToPoint
  rw [detectEdges_points, detectBounding_points]
  cases detectEdges points with
  | none => rfl
  | some es =>
    cases detectBounding points with
    | none => rfl
    | some b =>
      simp only [Option.map_some, Option.bind_eq_bind, Option.bind_some]
      exact relationLoop_points points es b p 0

theorem coord_point (p : Point) : ∀ w : ViewAxis, (point v p).coord w = p.coord w + v.coord w
  | .h => rfl
  | .v => rfl

theorem cast_bounding (b : Bounding) : ∀ w : ViewAxis, (bounding v b).cast w = ((b.cast w).1 + v.coord w, (b.cast w).2 + v.coord w)
  | .h => rfl
  | .v => rfl

theorem mid_add (a b c : ℚ) : mid (a + c) (b + c) = mid a b + c := by
  unfold mid
  ring

end Verif.Moved
