import Verif.Lemmas.Track

/-!
# Detection against a box

The edge goes from `f s0` to `f s1`, with `s0 < s1` and `f t = pt o (σ * t) y`: `σ` is 1 or -1, the sense in which the
edge goes. Along the edge, the box goes from `w0` to `w1`.
-/

namespace Verif.Board
open Verif.Geom Verif.Geom.Spec
open Verif.Mesh (tolerance)
open Spec

/-- The coordinate along the edge. -/
def al (o : Bool) (p : Point) : ℚ := if o then p.x else p.y
/-- The coordinate across the edge. -/
def ac (o : Bool) (p : Point) : ℚ := if o then p.y else p.x

theorem al_pt (o : Bool) (a c : ℚ) : al o (pt o a c) = a := by cases o <;> rfl
theorem ac_pt (o : Bool) (a c : ℚ) : ac o (pt o a c) = c := by cases o <;> rfl
theorem pt_al (o : Bool) (p : Point) : pt o (al o p) (ac o p) = p := by cases o <;> rfl

theorem within_pt (o : Bool) {p1 p3 q : Point} : WithinBox p1 p3 q ↔
    (min (al o p1) (al o p3) ≤ al o q ∧ al o q ≤ max (al o p1) (al o p3)) ∧
    (min (ac o p1) (ac o p3) ≤ ac o q ∧ ac o q ≤ max (ac o p1) (ac o p3)) := by
  unfold WithinBox
  cases o <;> simp only [al, ac] <;> simp <;> tauto

theorem inside_pt (o : Bool) {p1 p3 q : Point} : InsideBox p1 p3 q ↔
    (min (al o p1) (al o p3) < al o q ∧ al o q < max (al o p1) (al o p3)) ∧
    (min (ac o p1) (ac o p3) < ac o q ∧ ac o q < max (ac o p1) (ac o p3)) := by
  unfold InsideBox
  cases o <;> simp only [al, ac] <;> simp <;> tauto

theorem on_pt (o : Bool) {p1 p3 q : Point} : OnBox p1 p3 q ↔ WithinBox p1 p3 q ∧
    (al o q = al o p1 ∨ al o q = al o p3 ∨ ac o q = ac o p1 ∨ ac o q = ac o p3) := by
  unfold OnBox
  cases o <;> simp only [al, ac] <;> simp; tauto

/-- The sides of a box. -/
theorem sides (o : Bool) {p1 p3 : Point} {e : Segment} (he : e ∈ boxEdges p1 p3) :
    (∃ X k0 k1, (X = al o p1 ∨ X = al o p3) ∧ ((k0 = ac o p1 ∧ k1 = ac o p3) ∨ (k0 = ac o p3 ∧ k1 = ac o p1)) ∧
      e = ⟨pt o X k0, pt o X k1⟩) ∨
    ∃ C X0 X1, (C = ac o p1 ∨ C = ac o p3) ∧ ((X0 = al o p1 ∧ X1 = al o p3) ∨ (X0 = al o p3 ∧ X1 = al o p1)) ∧
      e = ⟨pt o X0 C, pt o X1 C⟩ := by
  simp only [boxEdges, List.mem_cons, List.not_mem_nil, or_false] at he
  cases o <;> simp only [al, ac, pt] <;> rcases he with rfl | rfl | rfl | rfl
  · exact Or.inl ⟨p1.y, p3.x, p1.x, Or.inl rfl, Or.inr ⟨rfl, rfl⟩, rfl⟩
  · exact Or.inr ⟨p1.x, p1.y, p3.y, Or.inl rfl, Or.inl ⟨rfl, rfl⟩, rfl⟩
  · exact Or.inl ⟨p3.y, p1.x, p3.x, Or.inr rfl, Or.inl ⟨rfl, rfl⟩, rfl⟩
  · exact Or.inr ⟨p3.x, p3.y, p1.y, Or.inr rfl, Or.inr ⟨rfl, rfl⟩, rfl⟩
  · exact Or.inr ⟨p1.y, p3.x, p1.x, Or.inl rfl, Or.inr ⟨rfl, rfl⟩, rfl⟩
  · exact Or.inl ⟨p1.x, p1.y, p3.y, Or.inl rfl, Or.inl ⟨rfl, rfl⟩, rfl⟩
  · exact Or.inr ⟨p3.y, p1.x, p3.x, Or.inr rfl, Or.inl ⟨rfl, rfl⟩, rfl⟩
  · exact Or.inl ⟨p3.x, p3.y, p1.y, Or.inr rfl, Or.inr ⟨rfl, rfl⟩, rfl⟩

theorem side_across (o : Bool) {p1 p3 : Point} {X : ℚ} (hX : X = al o p1 ∨ X = al o p3) : ∃ k0 k1,
    ((k0 = ac o p1 ∧ k1 = ac o p3) ∨ (k0 = ac o p3 ∧ k1 = ac o p1)) ∧ ⟨pt o X k0, pt o X k1⟩ ∈ boxEdges p1 p3 := by
  cases o <;> rcases hX with rfl | rfl
  · exact ⟨p3.x, p1.x, Or.inr ⟨rfl, rfl⟩, by simp [boxEdges, pt, al]⟩
  · exact ⟨p1.x, p3.x, Or.inl ⟨rfl, rfl⟩, by simp [boxEdges, pt, al]⟩
  · exact ⟨p1.y, p3.y, Or.inl ⟨rfl, rfl⟩, by simp [boxEdges, pt, al]⟩
  · exact ⟨p3.y, p1.y, Or.inr ⟨rfl, rfl⟩, by simp [boxEdges, pt, al]⟩

theorem side_along (o : Bool) {p1 p3 : Point} {C : ℚ} (hC : C = ac o p1 ∨ C = ac o p3) : ∃ X0 X1,
    ((X0 = al o p1 ∧ X1 = al o p3) ∨ (X0 = al o p3 ∧ X1 = al o p1)) ∧ ⟨pt o X0 C, pt o X1 C⟩ ∈ boxEdges p1 p3 := by
  cases o <;> rcases hC with rfl | rfl
  · exact ⟨p1.y, p3.y, Or.inl ⟨rfl, rfl⟩, by simp [boxEdges, pt, ac]⟩
  · exact ⟨p3.y, p1.y, Or.inr ⟨rfl, rfl⟩, by simp [boxEdges, pt, ac]⟩
  · exact ⟨p3.x, p1.x, Or.inr ⟨rfl, rfl⟩, by simp [boxEdges, pt, ac]⟩
  · exact ⟨p1.x, p3.x, Or.inl ⟨rfl, rfl⟩, by simp [boxEdges, pt, ac]⟩

/-! ## The lane of an edge -/

theorem before_right {d : ℚ} (h : 0 < d) : pointBefore ⟨d, 0⟩ = some fun a b => decide (a.x < b.x) := by
  simp [pointBefore, h]

theorem before_up {d : ℚ} (h : 0 < d) : pointBefore ⟨0, d⟩ = some fun a b => decide (a.y < b.y) := by
  simp [pointBefore, h]

theorem before_left {d : ℚ} (h : d < 0) : pointBefore ⟨d, 0⟩ = some fun a b => decide (a.x > b.x) := by
  simp [pointBefore, h, h.ne, not_lt.2 h.le]

theorem before_down {d : ℚ} (h : d < 0) : pointBefore ⟨0, d⟩ = some fun a b => decide (a.y > b.y) := by
  simp [pointBefore, h, h.ne, not_lt.2 h.le]

theorem lane_pt (o : Bool) {σ : ℚ} (hσ : σ = 1 ∨ σ = -1) (y : ℚ) : Lane fun t => pt o (σ * t) y where
  eq s t := by
    have h1 : |σ * s - σ * t| = |s - t| := by
      rw [← mul_sub, abs_mul]
      rcases hσ with rfl | rfl <;> simp
    cases o <;> simp [pt, Point.eq, coordEq_refl, coordEq_iff, h1]
  inj s t h := by
    have : σ * s = σ * t := by
      have := congrArg (al o) h
      simpa only [al_pt] using this
    rcases hσ with rfl | rfl <;> linarith
  mid s t := by
    cases o <;> simp only [pt, midPoint, mid] <;> simp <;> ring
  before s0 s1 h := by
    have hs : ∀ c : ℚ, c * s1 - c * s0 = c * (s1 - s0) := fun c => by ring
    rcases hσ with rfl | rfl <;> cases o
    · refine ⟨fun a b => decide (a.y < b.y), ?_, fun s t => by simp [pt]⟩
      show pointBefore ⟨y - y, 1 * s1 - 1 * s0⟩ = _
      rw [sub_self, hs]
      exact before_up (by linarith)
    · refine ⟨fun a b => decide (a.x < b.x), ?_, fun s t => by simp [pt]⟩
      show pointBefore ⟨1 * s1 - 1 * s0, y - y⟩ = _
      rw [sub_self, hs]
      exact before_right (by linarith)
    · refine ⟨fun a b => decide (a.y > b.y), ?_, fun s t => by simp [pt]⟩
      show pointBefore ⟨y - y, -1 * s1 - -1 * s0⟩ = _
      rw [sub_self, hs]
      exact before_down (by linarith)
    · refine ⟨fun a b => decide (a.x > b.x), ?_, fun s t => by simp [pt]⟩
      show pointBefore ⟨-1 * s1 - -1 * s0, y - y⟩ = _
      rw [sub_self, hs]
      exact before_left (by linarith)

/-- A box along an edge. -/
structure Facing (o : Bool) (σ y s0 s1 w0 w1 : ℚ) (p1 p3 : Point) : Prop where
  sense : σ = 1 ∨ σ = -1
  edge : s0 < s1
  box : w0 < w1
  ends : (al o p1 = σ * w0 ∧ al o p3 = σ * w1) ∨ (al o p1 = σ * w1 ∧ al o p3 = σ * w0)
  clear : ∀ a ∈ [s0, s1, w0, w1], ∀ b ∈ [s0, s1, w0, w1], Apart (1 / 5000) a b
  y1 : Apart (1 / 5000) (ac o p1) y
  y3 : Apart (1 / 5000) (ac o p3) y
  thick : (1 / 5000 : ℚ) ≤ |ac o p3 - ac o p1|

namespace Facing
variable {o : Bool} {σ y s0 s1 w0 w1 : ℚ} {p1 p3 : Point}

theorem sq (h : Facing o σ y s0 s1 w0 w1 p1 p3) : σ * σ = 1 := by
  rcases h.sense with h | h <;> rw [h] <;> norm_num

theorem abs_σ (h : Facing o σ y s0 s1 w0 w1 p1 p3) (a b : ℚ) : |σ * a - σ * b| = |a - b| := by
  rw [← mul_sub, abs_mul]
  rcases h.sense with h | h <;> rw [h] <;> simp

theorem apart_σ (h : Facing o σ y s0 s1 w0 w1 p1 p3) {g a b : ℚ} (hab : Apart g a b) : Apart g (σ * a) (σ * b) := by
  rcases hab with rfl | hab
  · exact Or.inl rfl
  · exact Or.inr (by rw [h.abs_σ]; exact hab)

theorem long (h : Facing o σ y s0 s1 w0 w1 p1 p3) : (1 / 5000 : ℚ) ≤ |s0 - s1| :=
  (h.clear s0 (by simp) s1 (by simp)).resolve_left h.edge.ne

theorem wide (h : Facing o σ y s0 s1 w0 w1 p1 p3) : (1 / 5000 : ℚ) ≤ |w0 - w1| :=
  (h.clear w0 (by simp) w1 (by simp)).resolve_left h.box.ne

theorem al_iff (h : Facing o σ y s0 s1 w0 w1 p1 p3) (X : ℚ) :
    (X = al o p1 ∨ X = al o p3) ↔ ∃ w, (w = w0 ∨ w = w1) ∧ X = σ * w := by
  rcases h.ends with ⟨h1, h3⟩ | ⟨h1, h3⟩ <;> rw [h1, h3]
  · constructor
    · rintro (rfl | rfl)
      · exact ⟨w0, Or.inl rfl, rfl⟩
      · exact ⟨w1, Or.inr rfl, rfl⟩
    · rintro ⟨w, rfl | rfl, rfl⟩ <;> simp
  · constructor
    · rintro (rfl | rfl)
      · exact ⟨w1, Or.inr rfl, rfl⟩
      · exact ⟨w0, Or.inl rfl, rfl⟩
    · rintro ⟨w, rfl | rfl, rfl⟩ <;> simp

theorem al_range (h : Facing o σ y s0 s1 w0 w1 p1 p3) (t : ℚ) :
    (min (al o p1) (al o p3) ≤ σ * t ∧ σ * t ≤ max (al o p1) (al o p3)) ↔ w0 ≤ t ∧ t ≤ w1 := by
  have hb := h.box
  have : (min (σ * w0) (σ * w1) ≤ σ * t ∧ σ * t ≤ max (σ * w0) (σ * w1)) ↔ w0 ≤ t ∧ t ≤ w1 := by
    rcases h.sense with rfl | rfl
    · simp only [one_mul, min_eq_left hb.le, max_eq_right hb.le]
    · simp only [neg_mul, one_mul]
      rw [min_eq_right (by linarith), max_eq_left (by linarith)]
      constructor <;> rintro ⟨a, b⟩ <;> constructor <;> linarith
  rcases h.ends with ⟨h1, h3⟩ | ⟨h1, h3⟩ <;> rw [h1, h3]
  · exact this
  · rw [min_comm, max_comm]; exact this

theorem al_range_strict (h : Facing o σ y s0 s1 w0 w1 p1 p3) (t : ℚ) :
    (min (al o p1) (al o p3) < σ * t ∧ σ * t < max (al o p1) (al o p3)) ↔ w0 < t ∧ t < w1 := by
  have hb := h.box
  have : (min (σ * w0) (σ * w1) < σ * t ∧ σ * t < max (σ * w0) (σ * w1)) ↔ w0 < t ∧ t < w1 := by
    rcases h.sense with rfl | rfl
    · simp only [one_mul, min_eq_left hb.le, max_eq_right hb.le]
    · simp only [neg_mul, one_mul]
      rw [min_eq_right (by linarith), max_eq_left (by linarith)]
      constructor <;> rintro ⟨a, b⟩ <;> constructor <;> linarith
  rcases h.ends with ⟨h1, h3⟩ | ⟨h1, h3⟩ <;> rw [h1, h3]
  · exact this
  · rw [min_comm, max_comm]; exact this

/-- Against a side across. -/
theorem across (h : Facing o σ y s0 s1 w0 w1 p1 p3) {w k0 k1 : ℚ} (hw : w = w0 ∨ w = w1)
    (hk : (k0 = ac o p1 ∧ k1 = ac o p3) ∨ (k0 = ac o p3 ∧ k1 = ac o p1)) :
    meet ⟨pt o (σ * s0) y, pt o (σ * s1) y⟩ ⟨pt o (σ * w) k0, pt o (σ * w) k1⟩ =
      if (s0 ≤ w ∧ w ≤ s1) ∧ min (ac o p1) (ac o p3) ≤ y ∧ y ≤ max (ac o p1) (ac o p3) then ([pt o (σ * w) y], none)
      else ([], none) := by
  have hwm : w ∈ [s0, s1, w0, w1] := by rcases hw with rfl | rfl <;> simp
  rw [meet_across o (by rw [h.abs_σ]; exact h.long)
    (by rcases hk with ⟨rfl, rfl⟩ | ⟨rfl, rfl⟩
        · rw [abs_sub_comm]; exact h.thick
        · exact h.thick)
    (h.apart_σ (h.clear w hwm s0 (by simp))) (h.apart_σ (h.clear w hwm s1 (by simp)))
    (by rcases hk with ⟨rfl, rfl⟩ | ⟨rfl, rfl⟩
        · exact h.y1
        · exact h.y3)
    (by rcases hk with ⟨rfl, rfl⟩ | ⟨rfl, rfl⟩
        · exact h.y3
        · exact h.y1)]
  have c1 : (σ * w - σ * s0) * (σ * w - σ * s1) ≤ 0 ↔ s0 ≤ w ∧ w ≤ s1 := by
    have e : (σ * w - σ * s0) * (σ * w - σ * s1) = (w - s0) * (w - s1) := by
      have := h.sq
      linear_combination (w - s0) * (w - s1) * this
    rw [e]
    have := h.edge
    constructor
    · intro hn
      constructor
      · by_contra hc; rw [not_le] at hc
        have := mul_pos_of_neg_of_neg (show w - s0 < 0 by linarith) (show w - s1 < 0 by linarith)
        linarith
      · by_contra hc; rw [not_le] at hc
        have := mul_pos (show 0 < w - s0 by linarith) (show 0 < w - s1 by linarith)
        linarith
    · rintro ⟨a, b⟩
      exact mul_nonpos_of_nonneg_of_nonpos (by linarith) (by linarith)
  have c2 : (k0 - y) * (k1 - y) ≤ 0 ↔ min (ac o p1) (ac o p3) ≤ y ∧ y ≤ max (ac o p1) (ac o p3) := by
    have e : (k0 - y) * (k1 - y) = (ac o p1 - y) * (ac o p3 - y) := by
      rcases hk with ⟨rfl, rfl⟩ | ⟨rfl, rfl⟩
      · rfl
      · ring
    rw [e]
    constructor
    · intro hn
      constructor
      · by_contra hc; rw [not_le, lt_min_iff] at hc
        have := mul_pos (show 0 < ac o p1 - y by linarith [hc.1]) (show 0 < ac o p3 - y by linarith [hc.2])
        linarith
      · by_contra hc; rw [not_le, max_lt_iff] at hc
        have := mul_pos_of_neg_of_neg (show ac o p1 - y < 0 by linarith [hc.1]) (show ac o p3 - y < 0 by linarith [hc.2])
        linarith
    · rintro ⟨a, b⟩
      rcases min_le_iff.1 a with a | a <;> rcases le_max_iff.1 b with b | b
      · rw [le_antisymm a b, sub_self, zero_mul]
      · exact mul_nonpos_of_nonpos_of_nonneg (by linarith) (by linarith)
      · exact mul_nonpos_of_nonneg_of_nonpos (by linarith) (by linarith)
      · rw [le_antisymm a b, sub_self, mul_zero]
  simp only [c1, c2]

/-- Against a side along, on another line. -/
theorem along_off (h : Facing o σ y s0 s1 w0 w1 p1 p3) {C X0 X1 : ℚ} (hC : C = ac o p1 ∨ C = ac o p3) (hne : C ≠ y) :
    meet ⟨pt o (σ * s0) y, pt o (σ * s1) y⟩ ⟨pt o X0 C, pt o X1 C⟩ = ([], none) := by
  refine meet_along_off o (by rw [h.abs_σ]; exact h.long) ?_
  rcases hC with rfl | rfl
  · exact h.y1.resolve_left hne
  · exact h.y3.resolve_left hne

/-- Against a side along, on the same line. -/
theorem along_on (h : Facing o σ y s0 s1 w0 w1 p1 p3) {X0 X1 : ℚ}
    (hX : (X0 = al o p1 ∧ X1 = al o p3) ∨ (X0 = al o p3 ∧ X1 = al o p1)) :
    (¬ max s0 w0 ≤ min s1 w1 → meet ⟨pt o (σ * s0) y, pt o (σ * s1) y⟩ ⟨pt o X0 y, pt o X1 y⟩ = ([], none)) ∧
    (max s0 w0 ≤ min s1 w1 → ∃ a b, ((a = max s0 w0 ∧ b = min s1 w1) ∨ (a = min s1 w1 ∧ b = max s0 w0)) ∧
      meet ⟨pt o (σ * s0) y, pt o (σ * s1) y⟩ ⟨pt o X0 y, pt o X1 y⟩ = ([pt o (σ * a) y, pt o (σ * b) y],
        if max s0 w0 = min s1 w1 then none else some ⟨pt o (σ * a) y, pt o (σ * b) y⟩)) := by
  have hX' : (X0 = σ * w0 ∧ X1 = σ * w1) ∨ (X0 = σ * w1 ∧ X1 = σ * w0) := by
    rcases hX with ⟨rfl, rfl⟩ | ⟨rfl, rfl⟩
    · exact h.ends
    · exact h.ends.elim (fun h => Or.inr ⟨h.2, h.1⟩) fun h => Or.inl ⟨h.2, h.1⟩
  have key : ∀ a b, (a = σ * w0 ∧ b = σ * w1) ∨ (a = σ * w1 ∧ b = σ * w0) → min a b = min (σ * w0) (σ * w1) ∧
      max a b = max (σ * w0) (σ * w1) ∧ (1 / 5000 : ℚ) ≤ |a - b| ∧ Apart (1 / 5000) (σ * s0) a ∧ Apart (1 / 5000) (σ * s0) b ∧
      Apart (1 / 5000) (σ * s1) a ∧ Apart (1 / 5000) (σ * s1) b := by
    have a0 := h.apart_σ (h.clear s0 (by simp) w0 (by simp))
    have a1 := h.apart_σ (h.clear s0 (by simp) w1 (by simp))
    have b0 := h.apart_σ (h.clear s1 (by simp) w0 (by simp))
    have b1 := h.apart_σ (h.clear s1 (by simp) w1 (by simp))
    rintro a b (⟨rfl, rfl⟩ | ⟨rfl, rfl⟩)
    · exact ⟨rfl, rfl, by rw [h.abs_σ]; exact h.wide, a0, a1, b0, b1⟩
    · exact ⟨min_comm _ _, max_comm _ _, by rw [abs_sub_comm, h.abs_σ]; exact h.wide, a1, a0, b1, b0⟩
  obtain ⟨k1, k2, k3, k4, k5, k6, k7⟩ := key X0 X1 hX'
  rw [meet_along_on o (by rw [h.abs_σ]; exact h.long) k3 k4 k5 k6 k7, k1, k2]
  have hs := h.edge
  have hw := h.box
  rcases h.sense with rfl | rfl
  · simp only [one_mul, min_eq_left hs.le, max_eq_right hs.le, min_eq_left hw.le, max_eq_right hw.le]
    refine ⟨fun hn => by rw [if_neg hn], fun hy => ⟨_, _, Or.inl ⟨rfl, rfl⟩, by rw [if_pos hy]⟩⟩
  · have mn : ∀ a b : ℚ, min (-a) (-b) = -max a b := by
      intro a b
      rcases le_total a b with h | h
      · rw [min_eq_right (by linarith), max_eq_right h]
      · rw [min_eq_left (by linarith), max_eq_left h]
    have mx : ∀ a b : ℚ, max (-a) (-b) = -min a b := by
      intro a b
      rcases le_total a b with h | h
      · rw [max_eq_left (by linarith), min_eq_left h]
      · rw [max_eq_right (by linarith), min_eq_right h]
    simp only [neg_mul, one_mul, mn, mx, min_eq_left hs.le, max_eq_right hs.le, min_eq_left hw.le,
      max_eq_right hw.le, neg_le_neg_iff, neg_inj]
    refine ⟨fun hn => by rw [if_neg hn], fun hy => ⟨_, _, Or.inr ⟨rfl, rfl⟩, ?_⟩⟩
    rw [if_pos hy]
    simp only [eq_comm]

/-- The relation of a point of the line. -/
theorem relation (h : Facing o σ y s0 s1 w0 w1 p1 p3) {t : ℚ} (h0 : Apart (1 / 10000) w0 t) (h1 : Apart (1 / 10000) w1 t) :
    ((min (ac o p1) (ac o p3) < y ∧ y < max (ac o p1) (ac o p3)) → pointRelation (boxPoints p1 p3) (pt o (σ * t) y) =
      .ok (if w0 < t ∧ t < w1 then .inside else if t = w0 ∨ t = w1 then .on else .outside)) ∧
    ((y = ac o p1 ∨ y = ac o p3) → pointRelation (boxPoints p1 p3) (pt o (σ * t) y) =
      .ok (if w0 ≤ t ∧ t ≤ w1 then .on else .outside)) ∧
    (¬ (min (ac o p1) (ac o p3) ≤ y ∧ y ≤ max (ac o p1) (ac o p3)) →
      pointRelation (boxPoints p1 p3) (pt o (σ * t) y) = .ok .outside) := by
  have half : ∀ {a b : ℚ}, Apart (1 / 5000) a b → Apart (1 / 10000) a b := by
    intro a b hab
    exact hab.imp id fun h => by linarith
  have ha : ∀ X, X = al o p1 ∨ X = al o p3 → Apart (1 / 10000) X (al o (pt o (σ * t) y)) := by
    intro X hX
    obtain ⟨w, hw, rfl⟩ := (h.al_iff X).1 hX
    rw [al_pt]
    apply h.apart_σ
    rcases hw with rfl | rfl <;> assumption
  have hc : ∀ C, C = ac o p1 ∨ C = ac o p3 → Apart (1 / 10000) C (ac o (pt o (σ * t) y)) := by
    intro C hC
    rw [ac_pt]
    rcases hC with rfl | rfl
    · exact half h.y1
    · exact half h.y3
  have hthick : (1 / 5000 : ℚ) ≤ |al o p3 - al o p1| := by
    rcases h.ends with ⟨h1, h3⟩ | ⟨h1, h3⟩ <;> rw [h1, h3, h.abs_σ]
    · rw [abs_sub_comm]; exact h.wide
    · exact h.wide
  obtain ⟨r1, r2, r3⟩ : (InsideBox p1 p3 (pt o (σ * t) y) → pointRelation (boxPoints p1 p3) (pt o (σ * t) y) = .ok .inside) ∧
      (OnBox p1 p3 (pt o (σ * t) y) → pointRelation (boxPoints p1 p3) (pt o (σ * t) y) = .ok .on) ∧
      (¬ WithinBox p1 p3 (pt o (σ * t) y) → pointRelation (boxPoints p1 p3) (pt o (σ * t) y) = .ok .outside) := by
    have a1 := ha _ (Or.inl rfl)
    have a3 := ha _ (Or.inr rfl)
    have c1 := hc _ (Or.inl rfl)
    have c3 := hc _ (Or.inr rfl)
    have th := h.thick
    cases o
    · exact relation_box hthick c1 c3 a1 a3
    · exact relation_box th a1 a3 c1 c3
  rw [within_pt o, al_pt, ac_pt, h.al_range] at r3
  rw [inside_pt o, al_pt, ac_pt, h.al_range_strict] at r1
  rw [on_pt o, within_pt o, al_pt, ac_pt, h.al_range] at r2
  have hon : (σ * t = al o p1 ∨ σ * t = al o p3) ↔ t = w0 ∨ t = w1 := by
    rw [h.al_iff]
    have inj : ∀ w, σ * t = σ * w → t = w := by
      intro w hw
      rcases h.sense with rfl | rfl <;> linarith
    constructor
    · rintro ⟨w, hw, he⟩
      rw [inj w he]; exact hw
    · intro hw
      exact ⟨t, hw, rfl⟩
  refine ⟨fun hin => ?_, fun hy => ?_, fun hout => r3 fun h' => hout h'.2⟩
  · by_cases c1 : w0 < t ∧ t < w1
    · rw [if_pos c1]; exact r1 ⟨c1, hin⟩
    · rw [if_neg c1]
      by_cases c2 : t = w0 ∨ t = w1
      · rw [if_pos c2]
        refine r2 ⟨⟨?_, hin.1.le, hin.2.le⟩, ?_⟩
        · have := h.box
          rcases c2 with rfl | rfl
          · exact ⟨le_rfl, this.le⟩
          · exact ⟨this.le, le_rfl⟩
        · rcases hon.2 c2 with h' | h'
          · exact Or.inl h'
          · exact Or.inr (Or.inl h')
      · rw [if_neg c2]
        rw [not_or] at c2
        refine r3 fun h' => c1 ⟨lt_of_le_of_ne h'.1.1 (Ne.symm c2.1), lt_of_le_of_ne h'.1.2 c2.2⟩
  · have hrange : min (ac o p1) (ac o p3) ≤ y ∧ y ≤ max (ac o p1) (ac o p3) := by
      rcases hy with rfl | rfl
      · exact ⟨min_le_left _ _, le_max_left _ _⟩
      · exact ⟨min_le_right _ _, le_max_right _ _⟩
    by_cases c1 : w0 ≤ t ∧ t ≤ w1
    · rw [if_pos c1]
      exact r2 ⟨⟨c1, hrange⟩, Or.inr (Or.inr hy)⟩
    · rw [if_neg c1]
      exact r3 fun h' => c1 h'.1

/-- The points looked at are clearly apart from the box, or on its lines. -/
theorem looked (h : Facing o σ y s0 s1 w0 w1 p1 p3) {t : ℚ}
    (ht : t = s0 ∨ t = s1 ∨ ∃ u ∈ [s0, s1, w0, w1], ∃ v ∈ [s0, s1, w0, w1], u < v ∧ (w0 ≤ u ∨ v ≤ w0) ∧
      (w1 ≤ u ∨ v ≤ w1) ∧ t = (u + v) / 2) : Apart (1 / 10000) w0 t ∧ Apart (1 / 10000) w1 t := by
  have half : ∀ {a b : ℚ}, Apart (1 / 5000) a b → Apart (1 / 10000) a b := by
    intro a b hab
    exact hab.imp id fun h => by linarith
  rcases ht with rfl | rfl | ⟨u, hu, v, hv, huv, g0, g1, rfl⟩
  · exact ⟨half (h.clear w0 (by simp) t (by simp)), half (h.clear w1 (by simp) t (by simp))⟩
  · exact ⟨half (h.clear w0 (by simp) t (by simp)), half (h.clear w1 (by simp) t (by simp))⟩
  · have hd := (h.clear u hu v hv).resolve_left huv.ne
    rw [abs_of_neg (by linarith)] at hd
    constructor <;> right
    · rcases g0 with g | g
      · rw [abs_of_neg (by linarith)]; linarith
      · rw [abs_of_pos (by linarith)]; linarith
    · rcases g1 with g | g
      · rw [abs_of_neg (by linarith)]; linarith
      · rw [abs_of_pos (by linarith)]; linarith

/-- A range found, along the lane. -/
def Ranges (o : Bool) (σ y : ℚ) (g : Found) (u v : ℚ) : Prop :=
  g.range = ⟨pt o (σ * u) y, pt o (σ * v) y⟩ ∨ g.range = ⟨pt o (σ * v) y, pt o (σ * u) y⟩

/-- The detection, along the lane. -/
theorem detect (h : Facing o σ y s0 s1 w0 w1 p1 p3) (S : OrderSorter Point) (b : Nat) {edges : List (Nat × Segment)}
    (hedges : edges.map (·.2) = boxEdges p1 p3) :
    ∃ founds, detectEdge S b (boxPoints p1 p3) edges ⟨pt o (σ * s0) y, pt o (σ * s1) y⟩ = .ok founds ∧
      (∀ g ∈ founds, g.polygon = b ∧ (∃ u v, u < v ∧ Ranges o σ y g u v ∧ s0 ≤ u ∧ v ≤ s1 ∧ w0 ≤ u ∧ v ≤ w1) ∧
        ((g.other = none ∧ min (ac o p1) (ac o p3) < y ∧ y < max (ac o p1) (ac o p3)) ∨
          ((y = ac o p1 ∨ y = ac o p3) ∧ ∃ n X0 X1, g.other = some n ∧
            ((X0 = al o p1 ∧ X1 = al o p3) ∨ (X0 = al o p3 ∧ X1 = al o p1)) ∧
            (n, (⟨pt o X0 y, pt o X1 y⟩ : Segment)) ∈ edges))) ∧
      (min (ac o p1) (ac o p3) ≤ y → y ≤ max (ac o p1) (ac o p3) → max s0 w0 < min s1 w1 →
        ∀ t, max s0 w0 ≤ t → t ≤ min s1 w1 → ∃ g ∈ founds, ∃ u v, Ranges o σ y g u v ∧ u ≤ t ∧ t ≤ v) := by
  have hlane := lane_pt o h.sense y
  have hseg : ∀ e, e ∈ edges → e.2 ∈ boxEdges p1 p3 := fun e he => by rw [← hedges]; exact List.mem_map_of_mem he
  have hhave : ∀ e ∈ boxEdges p1 p3, ∃ n, (n, e) ∈ edges := by
    intro e he
    rw [← hedges] at he
    obtain ⟨⟨n, e'⟩, hm, rfl⟩ := List.mem_map.1 he
    exact ⟨n, hm⟩
  have htol : ∀ x ∈ [s0, s1, w0, w1], ∀ z ∈ [s0, s1, w0, w1], x = z ∨ tolerance ≤ |x - z| := by
    intro x hx z hz
    refine (h.clear x hx z hz).imp id fun h => ?_
    have ht : tolerance = 1 / 100000000 := rfl
    rw [ht]; linarith
  -- The hits, along the lane.
  have lift : (∀ p ∈ edges.flatMap fun e => (meet ⟨pt o (σ * s0) y, pt o (σ * s1) y⟩ e.2).1, ac o p = y) →
      (edges.flatMap fun e => (meet ⟨pt o (σ * s0) y, pt o (σ * s1) y⟩ e.2).1) =
        ((edges.flatMap fun e => (meet ⟨pt o (σ * s0) y, pt o (σ * s1) y⟩ e.2).1).map fun p => σ * al o p).map
          fun t => pt o (σ * t) y := by
    intro hp
    rw [List.map_map]
    conv_lhs => rw [← List.map_id (edges.flatMap _)]
    apply List.map_congr_left
    intro p hpm
    have hsq := h.sq
    simp only [id, Function.comp_apply, ← mul_assoc, hsq, one_mul]
    rw [← hp p hpm, pt_al]
  by_cases hin : min (ac o p1) (ac o p3) < y ∧ y < max (ac o p1) (ac o p3)
  · -- Through the inside.
    have hy1 : ac o p1 ≠ y := by
      rintro rfl
      rcases le_total (ac o p1) (ac o p3) with h' | h' <;> simp [h'] at hin
    have hy3 : ac o p3 ≠ y := by
      rintro rfl
      rcases le_total (ac o p1) (ac o p3) with h' | h' <;> simp [h'] at hin
    have hin' : min (ac o p1) (ac o p3) ≤ y ∧ y ≤ max (ac o p1) (ac o p3) := ⟨hin.1.le, hin.2.le⟩
    have hmeet : ∀ e ∈ boxEdges p1 p3, (∃ w, (w = w0 ∨ w = w1) ∧ (s0 ≤ w ∧ w ≤ s1) ∧
          meet ⟨pt o (σ * s0) y, pt o (σ * s1) y⟩ e = ([pt o (σ * w) y], none)) ∨
        meet ⟨pt o (σ * s0) y, pt o (σ * s1) y⟩ e = ([], none) := by
      intro e he
      rcases sides o he with ⟨X, k0, k1, hX, hk, rfl⟩ | ⟨C, X0, X1, hC, hX, rfl⟩
      · obtain ⟨w, hw, rfl⟩ := (h.al_iff X).1 hX
        rw [h.across hw hk]
        by_cases hc : s0 ≤ w ∧ w ≤ s1
        · exact Or.inl ⟨w, hw, hc, by rw [if_pos ⟨hc, hin'⟩]⟩
        · exact Or.inr (by rw [if_neg (fun h' => hc h'.1)])
      · refine Or.inr (h.along_off hC ?_)
        rcases hC with rfl | rfl <;> assumption
    have hhit : ∀ p ∈ edges.flatMap fun e => (meet ⟨pt o (σ * s0) y, pt o (σ * s1) y⟩ e.2).1,
        ∃ w, (w = w0 ∨ w = w1) ∧ (s0 ≤ w ∧ w ≤ s1) ∧ p = pt o (σ * w) y := by
      intro p hp
      obtain ⟨e, he, hpe⟩ := List.mem_flatMap.1 hp
      rcases hmeet e.2 (hseg e he) with ⟨w, hw, hc, hm⟩ | hm <;> rw [hm] at hpe
      · exact ⟨w, hw, hc, by simpa using hpe⟩
      · simp at hpe
    have hmem : ∀ w, (w = w0 ∨ w = w1) → (s0 ≤ w ∧ w ≤ s1) →
        pt o (σ * w) y ∈ edges.flatMap fun e => (meet ⟨pt o (σ * s0) y, pt o (σ * s1) y⟩ e.2).1 := by
      intro w hw hc
      obtain ⟨k0, k1, hk, hm⟩ := side_across o ((h.al_iff (σ * w)).2 ⟨w, hw, rfl⟩)
      obtain ⟨n, hn⟩ := hhave _ hm
      refine List.mem_flatMap.2 ⟨_, hn, ?_⟩
      rw [h.across hw hk, if_pos ⟨hc, hin'⟩]
      simp
    obtain ⟨founds, hd, h1, h2⟩ := detect_inside S hlane h.edge htol (points := boxPoints p1 p3) (edges := edges) b
      (fun e he => by rcases hmeet e.2 (hseg e he) with ⟨w, -, -, hm⟩ | hm <;> rw [hm])
      _ (lift fun p hp => by obtain ⟨w, -, -, rfl⟩ := hhit p hp; rw [ac_pt])
      (fun t => by
        have hsq := h.sq
        constructor
        · intro ht
          obtain ⟨p, hp, rfl⟩ := List.mem_map.1 ht
          obtain ⟨w, hw, hc, rfl⟩ := hhit p hp
          rw [al_pt, ← mul_assoc, hsq, one_mul]
          exact ⟨hw, hc⟩
        · rintro ⟨hw, hc⟩
          refine List.mem_map.2 ⟨_, hmem t hw hc, ?_⟩
          rw [al_pt, ← mul_assoc, hsq, one_mul])
      (fun t ht => by
        obtain ⟨l0, l1⟩ := h.looked ht
        exact (h.relation l0 l1).1 hin)
    refine ⟨founds, hd, ?_, ?_⟩
    · intro g hg
      obtain ⟨g1, g2, u, v, huv, hr, q1, q2, q3, q4⟩ := h1 g hg
      exact ⟨g1, ⟨u, v, huv, Or.inl hr, q1, q2, q3, q4⟩, Or.inl ⟨g2, hin⟩⟩
    · intro _ _ hne t ht1 ht2
      obtain ⟨g, hg, u, v, hr, a1, a2⟩ := h2 t ((le_max_left _ _).trans ht1) (ht2.trans (min_le_left _ _))
        ((le_max_right _ _).trans ht1) (ht2.trans (min_le_right _ _)) hne
      exact ⟨g, hg, u, v, Or.inl hr, a1, a2⟩
  · by_cases hon : y = ac o p1 ∨ y = ac o p3
    · -- Along a side.
      have hin' : min (ac o p1) (ac o p3) ≤ y ∧ y ≤ max (ac o p1) (ac o p3) := by
        rcases hon with rfl | rfl
        · exact ⟨min_le_left _ _, le_max_left _ _⟩
        · exact ⟨min_le_right _ _, le_max_right _ _⟩
      have hmeet : ∀ e ∈ boxEdges p1 p3,
          (∃ w, (w = w0 ∨ w = w1) ∧ (s0 ≤ w ∧ w ≤ s1) ∧
            meet ⟨pt o (σ * s0) y, pt o (σ * s1) y⟩ e = ([pt o (σ * w) y], none)) ∨
          meet ⟨pt o (σ * s0) y, pt o (σ * s1) y⟩ e = ([], none) ∨
          (∃ X0 X1, ((X0 = al o p1 ∧ X1 = al o p3) ∨ (X0 = al o p3 ∧ X1 = al o p1)) ∧ e = ⟨pt o X0 y, pt o X1 y⟩ ∧
            max s0 w0 ≤ min s1 w1 ∧ ∃ a b, ((a = max s0 w0 ∧ b = min s1 w1) ∨ (a = min s1 w1 ∧ b = max s0 w0)) ∧
            meet ⟨pt o (σ * s0) y, pt o (σ * s1) y⟩ e = ([pt o (σ * a) y, pt o (σ * b) y],
              if max s0 w0 = min s1 w1 then none else some ⟨pt o (σ * a) y, pt o (σ * b) y⟩)) := by
        intro e he
        rcases sides o he with ⟨X, k0, k1, hX, hk, rfl⟩ | ⟨C, X0, X1, hC, hX, rfl⟩
        · obtain ⟨w, hw, rfl⟩ := (h.al_iff X).1 hX
          rw [h.across hw hk]
          by_cases hc : s0 ≤ w ∧ w ≤ s1
          · exact Or.inl ⟨w, hw, hc, by rw [if_pos ⟨hc, hin'⟩]⟩
          · exact Or.inr (Or.inl (by rw [if_neg (fun h' => hc h'.1)]))
        · by_cases hCy : C = y
          · subst hCy
            obtain ⟨o1, o2⟩ := h.along_on hX
            by_cases hc : max s0 w0 ≤ min s1 w1
            · obtain ⟨a, b, hab, hm⟩ := o2 hc
              exact Or.inr (Or.inr ⟨X0, X1, hX, rfl, hc, a, b, hab, hm⟩)
            · exact Or.inr (Or.inl (o1 hc))
          · exact Or.inr (Or.inl (h.along_off hC hCy))
      have hlo : max s0 w0 ∈ [s0, s1, w0, w1] := by rcases max_choice s0 w0 with h' | h' <;> rw [h'] <;> simp
      have hhi : min s1 w1 ∈ [s0, s1, w0, w1] := by rcases min_choice s1 w1 with h' | h' <;> rw [h'] <;> simp
      have hhit : ∀ p ∈ edges.flatMap fun e => (meet ⟨pt o (σ * s0) y, pt o (σ * s1) y⟩ e.2).1,
          ∃ w ∈ [s0, s1, w0, w1], (s0 ≤ w ∧ w ≤ s1) ∧ p = pt o (σ * w) y := by
        intro p hp
        obtain ⟨e, he, hpe⟩ := List.mem_flatMap.1 hp
        rcases hmeet e.2 (hseg e he) with ⟨w, hw, hc, hm⟩ | hm | ⟨X0, X1, -, -, hle, a, b', hab, hm⟩ <;> rw [hm] at hpe
        · refine ⟨w, ?_, hc, by simpa using hpe⟩
          rcases hw with rfl | rfl <;> simp
        · simp at hpe
        · have r1 : s0 ≤ max s0 w0 ∧ max s0 w0 ≤ s1 := ⟨le_max_left _ _, hle.trans (min_le_left _ _)⟩
          have r2 : s0 ≤ min s1 w1 ∧ min s1 w1 ≤ s1 := ⟨(le_max_left _ _).trans hle, min_le_left _ _⟩
          simp only [List.mem_cons, List.not_mem_nil, or_false] at hpe
          rcases hab with ⟨rfl, rfl⟩ | ⟨rfl, rfl⟩ <;> rcases hpe with rfl | rfl
          · exact ⟨_, hlo, r1, rfl⟩
          · exact ⟨_, hhi, r2, rfl⟩
          · exact ⟨_, hhi, r2, rfl⟩
          · exact ⟨_, hlo, r1, rfl⟩
      have hmem : ∀ w, (w = w0 ∨ w = w1) → (s0 ≤ w ∧ w ≤ s1) →
          pt o (σ * w) y ∈ edges.flatMap fun e => (meet ⟨pt o (σ * s0) y, pt o (σ * s1) y⟩ e.2).1 := by
        intro w hw hc
        obtain ⟨k0, k1, hk, hm⟩ := side_across o ((h.al_iff (σ * w)).2 ⟨w, hw, rfl⟩)
        obtain ⟨n, hn⟩ := hhave _ hm
        refine List.mem_flatMap.2 ⟨_, hn, ?_⟩
        rw [h.across hw hk, if_pos ⟨hc, hin'⟩]
        simp
      have hd := detect_border S hlane h.edge htol (points := boxPoints p1 p3) (edges := edges) b
        _ (lift fun p hp => by obtain ⟨w, -, -, rfl⟩ := hhit p hp; rw [ac_pt])
        (fun t ht => by
          obtain ⟨p, hp, rfl⟩ := List.mem_map.1 ht
          obtain ⟨w, hw, hc, rfl⟩ := hhit p hp
          rw [al_pt, ← mul_assoc, h.sq, one_mul]
          exact ⟨hw, hc⟩)
        (fun w hw c1 c2 => List.mem_map.2 ⟨_, hmem w hw ⟨c1, c2⟩, by rw [al_pt, ← mul_assoc, h.sq, one_mul]⟩)
        (fun t ht => by
          obtain ⟨l0, l1⟩ := h.looked ht
          refine ⟨_, (h.relation l0 l1).2.1 hon, ?_⟩
          split_ifs <;> simp)
      refine ⟨_, hd, ?_, ?_⟩
      · intro g hg
        obtain ⟨e, he, hge⟩ := List.mem_filterMap.1 hg
        rcases hmeet e.2 (hseg e he) with ⟨w, hw, hc, hm⟩ | hm | ⟨X0, X1, hX, hee, hle, a, b', hab, hm⟩ <;>
          rw [hm] at hge
        · simp at hge
        · simp at hge
        · by_cases heq : max s0 w0 = min s1 w1
          · rw [if_pos heq] at hge; simp at hge
          · rw [if_neg heq] at hge
            simp only [Option.map_some, Option.some.injEq] at hge
            subst hge
            refine ⟨rfl, ⟨max s0 w0, min s1 w1, lt_of_le_of_ne hle heq, ?_, le_max_left _ _, min_le_left _ _,
              le_max_right _ _, min_le_right _ _⟩, Or.inr ⟨hon, e.1, X0, X1, rfl, hX, ?_⟩⟩
            · rcases hab with ⟨rfl, rfl⟩ | ⟨rfl, rfl⟩
              · exact Or.inl rfl
              · exact Or.inr rfl
            · rw [← hee]; exact he
      · intro _ _ hne t ht1 ht2
        obtain ⟨X0, X1, hX, hm⟩ := side_along o hon
        obtain ⟨n, hn⟩ := hhave _ hm
        obtain ⟨a, b', hab, hmm⟩ := (h.along_on hX).2 hne.le
        rw [if_neg hne.ne] at hmm
        refine ⟨⟨b, ⟨pt o (σ * a) y, pt o (σ * b') y⟩, some n⟩, List.mem_filterMap.2 ⟨_, hn, ?_⟩, max s0 w0, min s1 w1, ?_,
          ht1, ht2⟩
        · rw [hmm]; rfl
        · rcases hab with ⟨rfl, rfl⟩ | ⟨rfl, rfl⟩
          · exact Or.inl rfl
          · exact Or.inr rfl
    · -- Beside the box.
      have hout : ¬ (min (ac o p1) (ac o p3) ≤ y ∧ y ≤ max (ac o p1) (ac o p3)) := by
        rintro ⟨c1, c2⟩
        apply hin
        rw [not_or] at hon
        constructor
        · refine lt_of_le_of_ne c1 fun h' => ?_
          rcases min_choice (ac o p1) (ac o p3) with h'' | h'' <;> rw [h''] at h'
          · exact hon.1 h'.symm
          · exact hon.2 h'.symm
        · refine lt_of_le_of_ne c2 fun h' => ?_
          rcases max_choice (ac o p1) (ac o p3) with h'' | h'' <;> rw [h''] at h'
          · exact hon.1 h'
          · exact hon.2 h'
      have hmeet : ∀ e ∈ boxEdges p1 p3, meet ⟨pt o (σ * s0) y, pt o (σ * s1) y⟩ e = ([], none) := by
        intro e he
        rcases sides o he with ⟨X, k0, k1, hX, hk, rfl⟩ | ⟨C, X0, X1, hC, hX, rfl⟩
        · obtain ⟨w, hw, rfl⟩ := (h.al_iff X).1 hX
          rw [h.across hw hk, if_neg (fun h' => hout h'.2)]
        · refine h.along_off hC ?_
          rintro rfl
          exact hon hC
      have hhits : (edges.flatMap fun e => (meet ⟨pt o (σ * s0) y, pt o (σ * s1) y⟩ e.2).1) = [] := by
        rw [List.flatMap_eq_nil_iff]
        intro e he
        rw [hmeet e.2 (hseg e he)]
      have hons : (edges.filterMap fun e => (meet ⟨pt o (σ * s0) y, pt o (σ * s1) y⟩ e.2).2.map
          fun r => (⟨b, r, some e.1⟩ : Found)) = [] := by
        rw [List.filterMap_eq_nil_iff]
        intro e he
        rw [hmeet e.2 (hseg e he)]; rfl
      have half : ∀ {a c : ℚ}, Apart (1 / 5000) a c → Apart (1 / 10000) a c := by
        intro a c hab
        exact hab.imp id fun h => by linarith
      have r0 := (h.relation (half (h.clear w0 (by simp) s0 (by simp))) (half (h.clear w1 (by simp) s0 (by simp)))).2.2 hout
      have r1 := (h.relation (half (h.clear w0 (by simp) s1 (by simp))) (half (h.clear w1 (by simp) s1 (by simp)))).2.2 hout
      refine ⟨[], ?_, by simp, fun c1 c2 => absurd ⟨c1, c2⟩ hout⟩
      unfold detectEdge
      simp only [hhits, hons, r0, r1, Outcome.bind]
      simp

end Facing

/-! ## Points of a range -/

theorem on_swap {p p' q : Point} : On ⟨p, p'⟩ q ↔ On ⟨p', p⟩ q := by
  constructor
  · rintro ⟨t, h0, h1, hx, hy⟩
    refine ⟨1 - t, by linarith, by linarith, ?_, ?_⟩
    · rw [hx]; ring
    · rw [hy]; ring
  · rintro ⟨t, h0, h1, hx, hy⟩
    refine ⟨1 - t, by linarith, by linarith, ?_, ?_⟩
    · rw [hx]; ring
    · rw [hy]; ring

theorem on_lane (o : Bool) {σ : ℚ} (hσ : σ = 1 ∨ σ = -1) {y u v : ℚ} (huv : u < v) {q : Point} :
    On ⟨pt o (σ * u) y, pt o (σ * v) y⟩ q ↔ ac o q = y ∧ u ≤ σ * al o q ∧ σ * al o q ≤ v := by
  have hsq : σ * σ = 1 := by rcases hσ with rfl | rfl <;> norm_num
  have key : On ⟨pt o (σ * u) y, pt o (σ * v) y⟩ q ↔
      ∃ t : ℚ, 0 ≤ t ∧ t ≤ 1 ∧ al o q = σ * u + t * (σ * v - σ * u) ∧ ac o q = y := by
    unfold On
    cases o <;> simp only [pt, al, ac] <;> simp
    exact ⟨fun ⟨t, a, b, c, d⟩ => ⟨t, a, b, d, c⟩, fun ⟨t, a, b, c, d⟩ => ⟨t, a, b, d, c⟩⟩
  rw [key]
  constructor
  · rintro ⟨t, h0, h1, ha, hc⟩
    have e : σ * al o q = u + t * (v - u) := by
      rw [ha]; linear_combination (u + t * (v - u)) * hsq
    rw [e]
    refine ⟨hc, ?_, ?_⟩
    · have := mul_nonneg h0 (show 0 ≤ v - u by linarith); linarith
    · have := mul_le_mul_of_nonneg_right h1 (show 0 ≤ v - u by linarith); linarith
  · rintro ⟨hc, h1, h2⟩
    have hd : 0 < v - u := by linarith
    refine ⟨(σ * al o q - u) / (v - u), div_nonneg (by linarith) hd.le, (div_le_one hd).2 (by linarith), ?_, hc⟩
    have e : al o q = σ * (σ * al o q) := by rw [← mul_assoc, hsq, one_mul]
    have : (σ * al o q - u) / (v - u) * (σ * v - σ * u) = σ * (σ * al o q - u) := by
      rw [← mul_sub]; field_simp
    rw [this]
    linear_combination e

theorem on_ranges (o : Bool) {σ : ℚ} (hσ : σ = 1 ∨ σ = -1) {y u v : ℚ} (huv : u < v) {g : Found} {q : Point}
    (h : Facing.Ranges o σ y g u v) : On g.range q ↔ ac o q = y ∧ u ≤ σ * al o q ∧ σ * al o q ≤ v := by
  rcases h with h | h <;> rw [h]
  · exact on_lane o hσ huv
  · rw [on_swap]; exact on_lane o hσ huv

end Verif.Board
