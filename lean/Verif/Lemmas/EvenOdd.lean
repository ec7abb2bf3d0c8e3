import Verif.Lemmas.Box
import Verif.Props.Box
import Verif.Spec.EvenOdd
import Mathlib.Tactic.LinearCombination
import Mathlib.Tactic.Linarith
import Mathlib.Tactic.Ring
import Mathlib.Algebra.Ring.Parity

/-!
# The even-odd rule
-/

namespace Verif.Geom
open Verif.Mesh Spec

/-- With `ca` and `cb` the sides of the line of a ray on which the ends of an edge are, and `D` the side of the edge on which
the start of the ray is: the edge meets the ray, ends on the line counting as below it. -/
def Through (ca cb D : ℚ) : Prop := (ca ≤ 0 ∧ 0 < cb ∧ 0 < D) ∨ (0 < ca ∧ cb ≤ 0 ∧ D < 0)

theorem sign_cases (x : ℚ) : (x < 0 ∧ x ≤ 0 ∧ ¬ 0 < x ∧ ¬ 0 ≤ x) ∨ (x = 0 ∧ x ≤ 0 ∧ 0 ≤ x ∧ ¬ 0 < x ∧ ¬ x < 0) ∨
    (0 < x ∧ 0 ≤ x ∧ ¬ x < 0 ∧ ¬ x ≤ 0) := by
  rcases lt_trichotomy x 0 with h | h | h
  · exact Or.inl ⟨h, h.le, not_lt.2 h.le, not_le.2 h⟩
  · exact Or.inr (Or.inl ⟨h, h.le, h.ge, by rw [h]; exact lt_irrefl _, by rw [h]; exact lt_irrefl _⟩)
  · exact Or.inr (Or.inr ⟨h, h.le, not_lt.2 h.le, not_le.2 h⟩)

/-- The negative and positive numbers and zero, with what follows for comparisons. -/
abbrev Neg (x : ℚ) : Prop := x < 0 ∧ x ≤ 0 ∧ ¬ 0 < x ∧ ¬ 0 ≤ x
abbrev Nul (x : ℚ) : Prop := x = 0 ∧ x ≤ 0 ∧ 0 ≤ x ∧ ¬ 0 < x ∧ ¬ x < 0
abbrev Pos (x : ℚ) : Prop := 0 < x ∧ 0 ≤ x ∧ ¬ x < 0 ∧ ¬ x ≤ 0

theorem off_cases {a1 a2 : ℚ} (h : a2 = 0 → a1 < 0) (h' : a1 = 0 → a2 < 0) :
    (Neg a1 ∧ Neg a2) ∨ (Neg a1 ∧ Nul a2) ∨ (Neg a1 ∧ Pos a2) ∨ (Nul a1 ∧ Neg a2) ∨ (Pos a1 ∧ Neg a2) ∨ (Pos a1 ∧ Pos a2) := by
  rcases sign_cases a1 with h1 | h1 | h1 <;> rcases sign_cases a2 with h2 | h2 | h2
  · exact Or.inl ⟨h1, h2⟩
  · exact Or.inr (Or.inl ⟨h1, h2⟩)
  · exact Or.inr (Or.inr (Or.inl ⟨h1, h2⟩))
  · exact Or.inr (Or.inr (Or.inr (Or.inl ⟨h1, h2⟩)))
  · exact absurd (h h2.1) h1.2.2.2.2
  · exact absurd (h' h1.1) h2.2.2.1
  · exact Or.inr (Or.inr (Or.inr (Or.inr (Or.inl ⟨h1, h2⟩))))
  · exact absurd (h h2.1) h1.2.2.1
  · exact Or.inr (Or.inr (Or.inr (Or.inr (Or.inr ⟨h1, h2⟩))))

/-- An edge, in coordinates along two rays, meets only one of the rays exactly when it has one end in the wedge between them. -/
theorem wedge {a1 a2 b1 b2 D : ℚ} (ha : a2 = 0 → a1 < 0) (ha' : a1 = 0 → a2 < 0) (hb : b2 = 0 → b1 < 0) (hb' : b1 = 0 → b2 < 0)
    (hD : D = a1 * b2 - a2 * b1) (hq : D ≠ 0 ∨ 0 < a1 * b1 ∨ 0 < a2 * b2) :
    ((Through a2 b2 D ↔ Through (-a1) (-b1) D) ↔ ((0 < a1 ∧ 0 < a2) ↔ (0 < b1 ∧ 0 < b2))) := by
  unfold Through
  rcases off_cases ha ha' with ⟨h1, h2⟩ | ⟨h1, h2⟩ | ⟨h1, h2⟩ | ⟨h1, h2⟩ | ⟨h1, h2⟩ | ⟨h1, h2⟩ <;>
    rcases off_cases hb hb' with ⟨h3, h4⟩ | ⟨h3, h4⟩ | ⟨h3, h4⟩ | ⟨h3, h4⟩ | ⟨h3, h4⟩ | ⟨h3, h4⟩ <;>
    first
      | (simp [h1, h2, h3, h4]; done)
      | (rcases sign_cases D with h5 | h5 | h5 <;> first
        | (simp [h1, h2, h3, h4, h5]; done)
        | (exfalso; rcases hq with h6 | h6 | h6 <;> first | (exact h6 h5.1) | nlinarith [h1.1, h2.1, h3.1, h4.1, h5.1]))

theorem through_scale {k m ca cb D : ℚ} (hk : 0 < k) (hm : 0 < m) : Through (k * ca) (k * cb) (m * D) ↔ Through ca cb D := by
  unfold Through
  rw [mul_nonpos_iff_pos_imp_nonpos, mul_nonpos_iff_pos_imp_nonpos]
  simp [hk, hm, hk.le, mul_neg_iff, not_lt.2 hm.le]

/-- On which side of the ray a point is. -/
def side (q u p : Point) : ℚ := u.x * (p.y - q.y) - u.y * (p.x - q.x)

/-- A point on the line of a ray and not on the ray is behind it. -/
theorem behind {q u p : Point} (hu : u.x ≠ 0 ∨ u.y ≠ 0) (h : side q u p = 0) (hp : ¬ OnRay q u p) : ∃ t < 0, At q u t p := by
  unfold side at h
  have : ∃ t, At q u t p := by
    rcases hu with hu | hu
    · refine ⟨(p.x - q.x) / u.x, ?_, ?_⟩
      · field_simp; ring
      · apply mul_right_cancel₀ hu
        field_simp
        linear_combination h
    · refine ⟨(p.y - q.y) / u.y, ?_, ?_⟩
      · apply mul_right_cancel₀ hu
        field_simp
        linear_combination -h
      · field_simp; ring
  obtain ⟨t, ht⟩ := this
  refine ⟨t, ?_, ht⟩
  by_contra h'
  exact hp ⟨t, not_lt.1 h', ht⟩

/-- What `Meets` becomes for a ray through no end of the edge. -/
theorem meets_iff {q u : Point} {e : Segment} (hu : u.x ≠ 0 ∨ u.y ≠ 0) (hq : ¬ On e q) (h0 : ¬ OnRay q u e.p0)
    (h1 : ¬ OnRay q u e.p1) : Meets q u e ↔ Through (side q u e.p0) (side q u e.p1) (orient e.p0 e.p1 q) := by
  obtain ⟨a, b⟩ := e
  simp only at h0 h1 ⊢
  have b0 := fun h => behind hu h h0
  have b1 := fun h => behind hu h h1
  constructor
  · rintro ⟨p, ⟨l, l0, l1, px, py⟩, ⟨t, t0, px', py'⟩⟩
    simp only at px py
    have e1 : (1 - l) * side q u a + l * side q u b = 0 := by
      unfold side
      linear_combination -u.y * (px' - px) + u.x * (py' - py)
    have e2 : t * (side q u b - side q u a) = orient a b q := by
      unfold side orient
      linear_combination (b.x - a.x) * (py' - py) - (b.y - a.y) * (px' - px)
    have hpq : t ≠ 0 := by
      rintro rfl
      refine hq ⟨l, l0, l1, ?_, ?_⟩
      · simp only; linarith
      · simp only; linarith
    have tpos : 0 < t := lt_of_le_of_ne t0 (Ne.symm hpq)
    have la : l = 0 → False := by
      rintro rfl
      refine h0 ⟨t, t0, ?_, ?_⟩ <;> linarith
    have lb : l = 1 → False := by
      rintro rfl
      refine h1 ⟨t, t0, ?_, ?_⟩ <;> linarith
    have l0' : 0 < l := lt_of_le_of_ne l0 fun h => la h.symm
    have l1' : 0 < 1 - l := by
      rcases lt_or_eq_of_le l1 with h | h
      · linarith
      · exact absurd h (fun h => lb h)
    unfold Through
    rcases lt_trichotomy (side q u a) 0 with ha | ha | ha
    · have hb : 0 < side q u b := by
        by_contra hb
        nlinarith [mul_neg_of_pos_of_neg l1' ha, mul_nonpos_of_nonneg_of_nonpos l0'.le (not_lt.1 hb)]
      exact Or.inl ⟨ha.le, hb, by rw [← e2]; exact mul_pos tpos (by linarith)⟩
    · exfalso
      have hb : side q u b = 0 := by
        rw [ha, mul_zero, zero_add] at e1
        exact (mul_eq_zero.1 e1).resolve_left l0'.ne'
      obtain ⟨s, hs, sx, sy⟩ := b0 ha
      obtain ⟨r, hr, rx, ry⟩ := b1 hb
      have hneg : (1 - l) * s + l * r < 0 := by
        have := mul_neg_of_pos_of_neg l1' hs
        have := mul_neg_of_pos_of_neg l0' hr
        linarith
      have ex : (t - ((1 - l) * s + l * r)) * u.x = 0 := by
        rw [sx, rx] at px
        linear_combination px - px'
      have ey : (t - ((1 - l) * s + l * r)) * u.y = 0 := by
        rw [sy, ry] at py
        linear_combination py - py'
      have hne : t - ((1 - l) * s + l * r) ≠ 0 := by linarith
      rcases hu with hu | hu
      · exact hu ((mul_eq_zero.1 ex).resolve_left hne)
      · exact hu ((mul_eq_zero.1 ey).resolve_left hne)
    · have hb : side q u b < 0 := by
        by_contra hb
        nlinarith [mul_pos l1' ha, mul_nonneg l0'.le (not_lt.1 hb)]
      exact Or.inr ⟨ha, hb.le, by rw [← e2]; exact mul_neg_of_pos_of_neg tpos (by linarith)⟩
  · intro h
    have hK : side q u b - side q u a ≠ 0 := by
      rcases h with ⟨h1, h2, -⟩ | ⟨h1, h2, -⟩ <;> linarith
    have hl : (-side q u a / (side q u b - side q u a)) * (side q u b - side q u a) = -side q u a := div_mul_cancel₀ _ hK
    have ht : (orient a b q / (side q u b - side q u a)) * (side q u b - side q u a) = orient a b q := div_mul_cancel₀ _ hK
    have r0 : 0 ≤ -side q u a / (side q u b - side q u a) := by
      rcases h with ⟨h1, h2, -⟩ | ⟨h1, h2, -⟩
      · exact div_nonneg (by linarith) (by linarith)
      · exact div_nonneg_of_nonpos (by linarith) (by linarith)
    have r1 : -side q u a / (side q u b - side q u a) ≤ 1 := by
      rcases h with ⟨h1, h2, -⟩ | ⟨h1, h2, -⟩
      · rw [div_le_one (by linarith)]; linarith
      · rw [div_le_one_of_neg (by linarith)]; linarith
    have r2 : 0 ≤ orient a b q / (side q u b - side q u a) := by
      rcases h with ⟨h1, h2, h3⟩ | ⟨h1, h2, h3⟩
      · exact div_nonneg h3.le (by linarith)
      · exact div_nonneg_of_nonpos h3.le (by linarith)
    generalize -side q u a / (side q u b - side q u a) = l at hl r0 r1
    generalize orient a b q / (side q u b - side q u a) = t at ht r2
    refine ⟨⟨q.x + t * u.x, q.y + t * u.y⟩, ⟨l, r0, r1, ?_, ?_⟩, ⟨t, r2, rfl, rfl⟩⟩
    · apply mul_right_cancel₀ hK
      simp only
      unfold side orient at *
      linear_combination u.x * ht - (b.x - a.x) * hl
    · apply mul_right_cancel₀ hK
      simp only
      unfold side orient at *
      linear_combination u.y * ht - (b.y - a.y) * hl

/-- An edge whose ends are on both sides of the line of a ray, and whose line goes through the start of the ray, goes through it. -/
theorem on_of_sides {q u : Point} {a b : Point} (h : side q u a * side q u b < 0) (hD : orient a b q = 0) : On ⟨a, b⟩ q := by
  have hK : side q u b - side q u a ≠ 0 := by
    intro h0
    rw [sub_eq_zero.1 h0] at h
    nlinarith [mul_self_nonneg (side q u a)]
  have hl : (-side q u a / (side q u b - side q u a)) * (side q u b - side q u a) = -side q u a := div_mul_cancel₀ _ hK
  have hr : 0 ≤ -side q u a / (side q u b - side q u a) ∧ -side q u a / (side q u b - side q u a) ≤ 1 := by
    rcases mul_neg_iff.1 h with ⟨h1, h2⟩ | ⟨h1, h2⟩
    · refine ⟨div_nonneg_of_nonpos (by linarith) (by linarith), ?_⟩
      rw [div_le_one_of_neg (by linarith)]; linarith
    · refine ⟨div_nonneg (by linarith) (by linarith), ?_⟩
      rw [div_le_one (by linarith)]; linarith
  generalize -side q u a / (side q u b - side q u a) = l at hl hr
  refine ⟨l, hr.1, hr.2, ?_, ?_⟩
  · apply mul_right_cancel₀ hK
    simp only
    unfold side orient at *
    linear_combination -u.x * hD - (b.x - a.x) * hl
  · apply mul_right_cancel₀ hK
    simp only
    unfold side orient at *
    linear_combination -u.y * hD - (b.y - a.y) * hl

/-! ## Two rays from a point, and an edge -/

/-- For two rays at an angle, an edge that avoids their start meets only one of them exactly when only one end is between them. -/
theorem edge_wedge {q u v a b : Point} (hK : 0 < u.x * v.y - u.y * v.x) (hq : ¬ On ⟨a, b⟩ q)
    (ua : ¬ OnRay q u a) (ub : ¬ OnRay q u b) (va : ¬ OnRay q v a) (vb : ¬ OnRay q v b) :
    ((Meets q u ⟨a, b⟩ ↔ Meets q v ⟨a, b⟩) ↔
      ((0 < -side q v a ∧ 0 < side q u a) ↔ (0 < -side q v b ∧ 0 < side q u b))) := by
  have hu : u.x ≠ 0 ∨ u.y ≠ 0 := by
    by_contra h; simp only [not_or, not_not] at h; rw [h.1, h.2] at hK; simp at hK
  have hv : v.x ≠ 0 ∨ v.y ≠ 0 := by
    by_contra h; simp only [not_or, not_not] at h; rw [h.1, h.2] at hK; simp at hK
  rw [meets_iff hu hq ua ub, meets_iff hv hq va vb]
  simp only
  have s1 := @through_scale 1 (u.x * v.y - u.y * v.x) (side q u a) (side q u b) (orient a b q) one_pos hK
  have s2 := @through_scale 1 (u.x * v.y - u.y * v.x) (side q v a) (side q v b) (orient a b q) one_pos hK
  rw [one_mul, one_mul] at s1 s2
  rw [← s1, ← s2]
  have zu : ∀ p, ¬ OnRay q u p → side q u p = 0 → -side q v p < 0 := by
    intro p h h0
    obtain ⟨t, ht, tx, ty⟩ := behind hu h0 h
    have : -side q v p = t * (u.x * v.y - u.y * v.x) := by unfold side; rw [tx, ty]; ring
    rw [this]; exact mul_neg_of_neg_of_pos ht hK
  have zv : ∀ p, ¬ OnRay q v p → -side q v p = 0 → side q u p < 0 := by
    intro p h h0
    obtain ⟨t, ht, tx, ty⟩ := behind hv (neg_eq_zero.1 h0) h
    have : side q u p = t * (u.x * v.y - u.y * v.x) := by unfold side; rw [tx, ty]; ring
    rw [this]; exact mul_neg_of_neg_of_pos ht hK
  have := @wedge (-side q v a) (side q u a) (-side q v b) (side q u b) ((u.x * v.y - u.y * v.x) * orient a b q)
    (zu a ua) (zv a va) (zu b ub) (zv b vb) (by unfold side orient; ring) (by
      by_cases hD : orient a b q = 0
      · right
        by_contra h
        simp only [not_or, not_lt] at h
        obtain ⟨h1, h2⟩ := h
        rcases eq_or_lt_of_le h2 with h2 | h2
        · rcases mul_eq_zero.1 h2 with h3 | h3
          · have h4 := zu a ua h3
            have h5 : (u.x * v.y - u.y * v.x) * orient a b q = (-side q v a) * side q u b - side q u a * (-side q v b) := by
              unfold side orient; ring
            rw [hD, h3, mul_zero, zero_mul, sub_zero] at h5
            have h6 : side q u b = 0 := (mul_eq_zero.1 h5.symm).resolve_left h4.ne
            have h7 := zu b ub h6
            nlinarith
          · have h4 := zu b ub h3
            have h5 : (u.x * v.y - u.y * v.x) * orient a b q = (-side q v a) * side q u b - side q u a * (-side q v b) := by
              unfold side orient; ring
            rw [hD, h3, mul_zero, mul_zero, zero_sub] at h5
            have h6 : side q u a = 0 := (mul_eq_zero.1 (neg_eq_zero.1 h5.symm)).resolve_right h4.ne
            have h7 := zu a ua h6
            nlinarith
        · exact hq (on_of_sides h2 hD)
      · exact Or.inl (mul_ne_zero hK.ne' hD))
  rw [neg_neg, neg_neg] at this
  exact this

/-- For two rays in opposite directions, an edge that avoids their start meets one of them exactly when its ends are on both sides. -/
theorem edge_opposite {q u v a b : Point} {k : ℚ} (hk : k < 0) (hvx : v.x = k * u.x) (hvy : v.y = k * u.y) (hu : u.x ≠ 0 ∨ u.y ≠ 0)
    (hq : ¬ On ⟨a, b⟩ q) (ua : ¬ OnRay q u a) (ub : ¬ OnRay q u b) (va : ¬ OnRay q v a) (vb : ¬ OnRay q v b) :
    ((Meets q u ⟨a, b⟩ ↔ Meets q v ⟨a, b⟩) ↔ (0 < side q u a ↔ 0 < side q u b)) := by
  have hv : v.x ≠ 0 ∨ v.y ≠ 0 := by
    rw [hvx, hvy]; exact hu.imp (mul_ne_zero hk.ne) (mul_ne_zero hk.ne)
  rw [meets_iff hu hq ua ub, meets_iff hv hq va vb]
  simp only
  have nz : ∀ p, ¬ OnRay q u p → ¬ OnRay q v p → side q u p ≠ 0 := by
    intro p h h' h0
    obtain ⟨t, ht, tx, ty⟩ := behind hu h0 h
    refine h' ⟨t / k, (div_pos_of_neg_of_neg ht hk).le, ?_, ?_⟩
    · rw [tx, hvx, ← mul_assoc, div_mul_cancel₀ _ hk.ne]
    · rw [ty, hvy, ← mul_assoc, div_mul_cancel₀ _ hk.ne]
  have e : ∀ p, side q v p = k * side q u p := by intro p; unfold side; rw [hvx, hvy]; ring
  have na := nz a ua va
  have nb := nz b ub vb
  have hD : side q u a * side q u b < 0 → orient a b q ≠ 0 := fun h h' => hq (on_of_sides h h')
  rw [e, e]
  unfold Through
  rcases lt_or_gt_of_ne na with h1 | h1 <;> rcases lt_or_gt_of_ne nb with h2 | h2
  · simp [h1.le, h2.le, not_lt.2 h1.le, not_lt.2 h2.le, h1, h2, mul_pos_of_neg_of_neg hk, not_le.2 (mul_pos_of_neg_of_neg hk h1),
      not_le.2 (mul_pos_of_neg_of_neg hk h2)]
  · have h3 := hD (mul_neg_of_neg_of_pos h1 h2)
    rcases lt_or_gt_of_ne h3 with h3 | h3 <;>
    simp [h1.le, h2, not_lt.2 h1.le, not_le.2 h2, h3, not_lt.2 h3.le, mul_pos_of_neg_of_neg hk h1, (mul_neg_of_neg_of_pos hk h2).le,
      not_le.2 (mul_pos_of_neg_of_neg hk h1), not_lt.2 (mul_neg_of_neg_of_pos hk h2).le]
  · have h3 := hD (mul_neg_of_pos_of_neg h1 h2)
    rcases lt_or_gt_of_ne h3 with h3 | h3 <;>
    simp [h2.le, h1, not_lt.2 h2.le, not_le.2 h1, h3, not_lt.2 h3.le, mul_pos_of_neg_of_neg hk h2, (mul_neg_of_neg_of_pos hk h1).le,
      not_le.2 (mul_pos_of_neg_of_neg hk h2), not_lt.2 (mul_neg_of_neg_of_pos hk h1).le]
  · simp [h1, h2, not_le.2 h1, not_le.2 h2, not_lt.2 (mul_neg_of_neg_of_pos hk h1).le, not_lt.2 (mul_neg_of_neg_of_pos hk h2).le]

/-- Rays in the same direction are the same. -/
theorem onRay_same {q u v p : Point} {k : ℚ} (hk : 0 < k) (hvx : v.x = k * u.x) (hvy : v.y = k * u.y) : OnRay q u p ↔ OnRay q v p := by
  constructor
  · rintro ⟨t, ht, tx, ty⟩
    refine ⟨t / k, (div_nonneg ht hk.le), ?_, ?_⟩
    · rw [tx, hvx, ← mul_assoc, div_mul_cancel₀ _ hk.ne']
    · rw [ty, hvy, ← mul_assoc, div_mul_cancel₀ _ hk.ne']
  · rintro ⟨t, ht, tx, ty⟩
    refine ⟨t * k, mul_nonneg ht hk.le, ?_, ?_⟩
    · rw [tx, hvx, mul_assoc]
    · rw [ty, hvy, mul_assoc]

/-! ## Round a closed line -/

theorem loop_ends_mem {prev : Point} {l : List Point} {e : Segment} (h : e ∈ detectEdges.loop prev l) :
    e.p0 ∈ prev :: l ∧ e.p1 ∈ l := by
  induction l generalizing prev with
  | nil => simp [detectEdges.loop] at h
  | cons p l ih =>
    rw [detectEdges.loop] at h
    rcases List.mem_cons.1 h with rfl | h
    · simp
    · obtain ⟨h1, h2⟩ := ih h
      exact ⟨List.mem_cons_of_mem _ h1, List.mem_cons_of_mem _ h2⟩

open Classical in
/-- Along a line, the edges that have just one of two qualities are counted by the changes of a third. -/
theorem chain_parity {P Q : Segment → Prop} {φ : Point → Prop} {l : List Point} {prev : Point}
    (h : ∀ e ∈ detectEdges.loop prev l, (P e ↔ Q e) ↔ (φ e.p0 ↔ φ e.p1)) :
    ((Even ((detectEdges.loop prev l).countP fun e => decide (P e)) ↔ Even ((detectEdges.loop prev l).countP fun e => decide (Q e))) ↔
      (φ prev ↔ φ (l.getLast?.getD prev))) := by
  induction l generalizing prev with
  | nil => simp [detectEdges.loop]
  | cons p l ih =>
    rw [detectEdges.loop] at h ⊢
    have h1 := h ⟨prev, p⟩ (by simp)
    have h2 := ih fun e he => h e (List.mem_cons_of_mem _ he)
    rw [List.getLast?_cons, Option.getD_some, List.countP_cons, List.countP_cons]
    simp only at h1
    by_cases hP : P ⟨prev, p⟩ <;> by_cases hQ : Q ⟨prev, p⟩ <;> simp only [hP, hQ, decide_true, decide_false, if_true, Bool.false_eq_true, if_false,
      add_zero, Nat.even_add_one] at h1 ⊢ <;> tauto

theorem zipWith_loop (prev x : Point) (l : List Point) :
    List.zipWith Segment.mk (prev :: l) (l ++ [x]) = detectEdges.loop prev (l ++ [x]) := by
  induction l generalizing prev with
  | nil => rfl
  | cons p l ih =>
    show _ :: List.zipWith Segment.mk (p :: l) (l ++ [x]) = _
    rw [ih]; rfl

theorem ring_cons (p : Point) (l : List Point) : ring (p :: l) = detectEdges.loop p (l ++ [p]) := by
  simp [ring, zipWith_loop]

theorem loop_append (prev : Point) (l : List Point) (x : Point) :
    detectEdges.loop prev (l ++ [x]) = detectEdges.loop prev l ++ [⟨l.getLast?.getD prev, x⟩] := by
  induction l generalizing prev with
  | nil => rfl
  | cons p l ih =>
    rw [List.getLast?_cons, Option.getD_some]
    show _ :: detectEdges.loop p (l ++ [x]) = _
    rw [ih]; rfl

/-- The edges in the order of the code are those of the closed line. -/
theorem ring_perm {points : List Point} {edges : List Segment} (h : detectEdges points = some edges) : edges.Perm (ring points) := by
  cases points with
  | nil => simp [detectEdges] at h
  | cons p l =>
    rw [detectEdges, List.getLast?_cons, Option.map_some, Option.some.injEq] at h
    rw [ring_cons, loop_append, ← h]
    exact (List.perm_append_comm (l₁ := [_])).trans (List.Perm.refl _)

theorem ring_ends {points : List Point} {e : Segment} (h : e ∈ ring points) : e.p0 ∈ points ∧ e.p1 ∈ points := by
  cases points with
  | nil => simp [ring] at h
  | cons p l =>
    rw [ring_cons] at h
    have := loop_ends_mem h
    simp only [List.mem_cons, List.mem_append] at this ⊢
    simp only [List.not_mem_nil, or_false] at this
    tauto

open Classical in
theorem ring_parity {P Q : Segment → Prop} {φ : Point → Prop} {points : List Point}
    (h : ∀ e ∈ ring points, (P e ↔ Q e) ↔ (φ e.p0 ↔ φ e.p1)) :
    (Even ((ring points).countP fun e => decide (P e)) ↔ Even ((ring points).countP fun e => decide (Q e))) := by
  cases points with
  | nil => simp [ring]
  | cons p l =>
    rw [ring_cons] at h ⊢
    rw [chain_parity h]
    simp

/-- Whether the number of crossings is odd does not depend on the ray. -/
theorem crossings_parity {points : List Point} {q u v : Point} (hq : ¬ OnLine points q) (hu : Usable points q u) (hv : Usable points q v) :
    Even (crossings points q u) ↔ Even (crossings points q v) := by
  have hq' : ∀ e ∈ ring points, ¬ On e q := fun e he h => hq ⟨e, he, h⟩
  unfold crossings
  rcases lt_trichotomy (u.x * v.y - u.y * v.x) 0 with hK | hK | hK
  · symm
    refine ring_parity (φ := fun p => 0 < -side q u p ∧ 0 < side q v p) fun e he => ?_
    obtain ⟨h0, h1⟩ := ring_ends he
    exact edge_wedge (by linarith) (hq' e he) (hv.2 _ h0) (hv.2 _ h1) (hu.2 _ h0) (hu.2 _ h1)
  · have : ∃ k : ℚ, v.x = k * u.x ∧ v.y = k * u.y := by
      rcases hu.1 with h | h
      · refine ⟨v.x / u.x, (div_mul_cancel₀ _ h).symm, ?_⟩
        apply mul_right_cancel₀ h
        field_simp
        linear_combination hK
      · refine ⟨v.y / u.y, ?_, (div_mul_cancel₀ _ h).symm⟩
        apply mul_right_cancel₀ h
        field_simp
        linear_combination -hK
    obtain ⟨k, kx, ky⟩ := this
    rcases lt_trichotomy k 0 with hk | rfl | hk
    · refine ring_parity (φ := fun p => 0 < side q u p) fun e he => ?_
      obtain ⟨h0, h1⟩ := ring_ends he
      exact edge_opposite hk kx ky hu.1 (hq' e he) (hu.2 _ h0) (hu.2 _ h1) (hv.2 _ h0) (hv.2 _ h1)
    · exfalso
      rw [zero_mul] at kx ky
      rcases hv.1 with h | h <;> exact h (by assumption)
    · have : ∀ e, Meets q u e ↔ Meets q v e := by
        intro e
        unfold Meets
        simp only [onRay_same hk kx ky]
      exact ring_parity (φ := fun _ => True) fun e _ => by simp [this e]
  · refine ring_parity (φ := fun p => 0 < -side q v p ∧ 0 < side q u p) fun e he => ?_
    obtain ⟨h0, h1⟩ := ring_ends he
    exact edge_wedge hK (hq' e he) (hu.2 _ h0) (hu.2 _ h1) (hv.2 _ h0) (hv.2 _ h1)

/-! ## Beyond a line -/

/-- A point beyond a line that has the whole polygon on its other side sees it behind. -/
theorem beyond {points : List Point} {q : Point} {α β m : ℚ} (hp : ∀ p ∈ points, α * p.x + β * p.y ≤ m) (hq : m < α * q.x + β * q.y) :
    ¬ OnLine points q ∧ ((α ≠ 0 ∨ β ≠ 0) → Usable points q ⟨α, β⟩ ∧ crossings points q ⟨α, β⟩ = 0) := by
  have hon : ∀ e ∈ ring points, ∀ p, On e p → α * p.x + β * p.y ≤ m := by
    rintro e he p ⟨t, t0, t1, px, py⟩
    obtain ⟨h0, h1⟩ := ring_ends he
    have h0 := hp _ h0
    have h1 := hp _ h1
    rw [px, py]
    nlinarith [mul_le_mul_of_nonneg_left h0 (sub_nonneg.2 t1), mul_le_mul_of_nonneg_left h1 t0]
  have hray : ∀ p, OnRay q ⟨α, β⟩ p → m < α * p.x + β * p.y := by
    rintro p ⟨t, t0, px, py⟩
    rw [px, py]
    nlinarith [mul_nonneg t0 (mul_self_nonneg α), mul_nonneg t0 (mul_self_nonneg β)]
  refine ⟨fun ⟨e, he, h⟩ => absurd (hon e he q h) (not_le.2 hq), fun hne => ⟨⟨hne, fun p h h' => absurd (hp p h) (not_le.2 (hray p h'))⟩, ?_⟩⟩
  unfold crossings
  rw [List.countP_eq_zero]
  intro e he
  simp only [decide_eq_true_eq]
  rintro ⟨p, h1, h2⟩
  exact absurd (hon e he p h1) (not_le.2 (hray p h2))

/-! ## Exact comparisons on the grid -/

theorem grid_product {x : ℚ} {n : ℤ} (h : x = n / 25000000) (hx : |x / 2| < tolerance) : x = 0 := by
  have h1 : |(n : ℚ)| < 1 := by
    rw [h, tolerance, abs_div, abs_div, abs_two, abs_of_pos (show (0 : ℚ) < 25000000 by norm_num)] at hx
    rw [div_div, div_lt_div_iff₀ (by norm_num) (by norm_num)] at hx
    linarith
  have h2 : |n| < 1 := by exact_mod_cast h1
  have h3 : n = 0 := Int.abs_lt_one_iff.1 h2
  rw [h, h3]; simp

theorem grid_orient {a b c : Point} (ha : OnGrid a) (hb : OnGrid b) (hc : OnGrid c) : ∃ n : ℤ, orient a b c = n / 25000000 := by
  obtain ⟨a1, a2, h1, h2⟩ := ha
  obtain ⟨b1, b2, h3, h4⟩ := hb
  obtain ⟨c1, c2, h5, h6⟩ := hc
  refine ⟨(b1 - a1) * (c2 - a2) - (b2 - a2) * (c1 - a1), ?_⟩
  unfold orient
  rw [h1, h2, h3, h4, h5, h6]
  push_cast
  ring

/-- On the grid, the sense of a triangle is the sign of its area. -/
theorem grid_sense {a b c : Point} (ha : OnGrid a) (hb : OnGrid b) (hc : OnGrid c) :
    (senseOf (orient a b c / 2) = .colinear ∧ orient a b c = 0) ∨ (senseOf (orient a b c / 2) = .ccw ∧ 0 < orient a b c) ∨
    (senseOf (orient a b c / 2) = .cw ∧ orient a b c < 0) := by
  obtain ⟨n, hn⟩ := grid_orient ha hb hc
  have hp := tolerance_pos
  cases h : senseOf (orient a b c / 2) with
  | colinear => exact Or.inl ⟨rfl, grid_product hn (senseOf_colinear.1 h)⟩
  | ccw => have := senseOf_ccw.1 h; exact Or.inr (Or.inl ⟨rfl, by linarith⟩)
  | cw => have := senseOf_cw.1 h; exact Or.inr (Or.inr ⟨rfl, by linarith⟩)

theorem grid_eq {p q : Point} (hp : OnGrid p) (hq : OnGrid q) (h : p.eq q = true) : p = q := by
  obtain ⟨a, b, h1, h2⟩ := hp
  obtain ⟨c, d, h3, h4⟩ := hq
  simp only [Point.eq, Bool.and_eq_true, coordEq_iff] at h
  have key : ∀ {m n : ℤ} {x y : ℚ}, x = m / 5000 → y = n / 5000 → |x - y| < tolerance → x = y := by
    intro m n x y hx hy hxy
    have : x - y = ((m - n) * 5000 : ℤ) / 25000000 := by rw [hx, hy]; push_cast; ring
    have := grid_product this (by rw [abs_div, abs_two]; linarith [abs_nonneg (x - y)])
    linarith
  obtain ⟨px, py⟩ := p
  obtain ⟨qx, qy⟩ := q
  exact congrArg₂ Point.mk (key h1 h3 h.1) (key h2 h4 h.2)

theorem on_orient {s : Segment} {c : Point} (h : On s c) : orient s.p0 s.p1 c = 0 := by
  obtain ⟨t, -, -, hx, hy⟩ := h
  simp only [orient, hx, hy]
  ring

/-- On the grid, `relation_to(Point)` is exact. -/
theorem grid_hasPoint {s : Segment} {p : Point} (h0 : OnGrid s.p0) (h1 : OnGrid s.p1) (hp : OnGrid p) : s.hasPoint p = true ↔ On s p := by
  obtain ⟨a, b⟩ := s
  simp only at h0 h1
  constructor
  · intro h
    have hb := hasPoint_box h
    simp only [Segment.hasPoint, Bool.and_eq_true, decide_eq_true_eq] at h
    have hc := h.1.1.1.1
    rw [rotation_triangle] at hc
    have hD : orient a b p = 0 := by
      rcases grid_sense h0 h1 hp with h | h | h
      · exact h.2
      · rw [h.1] at hc; cases hc
      · rw [h.1] at hc; cases hc
    simp only at hb
    obtain ⟨b1, b2, b3, b4⟩ := hb
    have frac : ∀ {x y z : ℚ}, z ≤ max x y → min x y ≤ z → y - x ≠ 0 → 0 ≤ (z - x) / (y - x) ∧ (z - x) / (y - x) ≤ 1 := by
      intro x y z h h' hne
      rcases lt_or_gt_of_ne hne with hlt | hlt
      · rw [max_eq_left (by linarith)] at h
        rw [min_eq_right (by linarith)] at h'
        exact ⟨div_nonneg_of_nonpos (by linarith) hlt.le, by rw [div_le_one_of_neg hlt]; linarith⟩
      · rw [max_eq_right (by linarith)] at h
        rw [min_eq_left (by linarith)] at h'
        exact ⟨div_nonneg (by linarith) hlt.le, by rw [div_le_one hlt]; linarith⟩
    unfold orient at hD
    by_cases hx : b.x - a.x = 0
    · by_cases hy : b.y - a.y = 0
      · have ex : b.x = a.x := by linarith
        have ey : b.y = a.y := by linarith
        rw [ex, max_self] at b1
        rw [ex, min_self] at b2
        rw [ey, max_self] at b3
        rw [ey, min_self] at b4
        exact ⟨0, le_refl _, zero_le_one, by simp only; linarith, by simp only; linarith⟩
      · obtain ⟨f0, f1⟩ := frac b3 b4 hy
        refine ⟨_, f0, f1, ?_, ?_⟩
        · simp only
          apply mul_right_cancel₀ hy
          field_simp
          linear_combination -hD
        · simp only; field_simp; ring
    · obtain ⟨f0, f1⟩ := frac b1 b2 hx
      refine ⟨_, f0, f1, ?_, ?_⟩
      · simp only; field_simp; ring
      · simp only
        apply mul_right_cancel₀ hx
        field_simp
        linear_combination hD
  · intro h
    have hD := on_orient h
    obtain ⟨t, t0, t1, hx, hy⟩ := h
    simp only at hx hy hD
    have frac : ∀ x y : ℚ, x + t * (y - x) ≤ max x y ∧ min x y ≤ x + t * (y - x) := by
      intro x y
      have e : x + t * (y - x) = (1 - t) * x + t * y := by ring
      rw [e]
      have t1' : 0 ≤ 1 - t := by linarith
      constructor
      · nlinarith [mul_le_mul_of_nonneg_left (le_max_left x y) t1', mul_le_mul_of_nonneg_left (le_max_right x y) t0]
      · nlinarith [mul_le_mul_of_nonneg_left (min_le_left x y) t1', mul_le_mul_of_nonneg_left (min_le_right x y) t0]
    exact hasPoint_of hD (hx ▸ (frac _ _).1) (hx ▸ (frac _ _).2) (hy ▸ (frac _ _).1) (hy ▸ (frac _ _).2)

/-- Same sign. -/
def Alike (x y : ℚ) : Prop := (x = 0 ∧ y = 0) ∨ (0 < x ∧ 0 < y) ∨ (x < 0 ∧ y < 0)

theorem grid_alike {a b c a' b' c' : Point} (ha : OnGrid a) (hb : OnGrid b) (hc : OnGrid c) (ha' : OnGrid a') (hb' : OnGrid b')
    (hc' : OnGrid c') : senseOf (orient a b c / 2) = senseOf (orient a' b' c' / 2) ↔ Alike (orient a b c) (orient a' b' c') := by
  unfold Alike
  rcases grid_sense ha hb hc with ⟨h1, h2⟩ | ⟨h1, h2⟩ | ⟨h1, h2⟩ <;> rcases grid_sense ha' hb' hc' with ⟨h3, h4⟩ | ⟨h3, h4⟩ | ⟨h3, h4⟩ <;>
    rw [h1, h3] <;> constructor
  all_goals first
    | (intro h; first
      | exact Or.inl ⟨h2, h4⟩
      | exact Or.inr (Or.inl ⟨h2, h4⟩)
      | exact Or.inr (Or.inr ⟨h2, h4⟩)
      | (cases h; done))
    | (rintro (⟨h5, h6⟩ | ⟨h5, h6⟩ | ⟨h5, h6⟩) <;> first | rfl | (exfalso; linarith))

/-- On the grid, `relation_to(Segment)` compares signs. -/
theorem grid_crossing {a b q r : Point} (ha : OnGrid a) (hb : OnGrid b) (hq : OnGrid q) (hr : OnGrid r) :
    (Segment.mk a b).relationTo ⟨q, r⟩ = .crossing ↔
      ¬ Alike (orient a b q) (orient a b r) ∧ ¬ Alike (orient q r a) (orient q r b) := by
  rw [crossing_iff]
  simp only [ne_eq]
  rw [grid_alike ha hb hq ha hb hr, grid_alike hq hr ha hq hr hb]

theorem orient_side (q r a : Point) : orient q r a = side q ⟨r.x - q.x, r.y - q.y⟩ a := rfl

theorem orient_end (a b q r : Point) :
    orient a b r = orient a b q - (side q ⟨r.x - q.x, r.y - q.y⟩ b - side q ⟨r.x - q.x, r.y - q.y⟩ a) := by
  simp only [orient, side]; ring

/-- The crossings counted by the code are those of the ray, when its start is not beyond the polygon and its end is. -/
theorem crossing_through {a b q r : Point} {α β m : ℚ} (ha : OnGrid a) (hb : OnGrid b) (hq : OnGrid q) (hr : OnGrid r)
    (fa : α * a.x + β * a.y ≤ m) (fb : α * b.x + β * b.y ≤ m) (fq : α * q.x + β * q.y ≤ m) (fr : m < α * r.x + β * r.y)
    (hoff : ¬ On ⟨a, b⟩ q) (ra : ¬ OnRay q ⟨r.x - q.x, r.y - q.y⟩ a) (rb : ¬ OnRay q ⟨r.x - q.x, r.y - q.y⟩ b) :
    (Segment.mk a b).relationTo ⟨q, r⟩ = .crossing ↔ Meets q ⟨r.x - q.x, r.y - q.y⟩ ⟨a, b⟩ := by
  have hu : r.x - q.x ≠ 0 ∨ r.y - q.y ≠ 0 := by
    by_contra h
    simp only [not_or, not_not] at h
    have h1 : r.x = q.x := by linarith
    have h2 : r.y = q.y := by linarith
    rw [h1, h2] at fr; linarith
  rw [grid_crossing ha hb hq hr, meets_iff hu hoff ra rb, orient_side q r a, orient_side q r b, orient_end a b q r]
  have za := fun h => behind hu h ra
  have zb := fun h => behind hu h rb
  have hD : side q ⟨r.x - q.x, r.y - q.y⟩ a * side q ⟨r.x - q.x, r.y - q.y⟩ b < 0 → orient a b q ≠ 0 := fun h h' => hoff (on_of_sides h h')
  have hf : orient a b q * (α * (r.x - q.x) + β * (r.y - q.y)) =
      side q ⟨r.x - q.x, r.y - q.y⟩ b * (α * (a.x - q.x) + β * (a.y - q.y)) -
      side q ⟨r.x - q.x, r.y - q.y⟩ a * (α * (b.x - q.x) + β * (b.y - q.y)) := by
    simp only [orient, side]; ring
  have hza : side q ⟨r.x - q.x, r.y - q.y⟩ a = 0 → ∃ t < 0, orient a b q = t * side q ⟨r.x - q.x, r.y - q.y⟩ b := by
    intro h
    obtain ⟨t, ht, tx, ty⟩ := za h
    refine ⟨t, ht, ?_⟩
    simp only [orient, side] at *
    rw [tx, ty]; ring
  have hzb : side q ⟨r.x - q.x, r.y - q.y⟩ b = 0 → ∃ t < 0, orient a b q = -t * side q ⟨r.x - q.x, r.y - q.y⟩ a := by
    intro h
    obtain ⟨t, ht, tx, ty⟩ := zb h
    refine ⟨t, ht, ?_⟩
    simp only [orient, side] at *
    rw [tx, ty]; ring
  simp only
  generalize side q ⟨r.x - q.x, r.y - q.y⟩ a = ca at *
  generalize side q ⟨r.x - q.x, r.y - q.y⟩ b = cb at *
  generalize orient a b q = D at *
  have gu : 0 < α * (r.x - q.x) + β * (r.y - q.y) := by linarith
  have gb : α * (b.x - q.x) + β * (b.y - q.y) < α * (r.x - q.x) + β * (r.y - q.y) := by linarith
  have ga : α * (a.x - q.x) + β * (a.y - q.y) < α * (r.x - q.x) + β * (r.y - q.y) := by linarith
  generalize α * (a.x - q.x) + β * (a.y - q.y) = A at *
  generalize α * (b.x - q.x) + β * (b.y - q.y) = B at *
  generalize α * (r.x - q.x) + β * (r.y - q.y) = U at *
  unfold Alike Through
  rcases lt_trichotomy ca 0 with h1 | h1 | h1 <;> rcases lt_trichotomy cb 0 with h2 | h2 | h2
  · exact iff_of_false (fun h => h.2 (Or.inr (Or.inr ⟨h1, h2⟩))) (by rintro (⟨x, y, z⟩ | ⟨x, y, z⟩) <;> linarith)
  · obtain ⟨t, ht, hD'⟩ := hzb h2
    have k1 : D < 0 := by rw [hD']; nlinarith
    have k2 : D - (cb - ca) < 0 := by linarith
    exact iff_of_false (fun h => h.1 (Or.inr (Or.inr ⟨k1, k2⟩))) (by rintro (⟨x, y, z⟩ | ⟨x, y, z⟩) <;> linarith)
  · have hne := hD (mul_neg_of_neg_of_pos h1 h2)
    rcases lt_or_gt_of_ne hne with h3 | h3
    · have k1 := h3
      have k2 : D - (cb - ca) < 0 := by linarith
      exact iff_of_false (fun h => h.1 (Or.inr (Or.inr ⟨k1, k2⟩))) (by rintro (⟨x, y, z⟩ | ⟨x, y, z⟩) <;> linarith)
    · have : D - (cb - ca) < 0 := by
        by_contra h4
        nlinarith [mul_le_mul_of_nonneg_right (sub_nonneg.1 (not_lt.1 h4)) gu.le]
      exact iff_of_true ⟨by rintro (⟨x, y⟩ | ⟨x, y⟩ | ⟨x, y⟩) <;> linarith, by rintro (⟨x, y⟩ | ⟨x, y⟩ | ⟨x, y⟩) <;> linarith⟩ (Or.inl ⟨h1.le, h2, h3⟩)
  · obtain ⟨t, ht, hD'⟩ := hza h1
    have k1 : 0 < D := by rw [hD']; nlinarith
    have k2 : 0 < D - (cb - ca) := by linarith
    exact iff_of_false (fun h => h.1 (Or.inr (Or.inl ⟨k1, k2⟩))) (by rintro (⟨x, y, z⟩ | ⟨x, y, z⟩) <;> linarith)
  · exact iff_of_false (fun h => h.2 (Or.inl ⟨h1, h2⟩)) (by rintro (⟨x, y, z⟩ | ⟨x, y, z⟩) <;> linarith)
  · obtain ⟨t, ht, hD'⟩ := hza h1
    have k1 : D < 0 := by rw [hD']; nlinarith
    have k2 : D - (cb - ca) < 0 := by linarith
    exact iff_of_false (fun h => h.1 (Or.inr (Or.inr ⟨k1, k2⟩))) (by rintro (⟨x, y, z⟩ | ⟨x, y, z⟩) <;> linarith)
  · have hne := hD (mul_neg_of_pos_of_neg h1 h2)
    rcases lt_or_gt_of_ne hne with h3 | h3
    · have : 0 < D - (cb - ca) := by
        by_contra h4
        nlinarith [mul_le_mul_of_nonneg_right (sub_nonpos.1 (not_lt.1 h4)) gu.le]
      exact iff_of_true ⟨by rintro (⟨x, y⟩ | ⟨x, y⟩ | ⟨x, y⟩) <;> linarith, by rintro (⟨x, y⟩ | ⟨x, y⟩ | ⟨x, y⟩) <;> linarith⟩ (Or.inr ⟨h1, h2.le, h3⟩)
    · have k1 := h3
      have k2 : 0 < D - (cb - ca) := by linarith
      exact iff_of_false (fun h => h.1 (Or.inr (Or.inl ⟨k1, k2⟩))) (by rintro (⟨x, y, z⟩ | ⟨x, y, z⟩) <;> linarith)
  · obtain ⟨t, ht, hD'⟩ := hzb h2
    have k1 : 0 < D := by rw [hD']; nlinarith
    have k2 : 0 < D - (cb - ca) := by linarith
    exact iff_of_false (fun h => h.1 (Or.inr (Or.inl ⟨k1, k2⟩))) (by rintro (⟨x, y, z⟩ | ⟨x, y, z⟩) <;> linarith)
  · exact iff_of_false (fun h => h.2 (Or.inr (Or.inl ⟨h1, h2⟩))) (by rintro (⟨x, y, z⟩ | ⟨x, y, z⟩) <;> linarith)

/-- A ray that starts and ends beyond the polygon crosses nothing. -/
theorem crossing_beyond {a b q r : Point} {α β m : ℚ} (ha : OnGrid a) (hb : OnGrid b) (hq : OnGrid q) (hr : OnGrid r)
    (fa : α * a.x + β * a.y ≤ m) (fb : α * b.x + β * b.y ≤ m) (fq : m < α * q.x + β * q.y) (fr : m < α * r.x + β * r.y) :
    ¬ (Segment.mk a b).relationTo ⟨q, r⟩ = .crossing := by
  rw [grid_crossing ha hb hq hr]
  have e1 : orient a b q - orient a b r = orient q r b - orient q r a := by simp only [orient]; ring
  have e2 : orient a b q * (α * r.x + β * r.y) - orient a b r * (α * q.x + β * q.y) =
      orient q r b * (α * a.x + β * a.y) - orient q r a * (α * b.x + β * b.y) := by simp only [orient]; ring
  rintro ⟨h1, h2⟩
  generalize orient a b q = D at *
  generalize orient a b r = R at *
  generalize orient q r a = ca at *
  generalize orient q r b = cb at *
  generalize α * a.x + β * a.y = A at *
  generalize α * b.x + β * b.y = B at *
  generalize α * q.x + β * q.y = Q at *
  generalize α * r.x + β * r.y = W at *
  have opp : ∀ {x y : ℚ}, ¬ Alike x y → (x ≤ 0 ∧ 0 ≤ y ∧ x < y) ∨ (0 ≤ x ∧ y ≤ 0 ∧ y < x) := by
    intro x y h
    unfold Alike at h
    rcases lt_trichotomy x 0 with h1 | h1 | h1 <;> rcases lt_trichotomy y 0 with h2 | h2 | h2
    all_goals first
      | exact (h (Or.inl ⟨h1, h2⟩)).elim
      | exact (h (Or.inr (Or.inl ⟨h1, h2⟩))).elim
      | exact (h (Or.inr (Or.inr ⟨h1, h2⟩))).elim
      | exact Or.inl ⟨by linarith, by linarith, by linarith⟩
      | exact Or.inr ⟨by linarith, by linarith, by linarith⟩
  rcases opp h1 with ⟨d1, d2, d3⟩ | ⟨d1, d2, d3⟩ <;> rcases opp h2 with ⟨c1, c2, c3⟩ | ⟨c1, c2, c3⟩
  · linarith
  · have i1 : D * W ≤ D * m := mul_le_mul_of_nonpos_left fr.le d1
    have i2 : R * m ≤ R * Q := mul_le_mul_of_nonneg_left fq.le d2
    have i3 : cb * m ≤ cb * A := mul_le_mul_of_nonpos_left fa c2
    have i4 : ca * B ≤ ca * m := mul_le_mul_of_nonneg_left fb c1
    have i5 : D * m - R * m = cb * m - ca * m := by rw [← sub_mul, ← sub_mul, e1]
    rcases eq_or_lt_of_le d1 with h | h
    · have : R * m < R * Q := mul_lt_mul_of_pos_left fq (by linarith)
      linarith
    · have : D * W < D * m := mul_lt_mul_of_neg_left fr h
      linarith
  · have i1 : D * m ≤ D * W := mul_le_mul_of_nonneg_left fr.le d1
    have i2 : R * Q ≤ R * m := mul_le_mul_of_nonpos_left fq.le d2
    have i3 : cb * A ≤ cb * m := mul_le_mul_of_nonneg_left fa c2
    have i4 : ca * m ≤ ca * B := mul_le_mul_of_nonpos_left fb c1
    have i5 : D * m - R * m = cb * m - ca * m := by rw [← sub_mul, ← sub_mul, e1]
    rcases eq_or_lt_of_le d1 with h | h
    · have : R * Q < R * m := mul_lt_mul_of_neg_left fq (by linarith)
      linarith
    · have : D * m < D * W := mul_lt_mul_of_pos_left fr h
      linarith
  · linarith

end Verif.Geom
