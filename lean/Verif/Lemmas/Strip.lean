import Verif.Lemmas.EvenOdd
import Verif.Spec.Inside

/-!
# Moving without crossing a closed line
-/

namespace Verif.Geom
open Verif.Mesh Spec

theorem four (a b c d : Prop) : ((¬ (a ↔ b) ↔ ¬ (c ↔ d)) ↔ (¬ (a ↔ c) ↔ ¬ (b ↔ d))) := by
  by_cases a <;> by_cases b <;> by_cases c <;> by_cases d <;> simp [*]

theorem false_iff_of {a b : Prop} (h : ¬ a) : (a ↔ b) ↔ ¬ b := by simp [h]

theorem iff_false_of {a b : Prop} (h : ¬ b) : (a ↔ b) ↔ ¬ a := by simp [h]

theorem through_swap {ca cb D : ℚ} : Through ca cb D ↔ Through cb ca (-D) := by
  unfold Through
  rw [neg_pos, neg_neg_iff_pos]
  tauto

/-- An edge below the start of a ray is not met. -/
theorem through_low {Sa Ta Sb Tb E : ℚ} (hE : E = Sa * Tb - Ta * Sb) (ha : Ta ≤ 0) (hb : Tb ≤ 0) : ¬ Through (-Sa) (-Sb) E := by
  rintro (⟨h1, h2, h3⟩ | ⟨h1, h2, h3⟩)
  · nlinarith [mul_nonneg (show 0 ≤ Sa by linarith) (neg_nonneg.2 hb), mul_nonneg (neg_nonneg.2 ha) (show 0 ≤ -Sb by linarith)]
  · nlinarith [mul_nonneg (show 0 ≤ -Sa by linarith) (neg_nonneg.2 hb), mul_nonneg (neg_nonneg.2 ha) (show 0 ≤ Sb by linarith)]

/-- An edge above the start of a ray is met when its ends are on both sides. -/
theorem through_high {Sa Ta Sb Tb E : ℚ} (hE : E = Sa * Tb - Ta * Sb) (ha : 0 ≤ Ta) (hb : 0 ≤ Tb) (hab : 0 < Ta ∨ 0 < Tb)
    (a0 : Sa ≠ 0) (b0 : Sb ≠ 0) : Through (-Sa) (-Sb) E ↔ ¬ (Sa < 0 ↔ Sb < 0) := by
  rcases lt_or_gt_of_ne a0 with h1 | h1 <;> rcases lt_or_gt_of_ne b0 with h2 | h2
  · refine iff_of_false ?_ (by simp [h1, h2])
    rintro (⟨h3, h4, -⟩ | ⟨h3, h4, -⟩) <;> linarith
  · refine iff_of_true (Or.inr ⟨by linarith, by linarith, ?_⟩) (by simp [h1, not_lt.2 h2.le])
    rcases hab with h | h <;> nlinarith [mul_nonneg (neg_pos.2 h1).le hb, mul_nonneg ha h2.le, mul_pos h h2, mul_pos h (neg_pos.2 h1)]
  · refine iff_of_true (Or.inl ⟨by linarith, by linarith, ?_⟩) (by simp [h2, not_lt.2 h1.le])
    rcases hab with h | h <;> nlinarith [mul_nonneg (neg_pos.2 h2).le ha, mul_nonneg hb h1.le, mul_pos h h1, mul_pos h (neg_pos.2 h2)]
  · refine iff_of_false ?_ (by simp [not_lt.2 h1.le, not_lt.2 h2.le])
    rintro (⟨h3, h4, -⟩ | ⟨h3, h4, -⟩) <;> linarith

/-- An edge that goes up past the side of a half strip. -/
theorem strip_up {Sa Ta Sb Tb K E E' : ℚ} (hK : 0 < K) (hE : E = Sa * Tb - Ta * Sb) (hE' : E' = (Sa - K) * Tb - Ta * (Sb - K))
    (ha : Ta < 0) (hb : 0 < Tb) (b0 : Sb ≠ 0) (up : E < 0 ∨ 0 < E') :
    ((Through (-Sa) (-Sb) E ↔ Through (K - Sa) (K - Sb) E') ↔ ¬ (0 < Sb ∧ Sb < K)) := by
  have hlt : E' < E := by nlinarith [mul_pos hK hb, mul_pos hK (neg_pos.2 ha)]
  unfold Through
  rcases up with h | h
  · -- The edge passes on the left.
    have hle : 0 ≤ Sb → Sa < 0 := by
      intro h1
      by_contra h2
      nlinarith [mul_nonneg (not_lt.1 h2) hb.le, mul_nonneg (neg_pos.2 ha).le h1]
    by_cases h1 : Sb < 0
    · refine iff_of_true (iff_of_false ?_ ?_) (fun h2 => by linarith [h2.1])
      · rintro (⟨h3, h4, h5⟩ | ⟨h3, h4, h5⟩) <;> linarith
      · rintro (⟨h3, h4, h5⟩ | ⟨h3, h4, h5⟩) <;> linarith
    · have h3 := hle (not_lt.1 h1)
      by_cases h2 : Sb < K
      · refine iff_of_false (fun h4 => ?_) (fun h4 => h4 ⟨lt_of_le_of_ne (not_lt.1 h1) (Ne.symm b0), h2⟩)
        have h5 := h4.1 (Or.inr ⟨by linarith, by linarith, h⟩)
        rcases h5 with ⟨h6, h7, h8⟩ | ⟨h6, h7, h8⟩ <;> linarith
      · exact iff_of_true (iff_of_true (Or.inr ⟨by linarith, by linarith, h⟩) (Or.inr ⟨by linarith, by linarith, by linarith⟩)) fun h4 => h2 h4.2
  · -- On the right.
    have hle : Sb < K → K ≤ Sa := by
      intro h1
      by_contra h2
      nlinarith [mul_pos (sub_pos.2 (not_le.1 h2)) hb, mul_pos (neg_pos.2 ha) (sub_pos.2 h1)]
    by_cases h1 : Sb < K
    · have h3 := hle h1
      by_cases h2 : Sb < 0
      · exact iff_of_true (iff_of_true (Or.inl ⟨by linarith, by linarith, by linarith⟩) (Or.inl ⟨by linarith, by linarith, h⟩))
          fun h4 => by linarith [h4.1]
      · refine iff_of_false (fun h4 => ?_) (fun h4 => h4 ⟨lt_of_le_of_ne (not_lt.1 h2) (Ne.symm b0), h1⟩)
        have h5 := h4.2 (Or.inl ⟨by linarith, by linarith, h⟩)
        rcases h5 with ⟨h6, h7, h8⟩ | ⟨h6, h7, h8⟩ <;> linarith
    · refine iff_of_true (iff_of_false ?_ ?_) (fun h2 => h1 h2.2)
      · rintro (⟨h3, h4, h5⟩ | ⟨h3, h4, h5⟩) <;> linarith
      · rintro (⟨h3, h4, h5⟩ | ⟨h3, h4, h5⟩) <;> linarith

/-- An edge that does not meet the side of a half strip meets only one of the rays along it exactly when it has one end within. -/
theorem strip {Sa Ta Sb Tb K E E' : ℚ} (hK : 0 < K) (hE : E = Sa * Tb - Ta * Sb) (hE' : E' = (Sa - K) * Tb - Ta * (Sb - K))
    (a0 : Sa = 0 → Ta < 0) (b0 : Sb = 0 → Tb < 0) (aK : Sa = K → Ta < 0) (bK : Sb = K → Tb < 0)
    (za : Ta = 0 → Sa < 0 ∨ K < Sa) (zb : Tb = 0 → Sb < 0 ∨ K < Sb)
    (up : Ta < 0 → 0 < Tb → E < 0 ∨ 0 < E') (down : 0 < Ta → Tb < 0 → 0 < E ∨ E' < 0) :
    ((Through (-Sa) (-Sb) E ↔ Through (K - Sa) (K - Sb) E') ↔ ((0 < Sa ∧ Sa < K ∧ 0 < Ta) ↔ (0 < Sb ∧ Sb < K ∧ 0 < Tb))) := by
  have ka : K - Sa = -(Sa - K) := by ring
  have kb : K - Sb = -(Sb - K) := by ring
  have nlow : ∀ {S T : ℚ}, T ≤ 0 → ¬ (0 < S ∧ S < K ∧ 0 < T) := fun h h' => absurd h'.2.2 (not_lt.2 h)
  by_cases hlow : Ta ≤ 0 ∧ Tb ≤ 0
  · rw [ka, kb]
    exact iff_of_true (iff_of_false (through_low hE hlow.1 hlow.2) (through_low hE' hlow.1 hlow.2))
      (iff_of_false (nlow hlow.1) (nlow hlow.2))
  by_cases hhigh : 0 ≤ Ta ∧ 0 ≤ Tb
  · have hab : 0 < Ta ∨ 0 < Tb := by
      by_contra h
      simp only [not_or, not_lt] at h
      exact hlow h
    have n1 : Sa ≠ 0 := fun h => absurd (a0 h) (not_lt.2 hhigh.1)
    have n2 : Sb ≠ 0 := fun h => absurd (b0 h) (not_lt.2 hhigh.2)
    have n3 : Sa - K ≠ 0 := fun h => absurd (aK (by linarith)) (not_lt.2 hhigh.1)
    have n4 : Sb - K ≠ 0 := fun h => absurd (bK (by linarith)) (not_lt.2 hhigh.2)
    rw [ka, kb, through_high hE hhigh.1 hhigh.2 hab n1 n2, through_high hE' hhigh.1 hhigh.2 hab n3 n4]
    have amid : ∀ {S T : ℚ}, 0 ≤ T → S ≠ 0 → S - K ≠ 0 → (T = 0 → S < 0 ∨ K < S) → ((0 < S ∧ S < K ∧ 0 < T) ↔ ¬ (S < 0 ↔ S - K < 0)) := by
      intro S T h h0 h1 hz
      rcases lt_or_gt_of_ne h0 with h2 | h2
      · exact iff_of_false (fun h3 => by linarith [h3.1]) (fun h3 => h3 (iff_of_true h2 (by linarith)))
      · rcases lt_or_gt_of_ne h1 with h3 | h3
        · refine iff_of_true ⟨h2, by linarith, lt_of_le_of_ne h fun h4 => ?_⟩ (fun h4 => absurd (h4.2 h3) (not_lt.2 h2.le))
          rcases hz h4.symm with h5 | h5 <;> linarith
        · exact iff_of_false (fun h4 => by linarith [h4.2.1]) (fun h4 => h4 (iff_of_false (not_lt.2 h2.le) (not_lt.2 h3.le)))
    rw [amid hhigh.1 n1 n3 za, amid hhigh.2 n2 n4 zb]
    exact four _ _ _ _
  rcases lt_or_ge Ta 0 with h1 | h1
  · have h2 : 0 < Tb := by
      by_contra h; exact hlow ⟨h1.le, not_lt.1 h⟩
    rw [strip_up hK hE hE' h1 h2 (fun h => absurd (b0 h) (not_lt.2 h2.le)) (up h1 h2)]
    rw [false_iff_of (nlow (S := Sa) h1.le)]
    exact not_congr ⟨fun h => ⟨h.1, h.2, h2⟩, fun h => ⟨h.1, h.2.1⟩⟩
  · have h2 : Tb < 0 := by
      by_contra h; exact hhigh ⟨h1, not_lt.1 h⟩
    have h3 : 0 < Ta := by
      by_contra h; exact hlow ⟨not_lt.1 h, h2.le⟩
    have := @strip_up Sb Tb Sa Ta K (-E) (-E') hK (by rw [hE]; ring) (by rw [hE']; ring) h2 h3 (fun h => absurd (a0 h) (not_lt.2 h3.le))
      (by rcases down h3 h2 with h | h
          · exact Or.inl (by linarith)
          · exact Or.inr (by linarith))
    rw [through_swap (ca := -Sa), through_swap (ca := K - Sa), this]
    rw [iff_false_of (nlow (S := Sb) h2.le)]
    exact not_congr ⟨fun h => ⟨h.1, h.2, h3⟩, fun h => ⟨h.1, h.2.1⟩⟩

/-- On which side of the segment from `q` to `q'` a point is. -/
def across (q q' p : Point) : ℚ := (q'.x - q.x) * (p.y - q.y) - (q'.y - q.y) * (p.x - q.x)

/-- How much the direction `u` leaves the segment from `q` to `q'`. -/
def lean (q q' u : Point) : ℚ := (q'.x - q.x) * u.y - (q'.y - q.y) * u.x

/-- A point that is neither beside the segment nor beyond its ends is on it. -/
theorem on_of_between {q q' u p : Point} (hK : 0 < lean q q' u) (hT : across q q' p = 0) (h0 : 0 ≤ -side q u p)
    (h1 : -side q u p ≤ lean q q' u) : On ⟨q, q'⟩ p := by
  have hl : (-side q u p / lean q q' u) * lean q q' u = -side q u p := div_mul_cancel₀ _ hK.ne'
  refine ⟨-side q u p / lean q q' u, div_nonneg h0 hK.le, (div_le_one hK).2 h1, ?_, ?_⟩
  · apply mul_right_cancel₀ hK.ne'
    generalize -side q u p / lean q q' u = l at hl
    simp only
    unfold side across lean at *
    linear_combination u.x * hT - (q'.x - q.x) * hl
  · apply mul_right_cancel₀ hK.ne'
    generalize -side q u p / lean q q' u = l at hl
    simp only
    unfold side across lean at *
    linear_combination u.y * hT - (q'.y - q.y) * hl

/-- A point of an edge that crosses the segment. -/
theorem cross_between {q q' u a b : Point} (hK : 0 < lean q q' u) (hab : across q q' a * across q q' b < 0)
    (h0 : 0 ≤ (-side q u a * across q q' b - across q q' a * -side q u b) / (across q q' b - across q q' a))
    (h1 : (-side q u a * across q q' b - across q q' a * -side q u b) / (across q q' b - across q q' a) ≤ lean q q' u) :
    ∃ p, On ⟨q, q'⟩ p ∧ On ⟨a, b⟩ p := by
  have hd : across q q' b - across q q' a ≠ 0 := by
    intro h
    rw [sub_eq_zero.1 h] at hab
    nlinarith [mul_self_nonneg (across q q' a)]
  have hl : (-across q q' a / (across q q' b - across q q' a)) * (across q q' b - across q q' a) = -across q q' a := div_mul_cancel₀ _ hd
  have hr : 0 ≤ -across q q' a / (across q q' b - across q q' a) ∧ -across q q' a / (across q q' b - across q q' a) ≤ 1 := by
    rcases mul_neg_iff.1 hab with ⟨h1, h2⟩ | ⟨h1, h2⟩
    · refine ⟨div_nonneg_of_nonpos (by linarith) (by linarith), ?_⟩
      rw [div_le_one_of_neg (by linarith)]; linarith
    · refine ⟨div_nonneg (by linarith) (by linarith), ?_⟩
      rw [div_le_one (by linarith)]; linarith
  generalize -across q q' a / (across q q' b - across q q' a) = l at hl hr
  refine ⟨⟨a.x + l * (b.x - a.x), a.y + l * (b.y - a.y)⟩, ?_, l, hr.1, hr.2, rfl, rfl⟩
  have e : -side q u ⟨a.x + l * (b.x - a.x), a.y + l * (b.y - a.y)⟩ =
      (-side q u a * across q q' b - across q q' a * -side q u b) / (across q q' b - across q q' a) := by
    rw [eq_div_iff hd]
    unfold side
    simp only
    linear_combination (-u.x * (b.y - a.y) + u.y * (b.x - a.x)) * hl
  refine on_of_between hK ?_ (by rw [e]; exact h0) (by rw [e]; exact h1)
  unfold across at *
  simp only
  linear_combination hl

/-- Along two rays in the same direction, an edge that avoids the segment between their starts is met by only one of them exactly
when only one end is between them. -/
theorem edge_strip {q q' u a b : Point} (hK : 0 < lean q q' u) (hq : ∀ p, On ⟨q, q'⟩ p → ¬ On ⟨a, b⟩ p)
    (ua : ¬ OnRay q u a) (ub : ¬ OnRay q u b) (va : ¬ OnRay q' u a) (vb : ¬ OnRay q' u b) :
    ((Meets q u ⟨a, b⟩ ↔ Meets q' u ⟨a, b⟩) ↔
      ((0 < -side q u a ∧ -side q u a < lean q q' u ∧ 0 < across q q' a) ↔
        (0 < -side q u b ∧ -side q u b < lean q q' u ∧ 0 < across q q' b))) := by
  have hu : u.x ≠ 0 ∨ u.y ≠ 0 := by
    by_contra h; simp only [not_or, not_not] at h; unfold lean at hK; rw [h.1, h.2] at hK; simp at hK
  rw [meets_iff hu (hq q ⟨0, by simp⟩) ua ub, meets_iff hu (hq q' ⟨1, by simp⟩) va vb]
  simp only
  have s1 := @through_scale 1 (lean q q' u) (side q u a) (side q u b) (orient a b q) one_pos hK
  have s2 := @through_scale 1 (lean q q' u) (side q' u a) (side q' u b) (orient a b q') one_pos hK
  rw [one_mul, one_mul] at s1 s2
  rw [← s1, ← s2]
  have side' : ∀ p, side q' u p = lean q q' u - -side q u p := by intro p; unfold side lean; ring
  have zu : ∀ p, ¬ OnRay q u p → -side q u p = 0 → across q q' p < 0 := by
    intro p h h0
    obtain ⟨t, ht, tx, ty⟩ := behind hu (neg_eq_zero.1 h0) h
    have : across q q' p = t * lean q q' u := by unfold across lean; rw [tx, ty]; ring
    rw [this]; exact mul_neg_of_neg_of_pos ht hK
  have zv : ∀ p, ¬ OnRay q' u p → -side q u p = lean q q' u → across q q' p < 0 := by
    intro p h h0
    obtain ⟨t, ht, tx, ty⟩ := behind hu (by rw [side', h0, sub_self]) h
    have : across q q' p = t * lean q q' u := by unfold across lean; rw [tx, ty]; ring
    rw [this]; exact mul_neg_of_neg_of_pos ht hK
  have z : ∀ p, On ⟨a, b⟩ p → across q q' p = 0 → -side q u p < 0 ∨ lean q q' u < -side q u p := by
    intro p hp hT
    by_contra h
    simp only [not_or, not_lt] at h
    exact hq p (on_of_between hK hT h.1 h.2) hp
  have cr := @cross_between q q' u a b hK
  have := @strip (-side q u a) (across q q' a) (-side q u b) (across q q' b) (lean q q' u) (lean q q' u * orient a b q)
    (lean q q' u * orient a b q') hK (by unfold side orient across lean; ring) (by unfold side orient across lean; ring)
    (zu a ua) (zu b ub) (zv a va) (zv b vb) (z a ⟨0, by simp⟩) (z b ⟨1, by simp⟩)
    (by
      intro h1 h2
      by_contra h
      simp only [not_or, not_lt] at h
      have d : 0 < across q q' b - across q q' a := by linarith
      have k1 : lean q q' u * orient a b q = -side q u a * across q q' b - across q q' a * -side q u b := by
        unfold side orient across lean; ring
      have k2 : lean q q' u * orient a b q' = (-side q u a * across q q' b - across q q' a * -side q u b) -
        lean q q' u * (across q q' b - across q q' a) := by unfold side orient across lean; ring
      rw [k1, k2] at h
      obtain ⟨p, hp, hp'⟩ := cr (mul_neg_of_neg_of_pos h1 h2) (div_nonneg h.1 d.le) ((div_le_iff₀ d).2 (by linarith [h.2]))
      exact hq p hp hp')
    (by
      intro h1 h2
      by_contra h
      simp only [not_or, not_lt] at h
      have d : across q q' b - across q q' a < 0 := by linarith
      have k1 : lean q q' u * orient a b q = -side q u a * across q q' b - across q q' a * -side q u b := by
        unfold side orient across lean; ring
      have k2 : lean q q' u * orient a b q' = (-side q u a * across q q' b - across q q' a * -side q u b) -
        lean q q' u * (across q q' b - across q q' a) := by unfold side orient across lean; ring
      rw [k1, k2] at h
      obtain ⟨p, hp, hp'⟩ := cr (mul_neg_of_pos_of_neg h1 h2) (div_nonneg_of_nonpos h.1 d.le) ((div_le_iff_of_neg d).2 (by linarith [h.2]))
      exact hq p hp hp')
  rw [neg_neg, neg_neg, ← side', ← side'] at this
  exact this

/-! ## Inside -/

theorem point_onLine {points : List Point} {p : Point} (h : p ∈ points) : OnLine points p := by
  have : ∀ (l : List Point) (prev x : Point), p ∈ prev :: l → ∃ e ∈ detectEdges.loop prev (l ++ [x]), e.p0 = p := by
    intro l
    induction l with
    | nil =>
      intro prev x hp
      simp only [List.mem_singleton] at hp
      exact ⟨⟨prev, x⟩, by simp [detectEdges.loop], hp.symm⟩
    | cons a l ih =>
      intro prev x hp
      rw [List.cons_append, detectEdges.loop]
      rcases List.mem_cons.1 hp with rfl | hp
      · exact ⟨_, List.mem_cons_self, rfl⟩
      · obtain ⟨e, he, h⟩ := ih a x hp
        exact ⟨e, List.mem_cons_of_mem _ he, h⟩
  cases points with
  | nil => simp at h
  | cons a l =>
    obtain ⟨e, he, rfl⟩ := this l a a h
    exact ⟨e, by rw [ring_cons]; exact he, 0, by simp⟩

/-- A steep enough direction goes through no point. -/
theorem usable_exists {points : List Point} (qs : List Point) (hq : ∀ q ∈ qs, ¬ OnLine points q) (m : ℚ) :
    ∃ n : ℚ, m < n ∧ ∀ q ∈ qs, Usable points q ⟨1, n⟩ := by
  have bound : ∀ l : List ℚ, ∃ n : ℚ, ∀ x ∈ l, x < n := by
    intro l
    induction l with
    | nil => exact ⟨0, by simp⟩
    | cons a l ih =>
      obtain ⟨n, hn⟩ := ih
      refine ⟨max n (a + 1), fun x hx => ?_⟩
      rcases List.mem_cons.1 hx with rfl | hx
      · exact lt_of_lt_of_le (by linarith) (le_max_right _ _)
      · exact lt_of_lt_of_le (hn x hx) (le_max_left _ _)
  obtain ⟨n, hn⟩ := bound (m :: qs.flatMap fun q => points.map fun p => (p.y - q.y) / (p.x - q.x))
  refine ⟨n, hn m (by simp), fun q hqm => ⟨Or.inl one_ne_zero, fun p hp => ?_⟩⟩
  rintro ⟨t, ht, tx, ty⟩
  simp only [mul_one] at tx
  have hne : t ≠ 0 := by
    rintro rfl
    apply hq q hqm
    have : q = p := by
      cases q; cases p; simp at tx ty ⊢; exact ⟨tx.symm, ty.symm⟩
    rw [this]
    exact point_onLine hp
  have := hn ((p.y - q.y) / (p.x - q.x)) (List.mem_cons_of_mem _ (List.mem_flatMap.2 ⟨q, hqm, List.mem_map.2 ⟨p, hp, rfl⟩⟩))
  rw [show p.y - q.y = t * n by rw [ty]; ring, show p.x - q.x = t by rw [tx]; ring, mul_div_cancel_left₀ _ hne] at this
  exact lt_irrefl _ this

/-- Of the rays from a point, any can be used to tell whether it is inside. -/
theorem inside_iff {points : List Point} {q u : Point} (hq : ¬ OnLine points q) (hu : Usable points q u) :
    Inside points q ↔ Odd (crossings points q u) := by
  constructor
  · rintro ⟨-, v, hv, ho⟩
    rw [← Nat.not_even_iff_odd] at ho ⊢
    rwa [crossings_parity hq hu hv]
  · exact fun ho => ⟨hq, u, hu, ho⟩

/-- Two points joined by a segment that does not meet the closed line are both inside it or both outside. -/
theorem same_side {points : List Point} {q q' : Point} (h : ∀ p, On ⟨q, q'⟩ p → ¬ OnLine points p) :
    Inside points q ↔ Inside points q' := by
  have hq : ¬ OnLine points q := h q ⟨0, by simp⟩
  have hq' : ¬ OnLine points q' := h q' ⟨1, by simp⟩
  by_cases heq : q.x = q'.x ∧ q.y = q'.y
  · have : q = q' := by cases q; cases q'; simp at heq ⊢; exact heq
    rw [this]
  -- The strip between two parallel rays.
  have key : ∀ a b : Point, (∀ p, On ⟨a, b⟩ p → ¬ OnLine points p) → ∀ u, Usable points a u → Usable points b u → 0 < lean a b u →
      (Even (crossings points a u) ↔ Even (crossings points b u)) := by
    intro a b hab u ha hb hK
    unfold crossings
    refine ring_parity (φ := fun p => 0 < -side a u p ∧ -side a u p < lean a b u ∧ 0 < across a b p) fun e he => ?_
    obtain ⟨h0, h1⟩ := ring_ends he
    exact edge_strip hK (fun p hp hpe => hab p hp ⟨e, he, hpe⟩) (ha.2 _ h0) (ha.2 _ h1) (hb.2 _ h0) (hb.2 _ h1)
  obtain ⟨n, hn, hu⟩ := usable_exists (points := points) [q, q'] (by simp [hq, hq']) ((q'.y - q.y) / (q'.x - q.x))
  have hu1 := hu q (by simp)
  have hu2 := hu q' (by simp)
  rw [inside_iff hq hu1, inside_iff hq' hu2, ← Nat.not_even_iff_odd, ← Nat.not_even_iff_odd, not_iff_not]
  have hK : lean q q' ⟨1, n⟩ ≠ 0 := by
    unfold lean
    simp only [mul_one]
    intro h0
    by_cases hx : q'.x - q.x = 0
    · rw [hx] at h0
      exact heq ⟨by linarith, by linarith⟩
    · have : n = (q'.y - q.y) / (q'.x - q.x) := by
        rw [eq_div_iff hx]; linarith
      exact absurd hn (by rw [this]; exact lt_irrefl _)
  rcases lt_or_gt_of_ne hK with hK | hK
  · refine (key q' q (fun p hp => h p ?_) _ hu2 hu1 (by unfold lean at hK ⊢; linarith)).symm
    obtain ⟨l, l0, l1, px, py⟩ := hp
    exact ⟨1 - l, by linarith, by linarith, by simp only at px ⊢; linarith, by simp only at py ⊢; linarith⟩
  · exact key q q' h _ hu1 hu2 hK

end Verif.Geom
