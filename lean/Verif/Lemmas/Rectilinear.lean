import Verif.Lemmas.Ring
import Verif.Lemmas.Strip
import Verif.Lemmas.Detect
import Verif.Props.EvenOdd

/-!
# Detection against a line along the axes
-/

namespace Verif.Board
open Verif.Geom Verif.Geom.Spec
open Verif.Mesh (tolerance)
open Spec

theorem coarse_apart {a b : ℚ} (ha : Coarse a) (hb : Coarse b) : Apart (1 / 5000) a b := by
  obtain ⟨i, rfl⟩ := ha
  obtain ⟨j, rfl⟩ := hb
  by_cases h : i = j
  · exact Or.inl (by rw [h])
  · right
    have : (1 : ℚ) ≤ |((i - j : ℤ) : ℚ)| := by
      rw [← Int.cast_abs]
      exact_mod_cast Int.one_le_abs (sub_ne_zero.2 h)
    rw [← sub_div, ← Int.cast_sub, abs_div, abs_of_pos (by norm_num : (0 : ℚ) < 2500)]
    rw [le_div_iff₀ (by norm_num)]
    linarith

theorem coarse_sign {σ a : ℚ} (hσ : σ = 1 ∨ σ = -1) (ha : Coarse a) : Coarse (σ * a) := by
  obtain ⟨i, rfl⟩ := ha
  rcases hσ with rfl | rfl
  · exact ⟨i, by ring⟩
  · exact ⟨-i, by push_cast; ring⟩

theorem coarse_pt (o : Bool) {p : Point} : OnCoarse p ↔ Coarse (al o p) ∧ Coarse (ac o p) := by
  unfold OnCoarse Coarse
  cases o
  · constructor
    · rintro ⟨i, j, h1, h2⟩; exact ⟨⟨j, h2⟩, ⟨i, h1⟩⟩
    · rintro ⟨⟨j, h2⟩, ⟨i, h1⟩⟩; exact ⟨i, j, h1, h2⟩
  · constructor
    · rintro ⟨i, j, h1, h2⟩; exact ⟨⟨i, h1⟩, ⟨j, h2⟩⟩
    · rintro ⟨⟨i, h1⟩, ⟨j, h2⟩⟩; exact ⟨i, j, h1, h2⟩

theorem onGrid_of_coarse {p : Point} (h : OnCoarse p) : OnGrid p := by
  obtain ⟨i, j, h1, h2⟩ := h
  exact ⟨2 * i, 2 * j, by rw [h1]; push_cast; ring, by rw [h2]; push_cast; ring⟩

theorem middle_onGrid {o : Bool} {s t y : ℚ} (hs : Coarse s) (ht : Coarse t) (hy : Coarse y) {σ : ℚ} (hσ : σ = 1 ∨ σ = -1) :
    OnGrid (pt o (σ * ((s + t) / 2)) y) := by
  obtain ⟨i, rfl⟩ := hs
  obtain ⟨j, rfl⟩ := ht
  obtain ⟨k, rfl⟩ := hy
  rcases hσ with rfl | rfl <;> cases o
  · exact ⟨2 * k, i + j, by simp only [pt, Bool.false_eq_true, if_false]; push_cast; ring, by simp only [pt, Bool.false_eq_true, if_false]; push_cast; ring⟩
  · exact ⟨i + j, 2 * k, by simp only [pt, if_true]; push_cast; ring, by simp only [pt, if_true]; push_cast; ring⟩
  · exact ⟨2 * k, -(i + j), by simp only [pt, Bool.false_eq_true, if_false]; push_cast; ring, by simp only [pt, Bool.false_eq_true, if_false]; push_cast; ring⟩
  · exact ⟨-(i + j), 2 * k, by simp only [pt, if_true]; push_cast; ring, by simp only [pt, if_true]; push_cast; ring⟩

theorem on_flat (o : Bool) {x0 x1 c : ℚ} {q : Point} :
    On ⟨pt o x0 c, pt o x1 c⟩ q ↔ ac o q = c ∧ min x0 x1 ≤ al o q ∧ al o q ≤ max x0 x1 := by
  have key : On ⟨pt o x0 c, pt o x1 c⟩ q ↔ ∃ t : ℚ, 0 ≤ t ∧ t ≤ 1 ∧ al o q = x0 + t * (x1 - x0) ∧ ac o q = c := by
    unfold On
    cases o <;> simp only [pt, al, ac] <;> simp
    exact ⟨fun ⟨t, a, b, c, d⟩ => ⟨t, a, b, d, c⟩, fun ⟨t, a, b, c, d⟩ => ⟨t, a, b, d, c⟩⟩
  rw [key]
  constructor
  · rintro ⟨t, t0, t1, h1, h2⟩
    refine ⟨h2, ?_⟩
    rcases le_total x0 x1 with h | h
    · rw [min_eq_left h, max_eq_right h, h1]
      have := mul_nonneg t0 (sub_nonneg.2 h)
      have := mul_nonneg (sub_nonneg.2 t1) (sub_nonneg.2 h)
      constructor <;> linarith
    · rw [min_eq_right h, max_eq_left h, h1]
      have := mul_nonneg t0 (sub_nonneg.2 h)
      have := mul_nonneg (sub_nonneg.2 t1) (sub_nonneg.2 h)
      constructor <;> linarith
  · rintro ⟨h2, h3, h4⟩
    rcases lt_trichotomy x0 x1 with h | h | h
    · rw [min_eq_left h.le] at h3
      rw [max_eq_right h.le] at h4
      have hd : 0 < x1 - x0 := by linarith
      refine ⟨(al o q - x0) / (x1 - x0), div_nonneg (by linarith) hd.le, (div_le_one hd).2 (by linarith), ?_, h2⟩
      rw [div_mul_cancel₀ _ hd.ne']; ring
    · subst h
      rw [min_self] at h3
      rw [max_self] at h4
      exact ⟨0, le_rfl, zero_le_one, by linarith, h2⟩
    · rw [min_eq_right h.le] at h3
      rw [max_eq_left h.le] at h4
      have hd : x1 - x0 < 0 := by linarith
      refine ⟨(al o q - x0) / (x1 - x0), div_nonneg_of_nonpos (by linarith) hd.le, (div_le_one_of_neg hd).2 (by linarith), ?_, h2⟩
      rw [div_mul_cancel₀ _ hd.ne]; ring

theorem pt_not (o : Bool) (a c : ℚ) : pt (!o) c a = pt o a c := by cases o <;> rfl
theorem al_not (o : Bool) (p : Point) : al (!o) p = ac o p := by cases o <;> rfl
theorem ac_not (o : Bool) (p : Point) : ac (!o) p = al o p := by cases o <;> rfl

theorem on_upright (o : Bool) {X k0 k1 : ℚ} {q : Point} :
    On ⟨pt o X k0, pt o X k1⟩ q ↔ al o q = X ∧ min k0 k1 ≤ ac o q ∧ ac o q ≤ max k0 k1 := by
  have := on_flat (!o) (x0 := k0) (x1 := k1) (c := X) (q := q)
  rwa [pt_not, pt_not, al_not, ac_not] at this

theorem between_iff {a b x : ℚ} : (a - x) * (b - x) ≤ 0 ↔ min a b ≤ x ∧ x ≤ max a b := by
  rw [min_le_iff, le_max_iff, mul_nonpos_iff]
  constructor
  · rintro (⟨h1, h2⟩ | ⟨h1, h2⟩)
    · exact ⟨Or.inr (by linarith), Or.inl (by linarith)⟩
    · exact ⟨Or.inl (by linarith), Or.inr (by linarith)⟩
  · rintro ⟨h1 | h1, h2 | h2⟩
    · rcases le_total b x with h | h
      · exact Or.inl ⟨by linarith, by linarith⟩
      · exact Or.inr ⟨by linarith, by linarith⟩
    · exact Or.inr ⟨by linarith, by linarith⟩
    · exact Or.inl ⟨by linarith, by linarith⟩
    · rcases le_total a x with h | h
      · exact Or.inr ⟨by linarith, by linarith⟩
      · exact Or.inl ⟨by linarith, by linarith⟩

theorem sense_range {σ s0 s1 t : ℚ} (hσ : σ = 1 ∨ σ = -1) (h : s0 < s1) :
    (min (σ * s0) (σ * s1) ≤ σ * t ∧ σ * t ≤ max (σ * s0) (σ * s1)) ↔ s0 ≤ t ∧ t ≤ s1 := by
  rcases hσ with rfl | rfl
  · simp only [one_mul, min_eq_left h.le, max_eq_right h.le]
  · simp only [neg_mul, one_mul]
    rw [min_eq_right (by linarith), max_eq_left (by linarith)]
    constructor <;> rintro ⟨a, b⟩ <;> constructor <;> linarith

/-- What an edge along an axis brings. -/
theorem meet_rect (o : Bool) {σ y s0 s1 : ℚ} (hσ : σ = 1 ∨ σ = -1) (h01 : s0 < s1) (hs0 : Coarse s0) (hs1 : Coarse s1) (hy : Coarse y)
    {e : Segment} (h0 : OnCoarse e.p0) (h1 : OnCoarse e.p1)
    (he : (e.p0.x = e.p1.x ∧ e.p0.y ≠ e.p1.y) ∨ (e.p0.y = e.p1.y ∧ e.p0.x ≠ e.p1.x)) :
    ∃ L : List ℚ, (meet ⟨pt o (σ * s0) y, pt o (σ * s1) y⟩ e).1 = L.map (fun t => pt o (σ * t) y) ∧
      (∀ w ∈ L, Coarse w ∧ s0 ≤ w ∧ w ≤ s1 ∧ On e (pt o (σ * w) y)) ∧
      (∀ r, (meet ⟨pt o (σ * s0) y, pt o (σ * s1) y⟩ e).2 = some r → ∃ u v, u < v ∧ u ∈ L ∧ v ∈ L ∧ Runs (fun t => pt o (σ * t) y) r u v ∧
        ∀ t, u ≤ t → t ≤ v → On e (pt o (σ * t) y)) ∧
      ∀ t, s0 ≤ t → t ≤ s1 → On e (pt o (σ * t) y) → t ∈ L ∨ ∃ r u v, (meet ⟨pt o (σ * s0) y, pt o (σ * s1) y⟩ e).2 = some r ∧ u < v ∧
        u ∈ L ∧ v ∈ L ∧ Runs (fun t => pt o (σ * t) y) r u v ∧ u ≤ t ∧ t ≤ v := by
  have hsq : σ * σ = 1 := by rcases hσ with rfl | rfl <;> norm_num
  have hs2 : ∀ x : ℚ, σ * (σ * x) = x := fun x => by rw [← mul_assoc, hsq, one_mul]
  have c0 := coarse_sign hσ hs0
  have c1 := coarse_sign hσ hs1
  have hlong : (1 / 5000 : ℚ) ≤ |σ * s0 - σ * s1| := by
    refine (coarse_apart c0 c1).resolve_left fun h => h01.ne ?_
    rw [← hs2 s0, h, hs2]
  obtain ⟨a, b⟩ := e
  simp only at h0 h1 he
  obtain ⟨ca0, cc0⟩ := (coarse_pt o).1 h0
  obtain ⟨ca1, cc1⟩ := (coarse_pt o).1 h1
  have hcase : (al o a = al o b ∧ ac o a ≠ ac o b) ∨ (ac o a = ac o b ∧ al o a ≠ al o b) := by
    cases o
    · exact he.elim (fun h => Or.inr h) fun h => Or.inl h
    · exact he
  rw [show (⟨a, b⟩ : Segment) = ⟨pt o (al o a) (ac o a), pt o (al o b) (ac o b)⟩ by rw [pt_al, pt_al]]
  generalize al o a = X0 at *
  generalize al o b = X1 at *
  generalize ac o a = k0 at *
  generalize ac o b = k1 at *
  rcases hcase with ⟨rfl, hne⟩ | ⟨rfl, hne⟩
  · -- Across.
    rw [meet_across o hlong ((coarse_apart cc0 cc1).resolve_left hne) (coarse_apart ca0 c0) (coarse_apart ca0 c1) (coarse_apart cc0 hy)
      (coarse_apart cc1 hy)]
    have e1 : (X0 - σ * s0) * (X0 - σ * s1) = (σ * s0 - X0) * (σ * s1 - X0) := by ring
    have hon : ∀ t, On ⟨pt o X0 k0, pt o X0 k1⟩ (pt o (σ * t) y) ↔ σ * t = X0 ∧ min k0 k1 ≤ y ∧ y ≤ max k0 k1 := by
      intro t; rw [on_upright, al_pt, ac_pt]
    have hr := sense_range (t := σ * X0) hσ h01
    rw [hs2] at hr
    have hcond : ((X0 - σ * s0) * (X0 - σ * s1) ≤ 0 ∧ (k0 - y) * (k1 - y) ≤ 0) ↔
        (s0 ≤ σ * X0 ∧ σ * X0 ≤ s1) ∧ min k0 k1 ≤ y ∧ y ≤ max k0 k1 := by rw [e1, between_iff, between_iff, hr]
    by_cases hc : (s0 ≤ σ * X0 ∧ σ * X0 ≤ s1) ∧ min k0 k1 ≤ y ∧ y ≤ max k0 k1
    · rw [if_pos (hcond.2 hc)]
      refine ⟨[σ * X0], by simp [hs2], ?_, by simp, ?_⟩
      · intro w hw
        rw [List.mem_singleton] at hw
        subst hw
        exact ⟨coarse_sign hσ ca0, hc.1.1, hc.1.2, (hon _).2 ⟨hs2 _, hc.2⟩⟩
      · intro t t0 t1 ht
        left
        rw [List.mem_singleton, ← ((hon t).1 ht).1, hs2]
    · rw [if_neg fun h => hc (hcond.1 h)]
      refine ⟨[], rfl, by simp, by simp, fun t t0 t1 ht => absurd ?_ hc⟩
      obtain ⟨h1, h2⟩ := (hon t).1 ht
      rw [← h1, hs2]
      exact ⟨⟨t0, t1⟩, h2⟩
  · -- Along.
    have hon : ∀ t, On ⟨pt o X0 k0, pt o X1 k0⟩ (pt o (σ * t) y) ↔ y = k0 ∧ min X0 X1 ≤ σ * t ∧ σ * t ≤ max X0 X1 := by
      intro t; rw [on_flat, al_pt, ac_pt]
    by_cases hky : k0 = y
    · subst hky
      rw [meet_along_on o hlong ((coarse_apart ca0 ca1).resolve_left hne) (coarse_apart c0 ca0) (coarse_apart c0 ca1) (coarse_apart c1 ca0)
        (coarse_apart c1 ca1)]
      have cmin : ∀ {a b : ℚ}, Coarse a → Coarse b → Coarse (min a b) := fun {a b} h h' => by
        rcases min_choice a b with h'' | h'' <;> rw [h''] <;> assumption
      have cmax : ∀ {a b : ℚ}, Coarse a → Coarse b → Coarse (max a b) := fun {a b} h h' => by
        rcases max_choice a b with h'' | h'' <;> rw [h''] <;> assumption
      have cM : Coarse (max (min (σ * s0) (σ * s1)) (min X0 X1)) := cmax (cmin c0 c1) (cmin ca0 ca1)
      have cN : Coarse (min (max (σ * s0) (σ * s1)) (max X0 X1)) := cmin (cmax c0 c1) (cmax ca0 ca1)
      have hM : ∀ t, (s0 ≤ t ∧ t ≤ s1 ∧ On ⟨pt o X0 k0, pt o X1 k0⟩ (pt o (σ * t) k0)) ↔
          max (min (σ * s0) (σ * s1)) (min X0 X1) ≤ σ * t ∧ σ * t ≤ min (max (σ * s0) (σ * s1)) (max X0 X1) := by
        intro t
        rw [hon, max_le_iff, le_min_iff, ← and_assoc, ← sense_range (t := t) hσ h01]
        tauto
      generalize max (min (σ * s0) (σ * s1)) (min X0 X1) = M at *
      generalize min (max (σ * s0) (σ * s1)) (max X0 X1) = N at *
      by_cases hMN : M ≤ N
      · rw [if_pos hMN]
        have hin : ∀ w ∈ [σ * M, σ * N], Coarse w ∧ s0 ≤ w ∧ w ≤ s1 ∧ On ⟨pt o X0 k0, pt o X1 k0⟩ (pt o (σ * w) k0) := by
          intro w hw
          simp only [List.mem_cons, List.not_mem_nil, or_false] at hw
          rcases hw with rfl | rfl
          · exact ⟨coarse_sign hσ cM, (hM _).2 (by rw [hs2]; exact ⟨le_rfl, hMN⟩)⟩
          · exact ⟨coarse_sign hσ cN, (hM _).2 (by rw [hs2]; exact ⟨hMN, le_rfl⟩)⟩
        refine ⟨[σ * M, σ * N], by simp [hs2], hin, ?_⟩
        by_cases hEq : M = N
        · rw [if_pos hEq]
          refine ⟨by simp, fun t t0 t1 ht => Or.inl ?_⟩
          obtain ⟨h1, h2⟩ := (hM t).1 ⟨t0, t1, ht⟩
          have : σ * t = M := le_antisymm (hEq ▸ h2) h1
          rw [← this, hs2]
          simp
        · rw [if_neg hEq]
          have hlt := lt_of_le_of_ne hMN hEq
          obtain ⟨u, v, huv, hu, hv, hr, hb⟩ : ∃ u v, u < v ∧ u ∈ [σ * M, σ * N] ∧ v ∈ [σ * M, σ * N] ∧
              Runs (fun t => pt o (σ * t) k0) ⟨pt o M k0, pt o N k0⟩ u v ∧ ∀ t, (u ≤ t ∧ t ≤ v) ↔ (M ≤ σ * t ∧ σ * t ≤ N) := by
            rcases hσ with rfl | rfl
            · refine ⟨M, N, hlt, by simp, by simp, Or.inl (by simp), fun t => by rw [one_mul]⟩
            · refine ⟨-N, -M, by linarith, by simp, by simp, Or.inr (by simp), fun t => ?_⟩
              constructor <;> rintro ⟨h1, h2⟩ <;> constructor <;> linarith
          refine ⟨fun r hr' => ?_, fun t t0 t1 ht => Or.inr ⟨_, u, v, rfl, huv, hu, hv, hr, (hb t).2 ((hM t).1 ⟨t0, t1, ht⟩)⟩⟩
          rw [Option.some.injEq] at hr'
          subst hr'
          exact ⟨u, v, huv, hu, hv, hr, fun t h1 h2 => ((hM t).2 ((hb t).1 ⟨h1, h2⟩)).2.2⟩
      · rw [if_neg hMN]
        exact ⟨[], rfl, by simp, by simp, fun t t0 t1 ht => absurd (((hM t).1 ⟨t0, t1, ht⟩).1.trans ((hM t).1 ⟨t0, t1, ht⟩).2) hMN⟩
    · rw [meet_along_off o hlong ((coarse_apart cc0 hy).resolve_left hky)]
      exact ⟨[], rfl, by simp, by simp, fun t t0 t1 ht => absurd ((hon t).1 ht).1.symm hky⟩

/-- An edge that is a point brings nothing, and meets nothing. -/
theorem meet_point {a e : Segment} (h : a.p0 = a.p1 ∨ e.p0 = e.p1) : meet a e = ([], none) := by
  have flat : ∀ p q : Point, detectRotation [p, p, q] = .colinear := by
    intro p q
    rw [rotation_triangle, show orient p p q = 0 by unfold orient; ring]
    decide +kernel
  have hpar : areParallel a e = false := by
    have hax : ∀ s : Segment, s.p0 = s.p1 → s.axis = .point ∧ (s.p1.sub s.p0).x = 0 := by
      rintro ⟨p, q⟩ h
      obtain rfl : p = q := h
      have hz : p.sub p = ⟨0, 0⟩ := by simp [Point.sub]
      refine ⟨?_, by simp only [hz]⟩
      simp only [Segment.axis, hz]
      decide +kernel
    unfold areParallel slopesEq
    rcases h with h | h
    · rw [(hax a h).1, (hax a h).2]; simp
    · rw [(hax e h).1, (hax e h).2]; simp
  have hrel : a.relationTo e = .overlapping ∨ a.relationTo e = .colinear ∨ a.relationTo e = .apart := by
    unfold Segment.relationTo
    simp only
    rcases h with h | h
    · rw [← h, flat, flat]
      split_ifs <;> simp_all
    · rw [← h, flat, flat]
      split_ifs <;> simp_all
  unfold meet
  rcases hrel with h | h | h <;> rw [h]
  simp only [overlap, hpar, Bool.false_eq_true, if_false]

theorem loop_same {v : Point} : ∀ (l : List Point) {prev : Point}, prev = v → (∀ e ∈ detectEdges.loop prev l, e.p0 = v → e.p1 = v) →
    ∀ x ∈ l, x = v
  | [], _, _, _ => by simp
  | y :: l, prev, hprev, h => by
    have hy : y = v := h ⟨prev, y⟩ (List.mem_cons_self ..) hprev
    intro x hx
    rcases List.mem_cons.1 hx with rfl | hx
    · exact hy
    · exact loop_same l hy (fun e he => h e (List.mem_cons_of_mem _ he)) x hx

theorem loop_last {v w : Point} : ∀ (l : List Point) {prev : Point}, v ∈ prev :: l →
    (∀ e ∈ detectEdges.loop prev (l ++ [w]), e.p0 = v → e.p1 = v) → w = v
  | l, prev, hv, h => by
    rcases List.mem_cons.1 hv with hv | hv
    · exact loop_same (l ++ [w]) hv.symm h w (by simp)
    · match l, hv with
      | x :: l, hv => exact loop_last l hv fun e he => h e (List.mem_cons_of_mem _ he)

/-- A closed line that is not one point: each of its points is on an edge that is not a point. -/
theorem onLine_long {points : List Point} (h : ∃ p ∈ points, ∃ p' ∈ points, p ≠ p') {q : Point} (hq : OnLine points q) :
    ∃ e ∈ ring points, e.p0 ≠ e.p1 ∧ On e q := by
  obtain ⟨e, he, hon⟩ := hq
  by_cases hd : e.p0 = e.p1
  · obtain ⟨t, t0, t1, hx, hy⟩ := hon
    have hqv : q = e.p0 := by
      rw [← hd] at hx hy
      exact congrArg₂ Point.mk (by rw [hx]; ring) (by rw [hy]; ring)
    by_contra hc
    have hall : ∀ f ∈ ring points, f.p0 = e.p0 → f.p1 = e.p0 := by
      intro f hf hv
      by_contra hne
      exact hc ⟨f, hf, by rw [hv]; exact Ne.symm hne, 0, le_rfl, zero_le_one, by rw [hqv, hv]; ring, by rw [hqv, hv]; ring⟩
    have hmem := (ring_ends he).1
    have hone : ∀ p ∈ points, p = e.p0 := by
      cases points with
      | nil => simp
      | cons p l =>
        rw [ring_cons] at hall
        have hp : p = e.p0 := loop_last l hmem hall
        intro x hx
        rcases List.mem_cons.1 hx with rfl | hx
        · exact hp
        · exact loop_same (l ++ [p]) hp hall x (by simp [hx])
    obtain ⟨p, hp, p', hp', hne⟩ := h
    exact hne ((hone p hp).trans (hone p' hp').symm)
  · exact ⟨e, he, hd, hon⟩

/-- The answer for a point of the grid. -/
theorem relation_grid {points : List Point} {q : Point} (hne : points ≠ []) (hp : ∀ p ∈ points, OnGrid p) (hq : OnGrid q) :
    ∃ r, pointRelation points q = .ok r ∧ (r = .on ↔ OnLine points q) ∧ (r = .inside ↔ Inside points q) := by
  obtain ⟨r, hr, hon, hoff⟩ := C105_evenodd_partial hne hp hq
  refine ⟨r, ?_, hon, ?_⟩
  · unfold pointRelation
    rw [hr]
    obtain ⟨a, l, rfl⟩ := List.exists_cons_of_ne_nil hne
    rfl
  · by_cases h : OnLine points q
    · refine iff_of_false ?_ fun h' => h'.1 h
      rw [hon.2 h]; decide
    · obtain ⟨⟨u, hu⟩, h2⟩ := hoff h
      rw [inside_iff h hu]
      exact (h2 u hu).1

theorem onLine_edges {points : List Point} {edges : List (Nat × Segment)} (hedges : detectEdges points = some (edges.map (·.2)))
    (q : Point) : OnLine points q ↔ ∃ e ∈ edges, On e.2 q := by
  have hperm := ring_perm hedges
  constructor
  · rintro ⟨e, he, h⟩
    obtain ⟨e', he', rfl⟩ := List.mem_map.1 (hperm.mem_iff.2 he)
    exact ⟨e', he', h⟩
  · rintro ⟨e, he, h⟩
    exact ⟨e.2, hperm.mem_iff.1 (List.mem_map_of_mem he), h⟩

theorem along_long {e : Segment} (h : e.p0.x = e.p1.x ∨ e.p0.y = e.p1.y) (hd : e.p0 ≠ e.p1) :
    (e.p0.x = e.p1.x ∧ e.p0.y ≠ e.p1.y) ∨ (e.p0.y = e.p1.y ∧ e.p0.x ≠ e.p1.x) := by
  rcases h with h | h
  · exact Or.inl ⟨h, fun h' => hd (congrArg₂ Point.mk h h')⟩
  · exact Or.inr ⟨h, fun h' => hd (congrArg₂ Point.mk h' h)⟩

/-- The detection along the lane, for a line along the axes. -/
theorem detect_rect (S : OrderSorter Point) (b : Nat) (o : Bool) {σ y s0 s1 : ℚ} (hσ : σ = 1 ∨ σ = -1) (h01 : s0 < s1) (hs0 : Coarse s0)
    (hs1 : Coarse s1) (hy : Coarse y) {points : List Point} {edges : List (Nat × Segment)}
    (hedges : detectEdges points = some (edges.map (·.2))) (hp : ∀ p ∈ points, OnCoarse p) (hrect : Rectilinear points)
    (hmany : ∃ p ∈ points, ∃ p' ∈ points, p ≠ p') :
    ∃ founds, detectEdge S b points edges ⟨pt o (σ * s0) y, pt o (σ * s1) y⟩ = .ok founds ∧
      (∀ g ∈ founds, g.polygon = b ∧ ∃ u v, u < v ∧ Runs (fun t => pt o (σ * t) y) g.range u v ∧ (Coarse u ∧ Coarse v) ∧
        ((u = s0 ∨ OnLine points (pt o (σ * u) y)) ∧ (v = s1 ∨ OnLine points (pt o (σ * v) y))) ∧ s0 ≤ u ∧ v ≤ s1 ∧
        ((g.other = none ∧ (∀ t, u < t → t < v → Inside points (pt o (σ * t) y)) ∧
          ∀ t, u ≤ t → t ≤ v → Within points (pt o (σ * t) y)) ∨
        ∃ e ∈ edges, g.other = some e.1 ∧ ∀ t, u ≤ t → t ≤ v → On e.2 (pt o (σ * t) y))) ∧
      ∀ u v, s0 ≤ u → u < v → v ≤ s1 → (∀ t, u < t → t < v → Within points (pt o (σ * t) y)) → ∀ t, u ≤ t → t ≤ v →
        ∃ g ∈ founds, ∃ u v, Runs (fun t => pt o (σ * t) y) g.range u v ∧ u ≤ t ∧ t ≤ v := by
  have hsq : σ * σ = 1 := by rcases hσ with rfl | rfl <;> norm_num
  have hs2 : ∀ x : ℚ, σ * (σ * x) = x := fun x => by rw [← mul_assoc, hsq, one_mul]
  have hne : points ≠ [] := by rintro rfl; simp [detectEdges] at hedges
  have hperm := ring_perm hedges
  have hmeet : ∀ e ∈ edges, ∃ L : List ℚ, (meet ⟨pt o (σ * s0) y, pt o (σ * s1) y⟩ e.2).1 = L.map (fun t => pt o (σ * t) y) ∧
      (∀ w ∈ L, Coarse w ∧ s0 ≤ w ∧ w ≤ s1 ∧ On e.2 (pt o (σ * w) y)) ∧
      (∀ r, (meet ⟨pt o (σ * s0) y, pt o (σ * s1) y⟩ e.2).2 = some r → ∃ u v, u < v ∧ u ∈ L ∧ v ∈ L ∧ Runs (fun t => pt o (σ * t) y) r u v ∧
        ∀ t, u ≤ t → t ≤ v → On e.2 (pt o (σ * t) y)) ∧
      (e.2.p0 ≠ e.2.p1 → ∀ t, s0 ≤ t → t ≤ s1 → On e.2 (pt o (σ * t) y) → t ∈ L ∨ ∃ r u v,
        (meet ⟨pt o (σ * s0) y, pt o (σ * s1) y⟩ e.2).2 = some r ∧ u < v ∧ u ∈ L ∧ v ∈ L ∧ Runs (fun t => pt o (σ * t) y) r u v ∧ u ≤ t ∧ t ≤ v) := by
    intro e he
    have hr := hperm.mem_iff.1 (List.mem_map_of_mem he)
    obtain ⟨h0, h1⟩ := ring_ends hr
    by_cases hd : e.2.p0 = e.2.p1
    · rw [meet_point (Or.inr hd)]
      exact ⟨[], rfl, by simp, by simp, fun h => absurd hd h⟩
    · obtain ⟨L, l1, l2, l3, l4⟩ := meet_rect o hσ h01 hs0 hs1 hy (hp _ h0) (hp _ h1) (along_long (hrect _ hr) hd)
      exact ⟨L, l1, l2, l3, fun _ => l4⟩
  set hits := edges.flatMap fun e => (meet ⟨pt o (σ * s0) y, pt o (σ * s1) y⟩ e.2).1 with hitsdef
  set T := hits.map fun p => σ * al o p with Tdef
  have inT : ∀ {e}, e ∈ edges → ∀ {L : List ℚ}, (meet ⟨pt o (σ * s0) y, pt o (σ * s1) y⟩ e.2).1 = L.map (fun t => pt o (σ * t) y) →
      ∀ {w}, w ∈ L → w ∈ T := by
    intro e he L hL w hw
    refine List.mem_map.2 ⟨pt o (σ * w) y, List.mem_flatMap.2 ⟨e, he, ?_⟩, by rw [al_pt, hs2]⟩
    rw [hL]
    exact List.mem_map.2 ⟨w, hw, rfl⟩
  have hhit : ∀ p ∈ hits, ∃ w, Coarse w ∧ s0 ≤ w ∧ w ≤ s1 ∧ p = pt o (σ * w) y := by
    intro p hp
    obtain ⟨e, he, hpe⟩ := List.mem_flatMap.1 hp
    obtain ⟨L, hL, hin, -⟩ := hmeet e he
    rw [hL] at hpe
    obtain ⟨w, hw, rfl⟩ := List.mem_map.1 hpe
    obtain ⟨h1, h2, h3, -⟩ := hin w hw
    exact ⟨w, h1, h2, h3, rfl⟩
  have hTc : ∀ t ∈ T, Coarse t ∧ s0 ≤ t ∧ t ≤ s1 := by
    intro t ht
    obtain ⟨p, hp, rfl⟩ := List.mem_map.1 ht
    obtain ⟨w, h1, h2, h3, rfl⟩ := hhit p hp
    rw [al_pt, hs2]
    exact ⟨h1, h2, h3⟩
  have hTo : ∀ t ∈ T, OnLine points (pt o (σ * t) y) := by
    intro t ht
    obtain ⟨p, hp, rfl⟩ := List.mem_map.1 ht
    obtain ⟨e, he, hpe⟩ := List.mem_flatMap.1 hp
    obtain ⟨L, hL, hin, -⟩ := hmeet e he
    rw [hL] at hpe
    obtain ⟨w, hw, rfl⟩ := List.mem_map.1 hpe
    rw [al_pt, hs2]
    exact (onLine_edges hedges _).2 ⟨e, he, (hin w hw).2.2.2⟩
  have hTc' : ∀ t ∈ T ++ [s0, s1], Coarse t := by
    intro t ht
    rcases List.mem_append.1 ht with h | h
    · exact (hTc t h).1
    · simp only [List.mem_cons, List.not_mem_nil, or_false] at h
      rcases h with rfl | rfl <;> assumption
  have coarseGrid : ∀ t, Coarse t → OnGrid (pt o (σ * t) y) := fun t ht =>
    onGrid_of_coarse ((coarse_pt o).2 (by rw [al_pt, ac_pt]; exact ⟨coarse_sign hσ ht, hy⟩))
  have hgrid : ∀ p ∈ points, OnGrid p := fun p h => onGrid_of_coarse (hp p h)
  have h := detect_ring S (lane_pt o hσ y) h01 (points := points) (edges := edges) b (on := fun t => OnLine points (pt o (σ * t) y)) (inn := fun t => Inside points (pt o (σ * t) y))
    T ?_ ?_ (fun t ht => (hTc t ht).2) ?_ ?_ ?_ ?_ fun t h => h.1
  · obtain ⟨founds, hd, h1, h2⟩ := h
    refine ⟨founds, hd, fun g hg => ?_, h2⟩
    obtain ⟨hb, u, v, c1, c2, c3, c4⟩ := h1 g hg
    refine ⟨hb, u, v, c1, c2, ⟨hTc' u c3.1, hTc' v c3.2⟩, ⟨?_, ?_⟩, c4⟩
    · rcases List.mem_append.1 c3.1 with h | h
      · exact Or.inr (hTo u h)
      · simp only [List.mem_cons, List.not_mem_nil, or_false] at h
        exact Or.inl (h.resolve_right (c1.trans_le c4.2.1).ne)
    · rcases List.mem_append.1 c3.2 with h | h
      · exact Or.inr (hTo v h)
      · simp only [List.mem_cons, List.not_mem_nil, or_false] at h
        exact Or.inl (h.resolve_left (c4.1.trans_lt c1).ne')
  · intro x hx z hz
    refine (coarse_apart (hTc' x hx) (hTc' z hz)).imp id fun h => ?_
    have ht : tolerance = 1 / 100000000 := rfl
    rw [ht]; linarith
  · rw [← hitsdef, Tdef, List.map_map]
    conv_lhs => rw [← List.map_id hits]
    apply List.map_congr_left
    intro p hpm
    obtain ⟨w, -, -, -, rfl⟩ := hhit p hpm
    simp only [id, Function.comp_apply, al_pt, hs2]
  · intro e he r hr
    obtain ⟨L, hL, -, hons, -⟩ := hmeet e he
    obtain ⟨u, v, huv, hu, hv, hrun, hon⟩ := hons r hr
    exact ⟨u, v, huv, inT he hL hu, inT he hL hv, hrun, fun t h1 h2 => ⟨hon t h1 h2, (onLine_edges hedges _).2 ⟨e, he, hon t h1 h2⟩⟩⟩
  · intro t t0 t1 hon
    obtain ⟨e, he, hlong, hone⟩ : ∃ e ∈ edges, e.2.p0 ≠ e.2.p1 ∧ On e.2 (pt o (σ * t) y) := by
      obtain ⟨e, he, h⟩ := onLine_long hmany hon
      obtain ⟨e', he', rfl⟩ := List.mem_map.1 (hperm.mem_iff.2 he)
      exact ⟨e', he', h⟩
    obtain ⟨L, hL, -, -, hall⟩ := hmeet e he
    rcases hall hlong t t0 t1 hone with h | ⟨r, u, v, hr, huv, hu, hv, hrun, h1, h2⟩
    · exact Or.inl (inT he hL h)
    · exact Or.inr ⟨e, he, r, u, v, hr, huv, inT he hL hu, inT he hL hv, hrun, h1, h2⟩
  · rintro t (rfl | rfl | ⟨u, hu, v, hv, -, rfl⟩)
    · exact relation_grid hne hgrid (coarseGrid t hs0)
    · exact relation_grid hne hgrid (coarseGrid t hs1)
    · exact relation_grid hne hgrid (middle_onGrid (hTc' u hu) (hTc' v hv) hy hσ)
  · intro t t' h0 htt h1 hno
    apply same_side
    intro p hpo
    obtain ⟨q1, q2, q3⟩ := (on_lane o hσ htt).1 hpo
    have := hno (σ * al o p) q2 q3
    rwa [hs2, ← q1, pt_al] at this

/-- The detection along the lane, for an edge inside. -/
theorem detect_inner (S : OrderSorter Point) (b : Nat) (o : Bool) {σ y s0 s1 : ℚ} (hσ : σ = 1 ∨ σ = -1) (h01 : s0 < s1) (hs0 : Coarse s0)
    (hs1 : Coarse s1) (hy : Coarse y) {points : List Point} {edges : List (Nat × Segment)}
    (hedges : detectEdges points = some (edges.map (·.2))) (hp : ∀ p ∈ points, OnCoarse p) (hrect : Rectilinear points)
    (hin : ∀ t, s0 ≤ t → t ≤ s1 → Inside points (pt o (σ * t) y)) :
    detectEdge S b points edges ⟨pt o (σ * s0) y, pt o (σ * s1) y⟩ = .ok [⟨b, ⟨pt o (σ * s0) y, pt o (σ * s1) y⟩, none⟩] := by
  have hne : points ≠ [] := by rintro rfl; simp [detectEdges] at hedges
  have hperm := ring_perm hedges
  have hmeet : ∀ e ∈ edges, meet ⟨pt o (σ * s0) y, pt o (σ * s1) y⟩ e.2 = ([], none) := by
    intro e he
    have hr := hperm.mem_iff.1 (List.mem_map_of_mem he)
    obtain ⟨h0, h1⟩ := ring_ends hr
    by_cases hd : e.2.p0 = e.2.p1
    · exact meet_point (Or.inr hd)
    obtain ⟨L, hL, hL', hs, -⟩ := meet_rect o hσ h01 hs0 hs1 hy (hp _ h0) (hp _ h1) (along_long (hrect _ hr) hd)
    have hnil : ∀ w, w ∉ L := fun w hw => by
      obtain ⟨-, w0, w1, hon⟩ := hL' w hw
      exact (hin w w0 w1).1 ((onLine_edges hedges _).2 ⟨e, he, hon⟩)
    obtain rfl := List.eq_nil_iff_forall_not_mem.2 hnil
    refine Prod.ext hL ?_
    cases h : (meet ⟨pt o (σ * s0) y, pt o (σ * s1) y⟩ e.2).2 with
    | none => rfl
    | some r =>
      obtain ⟨u, v, -, hu, -⟩ := hs r h
      exact absurd hu (hnil u)
  have hgrid : ∀ p ∈ points, OnGrid p := fun p h => onGrid_of_coarse (hp p h)
  have hrel : ∀ t, Coarse t → s0 ≤ t → t ≤ s1 → pointRelation points (pt o (σ * t) y) = .ok .inside := by
    intro t ht t0 t1
    obtain ⟨r, hr, -, hi⟩ := relation_grid hne hgrid
      (onGrid_of_coarse ((coarse_pt o).2 (by rw [al_pt, ac_pt]; exact ⟨coarse_sign hσ ht, hy⟩) : OnCoarse (pt o (σ * t) y)))
    rw [hr, hi.2 (hin t t0 t1)]
  unfold detectEdge
  simp only [hrel s0 hs0 le_rfl h01.le, hrel s1 hs1 h01.le le_rfl, Outcome.bind]
  have e1 : (edges.flatMap fun e => (meet ⟨pt o (σ * s0) y, pt o (σ * s1) y⟩ e.2).1) = [] := by
    rw [List.flatMap_eq_nil_iff]
    intro e he
    rw [hmeet e he]
  have e2 : (edges.filterMap fun e => (meet ⟨pt o (σ * s0) y, pt o (σ * s1) y⟩ e.2).2.map fun r => (⟨b, r, some e.1⟩ : Found)) = [] := by
    rw [List.filterMap_eq_nil_iff]
    intro e he
    rw [hmeet e he]
    rfl
  rw [e1, e2]
  simp

/-- The detection when no edge of the polygon brings anything. -/
theorem detect_bare (S : OrderSorter Point) (b : Nat) {points : List Point} {edges : List (Nat × Segment)} {a : Segment}
    (hmeet : ∀ e ∈ edges, meet a e.2 = ([], none)) (hne : points ≠ []) (hp : ∀ p ∈ points, OnGrid p) (h0 : OnGrid a.p0) (h1 : OnGrid a.p1) :
    ∃ founds, detectEdge S b points edges a = .ok founds ∧ ((Inside points a.p0 ∧ Inside points a.p1) → founds = [⟨b, a, none⟩]) ∧
      (¬ (Inside points a.p0 ∧ Inside points a.p1) → founds = []) := by
  obtain ⟨r0, hr0, -, hi0⟩ := relation_grid hne hp h0
  obtain ⟨r1, hr1, -, hi1⟩ := relation_grid hne hp h1
  unfold detectEdge
  simp only [hr0, hr1, Outcome.bind]
  have e1 : (edges.flatMap fun e => (meet a e.2).1) = [] := by
    rw [List.flatMap_eq_nil_iff]
    intro e he
    rw [hmeet e he]
  have e2 : (edges.filterMap fun e => (meet a e.2).2.map fun r => (⟨b, r, some e.1⟩ : Found)) = [] := by
    rw [List.filterMap_eq_nil_iff]
    intro e he
    rw [hmeet e he]
    rfl
  rw [e1, e2, ← hi0, ← hi1]
  simp only [if_true, List.nil_append]
  exact ⟨_, rfl, fun h => if_pos h, fun h => if_neg h⟩

end Verif.Board
