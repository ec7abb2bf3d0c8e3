import Verif.Model.EdgeInPolygon
import Verif.Lemmas.InPolygon
import Mathlib.Data.List.Basic

/-!
# Detection of the edges in polygons along a line

The points of an edge are `f t`, the edge going from `f s0` to `f s1` with `s0 < s1`.
-/

namespace Verif.Board
open Verif.Geom Verif.Geom.Spec
open Verif.Mesh (tolerance)
open Spec

/-- A line along which points are compared, sorted and halved as their parameters. -/
structure Lane (f : ℚ → Point) : Prop where
  eq : ∀ s t, (f s).eq (f t) = true ↔ |s - t| < tolerance
  inj : ∀ s t, f s = f t → s = t
  mid : ∀ s t, midPoint ⟨f s, f t⟩ = f ((s + t) / 2)
  before : ∀ s0 s1, s0 < s1 → ∃ lt, pointBefore ((f s1).sub (f s0)) = some lt ∧ ∀ s t, lt (f s) (f t) = decide (s < t)

/-! ## Consecutive elements -/

/-- The consecutive elements of a list. -/
def pairs (l : List ℚ) : List (ℚ × ℚ) := l.zip l.tail

theorem between_map (f : ℚ → Point) (l : List ℚ) :
    between (l.map f) = (pairs l).map fun p => ⟨f p.1, f p.2⟩ := by
  match l with
  | [] => rfl
  | [_] => rfl
  | a :: b :: rest =>
    have := between_map f (b :: rest)
    simp only [List.map_cons] at this
    simp only [List.map_cons, between, this, pairs, List.tail_cons, List.zip_cons_cons]

theorem pairs_mem {l : List ℚ} (hl : l.Pairwise (· < ·)) {u v : ℚ} (h : (u, v) ∈ pairs l) :
    u ∈ l ∧ v ∈ l ∧ u < v ∧ ∀ w ∈ l, w ≤ u ∨ v ≤ w := by
  match l with
  | [] => simp [pairs] at h
  | [_] => simp [pairs] at h
  | a :: b :: rest =>
    simp only [pairs, List.tail_cons, List.zip_cons_cons, List.mem_cons, Prod.mk.injEq] at h
    have hab := (List.pairwise_cons.1 hl).1
    rcases h with ⟨rfl, rfl⟩ | h
    · refine ⟨by simp, by simp, hab v (by simp), fun w hw => ?_⟩
      rcases List.mem_cons.1 hw with rfl | hw
      · exact Or.inl le_rfl
      · rcases List.mem_cons.1 hw with rfl | hw
        · exact Or.inr le_rfl
        · exact Or.inr ((List.pairwise_cons.1 (List.pairwise_cons.1 hl).2).1 w hw).le
    · obtain ⟨h1, h2, h3, h4⟩ := pairs_mem (List.pairwise_cons.1 hl).2 (u := u) (v := v) (by simpa [pairs] using h)
      refine ⟨List.mem_cons_of_mem _ h1, List.mem_cons_of_mem _ h2, h3, fun w hw => ?_⟩
      rcases List.mem_cons.1 hw with rfl | hw
      · exact Or.inl (hab u h1).le
      · exact h4 w hw

/-- A value between two elements is between consecutive ones, from the left. -/
theorem pairs_left {l : List ℚ} (hl : l.Pairwise (· < ·)) {a b t : ℚ} (ha : a ∈ l) (hb : b ∈ l) (h1 : a ≤ t) (h2 : t < b) :
    ∃ u v, (u, v) ∈ pairs l ∧ u ≤ t ∧ t < v := by
  match l with
  | [] => simp at ha
  | [c] =>
    simp only [List.mem_singleton] at ha hb
    subst ha hb
    exact absurd h1 (not_le.2 h2)
  | c :: d :: rest =>
    by_cases hd : t < d
    · refine ⟨c, d, by simp [pairs], ?_, hd⟩
      rcases List.mem_cons.1 ha with rfl | ha
      · exact h1
      · exact ((List.pairwise_cons.1 hl).1 a ha).le.trans h1
    · rw [not_lt] at hd
      have hb' : b ∈ d :: rest := by
        rcases List.mem_cons.1 hb with rfl | hb
        · exact absurd h2 (not_lt.2 (((List.pairwise_cons.1 hl).1 d (by simp)).le.trans hd))
        · exact hb
      obtain ⟨u, v, h3, h4⟩ := pairs_left (List.pairwise_cons.1 hl).2 (a := d) (b := b) (by simp) hb' hd h2
      exact ⟨u, v, by simpa [pairs] using Or.inr h3, h4⟩

/-- The same from the right. -/
theorem pairs_right {l : List ℚ} (hl : l.Pairwise (· < ·)) {a b t : ℚ} (ha : a ∈ l) (hb : b ∈ l) (h1 : a < t) (h2 : t ≤ b) :
    ∃ u v, (u, v) ∈ pairs l ∧ u < t ∧ t ≤ v := by
  match l with
  | [] => simp at ha
  | [c] =>
    simp only [List.mem_singleton] at ha hb
    subst ha hb
    exact absurd h1 (not_lt.2 h2)
  | c :: d :: rest =>
    by_cases hd : t ≤ d
    · refine ⟨c, d, by simp [pairs], ?_, hd⟩
      rcases List.mem_cons.1 ha with rfl | ha
      · exact h1
      · exact ((List.pairwise_cons.1 hl).1 a ha).trans h1
    · rw [not_le] at hd
      have hb' : b ∈ d :: rest := by
        rcases List.mem_cons.1 hb with rfl | hb
        · exact absurd h2 (not_le.2 (((List.pairwise_cons.1 hl).1 d (by simp)).trans hd))
        · exact hb
      obtain ⟨u, v, h3, h4⟩ := pairs_right (List.pairwise_cons.1 hl).2 (a := d) (b := b) (by simp) hb' hd h2
      exact ⟨u, v, by simpa [pairs] using Or.inr h3, h4⟩

/-! ## Sorting and erasing -/

theorem uniqueAfter_lane {f : ℚ → Point} (hf : Lane f) (l : List ℚ) : ∀ prev, (prev :: l).Pairwise (· ≤ ·) →
    (∀ a ∈ prev :: l, ∀ b ∈ prev :: l, a = b ∨ tolerance ≤ |a - b|) →
    ∃ k : List ℚ, uniqueAfter (f prev) (l.map f) = k.map f ∧ (prev :: k).Pairwise (· < ·) ∧ ∀ t, t ∈ prev :: k ↔ t ∈ prev :: l := by
  induction l with
  | nil => intro prev _ _; exact ⟨[], rfl, by simp, by simp⟩
  | cons a l ih =>
    intro prev hs hc
    rw [List.map_cons, uniqueAfter]
    have hpa : prev ≤ a := (List.pairwise_cons.1 hs).1 a (by simp)
    by_cases he : (f prev).eq (f a) = true
    · have : prev = a := by
        rcases hc prev (by simp) a (by simp) with h | h
        · exact h
        · exact absurd ((hf.eq _ _).1 he) (not_lt.2 h)
      subst this
      rw [if_pos he]
      obtain ⟨k, h1, h2, h3⟩ := ih prev (List.pairwise_cons.1 hs).2 fun x hx y hy =>
        hc x (List.mem_cons_of_mem _ hx) y (List.mem_cons_of_mem _ hy)
      refine ⟨k, h1, h2, fun t => ?_⟩
      rw [h3]
      simp
    · rw [if_neg he]
      have hlt : prev < a := by
        rcases hpa.eq_or_lt with h | h
        · subst h
          exact absurd ((hf.eq _ _).2 (by simp [tolerance_pos])) he
        · exact h
      obtain ⟨k, h1, h2, h3⟩ := ih a (List.pairwise_cons.1 hs).2 fun x hx y hy =>
        hc x (List.mem_cons_of_mem _ hx) y (List.mem_cons_of_mem _ hy)
      refine ⟨a :: k, by rw [h1]; rfl, ?_, fun t => ?_⟩
      · rw [List.pairwise_cons]
        refine ⟨fun b hb => ?_, h2⟩
        rcases List.mem_cons.1 hb with rfl | hb
        · exact hlt
        · exact hlt.trans ((List.pairwise_cons.1 h2).1 b hb)
      · rw [List.mem_cons, h3, ← List.mem_cons]

theorem unique_lane {f : ℚ → Point} (hf : Lane f) (l : List ℚ) (hs : l.Pairwise (· ≤ ·))
    (hc : ∀ a ∈ l, ∀ b ∈ l, a = b ∨ tolerance ≤ |a - b|) :
    ∃ k : List ℚ, uniquePoints (l.map f) = k.map f ∧ k.Pairwise (· < ·) ∧ ∀ t, t ∈ k ↔ t ∈ l := by
  cases l with
  | nil => exact ⟨[], rfl, by simp, by simp⟩
  | cons a l =>
    obtain ⟨k, h1, h2, h3⟩ := uniqueAfter_lane hf l a hs hc
    exact ⟨a :: k, by simp [uniquePoints, h1], h2, h3⟩

theorem weakOrder_lane {f : ℚ → Point} {lt : Point → Point → Bool} (h : ∀ s t, lt (f s) (f t) = decide (s < t))
    (l : List ℚ) : WeakOrderOn lt (l.map f) := by
  refine ⟨?_, ?_, ?_⟩
  · intro a ha
    obtain ⟨s, -, rfl⟩ := List.mem_map.1 ha
    simp [h]
  · intro a ha b hb c hc
    obtain ⟨s, -, rfl⟩ := List.mem_map.1 ha
    obtain ⟨t, -, rfl⟩ := List.mem_map.1 hb
    obtain ⟨u, -, rfl⟩ := List.mem_map.1 hc
    simp only [h, decide_eq_true_eq]
    exact lt_trans
  · intro a ha b hb c hc
    obtain ⟨s, -, rfl⟩ := List.mem_map.1 ha
    obtain ⟨t, -, rfl⟩ := List.mem_map.1 hb
    obtain ⟨u, -, rfl⟩ := List.mem_map.1 hc
    simp only [h, decide_eq_false_iff_not, not_lt]
    intro h1 h2 h3 h4
    exact h3.trans h1 |>.trans le_rfl

/-- The points found on the edge, sorted and without doubles. -/
theorem sorted_lane (S : OrderSorter Point) {f : ℚ → Point} (hf : Lane f) {s0 s1 : ℚ} (h01 : s0 < s1) (l : List ℚ)
    (hc : ∀ a ∈ l, ∀ b ∈ l, a = b ∨ tolerance ≤ |a - b|) :
    ∃ (L : List Point) (k : List ℚ), sortPoints S ((f s1).sub (f s0)) (l.map f) = .ok L ∧ uniquePoints L = k.map f ∧ k.Pairwise (· < ·) ∧
      ∀ t, t ∈ k ↔ t ∈ l := by
  obtain ⟨lt, hlt, hcmp⟩ := hf.before s0 s1 h01
  have hw := weakOrder_lane hcmp l
  have hp := S.perm lt (l.map f)
  obtain ⟨m, hm⟩ : ∃ m : List ℚ, S.sort lt (l.map f) = m.map f := by
    have : ∀ p ∈ S.sort lt (l.map f), ∃ t, p = f t := fun p hp' => by
      obtain ⟨t, -, rfl⟩ := List.mem_map.1 (hp.mem_iff.1 hp')
      exact ⟨t, rfl⟩
    generalize S.sort lt (l.map f) = L at this
    induction L with
    | nil => exact ⟨[], rfl⟩
    | cons p L ih =>
      obtain ⟨m, rfl⟩ := ih fun q hq => this q (by simp [hq])
      obtain ⟨t, rfl⟩ := this p (by simp)
      exact ⟨t :: m, rfl⟩
  have hmem : ∀ t, t ∈ m ↔ t ∈ l := fun t => by
    have h := hp.mem_iff (a := f t)
    rw [hm] at h
    have hi : Function.Injective f := fun a b => hf.inj a b
    rwa [List.mem_map_of_injective hi, List.mem_map_of_injective hi] at h
  have hs := S.sorted lt (l.map f) hw
  rw [hm, List.pairwise_map] at hs
  have hs' : m.Pairwise (· ≤ ·) := hs.imp fun {a b} h => by simpa [hcmp] using h
  obtain ⟨k, h1, h2, h3⟩ := unique_lane hf m hs' fun a ha b hb => hc a ((hmem a).1 ha) b ((hmem b).1 hb)
  refine ⟨m.map f, k, ?_, h1, h2, fun t => (h3 t).trans (hmem t)⟩
  unfold sortPoints
  rw [hlt]
  simp only [if_pos hw, hm]

/-- The first and the last two elements. -/
theorem ends_of {k : List ℚ} (hk : k.Pairwise (· < ·)) {s0 s1 : ℚ} (h0 : s0 ∈ k) (h1 : s1 ∈ k) (h01 : s0 < s1)
    (hmin : ∀ t ∈ k, s0 ≤ t) (hmax : ∀ t ∈ k, t ≤ s1) :
    (∃ v r, k = s0 :: v :: r ∧ (s0, v) ∈ pairs k) ∧ ∃ u r, k.reverse = s1 :: u :: r ∧ (u, s1) ∈ pairs k := by
  constructor
  · match k with
    | [] => simp at h0
    | [a] =>
      simp only [List.mem_singleton] at h0 h1
      subst h0 h1
      exact absurd h01 (lt_irrefl _)
    | a :: v :: r =>
      have : a = s0 := by
        rcases List.mem_cons.1 h0 with h | h
        · exact h.symm
        · exact absurd ((List.pairwise_cons.1 hk).1 s0 h) (not_lt.2 (hmin a (by simp)))
      subst this
      exact ⟨v, r, rfl, by simp [pairs]⟩
  · have hr : k.reverse.Pairwise (· > ·) := List.pairwise_reverse.2 hk
    have hm : ∀ t, t ∈ k ↔ t ∈ k.reverse := fun t => List.mem_reverse.symm
    generalize hk' : k.reverse = k' at hr hm
    match k' with
    | [] => simp [hm] at h0
    | [a] =>
      simp only [hm, List.mem_singleton] at h0 h1
      subst h0 h1
      exact absurd h01 (lt_irrefl _)
    | a :: u :: r =>
      have : a = s1 := by
        rcases List.mem_cons.1 ((hm s1).1 h1) with h | h
        · exact h.symm
        · exact absurd ((List.pairwise_cons.1 hr).1 s1 h) (not_lt.2 (hmax a ((hm a).2 (by simp))))
      subst this
      refine ⟨u, r, rfl, ?_⟩
      obtain ⟨x, y, hp, hx, hy⟩ := pairs_right hk h0 h1 h01 le_rfl
      obtain ⟨p1, p2, p3, p4⟩ := pairs_mem hk hp
      have hy' : y = a := le_antisymm (hmax y p2) hy
      subst hy'
      have hua : u < y := (List.pairwise_cons.1 hr).1 u (by simp)
      have hux : u ≤ x := (p4 u ((hm u).2 (by simp))).resolve_right (not_le.2 hua)
      have hxu : x ≤ u := by
        rcases List.mem_cons.1 ((hm x).1 p1) with h | h
        · exact absurd hx (by rw [h]; exact lt_irrefl _)
        · rcases List.mem_cons.1 h with h | h
          · exact h.le
          · exact ((List.pairwise_cons.1 (List.pairwise_cons.1 hr).2).1 x h).le
      rw [le_antisymm hux hxu]
      exact hp

/-- Which ranges have their middle inside. -/
theorem middlesIn_eq {points : List Point} {l : List Segment} (rel : Segment → PolygonRel)
    (h : ∀ r ∈ l, pointRelation points (midPoint r) = .ok (rel r)) :
    middlesIn points l = .ok (l.filter fun r => decide (rel r = .inside)) := by
  induction l with
  | nil => rfl
  | cons r l ih =>
    rw [middlesIn, h r (by simp), ih fun r hr => h r (by simp [hr])]
    by_cases hr : rel r = .inside <;> simp [Outcome.bind, Outcome.map, hr]

theorem range_eq {f : ℚ → Point} (hf : Lane f) {a b u v : ℚ} (hab : a < b) (huv : u < v)
    (hc : ∀ x ∈ [a, b, u, v], ∀ y ∈ [a, b, u, v], x = y ∨ tolerance ≤ |x - y|) :
    (Segment.mk (f a) (f b)).eq ⟨f u, f v⟩ = true ↔ a = u ∧ b = v := by
  have key : ∀ x ∈ [a, b, u, v], ∀ y ∈ [a, b, u, v], (f x).eq (f y) = true ↔ x = y := by
    intro x hx y hy
    rw [hf.eq]
    constructor
    · intro h
      exact (hc x hx y hy).resolve_right (not_le.2 h)
    · rintro rfl
      simp [tolerance_pos]
  unfold Segment.eq
  simp only [Bool.or_eq_true, Bool.and_eq_true]
  rw [key a (by simp) u (by simp), key b (by simp) v (by simp), key a (by simp) v (by simp), key b (by simp) u (by simp)]
  constructor
  · rintro (h | ⟨rfl, rfl⟩)
    · exact h
    · exact absurd hab (not_lt.2 huv.le)
  · exact Or.inl

/-- The ranges of an edge through the inside of a polygon, that is inside from `w0` to `w1`. -/
theorem detect_inside (S : OrderSorter Point) {f : ℚ → Point} (hf : Lane f) {s0 s1 w0 w1 : ℚ} (h01 : s0 < s1)
    (hc : ∀ x ∈ [s0, s1, w0, w1], ∀ y ∈ [s0, s1, w0, w1], x = y ∨ tolerance ≤ |x - y|) {points : List Point}
    {edges : List (Nat × Segment)} (b : Nat) (hons : ∀ e ∈ edges, (meet ⟨f s0, f s1⟩ e.2).2 = none) (T : List ℚ)
    (hhits : (edges.flatMap fun e => (meet ⟨f s0, f s1⟩ e.2).1) = T.map f)
    (hT : ∀ t, t ∈ T ↔ (t = w0 ∨ t = w1) ∧ s0 ≤ t ∧ t ≤ s1)
    (hrel : ∀ t, (t = s0 ∨ t = s1 ∨ ∃ u ∈ [s0, s1, w0, w1], ∃ v ∈ [s0, s1, w0, w1], u < v ∧ (w0 ≤ u ∨ v ≤ w0) ∧
      (w1 ≤ u ∨ v ≤ w1) ∧ t = (u + v) / 2) → pointRelation points (f t) =
        .ok (if w0 < t ∧ t < w1 then .inside else if t = w0 ∨ t = w1 then .on else .outside)) :
    ∃ founds, detectEdge S b points edges ⟨f s0, f s1⟩ = .ok founds ∧
      (∀ g ∈ founds, g.polygon = b ∧ g.other = none ∧ ∃ u v, u < v ∧ g.range = ⟨f u, f v⟩ ∧ s0 ≤ u ∧ v ≤ s1 ∧
        w0 ≤ u ∧ v ≤ w1) ∧
      ∀ t, s0 ≤ t → t ≤ s1 → w0 ≤ t → t ≤ w1 → max s0 w0 < min s1 w1 → ∃ g ∈ founds, ∃ u v, g.range = ⟨f u, f v⟩ ∧
        u ≤ t ∧ t ≤ v := by
  have hons' : (edges.filterMap fun e => (meet ⟨f s0, f s1⟩ e.2).2.map fun r => (⟨b, r, some e.1⟩ : Found)) = [] := by
    rw [List.filterMap_eq_nil_iff]
    intro e he
    rw [hons e he]; rfl
  obtain ⟨rel, hreldef⟩ : ∃ rel : ℚ → PolygonRel, ∀ t, rel t =
      if w0 < t ∧ t < w1 then .inside else if t = w0 ∨ t = w1 then .on else .outside := ⟨_, fun _ => rfl⟩
  simp only [← hreldef] at hrel
  have hrin : ∀ t, rel t = .inside → w0 < t ∧ t < w1 := by
    intro t h
    rw [hreldef] at h
    split_ifs at h with h'
    exact h'
  unfold detectEdge
  simp only [hons', hhits, hrel s0 (Or.inl rfl), hrel s1 (Or.inr (Or.inl rfl)), Outcome.bind, List.nil_append,
    List.map_nil]
  by_cases hTn : T = []
  · -- No intersection.
    subst hTn
    have hno : ∀ w, w = w0 ∨ w = w1 → s0 ≤ w → w ≤ s1 → False := fun w hw h1 h2 => by
      have := (hT w).2 ⟨hw, h1, h2⟩
      simp at this
    rw [List.map_nil, if_pos rfl]
    refine ⟨_, rfl, ?_, ?_⟩
    · intro g hg
      split_ifs at hg with h
      · simp only [List.mem_singleton] at hg
        subst hg
        exact ⟨rfl, rfl, s0, s1, h01, rfl, le_rfl, le_rfl, (hrin s0 h.1).1.le, (hrin s1 h.2).2.le⟩
      · simp at hg
    · intro t h1 h2 h3 h4 hne
      rw [max_lt_iff, lt_min_iff, lt_min_iff] at hne
      have a1 : w0 < s0 := by
        by_contra hcon
        exact hno w0 (Or.inl rfl) (not_lt.1 hcon) (h3.trans h2)
      have a2 : s1 < w1 := by
        by_contra hcon
        exact hno w1 (Or.inr rfl) (h1.trans h4) (not_lt.1 hcon)
      rw [if_pos ⟨by rw [hreldef, if_pos ⟨a1, h01.trans a2⟩], by rw [hreldef, if_pos ⟨a1.trans h01, a2⟩]⟩]
      exact ⟨_, List.mem_singleton.2 rfl, s0, s1, rfl, h1, h2⟩
  · have hmapne : T.map f ≠ [] := by simpa using hTn
    rw [if_neg hmapne]
    have happ : T.map f ++ [f s0, f s1] = (T ++ [s0, s1]).map f := by simp
    have hsub : ∀ t ∈ T ++ [s0, s1], t ∈ [s0, s1, w0, w1] := by
      intro t ht
      rcases List.mem_append.1 ht with h | h
      · rcases ((hT t).1 h).1 with rfl | rfl <;> simp
      · simp only [List.mem_cons, List.not_mem_nil, or_false] at h
        rcases h with rfl | rfl <;> simp
    obtain ⟨L, k, hL, hu, hk, hmem⟩ := sorted_lane S hf h01 (T ++ [s0, s1]) fun a ha b hb =>
      hc a (hsub a ha) b (hsub b hb)
    rw [happ, hL]
    simp only [hu]
    have hk0 : s0 ∈ k := (hmem s0).2 (by simp)
    have hk1 : s1 ∈ k := (hmem s1).2 (by simp)
    have hkr : ∀ t ∈ k, s0 ≤ t ∧ t ≤ s1 := by
      intro t ht
      rcases List.mem_append.1 ((hmem t).1 ht) with h | h
      · exact ((hT t).1 h).2
      · simp only [List.mem_cons, List.not_mem_nil, or_false] at h
        rcases h with rfl | rfl
        · exact ⟨le_rfl, h01.le⟩
        · exact ⟨h01.le, le_rfl⟩
    have hkw : ∀ w, w = w0 ∨ w = w1 → s0 ≤ w → w ≤ s1 → w ∈ k := fun w hw h1 h2 =>
      (hmem w).2 (List.mem_append.2 (Or.inl ((hT w).2 ⟨hw, h1, h2⟩)))
    have hkc : ∀ t ∈ k, t ∈ [s0, s1, w0, w1] := fun t ht => hsub t ((hmem t).1 ht)
    obtain ⟨⟨v1, r1, e1, hp1⟩, u1, r2, e2, hp2⟩ := ends_of hk hk0 hk1 h01 (fun t ht => (hkr t ht).1) fun t ht => (hkr t ht).2
    -- No border point within a range.
    have hgap : ∀ u v, (u, v) ∈ pairs k → (w0 ≤ u ∨ v ≤ w0) ∧ (w1 ≤ u ∨ v ≤ w1) := by
      intro u v huv
      obtain ⟨a1, a2, a3, a4⟩ := pairs_mem hk huv
      have : ∀ w, w = w0 ∨ w = w1 → w ≤ u ∨ v ≤ w := by
        intro w hw
        by_cases h1 : s0 ≤ w
        · by_cases h2 : w ≤ s1
          · exact a4 w (hkw w hw h1 h2)
          · exact Or.inr ((hkr v a2).2.trans (not_le.1 h2).le)
        · exact Or.inl ((not_le.1 h1).le.trans (hkr u a1).1)
      exact ⟨this w0 (Or.inl rfl), this w1 (Or.inr rfl)⟩
    -- The relation of the middle of a range.
    have hmid : ∀ u v, (u, v) ∈ pairs k → pointRelation points (f ((u + v) / 2)) =
        .ok (if w0 ≤ u ∧ v ≤ w1 then .inside else .outside) := by
      intro u v huv
      obtain ⟨a1, a2, a3, a4⟩ := pairs_mem hk huv
      obtain ⟨g1, g2⟩ := hgap u v huv
      rw [hrel _ (Or.inr (Or.inr ⟨u, hkc u a1, v, hkc v a2, a3, g1, g2, rfl⟩))]
      rw [hreldef]
      congr 1
      by_cases hin : w0 ≤ u ∧ v ≤ w1
      · rw [if_pos hin, if_pos ⟨by linarith [hin.1], by linarith [hin.2]⟩]
      · rw [if_neg hin, if_neg, if_neg]
        · rintro (h | h)
          · rcases g1 with h' | h' <;> linarith
          · rcases g2 with h' | h' <;> linarith
        · rintro ⟨h1, h2⟩
          apply hin
          refine ⟨g1.resolve_right fun h => by linarith, g2.resolve_left fun h => by linarith⟩
    have hends : endRanges (k.map f) (rel s0) (rel s1) = .ok
        ((if rel s0 = .on then [] else [(⟨f s0, f v1⟩, rel s0)]) ++ if rel s1 = .on then [] else [(⟨f u1, f s1⟩, rel s1)]) := by
      unfold endRanges
      rw [← List.map_reverse, e2, e1]
      simp only [List.map_cons, endRange, Outcome.bind, Outcome.map]
      congr 2
      split_ifs <;> rfl
    rw [hends]
    simp only
    set ends : List (Segment × PolygonRel) :=
      (if rel s0 = .on then [] else [(⟨f s0, f v1⟩, rel s0)]) ++ if rel s1 = .on then [] else [(⟨f u1, f s1⟩, rel s1)]
      with hendsdef
    have hmends : ∀ e, e ∈ ends ↔ (rel s0 ≠ .on ∧ e = (⟨f s0, f v1⟩, rel s0)) ∨ (rel s1 ≠ .on ∧ e = (⟨f u1, f s1⟩, rel s1)) := by
      intro e
      rw [hendsdef, List.mem_append]
      by_cases h0 : rel s0 = .on <;> by_cases h1 : rel s1 = .on <;> simp [h0, h1]
    rw [between_map]
    obtain ⟨rr, hrr⟩ : ∃ rr : Segment → PolygonRel, ∀ r ∈ ((pairs k).map fun p => (⟨f p.1, f p.2⟩ : Segment)),
        pointRelation points (midPoint r) = .ok (rr r) := by
      refine ⟨fun r => match pointRelation points (midPoint r) with | .ok x => x | _ => .on, ?_⟩
      intro r hr
      obtain ⟨p, hp, rfl⟩ := List.mem_map.1 hr
      simp only [hf.mid, hmid p.1 p.2 hp]
    rw [middlesIn_eq rr fun r hr => hrr r (List.mem_of_mem_filter hr)]
    simp only [Outcome.map, Outcome.bind]
    refine ⟨_, rfl, ?_, ?_⟩
    · intro g hg
      have good : ∀ u v, (u, v) ∈ pairs k → w0 ≤ u → v ≤ w1 → ∃ u' v', u' < v' ∧ (⟨f u, f v⟩ : Segment) = ⟨f u', f v'⟩ ∧
          s0 ≤ u' ∧ v' ≤ s1 ∧ w0 ≤ u' ∧ v' ≤ w1 := by
        intro u v huv h1 h2
        obtain ⟨a1, a2, a3, a4⟩ := pairs_mem hk huv
        exact ⟨u, v, a3, rfl, (hkr u a1).1, (hkr v a2).2, h1, h2⟩
      rcases List.mem_append.1 hg with hg | hg
      · obtain ⟨e, he, rfl⟩ := List.mem_map.1 hg
        obtain ⟨he, hin⟩ := List.mem_filter.1 he
        simp only [decide_eq_true_eq] at hin
        refine ⟨rfl, rfl, ?_⟩
        rcases (hmends e).1 he with ⟨-, rfl⟩ | ⟨-, rfl⟩
        · obtain ⟨i1, i2⟩ := hrin s0 hin
          exact good s0 v1 hp1 i1.le ((hgap s0 v1 hp1).2.resolve_left (not_le.2 i2))
        · obtain ⟨i1, i2⟩ := hrin s1 hin
          exact good u1 s1 hp2 ((hgap u1 s1 hp2).1.resolve_right (not_le.2 i1)) i2.le
      · obtain ⟨r, hr, rfl⟩ := List.mem_map.1 hg
        obtain ⟨hr, hin⟩ := List.mem_filter.1 hr
        obtain ⟨hr, -⟩ := List.mem_filter.1 hr
        simp only [decide_eq_true_eq] at hin
        refine ⟨rfl, rfl, ?_⟩
        have hx := hrr r hr
        obtain ⟨p, hp, rfl⟩ := List.mem_map.1 hr
        rw [hf.mid, hmid p.1 p.2 hp, hin] at hx
        simp only [Outcome.ok.injEq] at hx
        split_ifs at hx with h'
        exact good p.1 p.2 hp h'.1 h'.2
    · intro t h1 h2 h3 h4 hne
      -- It is in a range from the larger of the first ends to the smaller of the last ones.
      obtain ⟨u, v, huv, b1, b2, b3, b4⟩ : ∃ u v, (u, v) ∈ pairs k ∧ u ≤ t ∧ t ≤ v ∧ w0 ≤ u ∧ v ≤ w1 := by
        have hlo : max s0 w0 ∈ k := by
          rcases le_total s0 w0 with h | h
          · rw [max_eq_right h]; exact hkw w0 (Or.inl rfl) h (h3.trans h2)
          · rw [max_eq_left h]; exact hk0
        have hhi : min s1 w1 ∈ k := by
          rcases le_total s1 w1 with h | h
          · rw [min_eq_left h]; exact hk1
          · rw [min_eq_right h]; exact hkw w1 (Or.inr rfl) (h1.trans h4) h
        have ht1 : max s0 w0 ≤ t := max_le h1 h3
        have ht2 : t ≤ min s1 w1 := le_min h2 h4
        have fin : ∀ u v, (u, v) ∈ pairs k → max s0 w0 < v → u < min s1 w1 → w0 ≤ u ∧ v ≤ w1 := by
          intro u v huv c1 c2
          obtain ⟨a1, a2, a3, a4⟩ := pairs_mem hk huv
          have d1 := (a4 _ hlo).resolve_right (not_le.2 c1)
          have d2 := (a4 _ hhi).resolve_left (not_le.2 c2)
          exact ⟨(le_max_right _ _).trans d1, d2.trans (min_le_right _ _)⟩
        rcases ht2.lt_or_eq with hlt | heq
        · obtain ⟨u, v, huv, c1, c2⟩ := pairs_left hk hlo hhi ht1 hlt
          obtain ⟨f1, f2⟩ := fin u v huv (ht1.trans_lt c2) (c1.trans_lt hlt)
          exact ⟨u, v, huv, c1, c2.le, f1, f2⟩
        · obtain ⟨u, v, huv, c1, c2⟩ := pairs_right hk hlo hhi (heq ▸ hne) ht2
          obtain ⟨f1, f2⟩ := fin u v huv ((heq ▸ hne).trans_le c2) (c1.trans_le ht2)
          exact ⟨u, v, huv, c1.le, c2, f1, f2⟩
      obtain ⟨a1, a2, a3, a4⟩ := pairs_mem hk huv
      by_cases hkn : ((ends.map (·.1)).any fun k' => k'.eq ⟨f u, f v⟩) = true
      · -- It is the range of an end.
        rw [List.any_eq_true] at hkn
        obtain ⟨r, hr, hre⟩ := hkn
        obtain ⟨e, he, rfl⟩ := List.mem_map.1 hr
        have hcc : ∀ a ∈ k, ∀ b ∈ k, ∀ x ∈ [a, b, u, v], ∀ y ∈ [a, b, u, v], x = y ∨ tolerance ≤ |x - y| := by
          intro a ha b hb x hx y hy
          have : ∀ z ∈ [a, b, u, v], z ∈ k := by
            intro z hz
            simp only [List.mem_cons, List.not_mem_nil, or_false] at hz
            rcases hz with rfl | rfl | rfl | rfl <;> assumption
          exact hc x (hkc x (this x hx)) y (hkc y (this y hy))
        refine ⟨⟨b, ⟨f u, f v⟩, none⟩, List.mem_append.2 (Or.inl ?_), u, v, rfl, b1, b2⟩
        rcases (hmends e).1 he with ⟨hne', rfl⟩ | ⟨hne', rfl⟩
        · obtain ⟨q1, q2, q3, -⟩ := pairs_mem hk hp1
          obtain ⟨rfl, rfl⟩ := (range_eq hf q3 a3 (hcc s0 q1 v1 q2)).1 hre
          refine List.mem_map.2 ⟨_, List.mem_filter.2 ⟨he, ?_⟩, rfl⟩
          simp only [decide_eq_true_eq]
          rw [hreldef] at hne' ⊢
          have : w0 ≠ s0 := fun h => by rw [if_neg (fun h' => by linarith [h'.1]), if_pos (Or.inl h.symm)] at hne'; exact hne' rfl
          rw [if_pos ⟨lt_of_le_of_ne b3 this, a3.trans_le b4⟩]
        · obtain ⟨q1, q2, q3, -⟩ := pairs_mem hk hp2
          obtain ⟨rfl, rfl⟩ := (range_eq hf q3 a3 (hcc u1 q1 s1 q2)).1 hre
          refine List.mem_map.2 ⟨_, List.mem_filter.2 ⟨he, ?_⟩, rfl⟩
          simp only [decide_eq_true_eq]
          rw [hreldef] at hne' ⊢
          have : s1 ≠ w1 := fun h => by rw [if_neg (fun h' => by linarith [h'.2]), if_pos (Or.inr h)] at hne'; exact hne' rfl
          rw [if_pos ⟨b3.trans_lt a3, lt_of_le_of_ne b4 this⟩]
      · -- Its middle is inside.
        refine ⟨⟨b, ⟨f u, f v⟩, none⟩, List.mem_append.2 (Or.inr (List.mem_map.2 ⟨⟨f u, f v⟩, ?_, rfl⟩)), u, v, rfl, b1, b2⟩
        have hr : (⟨f u, f v⟩ : Segment) ∈ (pairs k).map fun p => (⟨f p.1, f p.2⟩ : Segment) := List.mem_map.2 ⟨(u, v), huv, rfl⟩
        have hx := hrr _ hr
        rw [hf.mid, hmid u v huv, if_pos ⟨b3, b4⟩] at hx
        simp only [Outcome.ok.injEq] at hx
        refine List.mem_filter.2 ⟨List.mem_filter.2 ⟨hr, by simpa using hkn⟩, by simp [← hx]⟩

/-- An edge of which nothing is inside a polygon: only the overlaps with the edges are left. -/
theorem detect_border (S : OrderSorter Point) {f : ℚ → Point} (hf : Lane f) {s0 s1 w0 w1 : ℚ} (h01 : s0 < s1)
    (hc : ∀ x ∈ [s0, s1, w0, w1], ∀ y ∈ [s0, s1, w0, w1], x = y ∨ tolerance ≤ |x - y|) {points : List Point}
    {edges : List (Nat × Segment)} (b : Nat) (T : List ℚ)
    (hhits : (edges.flatMap fun e => (meet ⟨f s0, f s1⟩ e.2).1) = T.map f)
    (hT : ∀ t ∈ T, t ∈ [s0, s1, w0, w1] ∧ s0 ≤ t ∧ t ≤ s1)
    (hT' : ∀ w, w = w0 ∨ w = w1 → s0 ≤ w → w ≤ s1 → w ∈ T)
    (hrel : ∀ t, (t = s0 ∨ t = s1 ∨ ∃ u ∈ [s0, s1, w0, w1], ∃ v ∈ [s0, s1, w0, w1], u < v ∧ (w0 ≤ u ∨ v ≤ w0) ∧
      (w1 ≤ u ∨ v ≤ w1) ∧ t = (u + v) / 2) → ∃ r, pointRelation points (f t) = .ok r ∧ r ≠ .inside) :
    detectEdge S b points edges ⟨f s0, f s1⟩ =
      .ok (edges.filterMap fun e => (meet ⟨f s0, f s1⟩ e.2).2.map fun r => (⟨b, r, some e.1⟩ : Found)) := by
  obtain ⟨r0, hr0, hn0⟩ := hrel s0 (Or.inl rfl)
  obtain ⟨r1, hr1, hn1⟩ := hrel s1 (Or.inr (Or.inl rfl))
  unfold detectEdge
  simp only [hhits, hr0, hr1, Outcome.bind]
  by_cases hTn : T = []
  · subst hTn
    rw [List.map_nil, if_pos rfl, if_neg (fun h => hn0 h.1), List.append_nil]
  · have hmapne : T.map f ≠ [] := by simpa using hTn
    rw [if_neg hmapne]
    have happ : T.map f ++ [f s0, f s1] = (T ++ [s0, s1]).map f := by simp
    have hsub : ∀ t ∈ T ++ [s0, s1], t ∈ [s0, s1, w0, w1] := by
      intro t ht
      rcases List.mem_append.1 ht with h | h
      · exact (hT t h).1
      · simp only [List.mem_cons, List.not_mem_nil, or_false] at h
        rcases h with rfl | rfl <;> simp
    obtain ⟨L, k, hL, hu, hk, hmem⟩ := sorted_lane S hf h01 (T ++ [s0, s1]) fun a ha b hb =>
      hc a (hsub a ha) b (hsub b hb)
    rw [happ, hL]
    simp only [hu]
    have hk0 : s0 ∈ k := (hmem s0).2 (by simp)
    have hk1 : s1 ∈ k := (hmem s1).2 (by simp)
    have hkr : ∀ t ∈ k, s0 ≤ t ∧ t ≤ s1 := by
      intro t ht
      rcases List.mem_append.1 ((hmem t).1 ht) with h | h
      · exact (hT t h).2
      · simp only [List.mem_cons, List.not_mem_nil, or_false] at h
        rcases h with rfl | rfl
        · exact ⟨le_rfl, h01.le⟩
        · exact ⟨h01.le, le_rfl⟩
    have hkw : ∀ w, w = w0 ∨ w = w1 → s0 ≤ w → w ≤ s1 → w ∈ k := fun w hw h1 h2 =>
      (hmem w).2 (List.mem_append.2 (Or.inl (hT' w hw h1 h2)))
    have hkc : ∀ t ∈ k, t ∈ [s0, s1, w0, w1] := fun t ht => hsub t ((hmem t).1 ht)
    obtain ⟨⟨v1, q1, e1, -⟩, u1, q2, e2, -⟩ := ends_of hk hk0 hk1 h01 (fun t ht => (hkr t ht).1) fun t ht => (hkr t ht).2
    have hends : endRanges (k.map f) r0 r1 = .ok
        ((if r0 = .on then [] else [(⟨f s0, f v1⟩, r0)]) ++ if r1 = .on then [] else [(⟨f u1, f s1⟩, r1)]) := by
      unfold endRanges
      rw [← List.map_reverse, e2, e1]
      simp only [List.map_cons, endRange, Outcome.bind, Outcome.map]
      congr 2
      split_ifs <;> rfl
    rw [hends]
    simp only
    have hfil : (((if r0 = .on then [] else [(⟨f s0, f v1⟩, r0)]) ++ if r1 = .on then [] else [(⟨f u1, f s1⟩, r1)]) :
        List (Segment × PolygonRel)).filter (fun e => decide (e.2 = .inside)) = [] := by
      rw [List.filter_eq_nil_iff]
      intro e he
      have : e.2 = r0 ∨ e.2 = r1 := by
        rcases List.mem_append.1 he with h | h <;> split_ifs at h <;> simp_all
      rcases this with h | h <;> simp [h, hn0, hn1]
    rw [hfil, between_map]
    obtain ⟨rr, hrr⟩ : ∃ rr : Segment → PolygonRel, ∀ r ∈ ((pairs k).map fun p => (⟨f p.1, f p.2⟩ : Segment)),
        pointRelation points (midPoint r) = .ok (rr r) ∧ rr r ≠ .inside := by
      refine ⟨fun r => match pointRelation points (midPoint r) with | .ok x => x | _ => .on, ?_⟩
      intro r hr
      obtain ⟨p, hp, rfl⟩ := List.mem_map.1 hr
      obtain ⟨a1, a2, a3, a4⟩ := pairs_mem hk hp
      have hgap : ∀ w, w = w0 ∨ w = w1 → w ≤ p.1 ∨ p.2 ≤ w := by
        intro w hw
        by_cases h1 : s0 ≤ w
        · by_cases h2 : w ≤ s1
          · exact a4 w (hkw w hw h1 h2)
          · exact Or.inr ((hkr _ a2).2.trans (not_le.1 h2).le)
        · exact Or.inl ((not_le.1 h1).le.trans (hkr _ a1).1)
      obtain ⟨r, hr, hn⟩ := hrel ((p.1 + p.2) / 2) (Or.inr (Or.inr ⟨p.1, hkc _ a1, p.2, hkc _ a2, a3, hgap w0 (Or.inl rfl),
        hgap w1 (Or.inr rfl), rfl⟩))
      simp only [hf.mid, hr]
      exact ⟨trivial, hn⟩
    rw [middlesIn_eq rr fun r hr => (hrr r (List.mem_of_mem_filter hr)).1]
    have hmids : ∀ (g : Segment → Bool), ((((pairs k).map fun p => (⟨f p.1, f p.2⟩ : Segment)).filter g).filter
        fun r => decide (rr r = .inside)) = [] := by
      intro g
      rw [List.filter_eq_nil_iff]
      intro r hr
      simpa using (hrr r (List.mem_of_mem_filter hr)).2
    simp only [Outcome.map, Outcome.bind, hmids, List.map_nil, List.append_nil]

end Verif.Board
