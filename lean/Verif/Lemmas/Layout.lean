import Verif.Spec.Layout
import Mathlib.Tactic.Common
import Mathlib.Tactic.Linarith
import Mathlib.Tactic.FieldSimp
import Mathlib.Tactic.Ring
import Mathlib.Data.List.Sort

namespace Verif.Layout
open Spec

variable {ι : Type} [DecidableEq ι]

@[simp] theorem set_same {κ α : Type} [DecidableEq κ] (f : κ → α) (k : κ) (v : α) : set f k v k = v := by simp [set]

theorem set_other {κ α : Type} [DecidableEq κ] (f : κ → α) {k j : κ} (v : α) (h : j ≠ k) : set f k v j = f j := by
  simp [set, h]

/-- The heights of the nodes and as many margins. -/
def total (box : ι → Box) (gap : ℚ) (l : List ι) : ℚ := (l.map fun a => (box a).h + gap).sum

/-- The nodes of a column. -/
def inCol (box : ι → Box) (k : Nat) (l : List ι) : List ι := l.filter fun a => (box a).col = k

omit [DecidableEq ι] in
theorem inCol_cons_same (box : ι → Box) (a : ι) (l : List ι) :
    inCol box (box a).col (a :: l) = a :: inCol box (box a).col l := by simp [inCol]

omit [DecidableEq ι] in
theorem inCol_cons_other (box : ι → Box) {a : ι} {k : Nat} (h : k ≠ (box a).col) (l : List ι) :
    inCol box k (a :: l) = inCol box k l := by
  unfold inCol
  rw [List.filter_cons_of_neg]
  simpa using fun e => h e.symm

omit [DecidableEq ι] in
theorem mem_inCol {box : ι → Box} {k : Nat} {a : ι} {l : List ι} : a ∈ inCol box k l ↔ a ∈ l ∧ (box a).col = k := by
  simp [inCol]

/-- What a column is before its first node. -/
def base (mh : ℚ) (m : Columns) (k : Nat) : Column := if k ∈ m.keys then m.col k else { h := mh }

/-- What the nodes add to a column. -/
def grown (box : ι → Box) (mh : ℚ) (c : Column) (l : List ι) : Column :=
  { c with h := c.h + total box mh l, w := l.foldl (fun w a => max w (box a).w) c.w, n := c.n + l.length }

theorem reach_mem (m : Columns) (mh : ℚ) (i k : Nat) : k ∈ (m.reach mh i).keys ↔ k ∈ m.keys ∨ k = i := by
  unfold Columns.reach
  split
  · rename_i h
    constructor
    · exact Or.inl
    · rintro (h' | rfl)
      exacts [h', h]
  · simp [or_comm]

theorem reach_sorted {m : Columns} (mh : ℚ) (i : Nat) (h : m.keys.Pairwise (· < ·)) :
    (m.reach mh i).keys.Pairwise (· < ·) := by
  unfold Columns.reach
  split
  · exact h
  · rename_i hn
    have h1 : m.keys.Pairwise (· ≤ ·) := h.imp (fun h => le_of_lt h)
    have h2 : (m.keys.orderedInsert (· ≤ ·) i).Pairwise (· ≤ ·) := List.Pairwise.orderedInsert i _ h1
    have h3 : (m.keys.orderedInsert (· ≤ ·) i).Nodup := by
      rw [(List.perm_orderedInsert (· ≤ ·) i m.keys).nodup_iff, List.nodup_cons]
      exact ⟨hn, h.imp (fun h => ne_of_lt h)⟩
    exact (h2.and h3).imp fun h => lt_of_le_of_ne h.1 h.2

theorem reach_col_same (m : Columns) (mh : ℚ) (i : Nat) : (m.reach mh i).col i = base mh m i := by
  unfold Columns.reach base
  split <;> simp_all

theorem reach_col_other (m : Columns) (mh : ℚ) {i k : Nat} (h : k ≠ i) : (m.reach mh i).col k = m.col k := by
  unfold Columns.reach
  split
  · rfl
  · exact set_other _ _ h

theorem sizes_keys (box : ι → Box) (mh : ℚ) (l : List ι) (m : Columns) (y : ι → ℚ) (k : Nat) :
    k ∈ (sizes box mh l m y).1.keys ↔ k ∈ m.keys ∨ ∃ a ∈ l, (box a).col = k := by
  induction l generalizing m y with
  | nil => simp [sizes]
  | cons a l ih =>
    simp only [sizes, ih, reach_mem, List.mem_cons, exists_eq_or_imp]
    constructor
    · rintro ((h | rfl) | h)
      exacts [Or.inl h, Or.inr (Or.inl rfl), Or.inr (Or.inr h)]
    · rintro (h | rfl | h)
      exacts [Or.inl (Or.inl h), Or.inl (Or.inr rfl), Or.inr h]

theorem sizes_sorted (box : ι → Box) (mh : ℚ) (l : List ι) (m : Columns) (y : ι → ℚ) (h : m.keys.Pairwise (· < ·)) :
    (sizes box mh l m y).1.keys.Pairwise (· < ·) := by
  induction l generalizing m y with
  | nil => simpa [sizes] using h
  | cons a l ih =>
    simp only [sizes]
    apply ih
    exact reach_sorted mh _ h

theorem sizes_col (box : ι → Box) (mh : ℚ) (l : List ι) (m : Columns) (y : ι → ℚ) (k : Nat)
    (hk : k ∈ (sizes box mh l m y).1.keys) :
    (sizes box mh l m y).1.col k = grown box mh (base mh m k) (inCol box k l) := by
  induction l generalizing m y with
  | nil =>
    simp only [sizes] at hk
    simp [sizes, grown, inCol, total, base, hk]
  | cons a l ih =>
    simp only [sizes] at hk ⊢
    rw [ih _ _ hk]
    by_cases h : k = (box a).col
    · subst h
      rw [inCol_cons_same]
      have : (box a).col ∈ (m.reach mh (box a).col).keys := (reach_mem _ _ _ _).mpr (Or.inr rfl)
      simp only [base, this, if_true, set_same, reach_col_same, grown, total, List.map_cons, List.sum_cons, List.foldl_cons,
        List.length_cons]
      congr 1
      · ring
      · push_cast; ring
    · rw [inCol_cons_other box h]
      congr 1
      simp only [base, reach_mem, h, or_false, set_other _ _ h, reach_col_other _ _ h]

theorem sizes_y_other (box : ι → Box) (mh : ℚ) (l : List ι) (m : Columns) (y : ι → ℚ) {a : ι} (h : a ∉ l) :
    (sizes box mh l m y).2 a = y a := by
  induction l generalizing m y with
  | nil => simp [sizes]
  | cons b l ih =>
    rw [List.mem_cons, not_or] at h
    simp only [sizes]
    rw [ih _ _ h.2, set_other _ _ h.1]

theorem sizes_spaced (box : ι → Box) (mh : ℚ) (l : List ι) (hl : l.Nodup) (m : Columns) (y : ι → ℚ) (k : Nat) :
    Spaced box (sizes box mh l m y).2 mh (base mh m k).h (inCol box k l) := by
  induction l generalizing m y with
  | nil => simp [inCol, Spaced]
  | cons a l ih =>
    rw [List.nodup_cons] at hl
    simp only [sizes]
    by_cases h : k = (box a).col
    · subst h
      rw [inCol_cons_same]
      have hy : ∀ m', (sizes box mh l m' (set y a ((m.reach mh (box a).col).col (box a).col).h)).2 a
          = (base mh m (box a).col).h := by
        intro m'
        rw [sizes_y_other _ _ _ _ _ hl.1, set_same, reach_col_same]
      refine ⟨hy _, ?_⟩
      rw [hy]
      have := ih hl.2 (Columns.mk (m.reach mh (box a).col).keys (set (m.reach mh (box a).col).col (box a).col
        { (m.reach mh (box a).col).col (box a).col with
          h := ((m.reach mh (box a).col).col (box a).col).h + ((box a).h + mh)
          w := max ((m.reach mh (box a).col).col (box a).col).w (box a).w
          n := ((m.reach mh (box a).col).col (box a).col).n + 1 }))
        (set y a ((m.reach mh (box a).col).col (box a).col).h)
      convert this using 2
      have hm : (box a).col ∈ (m.reach mh (box a).col).keys := (reach_mem _ _ _ _).mpr (Or.inr rfl)
      simp only [base, hm, if_true, set_same, reach_col_same]
      ring
    · rw [inCol_cons_other box h]
      convert ih hl.2 _ _ using 2
      simp only [base, reach_mem, h, or_false, set_other _ _ h, reach_col_other _ _ h]

/-! ## Positions of the columns -/

theorem places_other (mw : ℚ) (ks : List Nat) (x : ℚ) (f : Nat → Column) {k : Nat} (h : k ∉ ks) :
    places mw ks x f k = f k := by
  induction ks generalizing x f with
  | nil => rfl
  | cons j ks ih =>
    rw [List.mem_cons, not_or] at h
    simp only [places]
    rw [ih _ _ h.2, set_other _ _ h.1]

theorem places_rest (mw : ℚ) (ks : List Nat) (x : ℚ) (f : Nat → Column) (k : Nat) :
    places mw ks x f k = { f k with x := (places mw ks x f k).x } := by
  induction ks generalizing x f with
  | nil => rfl
  | cons j ks ih =>
    simp only [places]
    rw [ih]
    by_cases h : k = j
    · subst h; simp
    · simp [set_other _ _ h]

theorem places_ge (mw : ℚ) (hmw : 0 ≤ mw) (ks : List Nat) (hks : ks.Pairwise (· < ·)) (x : ℚ) (f : Nat → Column)
    (hw : ∀ k ∈ ks, 0 ≤ (f k).w) : ∀ k ∈ ks, x ≤ (places mw ks x f k).x := by
  induction ks generalizing x f with
  | nil => simp
  | cons j ks ih =>
    rw [List.pairwise_cons] at hks
    intro k hk
    simp only [places]
    rcases List.mem_cons.mp hk with rfl | hk
    · rw [places_other _ _ _ _ (fun h => lt_irrefl _ (hks.1 _ h))]
      simp
    · have := ih hks.2 (x + (f j).w + mw) (set f j { f j with x := x }) (fun i hi => by
        rw [set_other _ _ (fun e => lt_irrefl _ (e ▸ hks.1 i hi))]
        exact hw i (List.mem_cons_of_mem _ hi)) k hk
      have h0 := hw j List.mem_cons_self
      linarith

theorem places_apart (mw : ℚ) (hmw : 0 ≤ mw) (ks : List Nat) (hks : ks.Pairwise (· < ·)) (x : ℚ) (f : Nat → Column)
    (hw : ∀ k ∈ ks, 0 ≤ (f k).w) : ∀ k ∈ ks, ∀ j ∈ ks, k < j →
      (places mw ks x f k).x + (f k).w + mw ≤ (places mw ks x f j).x := by
  induction ks generalizing x f with
  | nil => simp
  | cons i ks ih =>
    rw [List.pairwise_cons] at hks
    have hset : ∀ n ∈ ks, set f i { f i with x := x } n = f n := fun n hn =>
      set_other _ _ (fun e => lt_irrefl _ (e ▸ hks.1 n hn))
    intro k hk j hj hkj
    simp only [places]
    have hj' : j ∈ ks := by
      rcases List.mem_cons.mp hj with rfl | h
      · rcases List.mem_cons.mp hk with rfl | h
        · exact absurd hkj (lt_irrefl _)
        · exact absurd (hks.1 _ h) (not_lt_of_gt hkj)
      · exact h
    rcases List.mem_cons.mp hk with rfl | hk'
    · rw [places_other _ _ _ _ (fun h => lt_irrefl _ (hks.1 _ h)), set_same]
      exact places_ge mw hmw ks hks.2 _ _ (fun n hn => by rw [hset n hn]; exact hw n (List.mem_cons_of_mem _ hn)) j hj'
    · have := ih hks.2 (x + (f i).w + mw) (set f i { f i with x := x })
        (fun n hn => by rw [hset n hn]; exact hw n (List.mem_cons_of_mem _ hn)) k hk' j hj' hkj
      rwa [hset k hk'] at this

/-- Anything that leaves as much between the columns is at least as far on the right. -/
theorem places_least (mw : ℚ) (ks : List Nat) (hks : ks.Pairwise (· < ·)) (x : ℚ) (f : Nat → Column)
    (X : Nat → ℚ) (hx : ∀ k ∈ ks, x ≤ X k) (hX : ∀ k ∈ ks, ∀ j ∈ ks, k < j → X k + (f k).w + mw ≤ X j) :
    ∀ k ∈ ks, (places mw ks x f k).x ≤ X k := by
  induction ks generalizing x f with
  | nil => simp
  | cons i ks ih =>
    rw [List.pairwise_cons] at hks
    have hset : ∀ n ∈ ks, set f i { f i with x := x } n = f n := fun n hn =>
      set_other _ _ (fun e => lt_irrefl _ (e ▸ hks.1 n hn))
    intro k hk
    simp only [places]
    rcases List.mem_cons.mp hk with rfl | hk
    · rw [places_other _ _ _ _ (fun h => lt_irrefl _ (hks.1 _ h)), set_same]
      exact hx _ List.mem_cons_self
    · refine ih hks.2 _ _ (fun n hn => ?_) (fun n hn j hj h => ?_) k hk
      · have h1 := hX i List.mem_cons_self n (List.mem_cons_of_mem _ hn) (hks.1 n hn)
        have h2 := hx i List.mem_cons_self
        linarith
      · rw [hset n hn]
        exact hX n (List.mem_cons_of_mem _ hn) j (List.mem_cons_of_mem _ hj) h

/-! ## Size of the zone -/

theorem foldl_max_ge {α : Type} (g : α → ℚ) (l : List α) (h : ℚ) : h ≤ l.foldl (fun h k => max h (g k)) h := by
  induction l generalizing h with
  | nil => exact le_refl _
  | cons a l ih => exact le_trans (le_max_left _ _) (ih _)

theorem foldl_max_mem {α : Type} (g : α → ℚ) (l : List α) (h : ℚ) {a : α} (ha : a ∈ l) :
    g a ≤ l.foldl (fun h k => max h (g k)) h := by
  induction l generalizing h with
  | nil => cases ha
  | cons b l ih =>
    rcases List.mem_cons.mp ha with rfl | ha
    · exact le_trans (le_max_right _ _) (foldl_max_ge g l _)
    · exact ih _ ha

theorem foldl_max_le {α : Type} (g : α → ℚ) (l : List α) (h M : ℚ) (hh : h ≤ M) (hl : ∀ a ∈ l, g a ≤ M) :
    l.foldl (fun h k => max h (g k)) h ≤ M := by
  induction l generalizing h with
  | nil => exact hh
  | cons b l ih =>
    exact ih _ (max_le hh (hl b List.mem_cons_self)) (fun a ha => hl a (List.mem_cons_of_mem _ ha))

/-! ## Spaces -/

omit [DecidableEq ι] in
theorem total_nonneg {box : ι → Box} {gap : ℚ} (hgap : 0 ≤ gap) {l : List ι} (hh : ∀ a ∈ l, 0 ≤ (box a).h) :
    0 ≤ total box gap l := by
  induction l with
  | nil => simp [total]
  | cons a l ih =>
    have h1 := ih (fun b hb => hh b (List.mem_cons_of_mem _ hb))
    have h2 := hh a List.mem_cons_self
    simp only [total, List.map_cons, List.sum_cons] at h1 ⊢
    linarith

omit [DecidableEq ι] in
theorem total_gap (box : ι → Box) (gap gap' : ℚ) (l : List ι) :
    total box gap l = total box gap' l + l.length * (gap - gap') := by
  induction l with
  | nil => simp [total]
  | cons a l ih =>
    simp only [total, List.map_cons, List.sum_cons, List.length_cons] at ih ⊢
    rw [ih]; push_cast; ring

omit [DecidableEq ι] in
theorem spaced_bounds {box : ι → Box} {y : ι → ℚ} {gap top : ℚ} (hgap : 0 ≤ gap) {l : List ι} (hh : ∀ a ∈ l, 0 ≤ (box a).h)
    (h : Spaced box y gap top l) : ∀ a ∈ l, top ≤ y a ∧ y a + (box a).h + gap ≤ top + total box gap l := by
  induction l generalizing top with
  | nil => simp
  | cons b l ih =>
    obtain ⟨h1, h2⟩ := h
    have hl := fun a ha => hh a (List.mem_cons_of_mem b ha)
    have ht := total_nonneg hgap hl
    have hb := hh b List.mem_cons_self
    intro a ha
    simp only [total, List.map_cons, List.sum_cons] at ht ⊢
    rcases List.mem_cons.mp ha with rfl | ha
    · constructor <;> linarith
    · obtain ⟨h3, h4⟩ := ih hl h2 a ha
      simp only [total] at h4
      constructor <;> linarith

omit [DecidableEq ι] in
theorem spaced_pairwise {box : ι → Box} {y : ι → ℚ} {gap top : ℚ} (hgap : 0 ≤ gap) {l : List ι} (hh : ∀ a ∈ l, 0 ≤ (box a).h)
    (h : Spaced box y gap top l) : l.Pairwise fun a b => y a + (box a).h + gap ≤ y b := by
  induction l generalizing top with
  | nil => simp
  | cons b l ih =>
    obtain ⟨h1, h2⟩ := h
    have hl := fun a ha => hh a (List.mem_cons_of_mem b ha)
    rw [List.pairwise_cons]
    exact ⟨fun a ha => (spaced_bounds hgap hl h2 a ha).1, ih hl h2⟩

omit [DecidableEq ι] in
theorem spaced_congr {box : ι → Box} {y y' : ι → ℚ} {gap top : ℚ} {l : List ι} (hy : ∀ a ∈ l, y a = y' a)
    (h : Spaced box y gap top l) : Spaced box y' gap top l := by
  induction l generalizing top with
  | nil => trivial
  | cons b l ih =>
    obtain ⟨h1, h2⟩ := h
    have e := hy b List.mem_cons_self
    refine ⟨e ▸ h1, ?_⟩
    rw [← e]
    exact ih (fun a ha => hy a (List.mem_cons_of_mem _ ha)) h2

omit [DecidableEq ι] in
theorem spaced_shift {box : ι → Box} {y : ι → ℚ} {gap top : ℚ} (d : ℚ) {l : List ι}
    (h : Spaced box y gap top l) : Spaced box (fun a => y a + d) gap (top + d) l := by
  induction l generalizing top with
  | nil => trivial
  | cons b l ih =>
    obtain ⟨h1, h2⟩ := h
    refine ⟨by simp only [h1], ?_⟩
    have := ih h2
    convert this using 1
    ring

theorem stack_other (box : ι → Box) (put : ι → ℚ × ℚ → ℚ × ℚ) (l : List ι) (f : Nat → Column) (pos : ι → ℚ × ℚ)
    {a : ι} (h : a ∉ l) : stack box put l f pos a = pos a := by
  induction l generalizing f pos with
  | nil => simp [stack]
  | cons b l ih =>
    rw [List.mem_cons, not_or] at h
    simp only [stack]
    rw [ih _ _ h.2, set_other _ _ h.1]

theorem stack_start (box : ι → Box) (put : ι → ℚ × ℚ → ℚ × ℚ) (l : List ι) (f : Nat → Column) (pos pos' : ι → ℚ × ℚ)
    {a : ι} (h : a ∈ l ∨ pos a = pos' a) : stack box put l f pos a = stack box put l f pos' a := by
  induction l generalizing f pos pos' with
  | nil => simpa [stack] using h
  | cons b l ih =>
    simp only [stack]
    apply ih
    by_cases e : a = b
    · subst e; simp
    · rw [set_other _ _ e, set_other _ _ e]
      rcases h with h | h
      exacts [Or.inl ((List.mem_cons.mp h).resolve_left e), Or.inr h]

/-- The loop of the two last cases. -/
theorem stack_put (box : ι → Box) (put : ι → ℚ × ℚ → ℚ × ℚ) (l : List ι) (hl : l.Nodup) (f : Nat → Column) (pos : ι → ℚ × ℚ)
    (a : ι) (ha : a ∈ l) : stack box put l f pos a = put a (stack box (fun _ p => p) l f pos a) := by
  induction l generalizing f pos with
  | nil => cases ha
  | cons b l ih =>
    rw [List.nodup_cons] at hl
    simp only [stack]
    by_cases h : a = b
    · subst h
      rw [stack_other _ _ _ _ _ hl.1, stack_other _ _ _ _ _ hl.1, set_same, set_same]
    · have ha' := (List.mem_cons.mp ha).resolve_left h
      rw [ih hl.2 _ _ ha']
      congr 1
      exact stack_start _ _ _ _ _ _ (Or.inl ha')

theorem stack_x (box : ι → Box) (l : List ι) (hl : l.Nodup) (f : Nat → Column) (pos : ι → ℚ × ℚ)
    {a : ι} (ha : a ∈ l) : (stack box (fun _ p => p) l f pos a).1 = (f (box a).col).x := by
  induction l generalizing f pos with
  | nil => cases ha
  | cons b l ih =>
    rw [List.nodup_cons] at hl
    simp only [stack]
    by_cases h : a = b
    · subst h
      rw [stack_other _ _ _ _ _ hl.1, set_same]
    · rw [ih hl.2 _ _ ((List.mem_cons.mp ha).resolve_left h)]
      by_cases hc : (box a).col = (box b).col
      · rw [hc, set_same]
      · rw [set_other _ _ hc]

theorem stack_spaced (box : ι → Box) (l : List ι) (hl : l.Nodup) (f : Nat → Column) (pos : ι → ℚ × ℚ) (k : Nat) :
    Spaced box (fun a => (stack box (fun _ p => p) l f pos a).2) (f k).margin (f k).h (inCol box k l) := by
  induction l generalizing f pos with
  | nil => simp [inCol, Spaced]
  | cons b l ih =>
    rw [List.nodup_cons] at hl
    simp only [stack]
    by_cases h : k = (box b).col
    · subst h
      rw [inCol_cons_same]
      have e : ∀ g, (stack box (fun _ p => p) l g (set pos b ((f (box b).col).x, (f (box b).col).h)) b).2 = (f (box b).col).h := by
        intro g
        rw [stack_other _ _ _ _ _ hl.1, set_same]
      refine ⟨e _, ?_⟩
      have := ih hl.2 (set f (box b).col { f (box b).col with h := (f (box b).col).h + ((box b).h + (f (box b).col).margin) })
        (set pos b ((f (box b).col).x, (f (box b).col).h))
      rw [set_same] at this
      convert this using 1
      dsimp only
      rw [e]
      ring
    · rw [inCol_cons_other box h]
      have := ih hl.2 (set f (box b).col { f (box b).col with h := (f (box b).col).h + ((box b).h + (f (box b).col).margin) })
        (set pos b ((f (box b).col).x, (f (box b).col).h))
      rwa [set_other _ _ h] at this

theorem foldl_set (l : List ι) (hl : l.Nodup) (g : ι → ℚ × ℚ) (pos : ι → ℚ × ℚ) (a : ι) :
    l.foldl (fun pos a => set pos a (g a)) pos a = if a ∈ l then g a else pos a := by
  induction l generalizing pos with
  | nil => simp
  | cons b l ih =>
    rw [List.nodup_cons] at hl
    rw [List.foldl_cons, ih hl.2]
    by_cases h : a = b
    · subst h; simp [hl.1]
    · simp [h, set_other _ _ h]

end Verif.Layout
