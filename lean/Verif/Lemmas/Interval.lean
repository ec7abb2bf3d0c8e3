import Verif.Model.Interval
import Verif.Spec.Interval
import Mathlib.Tactic.Linarith
import Mathlib.Tactic.Ring
import Mathlib.Tactic.FieldSimp
import Mathlib.Tactic.Positivity
import Mathlib.Tactic.NormNum
import Mathlib.Algebra.Order.Archimedean.Basic
import Mathlib.Algebra.Order.Ring.Archimedean
import Mathlib.Data.Rat.Floor

/-! # Lemmas about intervals -/

namespace Verif.Mesh
open Spec

section
variable {d σ dmax s : ℚ}

theorem spacing_pos (hd : 0 < d) (hm : 0 < dmax) (hσ : 1 ≤ σ) (i : Nat) : 0 < spacing d σ dmax i := by
  unfold spacing
  have : 0 < min d dmax := lt_min hd hm
  have : 0 < σ := by linarith
  exact lt_min (by positivity) hm

theorem spacing_le (i : Nat) : spacing d σ dmax i ≤ dmax := min_le_right _ _

theorem spacing_mono (hd : 0 < d) (hm : 0 < dmax) (hσ : 1 ≤ σ) (i : Nat) :
    spacing d σ dmax i ≤ spacing d σ dmax (i + 1) := by
  unfold spacing
  have h0 : 0 < min d dmax := lt_min hd hm
  refine min_le_min ?_ le_rfl
  exact mul_le_mul_of_nonneg_left (pow_le_pow_right₀ hσ (by omega)) h0.le

theorem spacing_succ_le (hm : 0 < dmax) (hσ : 1 ≤ σ) (i : Nat) :
    spacing d σ dmax (i + 1) ≤ σ * spacing d σ dmax i := by
  unfold spacing
  rcases le_total (min d dmax * σ ^ (i + 1)) dmax with h | h
  · rw [min_eq_left h]
    refine (min_le_left _ _).trans (le_of_eq ?_)
    ring
  · rw [min_eq_right h]
    refine (min_le_right _ _).trans ?_
    nlinarith

theorem le_spacing_zero (hd : 0 < d) (hm : 0 < dmax) (hσ : 1 ≤ σ) : min d dmax ≤ spacing d σ dmax 0 := by
  unfold spacing
  have h0 : 0 < min d dmax := lt_min hd hm
  refine le_min ?_ (min_le_right _ _)
  rw [zero_add, pow_one]
  nlinarith

theorem le_spacing (hd : 0 < d) (hm : 0 < dmax) (hσ : 1 ≤ σ) (i : Nat) : min d dmax ≤ spacing d σ dmax i := by
  induction i with
  | zero => exact le_spacing_zero hd hm hσ
  | succ i ih => exact ih.trans (spacing_mono hd hm hσ i)

theorem spacing_zero_le : spacing d σ dmax 0 ≤ σ * min d dmax := by
  unfold spacing
  rw [zero_add, pow_one, mul_comm]
  exact min_le_left _ _

theorem position_lt_succ (hd : 0 < d) (hm : 0 < dmax) (hσ : 1 ≤ σ) (n : Nat) :
    position d σ dmax n < position d σ dmax (n + 1) := by
  have := spacing_pos hd hm hσ n
  simp only [position]; linarith

theorem position_strictMono (hd : 0 < d) (hm : 0 < dmax) (hσ : 1 ≤ σ) : StrictMono (position d σ dmax) :=
  strictMono_nat_of_lt_succ (position_lt_succ hd hm hσ)

theorem position_ge (hd : 0 < d) (hm : 0 < dmax) (hσ : 1 ≤ σ) (n : Nat) :
    n * min d dmax ≤ position d σ dmax n := by
  induction n with
  | zero => simp [position]
  | succ n ih =>
    have := le_spacing hd hm hσ n
    simp only [position]; push_cast; linarith

/-- The loop reaches the end. -/
theorem exists_position_ge (hd : 0 < d) (hm : 0 < dmax) (hσ : 1 ≤ σ) (s : ℚ) :
    ∃ n, s ≤ position d σ dmax n := by
  have h0 : 0 < min d dmax := lt_min hd hm
  obtain ⟨n, hn⟩ := Archimedean.arch s h0
  refine ⟨n, hn.trans ?_⟩
  rw [nsmul_eq_mul]
  exact position_ge hd hm hσ n

/-- Number of lines of a half interval of length `s`: the least number of spacings that reach `s`. -/
noncomputable def lineCount (hd : 0 < d) (hm : 0 < dmax) (hσ : 1 ≤ σ) (s : ℚ) : Nat :=
  Nat.find (exists_position_ge hd hm hσ s)

theorem lineCount_spec (hd : 0 < d) (hm : 0 < dmax) (hσ : 1 ≤ σ) (s : ℚ) :
    s ≤ position d σ dmax (lineCount hd hm hσ s) := Nat.find_spec (exists_position_ge hd hm hσ s)

theorem lt_of_lt_lineCount (hd : 0 < d) (hm : 0 < dmax) (hσ : 1 ≤ σ) {n : Nat}
    (h : n < lineCount hd hm hσ s) : position d σ dmax n < s :=
  not_le.mp (Nat.find_min (exists_position_ge hd hm hσ s) h)

theorem le_lineCount (hd : 0 < d) (hm : 0 < dmax) (hσ : 1 ≤ σ) {n : Nat}
    (h : ∀ k < n, position d σ dmax k < s) : n ≤ lineCount hd hm hσ s := by
  by_contra hc
  exact absurd (lineCount_spec hd hm hσ s) (not_le.mpr (h _ (by omega)))

theorem lineCount_le (hd : 0 < d) (hm : 0 < dmax) (hσ : 1 ≤ σ) {n : Nat}
    (h : s ≤ position d σ dmax n) : lineCount hd hm hσ s ≤ n := Nat.find_min' _ h

/-- Value of `current_d` after `k` turns. -/
theorem step_d (hd : 0 < d) (hm : 0 < dmax) (hσ : 1 ≤ σ) (k : Nat) (c : ℚ)
    (hc : c = min (min d dmax * σ ^ k) dmax) :
    (if c < dmax then if c * σ > dmax then dmax else c * σ else c) = spacing d σ dmax k := by
  have h0 : 0 < min d dmax := lt_min hd hm
  unfold spacing
  rcases lt_or_ge (min d dmax * σ ^ k) dmax with h | h
  · rw [min_eq_left h.le] at hc
    subst hc
    rw [if_pos h, pow_succ, ← mul_assoc]
    split
    · rename_i h2; rw [min_eq_right h2.le]
    · rename_i h2; rw [min_eq_left (not_lt.mp h2)]
  · rw [min_eq_right h] at hc
    subst hc
    rw [if_neg (lt_irrefl _), min_eq_right]
    rw [pow_succ, ← mul_assoc]
    have : 0 ≤ min d c * σ ^ k := by linarith
    nlinarith

theorem loop_eq (hd : 0 < d) (hm : 0 < dmax) (hσ : 1 ≤ σ) (s : ℚ) (n : Nat) :
    ∀ k, k + n = lineCount hd hm hσ s → ∀ c, c = min (min d dmax * σ ^ k) dmax →
      findLs.loop σ dmax s c (position d σ dmax k) =
        some ((List.range' k n).map fun i => position d σ dmax (i + 1)) := by
  induction n with
  | zero =>
    intro k hk c hc
    rw [findLs.loop, if_neg]
    · simp
    · have := lineCount_spec hd hm hσ s
      rw [← hk, Nat.add_zero] at this
      exact not_lt.mpr this
  | succ n ih =>
    intro k hk c hc
    rw [findLs.loop, if_pos (lt_of_lt_lineCount hd hm hσ (by omega))]
    simp only [step_d hd hm hσ k c hc]
    have h1 : position d σ dmax k + spacing d σ dmax k = position d σ dmax (k + 1) := rfl
    rw [h1, ih (k + 1) (by omega) (spacing d σ dmax k) rfl]
    simp [List.range'_succ]

/-- `find_ls` ends and gives the first positions, up to the first that is not before `s`. -/
theorem findLs_eq (hd : 0 < d) (hm : 0 < dmax) (hσ : 1 ≤ σ) (s : ℚ) :
    findLs d σ dmax s =
      some ((List.range (lineCount hd hm hσ s)).map fun i => position d σ dmax (i + 1)) := by
  have := loop_eq hd hm hσ s (lineCount hd hm hσ s) 0 (by omega) (min d dmax) (by simp)
  rw [List.range_eq_range']
  exact this

/-- The lines, as a list. -/
noncomputable def lines (hd : 0 < d) (hm : 0 < dmax) (hσ : 1 ≤ σ) (s : ℚ) : List ℚ :=
  (List.range (lineCount hd hm hσ s)).map fun i => position d σ dmax (i + 1)

theorem findLs_lines (hd : 0 < d) (hm : 0 < dmax) (hσ : 1 ≤ σ) (s : ℚ) :
    findLs d σ dmax s = some (lines hd hm hσ s) := findLs_eq hd hm hσ s

@[simp] theorem length_lines (hd : 0 < d) (hm : 0 < dmax) (hσ : 1 ≤ σ) (s : ℚ) :
    (lines hd hm hσ s).length = lineCount hd hm hσ s := by simp [lines]

theorem lines_get (hd : 0 < d) (hm : 0 < dmax) (hσ : 1 ≤ σ) (s : ℚ) (i : Nat)
    (h : i < (lines hd hm hσ s).length) : (lines hd hm hσ s)[i] = position d σ dmax (i + 1) := by simp [lines]

theorem lines_nil (hd : 0 < d) (hm : 0 < dmax) (hσ : 1 ≤ σ) (h : s ≤ 0) : lines hd hm hσ s = [] := by
  have : lineCount hd hm hσ s = 0 := Nat.le_zero.mp (lineCount_le hd hm hσ (n := 0) h)
  simp [lines, this]

theorem lineCount_pos (hd : 0 < d) (hm : 0 < dmax) (hσ : 1 ≤ σ) (h : 0 < s) : 0 < lineCount hd hm hσ s :=
  le_lineCount hd hm hσ (n := 1) fun k hk => by
    have : k = 0 := by omega
    subst this; exact h

theorem lines_ne_nil_iff (hd : 0 < d) (hm : 0 < dmax) (hσ : 1 ≤ σ) : lines hd hm hσ s ≠ [] ↔ 0 < s := by
  constructor
  · intro h
    by_contra hs
    exact h (lines_nil hd hm hσ (not_lt.mp hs))
  · intro h hn
    have := lineCount_pos hd hm hσ h
    rw [← length_lines, hn] at this
    exact absurd this (by simp)

theorem isChain_map_range (f : Nat → ℚ) (R : ℚ → ℚ → Prop) (h : ∀ i, R (f i) (f (i + 1))) (n : Nat) :
    ((List.range n).map f).IsChain R := by
  rw [List.isChain_iff_getElem]
  intro i hi
  simp only [List.getElem_map, List.getElem_range]
  exact h i

theorem zero_cons_lines (hd : 0 < d) (hm : 0 < dmax) (hσ : 1 ≤ σ) (s : ℚ) :
    0 :: lines hd hm hσ s = (List.range (lineCount hd hm hσ s + 1)).map (position d σ dmax) := by
  rw [List.range_succ_eq_map, List.map_cons, List.map_map]
  rfl

/-- The lines are strictly increasing from 0. -/
theorem lines_increasing (hd : 0 < d) (hm : 0 < dmax) (hσ : 1 ≤ σ) (s : ℚ) :
    Increasing (0 :: lines hd hm hσ s) := by
  rw [zero_cons_lines]
  exact isChain_map_range _ _ (position_lt_succ hd hm hσ) _

theorem gapsFrom_map_range' (f : Nat → ℚ) (n : Nat) : ∀ k,
    gapsFrom (f k) ((List.range' k n).map fun i => f (i + 1)) = (List.range' k n).map fun i => f (i + 1) - f i := by
  induction n with
  | zero => intro k; rfl
  | succ n ih =>
    intro k
    simp only [List.range'_succ, List.map_cons, gapsFrom]
    rw [ih (k + 1)]

theorem gaps_lines (hd : 0 < d) (hm : 0 < dmax) (hσ : 1 ≤ σ) (s : ℚ) :
    gapsFrom 0 (lines hd hm hσ s) = (List.range (lineCount hd hm hσ s)).map (spacing d σ dmax) := by
  have := gapsFrom_map_range' (position d σ dmax) (lineCount hd hm hσ s) 0
  rw [lines, List.range_eq_range']
  refine this.trans (List.map_congr_left fun i _ => ?_)
  simp [position]

theorem lines_dropLast_lt (hd : 0 < d) (hm : 0 < dmax) (hσ : 1 ≤ σ) (s : ℚ) :
    ∀ x ∈ (lines hd hm hσ s).dropLast, x < s := by
  intro x hx
  obtain ⟨i, hi, rfl⟩ := List.mem_iff_getElem.mp hx
  rw [List.getElem_dropLast, lines_get]
  refine lt_of_lt_lineCount hd hm hσ ?_
  simp at hi
  omega

theorem lines_getLast_ge (hd : 0 < d) (hm : 0 < dmax) (hσ : 1 ≤ σ) (h : lines hd hm hσ s ≠ []) :
    s ≤ (lines hd hm hσ s).getLast h := by
  rw [List.getLast_eq_getElem, lines_get]
  have h1 : 0 < lineCount hd hm hσ s := by
    rw [← length_lines]; exact List.length_pos_iff.mpr h
  have h2 : (lines hd hm hσ s).length - 1 + 1 = lineCount hd hm hσ s := by rw [length_lines]; omega
  rw [h2]
  exact lineCount_spec hd hm hσ s

theorem lines_pos (hd : 0 < d) (hm : 0 < dmax) (hσ : 1 ≤ σ) (s : ℚ) : ∀ x ∈ lines hd hm hσ s, 0 < x := by
  intro x hx
  obtain ⟨i, hi, rfl⟩ := List.mem_iff_getElem.mp hx
  rw [lines_get]
  exact (position_strictMono hd hm hσ) (Nat.succ_pos i)

end

/-! ## Comparing half intervals -/

theorem position_mono_params {d σ dmax d' σ' dmax' : ℚ} (hd : 0 < d) (hm : 0 < dmax) (hσ : 1 ≤ σ)
    (hdd : min d dmax ≤ min d' dmax') (hσσ : σ ≤ σ') (hmm : dmax ≤ dmax') (n : Nat) :
    position d σ dmax n ≤ position d' σ' dmax' n := by
  induction n with
  | zero => exact le_rfl
  | succ n ih =>
    have h0 : 0 < min d dmax := lt_min hd hm
    have h1 : spacing d σ dmax n ≤ spacing d' σ' dmax' n := by
      unfold spacing
      refine min_le_min ?_ hmm
      refine mul_le_mul hdd (pow_le_pow_left₀ (by linarith) hσσ _) ?_ ?_
      · have : 0 < σ := by linarith
        positivity
      · linarith
    simp only [position]; linarith

/-- Smaller spacings and a longer half interval give at least as many lines. -/
theorem lineCount_mono {d σ dmax s d' σ' dmax' s' : ℚ} (hd : 0 < d) (hm : 0 < dmax) (hσ : 1 ≤ σ)
    (hd' : 0 < d') (hm' : 0 < dmax') (hσ' : 1 ≤ σ') (hdd : min d dmax ≤ min d' dmax') (hσσ : σ ≤ σ')
    (hmm : dmax ≤ dmax') (hs : s' ≤ s) : lineCount hd' hm' hσ' s' ≤ lineCount hd hm hσ s :=
  lineCount_le hd' hm' hσ'
    ((hs.trans (lineCount_spec hd hm hσ s)).trans (position_mono_params hd hm hσ hdd hσσ hmm _))

/-! ## Validity -/

theorem validLoop_true (f : Nat → ℚ) (σ dmax : ℚ) (h1 : ∀ i, f (i + 2) - f (i + 1) ≤ σ * (f (i + 1) - f i))
    (h2 : ∀ i, f (i + 1) - f i ≤ dmax) (n : Nat) : ∀ k, isLsValid.loop σ dmax ((List.range' k n).map f) = true := by
  have ht : (0 : ℚ) < tolerance := by norm_num [tolerance]
  induction n with
  | zero => intro k; rfl
  | succ n ih =>
    intro k
    rcases n with _ | _ | n
    · rfl
    · rfl
    · have := ih (k + 1)
      simp only [List.range'_succ, List.map_cons, isLsValid.loop] at this ⊢
      rw [this]
      have a := h1 k
      have b := h2 (k + 1)
      have e1 : k + 1 + 1 = k + 2 := rfl
      rw [e1] at b ⊢
      simp only [Bool.and_true, Bool.not_eq_true', Bool.or_eq_false_iff, decide_eq_false_iff_not, not_lt]
      exact ⟨by linarith, by linarith⟩

/-- The lines found for an allowed `d` are accepted as soon as there are enough of them. -/
theorem valid_lines {d σ dmax s : ℚ} (hd : 0 < d) (hm : 0 < dmax) (hσ : 1 ≤ σ) (hdm : d ≤ dmax) {lmin : Nat}
    (h1 : lmin ≤ lineCount hd hm hσ s) (h2 : 0 < lineCount hd hm hσ s) :
    isLsValid (lines hd hm hσ s) d σ dmax lmin = true := by
  have ht : (0 : ℚ) < tolerance := by norm_num [tolerance]
  have hl := validLoop_true (fun i => position d σ dmax (i + 1)) σ dmax
    (fun i => by
      have := spacing_succ_le (d := d) hm hσ (i + 1)
      simp only [position]; linarith)
    (fun i => by
      have := spacing_le (d := d) (σ := σ) (dmax := dmax) (i + 1)
      simp only [position]; linarith) (lineCount hd hm hσ s) 0
  rw [← List.range_eq_range'] at hl
  change isLsValid.loop σ dmax (lines hd hm hσ s) = true at hl
  have hmin : min d dmax = d := min_eq_left hdm
  have p1 : position d σ dmax 1 ≤ σ * d := by
    have := spacing_zero_le (d := d) (σ := σ) (dmax := dmax)
    rw [hmin] at this
    simp only [position]; linarith
  have p1' : position d σ dmax 1 ≤ dmax := by
    have := spacing_le (d := d) (σ := σ) (dmax := dmax) 0
    simp only [position]; linarith
  have p2 : position d σ dmax 2 - position d σ dmax 1 ≤ σ * position d σ dmax 1 := by
    have := spacing_succ_le (d := d) hm hσ 0
    simp only [position]; linarith
  have p2' : position d σ dmax 2 - position d σ dmax 1 ≤ dmax := by
    have := spacing_le (d := d) (σ := σ) (dmax := dmax) 1
    simp only [position]; linarith
  have hlen : (lines hd hm hσ s).length = lineCount hd hm hσ s := length_lines hd hm hσ s
  have g0 : ∀ x t, lines hd hm hσ s = x :: t → x = position d σ dmax 1 := by
    intro x t h
    have := lines_get hd hm hσ s 0 (by rw [h]; simp)
    simpa [h] using this
  have g1 : ∀ x y t, lines hd hm hσ s = x :: y :: t → y = position d σ dmax 2 := by
    intro x y t h
    have := lines_get hd hm hσ s 1 (by rw [h]; simp)
    simpa [h] using this
  unfold isLsValid
  rw [if_neg]
  · cases h : lines hd hm hσ s with
    | nil => rw [h] at hlen; simp at hlen; omega
    | cons x t =>
      have hx := g0 x t h
      simp only
      rw [if_neg]
      · cases t with
        | nil => rfl
        | cons y t =>
          have hy := g1 x y t h
          simp only
          rw [if_neg]
          · rw [← h]; exact hl
          · simp only [Bool.or_eq_true, decide_eq_true_eq, not_or, not_lt]
            rw [hx, hy]
            exact ⟨by linarith, by linarith⟩
      · simp only [Bool.or_eq_true, decide_eq_true_eq, not_or, not_lt]
        rw [hx]
        exact ⟨by linarith, by linarith⟩
  · simp only [Bool.or_eq_true, decide_eq_true_eq, not_or, not_lt, List.isEmpty_iff, hlen]
    refine ⟨⟨hdm, h1⟩, ?_⟩
    intro h
    rw [h] at hlen; simp at hlen; omega

/-- What is accepted has an allowed `d` and enough lines. -/
theorem valid_imp {ls : List ℚ} {d σ dmax : ℚ} {lmin : Nat} (h : isLsValid ls d σ dmax lmin = true) :
    d ≤ dmax ∧ lmin ≤ ls.length ∧ ls ≠ [] := by
  unfold isLsValid at h
  split at h
  · cases h
  · rename_i hn
    simp only [Bool.or_eq_true, decide_eq_true_eq, not_or, not_lt, List.isEmpty_iff] at hn
    exact ⟨hn.1.1, hn.1.2, hn.2⟩

/-! ## `adjust_d` -/

/-- A value of `d` the search accepts. -/
def Accepts (dInit : ℚ → ℚ) (σ dmax h : ℚ) (lmin : Nat) (x : ℚ) : Prop :=
  ∃ ls, findLs x σ dmax (h - dInit x) = some ls ∧ isLsValid ls x σ dmax lmin = true

theorem adjustD_loop {dInit : ℚ → ℚ} {σ dmax h : ℚ} {lmin : Nat} (hm : 0 < dmax) (hσ : 1 ≤ σ) (n : Nat) :
    ∀ (c : ℚ) (ls : List ℚ), 0 < c →
      (isLsValid ls c σ dmax lmin = true ∨ Accepts dInit σ dmax h lmin (c * (999 / 1000) ^ (n + 1))) →
      ∃ k, adjustD.loop dInit σ dmax h lmin c ls = some (c * (999 / 1000) ^ k) ∧
        ((k = 0 ∧ isLsValid ls c σ dmax lmin = true) ∨
          (0 < k ∧ isLsValid ls c σ dmax lmin = false ∧ Accepts dInit σ dmax h lmin (c * (999 / 1000) ^ k) ∧
            ∀ j, 0 < j → j < k → ¬ Accepts dInit σ dmax h lmin (c * (999 / 1000) ^ j))) := by
  induction n with
  | zero =>
    intro c ls hc hv
    rw [adjustD.loop]
    by_cases h0 : isLsValid ls c σ dmax lmin = true
    · rw [if_pos h0]
      exact ⟨0, by simp, Or.inl ⟨rfl, h0⟩⟩
    · rw [if_neg h0]
      obtain hv | hv := hv
      · exact absurd hv h0
      · have hv' := hv
        obtain ⟨ls', h1, h2⟩ := hv
        have e : c - c / 1000 = c * (999 / 1000) ^ (0 + 1) := by ring
        simp only [e, h1, Option.bind_eq_bind, Option.bind_some]
        rw [adjustD.loop, if_pos h2]
        refine ⟨1, by simp, Or.inr ⟨by omega, by simpa using h0, hv', fun j hj hj' => by omega⟩⟩
  | succ n ih =>
    intro c ls hc hv
    by_cases h0 : isLsValid ls c σ dmax lmin = true
    · rw [adjustD.loop, if_pos h0]
      exact ⟨0, by simp, Or.inl ⟨rfl, h0⟩⟩
    · obtain hv | hv := hv
      · exact absurd hv h0
      · have e : c - c / 1000 = c * (999 / 1000) := by ring
        have hc' : 0 < c * (999 / 1000) := by linarith
        have hl := findLs_lines hc' hm hσ (h - dInit (c * (999 / 1000)))
        obtain ⟨k, hk, hk2⟩ := ih (c * (999 / 1000)) (lines hc' hm hσ (h - dInit (c * (999 / 1000)))) hc'
          (Or.inr (by rw [mul_assoc, ← pow_succ']; exact hv))
        rw [adjustD.loop, if_neg h0]
        simp only [e, hl, Option.bind_eq_bind, Option.bind_some]
        refine ⟨k + 1, ?_, Or.inr ⟨by omega, by simpa using h0, ?_, ?_⟩⟩
        · rw [hk]; congr 1; ring
        · rcases hk2 with ⟨rfl, h3⟩ | ⟨_, _, h3, _⟩
          · rw [zero_add, pow_one]; exact ⟨_, hl, h3⟩
          · rw [pow_succ', ← mul_assoc]; exact h3
        · intro j hj hj'
          rcases hk2 with ⟨rfl, h3⟩ | ⟨hk0, h4, h3, h5⟩
          · omega
          · obtain ⟨j, rfl⟩ : ∃ i, j = i + 1 := ⟨j - 1, by omega⟩
            rw [pow_succ', ← mul_assoc]
            by_cases hj0 : j = 0
            · subst hj0
              rw [pow_zero, mul_one]
              rintro ⟨ls2, h6, h7⟩
              rw [hl] at h6; cases h6
              rw [h7] at h4; cases h4
            · exact h5 j (by omega) (by omega)

theorem position_le_linear {d σ dmax : ℚ} (hd : 0 < d) (hm : 0 < dmax) (hσ : 1 ≤ σ) (n L : Nat) (hn : n ≤ L) :
    position d σ dmax n ≤ d * (n * σ ^ L) := by
  induction n with
  | zero => simp [position]
  | succ n ih =>
    have h1 : spacing d σ dmax n ≤ d * σ ^ L := by
      unfold spacing
      refine (min_le_left _ _).trans ?_
      have h0 : 0 < min d dmax := lt_min hd hm
      refine mul_le_mul (min_le_left _ _) (pow_le_pow_right₀ hσ (by omega)) ?_ hd.le
      have : 0 < σ := by linarith
      positivity
    have := ih (by omega)
    simp only [position]; push_cast
    nlinarith

/-- A small enough `d` is accepted. -/
theorem accepts_small {K σ dmax h : ℚ} (hm : 0 < dmax) (hσ : 1 ≤ σ) (hh : 0 < h) (hK : 0 ≤ K) (lmin : Nat)
    {c : ℚ} (hc : 0 < c) (hcm : c ≤ dmax) :
    ∃ n, Accepts (fun x => K * x) σ dmax h lmin (c * (999 / 1000) ^ (n + 1)) := by
  have hσ0 : 0 < σ := by linarith
  set L := max lmin 1 with hL
  set B : ℚ := L * σ ^ L + K + 1 with hB
  have hBpos : 0 < B := by positivity
  obtain ⟨n, hn⟩ := exists_pow_lt_of_lt_one (show (0 : ℚ) < h / (c * B) by positivity)
    (show (999 / 1000 : ℚ) < 1 by norm_num)
  refine ⟨n, ?_⟩
  set x : ℚ := c * (999 / 1000) ^ (n + 1) with hx
  have hpos : (0 : ℚ) < (999 / 1000) ^ (n + 1) := by positivity
  have hx0 : 0 < x := by positivity
  have hle1 : (999 / 1000 : ℚ) ^ (n + 1) ≤ 1 := pow_le_one₀ (by norm_num) (by norm_num)
  have hxc : x ≤ c := by rw [hx]; nlinarith
  have hxm : x ≤ dmax := hxc.trans hcm
  have hxB : x * B < h := by
    have h1 : (999 / 1000 : ℚ) ^ (n + 1) ≤ (999 / 1000) ^ n :=
      pow_le_pow_of_le_one (by norm_num) (by norm_num) (by omega)
    have h2 := lt_of_le_of_lt h1 hn
    rw [lt_div_iff₀ (by positivity)] at h2
    rw [hx]; nlinarith
  have hcount : L ≤ lineCount hx0 hm hσ (h - K * x) := by
    refine le_lineCount hx0 hm hσ fun k hk => ?_
    have h1 := position_le_linear (d := x) (dmax := dmax) hx0 hm hσ k L hk.le
    have h2 : (k : ℚ) * σ ^ L ≤ L * σ ^ L := by
      have : (k : ℚ) ≤ L := by exact_mod_cast hk.le
      have : (0 : ℚ) < σ ^ L := by positivity
      nlinarith
    have h3 : x * (k * σ ^ L) ≤ x * (L * σ ^ L) := mul_le_mul_of_nonneg_left h2 hx0.le
    have h4 : x * B = x * (L * σ ^ L) + K * x + x := by rw [hB]; ring
    linarith
  exact ⟨_, findLs_lines hx0 hm hσ _,
    valid_lines hx0 hm hσ hxm ((le_max_left _ _).trans hcount)
      (lt_of_lt_of_le (by omega : 0 < L) hcount)⟩

end Verif.Mesh
