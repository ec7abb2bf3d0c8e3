import Verif.Model.Dialog
import Verif.Lemmas.Text
import Mathlib.Tactic.Linarith
import Mathlib.Tactic.Positivity
import Mathlib.Tactic.FieldSimp
import Mathlib.Tactic.Ring

/-!
# Lemmas about the dialogs: the text of a number is read as the number rounded to six digits
-/

namespace Verif.Dialog
open Verif.Csx

/-! ## Digits -/

theorem decimal_isDigit (n : Nat) : ∀ c ∈ decimal n, c.isDigit = true := by
  intro c hc
  obtain ⟨d, hd, rfl⟩ := (decimal_digits n).2 c hc
  exact digitChar_isDigit hd

theorem padded_isDigit (p : Nat) : ∀ n, ∀ c ∈ padded p n, c.isDigit = true := by
  induction p with
  | zero => intro n c hc; simp [padded] at hc
  | succ p ih =>
    intro n c hc
    rw [padded] at hc
    rcases List.mem_append.1 hc with hc | hc
    · exact ih _ c hc
    · rw [List.mem_singleton.1 hc]; exact digitChar_isDigit (Nat.mod_lt _ (by omega))

theorem padded_length (p : Nat) : ∀ n, (padded p n).length = p := by
  induction p with
  | zero => intro n; rfl
  | succ p ih => intro n; simp [padded, ih]

theorem padded_value (p : Nat) : ∀ n, n < 10 ^ p → (readDigits (padded p n) 0 0).1 = n := by
  induction p with
  | zero => intro n hn; simp at hn; subst hn; rfl
  | succ p ih =>
    intro n hn
    have hm : n % 10 < 10 := Nat.mod_lt _ (by omega)
    rw [padded, readDigits_append (padded_isDigit p _), ih _ (by rw [pow_succ] at hn; omega)]
    simp only [readDigits, digitChar_isDigit hm, digitChar_value hm, if_true]
    omega

/-- Digits followed by what is not a digit. -/
theorem readDigits_until {a b : List Char} (ha : ∀ c ∈ a, c.isDigit = true)
    (hb : b = [] ∨ ∃ c r, b = c :: r ∧ c.isDigit = false) :
    readDigits (a ++ b) 0 0 = ((readDigits a 0 0).1, a.length, b) := by
  rcases hb with rfl | ⟨c, r, rfl, hc⟩
  · rw [readDigits_append ha]; simp [readDigits]
  · exact readDigits_stop ha hc

theorem digitsOf_zeros {z : List Char} (hz : z = [] ∨ z = ['0']) (n : Nat) : digitsOf (z ++ decimal n) = some n := by
  have hall : ∀ c ∈ z ++ decimal n, c.isDigit = true := by
    intro c hc
    rcases List.mem_append.1 hc with hc | hc
    · rcases hz with rfl | rfl
      · simp at hc
      · rw [List.mem_singleton.1 hc]; decide
    · exact decimal_isDigit n c hc
  have hlen : (z ++ decimal n).length ≠ 0 := by
    have := List.length_pos_iff.2 (decimal_digits n).1
    simp only [List.length_append]; omega
  have hval : (readDigits (z ++ decimal n) 0 0).1 = n := by
    rcases hz with rfl | rfl
    · exact decimal_value n 0
    · show (readDigits ('0' :: decimal n) 0 0).1 = n
      rw [readDigits, if_pos (by decide)]
      exact decimal_value n 1
  have h := readDigits_until (b := []) hall (Or.inl rfl)
  rw [List.append_nil, hval] at h
  unfold digitsOf
  rw [h]
  simp only
  rw [if_neg hlen]

theorem exponentOf_text (e : ℤ) : exponentOf (exponentText e) = some (10 ^ e : ℚ) := by
  have hz : (if e.natAbs < 10 then ['0'] else []) = [] ∨ (if e.natAbs < 10 then ['0'] else []) = ['0'] := by
    by_cases h : e.natAbs < 10
    · exact Or.inr (if_pos h)
    · exact Or.inl (if_neg h)
  unfold exponentText exponentOf
  simp only [true_or, if_true]
  by_cases he : e < 0
  · simp only [he, if_true, digitsOf_zeros hz, Option.map_some]
    obtain ⟨k, rfl⟩ : ∃ k : Nat, e = -(k : ℤ) := ⟨e.natAbs, by omega⟩
    simp
  · simp only [he, if_false, digitsOf_zeros hz, Option.map_some]
    obtain ⟨k, rfl⟩ : ∃ k : Nat, e = (k : ℤ) := ⟨e.natAbs, by omega⟩
    simp

theorem exponentText_head (e : ℤ) : ∃ r, exponentText e = 'e' :: r := ⟨_, rfl⟩

/-- A number with a dot, and maybe an exponent, is read as what it is. -/
theorem unsignedOf_withDot (m p : Nat) {t : List Char} {k : ℚ} (ht : t = [] ∧ k = 1 ∨ (∃ r, t = 'e' :: r) ∧ exponentOf t = some k) :
    unsignedOf (withDot m p ++ t) = some ((m : ℚ) / 10 ^ p * k) := by
  have hexp : exponentOf t = some k := by
    rcases ht with ⟨rfl, rfl⟩ | ⟨-, h⟩
    · rfl
    · exact h
  have hnd : t = [] ∨ ∃ c r, t = c :: r ∧ c.isDigit = false := by
    rcases ht with ⟨rfl, -⟩ | ⟨⟨r, rfl⟩, -⟩
    · exact Or.inl rfl
    · exact Or.inr ⟨'e', r, rfl, by decide⟩
  have hlen (n : Nat) : (decimal n).length ≠ 0 := by
    have := List.length_pos_iff.2 (decimal_digits n).1
    omega
  unfold withDot unsignedOf
  by_cases hp : p = 0
  · subst hp
    rw [if_pos rfl, readDigits_until (decimal_isDigit m) hnd, decimal_value m 0]
    rcases ht with ⟨rfl, -⟩ | ⟨⟨r, rfl⟩, -⟩
    · simp only
      rw [if_neg (by have := hlen m; omega), hexp]
      simp
    · show (if (decimal m).length + 0 = 0 then none
        else (exponentOf ('e' :: r)).map fun k => ((m : ℚ) + (0 : Nat) / 10 ^ 0) * k) = _
      rw [if_neg (by have := hlen m; omega), hexp]
      simp
  · rw [if_neg hp, List.append_assoc, List.cons_append,
      readDigits_until (decimal_isDigit _) (Or.inr ⟨'.', _, rfl, by decide⟩), decimal_value _ 0]
    simp only
    rw [readDigits_until (padded_isDigit p _) hnd, padded_value p _ (Nat.mod_lt _ (by positivity)), padded_length]
    simp only
    rw [if_neg (by omega), hexp, Option.map_some]
    congr 2
    have hm : (m : ℚ) = 10 ^ p * ((m / 10 ^ p : Nat) : ℚ) + ((m % 10 ^ p : Nat) : ℚ) := by
      exact_mod_cast (Nat.div_add_mod m (10 ^ p)).symm
    have hpos : (10 : ℚ) ^ p ≠ 0 := by positivity
    rw [eq_div_iff hpos, hm]
    push_cast
    field_simp

/-! ## Six digits -/

theorem stripZeros_spec : ∀ (n m : Nat), (stripZeros m n).2 ≤ n ∧
    (m ≠ 0 → m < 10 ^ n → 1 ≤ (stripZeros m n).2) ∧ (stripZeros m n).1 * 10 ^ (n - (stripZeros m n).2) = m
  | 0, m => by
    refine ⟨le_rfl, fun h0 h1 => ?_, by simp [stripZeros]⟩
    simp at h1; exact absurd h1 h0
  | n + 1, m => by
    rw [stripZeros]
    by_cases h : m % 10 = 0
    · rw [if_pos h]
      obtain ⟨h1, h2, h3⟩ := stripZeros_spec n (m / 10)
      refine ⟨by omega, fun h0 hm => h2 (by omega) (by rw [pow_succ] at hm; omega), ?_⟩
      rw [Nat.succ_sub h1, pow_succ, ← mul_assoc, h3]
      omega
    · rw [if_neg h]
      exact ⟨le_rfl, fun _ _ => by simp, by simp⟩

/-- The number shown for a positive number. -/
def shownValue (x : ℚ) : ℚ := ((sixDigitsOf x).1 : ℚ) * 10 ^ ((sixDigitsOf x).2 - 5)

theorem scaled_bounds {x : ℚ} (hx : 0 < x) :
    100000 ≤ x * 10 ^ (5 - Int.log 10 x) ∧ x * 10 ^ (5 - Int.log 10 x) < 1000000 := by
  have h1 := Int.zpow_log_le_self (R := ℚ) (b := 10) (by norm_num) hx
  have h2 := Int.lt_zpow_succ_log_self (R := ℚ) (b := 10) (by norm_num) x
  push_cast at h1 h2
  have hp : (0 : ℚ) < 10 ^ (5 - Int.log 10 x) := zpow_pos (by norm_num) _
  constructor
  · calc (100000 : ℚ) = 10 ^ Int.log 10 x * 10 ^ (5 - Int.log 10 x) := by
          rw [← zpow_add₀ (by norm_num)]; norm_num
      _ ≤ _ := mul_le_mul_of_nonneg_right h1 hp.le
  · calc x * 10 ^ (5 - Int.log 10 x) < 10 ^ (Int.log 10 x + 1) * 10 ^ (5 - Int.log 10 x) :=
          mul_lt_mul_of_pos_right h2 hp
      _ = 1000000 := by
          rw [← zpow_add₀ (by norm_num), show Int.log 10 x + 1 + (5 - Int.log 10 x) = 6 by ring]
          norm_num

theorem sixDigitsOf_spec {x : ℚ} (hx : 0 < x) :
    100000 ≤ (sixDigitsOf x).1 ∧ (sixDigitsOf x).1 < 1000000 ∧
      shownValue x = (⌊x * 10 ^ (5 - Int.log 10 x) + 1 / 2⌋₊ : ℚ) * 10 ^ (Int.log 10 x - 5) := by
  obtain ⟨h1, h2⟩ := scaled_bounds hx
  have hlow : 100000 ≤ ⌊x * 10 ^ (5 - Int.log 10 x) + 1 / 2⌋₊ := Nat.le_floor (by push_cast; linarith)
  have hup : ⌊x * 10 ^ (5 - Int.log 10 x) + 1 / 2⌋₊ < 1000001 := (Nat.floor_lt (by linarith)).2 (by push_cast; linarith)
  unfold shownValue sixDigitsOf
  simp only
  by_cases h : ⌊x * 10 ^ (5 - Int.log 10 x) + 1 / 2⌋₊ = 1000000
  · rw [if_pos h, h]
    refine ⟨le_rfl, by norm_num, ?_⟩
    have : Int.log 10 x + 1 - 5 = (Int.log 10 x - 5) + 1 := by ring
    simp only
    rw [this, zpow_add_one₀ (by norm_num)]
    push_cast
    ring
  · rw [if_neg h]
    exact ⟨hlow, by simp only; omega, rfl⟩

theorem unsignedOf_magnitude {x : ℚ} (hx : 0 < x) : unsignedOf (magnitudeText x) = some (shownValue x) := by
  obtain ⟨hlow, hup, -⟩ := sixDigitsOf_spec hx
  unfold magnitudeText shownValue
  rw [if_neg hx.ne']
  generalize sixDigitsOf x = q at *
  obtain ⟨digits, e⟩ := q
  simp only at hlow hup ⊢
  obtain ⟨h1, h2, h3⟩ := stripZeros_spec 6 digits
  have h2 := h2 (by omega) (by norm_num; omega)
  generalize stripZeros digits 6 = q at *
  obtain ⟨m, n⟩ := q
  simp only at h1 h2 h3 ⊢
  have hd : (digits : ℚ) = m * 10 ^ ((6 : ℤ) - n) := by
    rw [← h3]
    have : (6 : ℤ) - n = ((6 - n : Nat) : ℤ) := by omega
    rw [this, zpow_natCast]
    push_cast
    ring
  have ten : (10 : ℚ) ≠ 0 := by norm_num
  rw [hd]
  by_cases hf : -4 ≤ e ∧ e < 6
  · rw [if_pos hf]
    by_cases hn : (n : ℤ) ≤ e + 1
    · rw [if_pos hn, ← List.append_nil (withDot _ _), unsignedOf_withDot _ _ (Or.inl ⟨rfl, rfl⟩)]
      congr 1
      have : ((e + 1 - n).toNat : ℤ) = e + 1 - n := by omega
      push_cast
      rw [← zpow_natCast, this, pow_zero, div_one, mul_one, mul_assoc, ← zpow_add₀ ten]
      congr 2
      ring
    · rw [if_neg hn, ← List.append_nil (withDot _ _), unsignedOf_withDot _ _ (Or.inl ⟨rfl, rfl⟩)]
      congr 1
      have : ((n - (e + 1)).toNat : ℤ) = n - (e + 1) := by omega
      rw [← zpow_natCast, this, mul_one, div_eq_mul_inv, ← zpow_neg, mul_assoc, ← zpow_add₀ ten]
      congr 2
      ring
  · rw [if_neg hf, unsignedOf_withDot _ _ (Or.inr ⟨exponentText_head e, exponentOf_text e⟩)]
    congr 1
    have : ((n - 1 : Nat) : ℤ) = n - 1 := by omega
    rw [← zpow_natCast, this, div_eq_mul_inv, ← zpow_neg, mul_assoc, mul_assoc, ← zpow_add₀ ten, ← zpow_add₀ ten]
    congr 2
    ring

/-- Half of the last of six digits. -/
theorem shownValue_near {x : ℚ} (hx : 0 < x) : |shownValue x - x| * 200000 ≤ x := by
  obtain ⟨h1, h2⟩ := scaled_bounds hx
  obtain ⟨-, -, hv⟩ := sixDigitsOf_spec hx
  rw [hv]
  set s := x * 10 ^ (5 - Int.log 10 x) with hs
  have hp : (0 : ℚ) < 10 ^ (Int.log 10 x - 5) := zpow_pos (by norm_num) _
  have hxs : x = s * 10 ^ (Int.log 10 x - 5) := by
    rw [hs, mul_assoc, ← zpow_add₀ (by norm_num)]
    norm_num
  have hf1 : (⌊s + 1 / 2⌋₊ : ℚ) ≤ s + 1 / 2 := Nat.floor_le (by linarith)
  have hf2 : s + 1 / 2 < (⌊s + 1 / 2⌋₊ : ℚ) + 1 := Nat.lt_floor_add_one _
  have habs : |(⌊s + 1 / 2⌋₊ : ℚ) - s| ≤ 1 / 2 := abs_le.2 ⟨by linarith, by linarith⟩
  clear_value s
  generalize (10 : ℚ) ^ (Int.log 10 x - 5) = t at *
  rw [hxs, ← sub_mul, abs_mul, abs_of_pos hp]
  nlinarith [abs_nonneg ((⌊s + 1 / 2⌋₊ : ℚ) - s)]

/-- A number of at most six digits is shown as it is. -/
theorem shownValue_exact {x : ℚ} (hx : 0 < x) {k : Nat} {e : ℤ} (hk : k < 1000000) (hxk : x = k * 10 ^ e) :
    shownValue x = x := by
  obtain ⟨h1, h2⟩ := scaled_bounds hx
  obtain ⟨-, -, hv⟩ := sixDigitsOf_spec hx
  have ten : (10 : ℚ) ≠ 0 := by norm_num
  have hint : ∃ j : Nat, x * 10 ^ (5 - Int.log 10 x) = j := by
    have hs : x * 10 ^ (5 - Int.log 10 x) = k * 10 ^ (e + (5 - Int.log 10 x)) := by
      conv_lhs => rw [hxk, ← hxk]
      conv_lhs => lhs; rw [hxk]
      rw [mul_assoc, ← zpow_add₀ ten]
    rw [hs] at h1 ⊢
    by_cases hr : 0 ≤ e + (5 - Int.log 10 x)
    · obtain ⟨r, hr⟩ := Int.eq_ofNat_of_zero_le hr
      exact ⟨k * 10 ^ r, by rw [hr, zpow_natCast]; push_cast; ring⟩
    · exfalso
      have h10 : (10 : ℚ) ^ (e + (5 - Int.log 10 x)) ≤ 10 ^ (-1 : ℤ) := zpow_le_zpow_right₀ (by norm_num) (by omega)
      have hk' : (k : ℚ) < 1000000 := by exact_mod_cast hk
      have hp : (0 : ℚ) < 10 ^ (e + (5 - Int.log 10 x)) := zpow_pos (by norm_num) _
      norm_num at h10
      nlinarith
  obtain ⟨j, hj⟩ := hint
  have hfl : ⌊(j : ℚ) + 1 / 2⌋₊ = j := by
    rw [Nat.floor_eq_iff (by positivity)]
    constructor <;> linarith
  rw [hv, hj, hfl, ← hj, mul_assoc, ← zpow_add₀ ten]
  norm_num

/-! ## Reading a text back -/

theorem trimmed_id {s : List Char} (h : ∀ c ∈ s, c.isWhitespace = false) : trimmed s = s := by
  have hd : ∀ l : List Char, (∀ c ∈ l, c.isWhitespace = false) → l.dropWhile Char.isWhitespace = l := by
    intro l hl
    cases l with
    | nil => rfl
    | cons c l => rw [List.dropWhile_cons, if_neg (by simp [hl c (by simp)])]
  unfold trimmed
  rw [hd s h, hd _ (fun c hc => h c (List.mem_reverse.1 hc)), List.reverse_reverse]

/-- The characters of a number without sign. -/
def Plain (c : Char) : Prop := c.isDigit = true ∨ c = '.' ∨ c = 'e' ∨ c = '-' ∨ c = '+'

theorem plain_notSpace {c : Char} (h : Plain c) : c.isWhitespace = false := by
  rcases h with h | rfl | rfl | rfl | rfl
  · simp only [Char.isWhitespace, Bool.or_eq_false_iff, decide_eq_false_iff_not]
    simp only [Char.isDigit, Bool.and_eq_true, decide_eq_true_eq] at h
    refine ⟨⟨⟨?_, ?_⟩, ?_⟩, ?_⟩ <;> rintro rfl <;> revert h <;> decide
  all_goals decide

theorem withDot_plain (m p : Nat) : (∀ c ∈ withDot m p, Plain c) ∧ ∃ c r, withDot m p = c :: r ∧ c.isDigit = true := by
  have hne (n : Nat) (t : List Char) : ∃ c r, decimal n ++ t = c :: r ∧ c.isDigit = true := by
    obtain ⟨c, r, h⟩ := List.exists_cons_of_ne_nil (decimal_digits n).1
    exact ⟨c, r ++ t, by rw [h]; rfl, decimal_isDigit n c (by rw [h]; simp)⟩
  unfold withDot
  by_cases hp : p = 0
  · rw [if_pos hp]
    exact ⟨fun c hc => Or.inl (decimal_isDigit m c hc), by simpa using hne m []⟩
  · rw [if_neg hp]
    refine ⟨fun c hc => ?_, hne _ _⟩
    rcases List.mem_append.1 hc with hc | hc
    · exact Or.inl (decimal_isDigit _ c hc)
    · rcases List.mem_cons.1 hc with hc | hc
      · exact Or.inr (Or.inl hc)
      · exact Or.inl (padded_isDigit _ _ c hc)

theorem exponentText_plain (e : ℤ) : ∀ c ∈ exponentText e, Plain c := by
  intro c hc
  unfold exponentText at hc
  rcases List.mem_cons.1 hc with hc | hc
  · exact Or.inr (Or.inr (Or.inl hc))
  rcases List.mem_cons.1 hc with hc | hc
  · by_cases he : e < 0
    · rw [if_pos he] at hc; exact Or.inr (Or.inr (Or.inr (Or.inl hc)))
    · rw [if_neg he] at hc; exact Or.inr (Or.inr (Or.inr (Or.inr hc)))
  rcases List.mem_append.1 hc with hc | hc
  · by_cases he : e.natAbs < 10
    · rw [if_pos he] at hc; rw [List.mem_singleton.1 hc]; exact Or.inl (by decide)
    · rw [if_neg he] at hc; simp at hc
  · exact Or.inl (decimal_isDigit _ c hc)

theorem magnitude_plain (x : ℚ) :
    (∀ c ∈ magnitudeText x, Plain c) ∧ ∃ c r, magnitudeText x = c :: r ∧ c.isDigit = true := by
  unfold magnitudeText
  by_cases hx : x = 0
  · rw [if_pos hx]
    exact ⟨fun c hc => by rw [List.mem_singleton.1 hc]; exact Or.inl (by decide), '0', [], rfl, by decide⟩
  rw [if_neg hx]
  simp only
  generalize stripZeros (sixDigitsOf x).1 6 = q
  generalize (sixDigitsOf x).2 = e
  by_cases hf : -4 ≤ e ∧ e < 6
  · rw [if_pos hf]
    by_cases hn : (q.2 : ℤ) ≤ e + 1
    · rw [if_pos hn]; exact withDot_plain _ _
    · rw [if_neg hn]; exact withDot_plain _ _
  · rw [if_neg hf]
    obtain ⟨h1, c, r, h2, h3⟩ := withDot_plain q.1 (q.2 - 1)
    refine ⟨fun c hc => ?_, c, r ++ exponentText e, by rw [h2]; rfl, h3⟩
    rcases List.mem_append.1 hc with hc | hc
    · exact h1 c hc
    · exact exponentText_plain e c hc

theorem toDouble_plain {s : List Char} (h : ∀ c ∈ s, Plain c) (hs : ∃ c r, s = c :: r ∧ c.isDigit = true) :
    toDouble s = unsignedOf s := by
  unfold toDouble
  rw [trimmed_id fun c hc => plain_notSpace (h c hc)]
  obtain ⟨c, r, rfl, hc⟩ := hs
  split
  · rename_i heq; obtain ⟨rfl, -⟩ := List.cons.inj heq; exact absurd hc (by decide)
  · rename_i heq; obtain ⟨rfl, -⟩ := List.cons.inj heq; exact absurd hc (by decide)
  · rfl

/-- The text of a number is read as the number rounded to six digits. -/
theorem toDouble_number (x : ℚ) :
    toDouble (number x) = some (if x = 0 then 0 else if x < 0 then - shownValue (-x) else shownValue x) := by
  unfold number
  rcases lt_trichotomy x 0 with hx | rfl | hx
  · rw [if_pos hx, if_neg hx.ne, if_pos hx, abs_of_neg hx]
    obtain ⟨h, -⟩ := magnitude_plain (-x)
    unfold toDouble
    rw [trimmed_id (by
      intro c hc
      rcases List.mem_append.1 hc with hc | hc
      · rw [List.mem_singleton.1 hc]; decide
      · exact plain_notSpace (h c hc))]
    show (unsignedOf (magnitudeText (-x))).map _ = _
    rw [unsignedOf_magnitude (by linarith), Option.map_some]
  · decide +kernel
  · rw [if_neg (by linarith), if_neg hx.ne', if_neg (by linarith), abs_of_pos hx, List.nil_append]
    obtain ⟨h1, h2⟩ := magnitude_plain x
    rw [toDouble_plain h1 h2, unsignedOf_magnitude hx]

theorem toULong_decimal {n : Nat} (hn : n < 2 ^ 64) : toULong (decimal n) = some n := by
  have hd := digitsOf_zeros (z := []) (Or.inl rfl) n
  rw [List.nil_append] at hd
  unfold toULong
  rw [trimmed_id fun c hc => plain_notSpace (Or.inl (decimal_isDigit n c hc))]
  split
  · rename_i heq
    have := decimal_isDigit n '+' (by rw [heq]; simp)
    exact absurd this (by decide)
  · rw [hd]
    simpa [Option.filter] using hn

end Verif.Dialog
