import Verif.Model.Text
import Mathlib.Tactic.Ring
import Mathlib.Tactic.Linarith
import Mathlib.Tactic.FieldSimp
import Mathlib.Tactic.Push
import Mathlib.Tactic.IntervalCases
import Mathlib.Tactic.NormNum
import Mathlib.Algebra.Order.Floor.Semiring

/-!
# Lemmas about numbers and lists of lines as texts
-/

namespace Verif.Csx

/-! ## Rounding -/

theorem roundEven_near {x : ℚ} (hx : 0 ≤ x) : |(roundEven x : ℚ) - x| ≤ 1 / 2 := by
  have h1 := Nat.floor_le hx
  have h2 := Nat.lt_floor_add_one x
  unfold roundEven
  dsimp only
  split_ifs with a b c
  · rw [abs_le]; constructor <;> linarith
  · push_cast; rw [abs_le]; constructor <;> linarith
  · rw [abs_le]; constructor <;> linarith
  · push_cast; rw [abs_le]; constructor <;> linarith

theorem roundEven_nat (n : Nat) : roundEven (n : ℚ) = n := by
  unfold roundEven
  simp

theorem roundEven_mono {x y : ℚ} (hx : 0 ≤ x) (h : x ≤ y) : roundEven x ≤ roundEven y := by
  have hy := hx.trans h
  have h1 := Nat.floor_le hx
  have h2 := Nat.lt_floor_add_one x
  have h3 := Nat.floor_le hy
  have h4 := Nat.lt_floor_add_one y
  have hf := Nat.floor_mono h
  unfold roundEven
  dsimp only
  rcases Nat.lt_or_ge ⌊x⌋₊ ⌊y⌋₊ with hlt | hge
  · split_ifs <;> omega
  · have e : ⌊x⌋₊ = ⌊y⌋₊ := le_antisymm hf hge
    rw [e]
    split_ifs <;> first | omega | (exfalso; linarith)

/-- Numbers more than one apart have different roundings. -/
theorem roundEven_lt {x y : ℚ} (hx : 0 ≤ x) (h : x + 1 < y) : roundEven x < roundEven y := by
  have h1 := abs_le.1 (roundEven_near hx)
  have h2 := abs_le.1 (roundEven_near (x := y) (by linarith))
  have : (roundEven x : ℚ) < roundEven y := by linarith
  exact_mod_cast this

/-! ## Digits -/

theorem digitChar_isDigit {d : Nat} (h : d < 10) : (digitChar d).isDigit = true := by
  interval_cases d <;> decide

theorem digitChar_value {d : Nat} (h : d < 10) : (digitChar d).toNat - 48 = d := by
  interval_cases d <;> decide

theorem digitChar_ne {d : Nat} (h : d < 10) : digitChar d ≠ ',' ∧ digitChar d ≠ '-' ∧ digitChar d ≠ '.' ∧
    (digitChar d).toLower ≠ 'i' ∧ (digitChar d).toLower ≠ 'n' := by
  interval_cases d <;> decide

theorem readDigits_append {a b : List Char} (ha : ∀ c ∈ a, c.isDigit = true) :
    ∀ acc n, readDigits (a ++ b) acc n = readDigits b (readDigits a acc n).1 (n + a.length) := by
  induction a with
  | nil => intro acc n; rfl
  | cons c a ih =>
    intro acc n
    have hc := ha c (by simp)
    rw [List.cons_append, readDigits, if_pos hc, ih (fun x hx => ha x (by simp [hx]))]
    congr 1
    · conv_rhs => rw [readDigits, if_pos hc]
    · simp only [List.length_cons]; omega

theorem decimal_digits (n : Nat) : decimal n ≠ [] ∧ (∀ c ∈ decimal n, ∃ d < 10, c = digitChar d) := by
  induction n using Nat.strong_induction_on with
  | _ n ih =>
    rw [decimal]
    split_ifs with h
    · exact ⟨by simp, fun c hc => ⟨n, h, by simpa using hc⟩⟩
    · refine ⟨by simp, fun c hc => ?_⟩
      rcases List.mem_append.1 hc with hc | hc
      · exact (ih (n / 10) (by omega)).2 c hc
      · exact ⟨n % 10, Nat.mod_lt _ (by omega), by simpa using hc⟩

theorem decimal_value (n : Nat) : ∀ k, (readDigits (decimal n) 0 k).1 = n := by
  induction n using Nat.strong_induction_on with
  | _ n ih =>
    intro k
    rw [decimal]
    split_ifs with h
    · simp [readDigits, digitChar_isDigit h, digitChar_value h]
    · have hd : ∀ c ∈ decimal (n / 10), c.isDigit = true := by
        intro c hc
        obtain ⟨d, hd, rfl⟩ := (decimal_digits (n / 10)).2 c hc
        exact digitChar_isDigit hd
      have hm : n % 10 < 10 := Nat.mod_lt _ (by omega)
      rw [readDigits_append hd, ih (n / 10) (by omega)]
      simp only [readDigits, digitChar_isDigit hm, digitChar_value hm, if_true]
      omega

theorem sixDigits_digits {n : Nat} (hn : n < 1000000) : ∀ c ∈ sixDigits n, ∃ d < 10, c = digitChar d := by
  intro c hc
  unfold sixDigits at hc
  obtain ⟨d, hd, rfl⟩ := List.mem_map.1 hc
  refine ⟨d, ?_, rfl⟩
  simp only [List.mem_cons, List.not_mem_nil, or_false] at hd
  rcases hd with h | h | h | h | h | h <;> omega

theorem sixDigits_value {n : Nat} (hn : n < 1000000) : readDigits (sixDigits n) 0 0 = (n, 6, []) := by
  have h1 : n / 100000 < 10 := by omega
  have h2 : n / 10000 % 10 < 10 := by omega
  have h3 : n / 1000 % 10 < 10 := by omega
  have h4 : n / 100 % 10 < 10 := by omega
  have h5 : n / 10 % 10 < 10 := by omega
  have h6 : n % 10 < 10 := by omega
  unfold sixDigits
  simp only [List.map_cons, List.map_nil, readDigits, digitChar_isDigit h1, digitChar_isDigit h2, digitChar_isDigit h3,
    digitChar_isDigit h4, digitChar_isDigit h5, digitChar_isDigit h6, if_true, digitChar_value h1, digitChar_value h2,
    digitChar_value h3, digitChar_value h4, digitChar_value h5, digitChar_value h6]
  rw [Prod.mk.injEq]
  exact ⟨by omega, rfl⟩

theorem readDigits_stop {a b : List Char} {c : Char} (ha : ∀ c ∈ a, c.isDigit = true) (hc : c.isDigit = false) :
    readDigits (a ++ c :: b) 0 0 = ((readDigits a 0 0).1, a.length, c :: b) := by
  rw [readDigits_append ha]
  simp [readDigits, hc]

/-! ## Numbers -/

/-- The number that is written: the nearest multiple of a millionth, with the same sign. -/
def written (s : Signed) : Signed := ⟨s.neg, (roundEven (s.mag * 1000000) : ℚ) / 1000000⟩

theorem toString6_written (s : Signed) : toString6 (written s) = toString6 s := by
  unfold toString6 written
  have : (roundEven (s.mag * 1000000) : ℚ) / 1000000 * 1000000 = (roundEven (s.mag * 1000000) : ℚ) := by
    field_simp
  rw [this, roundEven_nat]

theorem toString6_chars (s : Signed) : ∀ c ∈ toString6 s, c ≠ ',' := by
  intro c hc
  unfold toString6 at hc
  simp only [List.mem_append, List.mem_singleton] at hc
  rcases hc with ((hc | hc) | hc) | hc
  · split_ifs at hc
    · rw [List.mem_singleton.1 hc]; decide
    · simp at hc
  · obtain ⟨d, hd, rfl⟩ := (decimal_digits _).2 c hc
    exact (digitChar_ne hd).1
  · rw [hc]; decide
  · obtain ⟨d, hd, rfl⟩ := sixDigits_digits (Nat.mod_lt _ (by omega)) c hc
    exact (digitChar_ne hd).1

theorem toString6_ne_nil (s : Signed) : toString6 s ≠ [] := by
  unfold toString6
  simp

/-- A number written and read back is the nearest multiple of a millionth. -/
theorem strToDouble_toString6 (s : Signed) : strToDouble (toString6 s) = .number (written s) := by
  generalize hn : roundEven (s.mag * 1000000) = n
  have hmod : n % 1000000 < 1000000 := Nat.mod_lt _ (by omega)
  have hbody : ∀ neg, readUnsigned neg (decimal (n / 1000000) ++ '.' :: sixDigits (n % 1000000))
      = .number ⟨neg, (n : ℚ) / 1000000⟩ := by
    intro neg
    obtain ⟨hne, hdig⟩ := decimal_digits (n / 1000000)
    have hd : ∀ c ∈ decimal (n / 1000000), c.isDigit = true := by
      intro c hc
      obtain ⟨d, hd, rfl⟩ := hdig c hc
      exact digitChar_isDigit hd
    have hspecial : ¬ ((((decimal (n / 1000000) ++ '.' :: sixDigits (n % 1000000)).take 3).map Char.toLower
        = ['i', 'n', 'f']) ∨ (((decimal (n / 1000000) ++ '.' :: sixDigits (n % 1000000)).take 3).map Char.toLower
        = ['n', 'a', 'n'])) := by
      cases hcs : decimal (n / 1000000) with
      | nil => exact absurd hcs hne
      | cons c cs =>
        obtain ⟨d, hd', rfl⟩ := hdig c (by rw [hcs]; simp)
        rintro (h | h)
        · exact (digitChar_ne hd').2.2.2.1 (by simpa using congrArg List.head? h)
        · exact (digitChar_ne hd').2.2.2.2 (by simpa using congrArg List.head? h)
    unfold readUnsigned
    rw [if_neg hspecial, readDigits_stop hd (by decide), decimal_value]
    simp only [sixDigits_value hmod, readExponent]
    rw [if_neg (by omega)]
    congr 2
    have := Nat.div_add_mod n 1000000
    have e : (n : ℚ) = 1000000 * ((n / 1000000 : Nat) : ℚ) + ((n % 1000000 : Nat) : ℚ) := by exact_mod_cast this.symm
    rw [e]
    norm_num
    ring
  unfold strToDouble toString6 written
  rw [hn]
  cases s.neg
  · have hh : (decimal (n / 1000000) ++ '.' :: sixDigits (n % 1000000)).head? ≠ some '-' := by
      obtain ⟨hne, hdig⟩ := decimal_digits (n / 1000000)
      cases hcs : decimal (n / 1000000) with
      | nil => exact absurd hcs hne
      | cons c cs =>
        obtain ⟨d, hd', rfl⟩ := hdig c (by rw [hcs]; simp)
        simpa using (digitChar_ne hd').2.1
    have e : (if false = true then ['-'] else []) ++ decimal (n / 1000000) ++ ['.'] ++ sixDigits (n % 1000000)
        = decimal (n / 1000000) ++ '.' :: sixDigits (n % 1000000) := by simp
    dsimp only
    rw [e, if_neg hh]
    exact hbody false
  · have e : (if true = true then ['-'] else []) ++ decimal (n / 1000000) ++ ['.'] ++ sixDigits (n % 1000000)
        = '-' :: (decimal (n / 1000000) ++ '.' :: sixDigits (n % 1000000)) := by simp
    dsimp only
    rw [e]
    exact hbody true

/-! ## Lists -/

theorem splitAll_append {a b : List Char} (ha : ∀ c ∈ a, c ≠ ',') : splitAll (a ++ ',' :: b) = a :: splitAll b := by
  induction a with
  | nil => simp [splitAll]
  | cons c a ih =>
    rw [List.cons_append, splitAll, if_neg (ha c (by simp)), ih fun x hx => ha x (by simp [hx])]

theorem splitAll_single {a : List Char} (ha : ∀ c ∈ a, c ≠ ',') : splitAll a = [a] := by
  induction a with
  | nil => rfl
  | cons c a ih => rw [splitAll, if_neg (ha c (by simp)), ih fun x hx => ha x (by simp [hx])]

theorem writeLines_cons_cons (s t : Signed) (rest : List Signed) :
    writeLines (s :: t :: rest) = toString6 s ++ ',' :: writeLines (t :: rest) := by
  unfold writeLines
  rw [List.flatMap_cons, List.dropLast_append_of_ne_nil]
  · simp
  · simp [List.flatMap_cons]

theorem writeLines_single (s : Signed) : writeLines [s] = toString6 s := by
  simp [writeLines]

theorem split_writeLines (lines : List Signed) : split (writeLines lines) = lines.map toString6 := by
  have hne : ∀ s rest, writeLines (s :: rest) ≠ [] := by
    intro s rest
    cases rest with
    | nil => rw [writeLines_single]; exact toString6_ne_nil s
    | cons t rest => rw [writeLines_cons_cons]; simp
  have hall : ∀ s rest, splitAll (writeLines (s :: rest)) = (s :: rest).map toString6 := by
    intro s rest
    induction rest generalizing s with
    | nil => rw [writeLines_single, splitAll_single (toString6_chars s)]; rfl
    | cons t rest ih => rw [writeLines_cons_cons, splitAll_append (toString6_chars s), ih]; rfl
  cases lines with
  | nil => rfl
  | cons s rest => unfold split; rw [if_neg (hne s rest), hall]

theorem readParts_toString6 (lines : List Signed) : readParts (lines.map toString6) = some (lines.map written) := by
  induction lines with
  | nil => rfl
  | cons s rest ih => simp [readParts, strToDouble_toString6, ih]

theorem readLines_writeLines (lines : List Signed) : readLines (writeLines lines) = some (lines.map written) := by
  unfold readLines
  rw [split_writeLines, readParts_toString6]

theorem writeLines_written (lines : List Signed) : writeLines (lines.map written) = writeLines lines := by
  unfold writeLines
  rw [List.flatMap_map]
  simp only [toString6_written]

end Verif.Csx
