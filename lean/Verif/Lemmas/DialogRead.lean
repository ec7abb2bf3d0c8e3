import Verif.Lemmas.Dialog
import Verif.Spec.Dialog
import Mathlib.Data.List.TakeWhile

/-!
# Lemmas about the dialogs: the texts read as numbers are the numbers in decimal notation
-/

namespace Verif.Dialog
open Verif.Csx Spec

theorem digitsValue_append (a b : List Char) : digitsValue (a ++ b) = digitsValue a * 10 ^ b.length + digitsValue b := by
  have h : ∀ (b : List Char) (n : Nat), b.foldl (fun n c => 10 * n + (c.toNat - '0'.toNat)) n =
      n * 10 ^ b.length + b.foldl (fun n c => 10 * n + (c.toNat - '0'.toNat)) 0 := by
    intro b
    induction b with
    | nil => intro n; simp
    | cons c b ih =>
      intro n
      simp only [List.foldl_cons, List.length_cons]
      rw [ih, ih (10 * 0 + _), pow_succ]
      ring
  unfold digitsValue
  rw [List.foldl_append, h]

/-- Reading digits: the longest prefix of digits. -/
theorem readDigits_take (s : List Char) : ∀ acc n, readDigits s acc n =
    ((s.takeWhile Char.isDigit).foldl (fun n c => 10 * n + (c.toNat - '0'.toNat)) acc,
      n + (s.takeWhile Char.isDigit).length, s.dropWhile Char.isDigit) := by
  induction s with
  | nil => intro acc n; rfl
  | cons c s ih =>
    intro acc n
    rw [readDigits]
    by_cases hc : c.isDigit = true
    · rw [if_pos hc, ih, List.takeWhile_cons, if_pos hc, List.dropWhile_cons, if_pos hc]
      simp only [List.foldl_cons, List.length_cons]
      rw [show acc * 10 + (c.toNat - 48) = 10 * acc + (c.toNat - '0'.toNat) by rw [mul_comm]; rfl]
      congr 2
      omega
    · rw [if_neg hc, List.takeWhile_cons, if_neg hc, List.dropWhile_cons, if_neg hc]
      rfl

theorem readDigits_eq (s : List Char) : ∃ ds rest, s = ds ++ rest ∧ AllDigits ds ∧
    (∀ c r, rest = c :: r → c.isDigit = false) ∧ readDigits s 0 0 = (digitsValue ds, ds.length, rest) := by
  refine ⟨s.takeWhile Char.isDigit, s.dropWhile Char.isDigit, List.takeWhile_append_dropWhile.symm,
    fun c hc => List.mem_takeWhile_imp hc, ?_, ?_⟩
  · intro c r h
    have := List.head_dropWhile_not Char.isDigit (l := s) (by rw [h]; simp)
    simpa [h] using this
  · rw [readDigits_take]; simp [digitsValue]

/-- Digits before what does not begin by a digit. -/
theorem readDigits_of {ds rest : List Char} (hd : AllDigits ds) (hr : ∀ c r, rest = c :: r → c.isDigit = false) :
    readDigits (ds ++ rest) 0 0 = (digitsValue ds, ds.length, rest) := by
  have hv : (readDigits ds 0 0).1 = digitsValue ds := by
    rw [readDigits_take, List.takeWhile_eq_self_iff.2 hd]; rfl
  rw [readDigits_until hd, hv]
  cases rest with
  | nil => exact Or.inl rfl
  | cons c r => exact Or.inr ⟨c, r, rfl, hr c r rfl⟩

theorem digitsOf_iff (s : List Char) (n : Nat) : digitsOf s = some n ↔ AllDigits s ∧ s ≠ [] ∧ n = digitsValue s := by
  constructor
  · intro h
    obtain ⟨ds, rest, hs, hd, -, hr⟩ := readDigits_eq s
    unfold digitsOf at h
    rw [hr] at h
    cases rest with
    | cons c r => simp at h
    | nil =>
      rw [List.append_nil] at hs
      subst hs
      simp only at h
      by_cases hl : s.length = 0
      · rw [if_pos hl] at h; simp at h
      · rw [if_neg hl] at h
        exact ⟨hd, fun hn => hl (by rw [hn]; rfl), (Option.some.inj h).symm⟩
  · rintro ⟨hd, hne, rfl⟩
    unfold digitsOf
    have := readDigits_of (rest := []) hd (by intro c r h; simp at h)
    rw [List.append_nil] at this
    rw [this]
    simp only
    rw [if_neg (fun h => hne (List.length_eq_zero_iff.1 h))]

theorem exponentOf_iff (s : List Char) (k : ℚ) : exponentOf s = some k ↔ ∃ e : ℤ, Exponent s e ∧ k = 10 ^ e := by
  constructor
  · intro h
    cases s with
    | nil => exact ⟨0, .absent, by simpa [exponentOf] using h.symm⟩
    | cons c rest =>
      unfold exponentOf at h
      simp only at h
      by_cases hc : c = 'e' ∨ c = 'E'
      · rw [if_pos hc] at h
        split at h
        · obtain ⟨n, hn, rfl⟩ := Option.map_eq_some_iff.1 h
          obtain ⟨h1, h2, rfl⟩ := (digitsOf_iff _ _).1 hn
          exact ⟨_, .minus hc h1 h2, by simp⟩
        · obtain ⟨n, hn, rfl⟩ := Option.map_eq_some_iff.1 h
          obtain ⟨h1, h2, rfl⟩ := (digitsOf_iff _ _).1 hn
          exact ⟨_, .plus (sign := ['+']) hc (Or.inr rfl) h1 h2, by simp⟩
        · obtain ⟨n, hn, rfl⟩ := Option.map_eq_some_iff.1 h
          obtain ⟨h1, h2, rfl⟩ := (digitsOf_iff _ _).1 hn
          exact ⟨_, .plus (sign := []) hc (Or.inl rfl) h1 h2, by simp⟩
      · rw [if_neg hc] at h; simp at h
  · rintro ⟨e, he, rfl⟩
    cases he with
    | absent => rfl
    | minus hc h1 h2 =>
      unfold exponentOf
      simp only
      rw [if_pos hc]
      rw [(digitsOf_iff _ _).2 ⟨h1, h2, rfl⟩]
      simp
    | @plus c sign ds hc hs h1 h2 =>
      unfold exponentOf
      simp only
      rw [if_pos hc]
      rcases hs with rfl | rfl
      · rw [List.nil_append]
        split
        · exact absurd (h1 '-' (by simp)) (by decide)
        · exact absurd (h1 '+' (by simp)) (by decide)
        · rw [(digitsOf_iff _ _).2 ⟨h1, h2, rfl⟩]; simp
      · show ((digitsOf ds).map _) = _
        rw [(digitsOf_iff _ _).2 ⟨h1, h2, rfl⟩]; simp

theorem exponent_head {s : List Char} {e : ℤ} (h : Exponent s e) : ∀ c r, s = c :: r → c = 'e' ∨ c = 'E' := by
  intro c r hs
  cases h with
  | absent => simp at hs
  | plus hc => obtain ⟨rfl, -⟩ := List.cons.inj hs; exact hc
  | minus hc => obtain ⟨rfl, -⟩ := List.cons.inj hs; exact hc

theorem exponent_stop {s : List Char} {e : ℤ} (h : Exponent s e) : ∀ c r, s = c :: r → c.isDigit = false := by
  intro c r hs
  rcases exponent_head h c r hs with rfl | rfl <;> decide

/-- The value of digits around a dot. -/
theorem dotted_value (ip fp : List Char) (e : ℤ) :
    ((digitsValue ip : ℚ) + digitsValue fp / 10 ^ fp.length) * 10 ^ e =
      (digitsValue (ip ++ fp) : ℚ) * 10 ^ (e - fp.length) := by
  rw [digitsValue_append, zpow_sub₀ (by norm_num), zpow_natCast]
  push_cast
  field_simp

theorem unsignedOf_iff (s : List Char) (x : ℚ) : unsignedOf s = some x ↔ Magnitude s x := by
  constructor
  · intro h
    obtain ⟨ip, rest, rfl, h1, h2, h3⟩ := readDigits_eq s
    unfold unsignedOf at h
    rw [h3] at h
    simp only at h
    split at h
    · rename_i r
      obtain ⟨fp, ex, rfl, h4, h5, h6⟩ := readDigits_eq r
      rw [h6] at h
      simp only at h
      by_cases hl : ip.length + fp.length = 0
      · rw [if_pos hl] at h; simp at h
      · rw [if_neg hl] at h
        obtain ⟨k, hk, rfl⟩ := Option.map_eq_some_iff.1 h
        obtain ⟨e, he, rfl⟩ := (exponentOf_iff _ _).1 hk
        rw [dotted_value]
        exact .dotted h1 h4 (fun hn => hl (by rw [← List.length_append, hn]; rfl)) he
    · simp only at h
      by_cases hl : ip.length + 0 = 0
      · rw [if_pos hl] at h; simp at h
      · rw [if_neg hl] at h
        obtain ⟨k, hk, rfl⟩ := Option.map_eq_some_iff.1 h
        obtain ⟨e, he, rfl⟩ := (exponentOf_iff _ _).1 hk
        have : ((digitsValue ip : ℚ) + (0 : Nat) / 10 ^ 0) * 10 ^ e = digitsValue ip * 10 ^ e := by simp
        rw [this]
        exact .whole h1 (fun hn => hl (by rw [hn]; rfl)) he
  · intro h
    cases h with
    | @whole ip ex e h1 h2 he =>
      unfold unsignedOf
      rw [readDigits_of h1 (exponent_stop he)]
      simp only
      have hl : ¬ ip.length + 0 = 0 := fun h => h2 (List.length_eq_zero_iff.1 (by omega))
      split
      · rename_i r
        rcases exponent_head he '.' r rfl with h | h <;> exact absurd h (by decide)
      · simp only
        rw [if_neg hl, (exponentOf_iff _ _).2 ⟨e, he, rfl⟩]
        simp
    | @dotted ip fp ex e h1 h2 h3 he =>
      unfold unsignedOf
      rw [readDigits_of h1 (by intro c r h; obtain ⟨rfl, -⟩ := List.cons.inj h; decide)]
      simp only
      rw [readDigits_of h2 (exponent_stop he)]
      simp only
      rw [if_neg (fun h => h3 (List.length_eq_zero_iff.1 (by rw [List.length_append]; exact h))),
        (exponentOf_iff _ _).2 ⟨e, he, rfl⟩, Option.map_some, dotted_value]

/-! ## Spaces -/

theorem trimmed_spec (s : List Char) : ∃ l r, s = l ++ trimmed s ++ r ∧ ∀ c ∈ l ++ r, c.isWhitespace = true := by
  set t := s.dropWhile Char.isWhitespace with ht
  refine ⟨s.takeWhile Char.isWhitespace, (t.reverse.takeWhile Char.isWhitespace).reverse, ?_, ?_⟩
  · have h1 : s = s.takeWhile Char.isWhitespace ++ t := List.takeWhile_append_dropWhile.symm
    have h2 : t = trimmed s ++ (t.reverse.takeWhile Char.isWhitespace).reverse := by
      unfold trimmed
      rw [← ht, ← List.reverse_append, List.takeWhile_append_dropWhile, List.reverse_reverse]
    rw [List.append_assoc, ← h2]
    exact h1
  · intro c hc
    rcases List.mem_append.1 hc with hc | hc
    · exact List.mem_takeWhile_imp hc
    · exact List.mem_takeWhile_imp (List.mem_reverse.1 hc)

theorem dropWhile_spaces {l s : List Char} (hl : ∀ c ∈ l, c.isWhitespace = true)
    (hs : ∀ c r, s = c :: r → c.isWhitespace = false) : (l ++ s).dropWhile Char.isWhitespace = s := by
  induction l with
  | nil =>
    cases s with
    | nil => rfl
    | cons c r => rw [List.nil_append, List.dropWhile_cons, if_neg (by simp [hs c r rfl])]
  | cons c l ih =>
    rw [List.cons_append, List.dropWhile_cons, if_pos (hl c (by simp))]
    exact ih fun c hc => hl c (by simp [hc])

theorem trimmed_of {l s r : List Char} (h : ∀ c ∈ l ++ r, c.isWhitespace = true) (hs : ∀ c ∈ s, c.isWhitespace = false)
    (hne : s ≠ []) : trimmed (l ++ s ++ r) = s := by
  obtain ⟨c, t, rfl⟩ := List.exists_cons_of_ne_nil hne
  unfold trimmed
  rw [List.append_assoc, dropWhile_spaces (fun x hx => h x (by simp [hx]))
    (by intro x y hxy; obtain ⟨rfl, -⟩ := List.cons.inj hxy; exact hs _ (by simp)), List.reverse_append,
    dropWhile_spaces (fun x hx => h x (by simpa using Or.inr hx))
    (by intro x y hxy; exact hs x (by rw [← List.mem_reverse, hxy]; simp)), List.reverse_reverse]

theorem exponent_chars {s : List Char} {e : ℤ} (h : Exponent s e) : ∀ c ∈ s, c.isWhitespace = false := by
  have hE : ∀ {c : Char}, (c = 'e' ∨ c = 'E') → c.isWhitespace = false := by rintro c (rfl | rfl) <;> decide
  intro x hx
  cases h with
  | absent => simp at hx
  | plus hc hs hd =>
    rcases List.mem_cons.1 hx with rfl | hx
    · exact hE hc
    rcases List.mem_append.1 hx with hx | hx
    · rcases hs with rfl | rfl
      · simp at hx
      · rw [List.mem_singleton.1 hx]; decide
    · exact plain_notSpace (Or.inl (hd x hx))
  | minus hc hd =>
    rcases List.mem_cons.1 hx with rfl | hx
    · exact hE hc
    rcases List.mem_cons.1 hx with rfl | hx
    · decide
    · exact plain_notSpace (Or.inl (hd x hx))

theorem magnitude_chars {s : List Char} {x : ℚ} (h : Magnitude s x) :
    (∀ c ∈ s, c.isWhitespace = false) ∧ ∃ c r, s = c :: r ∧ c ≠ '-' ∧ c ≠ '+' := by
  have hD : ∀ {c : Char}, c.isDigit = true → c ≠ '-' ∧ c ≠ '+' := by
    intro c hc
    constructor <;> rintro rfl <;> revert hc <;> decide
  cases h with
  | @whole ip ex e h1 h2 he =>
    refine ⟨fun c hc => ?_, ?_⟩
    · rcases List.mem_append.1 hc with hc | hc
      · exact plain_notSpace (Or.inl (h1 c hc))
      · exact exponent_chars he c hc
    · obtain ⟨c, r, rfl⟩ := List.exists_cons_of_ne_nil h2
      exact ⟨c, r ++ ex, rfl, hD (h1 c (by simp))⟩
  | @dotted ip fp ex e h1 h2 h3 he =>
    refine ⟨fun c hc => ?_, ?_⟩
    · rcases List.mem_append.1 hc with hc | hc
      · exact plain_notSpace (Or.inl (h1 c hc))
      rcases List.mem_cons.1 hc with rfl | hc
      · decide
      rcases List.mem_append.1 hc with hc | hc
      · exact plain_notSpace (Or.inl (h2 c hc))
      · exact exponent_chars he c hc
    · cases ip with
      | nil => exact ⟨'.', _, rfl, by decide, by decide⟩
      | cons c r => exact ⟨c, _, rfl, hD (h1 c (by simp))⟩

/-- The texts read as numbers are the numbers in decimal notation. -/
theorem toDouble_iff (s : List Char) (x : ℚ) : toDouble s = some x ↔ Number s x := by
  constructor
  · intro h
    obtain ⟨l, r, hs, hsp⟩ := trimmed_spec s
    unfold toDouble at h
    split at h
    · rename_i rest heq
      obtain ⟨y, hy, rfl⟩ := Option.map_eq_some_iff.1 h
      rw [hs, heq]
      exact .negative hsp ((unsignedOf_iff _ _).1 hy)
    · rename_i rest heq
      rw [hs, heq]
      have := Number.positive (sign := ['+']) hsp (Or.inr rfl) ((unsignedOf_iff _ _).1 h)
      simpa using this
    · rw [hs]
      have := Number.positive (sign := []) hsp (Or.inl rfl) ((unsignedOf_iff _ _).1 h)
      simpa using this
  · intro h
    cases h with
    | @positive l r sign s x hsp hsign hm =>
      obtain ⟨hc, c, t, rfl, hc1, hc2⟩ := magnitude_chars hm
      unfold toDouble
      rw [List.append_assoc l sign, trimmed_of hsp (by
        intro d hd
        rcases List.mem_append.1 hd with hd | hd
        · rcases hsign with rfl | rfl
          · simp at hd
          · rw [List.mem_singleton.1 hd]; decide
        · exact hc d hd) (by simp)]
      rcases hsign with rfl | rfl
      · rw [List.nil_append]
        split
        · rename_i heq; exact absurd (List.cons.inj heq).1 hc1
        · rename_i heq; exact absurd (List.cons.inj heq).1 hc2
        · exact (unsignedOf_iff _ _).2 hm
      · exact (unsignedOf_iff _ _).2 hm
    | @negative l r s x hsp hm =>
      obtain ⟨hc, -⟩ := magnitude_chars hm
      unfold toDouble
      rw [trimmed_of hsp (by
        intro d hd
        rcases List.mem_cons.1 hd with rfl | hd
        · decide
        · exact hc d hd) (by simp)]
      show (unsignedOf s).map _ = _
      rw [(unsignedOf_iff _ _).2 hm]
      rfl

theorem toULong_iff (s : List Char) (n : Nat) : toULong s = some n ↔ Natural s n := by
  have hf : ∀ (o : Option Nat), o.filter (fun n => n < 2 ^ 64) = some n ↔ o = some n ∧ n < 2 ^ 64 := by
    intro o
    rw [Option.filter_eq_some_iff]
    simp
  constructor
  · intro h
    obtain ⟨l, r, hs, hsp⟩ := trimmed_spec s
    unfold toULong at h
    obtain ⟨h, hn⟩ := (hf _).1 h
    split at h
    · rename_i rest heq
      obtain ⟨h1, h2, h3⟩ := (digitsOf_iff _ _).1 h
      exact ⟨l, ['+'], rest, r, by rw [hs, heq]; simp, hsp, Or.inr rfl, h1, h2, h3, hn⟩
    · obtain ⟨h1, h2, h3⟩ := (digitsOf_iff _ _).1 h
      exact ⟨l, [], _, r, by rw [List.append_nil]; exact hs, hsp, Or.inl rfl, h1, h2, h3, hn⟩
  · rintro ⟨l, sign, ds, r, rfl, hsp, hsign, h1, h2, h3, hn⟩
    unfold toULong
    rw [hf]
    refine ⟨?_, hn⟩
    rw [List.append_assoc l sign, trimmed_of hsp (by
      intro d hd
      rcases List.mem_append.1 hd with hd | hd
      · rcases hsign with rfl | rfl
        · simp at hd
        · rw [List.mem_singleton.1 hd]; decide
      · exact plain_notSpace (Or.inl (h1 d hd))) (by simp [h2])]
    rcases hsign with rfl | rfl
    · rw [List.nil_append]
      split
      · exact absurd (h1 '+' (by simp)) (by decide)
      · exact (digitsOf_iff _ _).2 ⟨h1, h2, h3⟩
    · exact (digitsOf_iff _ _).2 ⟨h1, h2, h3⟩

end Verif.Dialog
