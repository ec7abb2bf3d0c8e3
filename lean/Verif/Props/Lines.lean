import Verif.Spec.Lines
import Verif.Lemmas.DialogRead
import Verif.Props.Text

/-!
# C100: the lists of lines in a file
-/

namespace Verif.Csx
open Verif.Dialog Verif.Dialog.Spec Spec

theorem readExponent_of {ex : List Char} {e : ℤ} (h : Exponent ex e) : readExponent ex = 10 ^ e := by
  cases h with
  | absent => simp [readExponent]
  | @plus c sign ds hc hs hd hne =>
    have hr : readDigits ds 0 0 = (digitsValue ds, ds.length, []) := by
      simpa using readDigits_of hd (rest := []) (by simp)
    unfold readExponent
    simp only
    rw [if_pos hc]
    rcases hs with rfl | rfl
    · obtain ⟨d, r, rfl⟩ := List.exists_cons_of_ne_nil hne
      rw [List.nil_append]
      split
      · rename_i heq
        obtain ⟨rfl, -⟩ := List.cons.inj heq
        exact absurd (hd '-' (by simp)) (by decide)
      · rename_i heq
        obtain ⟨rfl, -⟩ := List.cons.inj heq
        exact absurd (hd '+' (by simp)) (by decide)
      · rw [hr]; simp
    · simp only [List.cons_append, List.nil_append]
      rw [hr]; simp
  | @minus c ds hc hd hne =>
    have hr : readDigits ds 0 0 = (digitsValue ds, ds.length, []) := by
      simpa using readDigits_of hd (rest := []) (by simp)
    unfold readExponent
    simp only
    rw [if_pos hc, hr]
    simp only
    rw [if_neg (fun h => hne (List.length_eq_zero_iff.1 h))]
    simp [zpow_neg]

/-- A number in decimal notation is neither an infinity nor a NaN. -/
theorem not_special {c : Char} {r : List Char} (h : c.isDigit = true ∨ c = '.') :
    ¬ (((c :: r).take 3).map Char.toLower = ['i', 'n', 'f'] ∨ ((c :: r).take 3).map Char.toLower = ['n', 'a', 'n']) := by
  have hl : c.toLower ≠ 'i' ∧ c.toLower ≠ 'n' := by
    rcases h with h | rfl
    · have : c.toLower = c := by
        unfold Char.toLower
        simp only [Char.isDigit, Bool.and_eq_true, decide_eq_true_eq] at h
        rw [dif_neg]
        intro hu
        have h1 := h.2
        have h2 := hu.1
        simp only [UInt32.le_iff_toNat_le] at h1 h2
        have : (57 : Nat) < 65 := by decide
        exact absurd (le_trans h2 h1) (by decide)
      rw [this]
      constructor <;> rintro rfl <;> revert h <;> decide
    · decide
  rintro (e | e)
  · exact hl.1 (by simpa using congrArg List.head? e)
  · exact hl.2 (by simpa using congrArg List.head? e)

theorem magnitude_head {s : List Char} {x : ℚ} (h : Magnitude s x) : ∃ c r, s = c :: r ∧ (c.isDigit = true ∨ c = '.') := by
  cases h with
  | @whole ip ex e h1 h2 he =>
    obtain ⟨c, r, rfl⟩ := List.exists_cons_of_ne_nil h2
    exact ⟨c, r ++ ex, rfl, Or.inl (h1 c (by simp))⟩
  | @dotted ip fp ex e h1 h2 h3 he =>
    cases ip with
    | nil => exact ⟨'.', _, rfl, Or.inr rfl⟩
    | cons c r => exact ⟨c, _, rfl, Or.inl (h1 c (by simp))⟩

theorem readUnsigned_of {s : List Char} {x : ℚ} (neg : Bool) (h : Magnitude s x) :
    readUnsigned neg s = .number ⟨neg, x⟩ := by
  obtain ⟨c, r, hs, hc⟩ := magnitude_head h
  have hn := not_special (r := r) hc
  rw [← hs] at hn
  unfold readUnsigned
  rw [if_neg hn]
  cases h with
  | @whole ip ex e h1 h2 he =>
    rw [readDigits_of h1 (exponent_stop he)]
    simp only
    have hl : ¬ ip.length + 0 = 0 := fun h => h2 (List.length_eq_zero_iff.1 (by omega))
    split
    · rename_i r
      rcases exponent_head he '.' r rfl with h | h <;> exact absurd h (by decide)
    · simp only
      rw [if_neg hl, readExponent_of he]
      simp
  | @dotted ip fp ex e h1 h2 h3 he =>
    rw [readDigits_of h1 (by intro c r h; obtain ⟨rfl, -⟩ := List.cons.inj h; decide)]
    simp only
    rw [readDigits_of h2 (exponent_stop he)]
    simp only
    rw [if_neg (fun h => h3 (List.length_eq_zero_iff.1 (by rw [List.length_append]; exact h))), readExponent_of he,
      dotted_value]

theorem strToDouble_of {s : List Char} {x : ℚ} (h : LineNumber s x) : ∃ r, strToDouble s = .number r ∧ r.value = x := by
  cases h with
  | positive h =>
    refine ⟨⟨false, x⟩, ?_, by simp [Signed.value]⟩
    obtain ⟨c, r, rfl, hc⟩ := magnitude_head h
    unfold strToDouble
    rw [if_neg, readUnsigned_of false h]
    rcases hc with hc | rfl
    · simp only [List.head?_cons, Option.some.injEq]
      rintro rfl
      exact absurd hc (by decide)
    · simp
  | @negative s x h =>
    refine ⟨⟨true, x⟩, ?_, by simp [Signed.value]⟩
    unfold strToDouble
    rw [if_pos (by simp), List.tail_cons, readUnsigned_of true h]

/-- What is read of the exponent is an exponent, or nothing. -/
theorem readExponent_prefix (s : List Char) : ∃ ex junk e, s = ex ++ junk ∧ Exponent ex e ∧ readExponent s = 10 ^ e := by
  have hnone : readExponent s = 1 → ∃ ex junk e, s = ex ++ junk ∧ Exponent ex e ∧ readExponent s = 10 ^ e :=
    fun h => ⟨[], s, 0, rfl, .absent, by simp [h]⟩
  cases s with
  | nil => exact hnone rfl
  | cons c rest =>
    by_cases hc : c = 'e' ∨ c = 'E'
    swap
    · exact hnone (by unfold readExponent; simp only; rw [if_neg hc])
    have hplus : ∀ (sign digits : List Char), (sign = [] ∨ sign = ['+']) → rest = sign ++ digits →
        readExponent (c :: rest) = 10 ^ (readDigits digits 0 0).1 →
        ∃ ex junk e, c :: rest = ex ++ junk ∧ Exponent ex e ∧ readExponent (c :: rest) = 10 ^ e := by
      intro sign digits hs hr hv
      obtain ⟨ds, junk, hd, ha, -, he⟩ := readDigits_eq digits
      rw [he] at hv
      cases ds with
      | nil => exact hnone (by rw [hv]; simp [digitsValue])
      | cons d ds =>
        refine ⟨c :: (sign ++ d :: ds), junk, _, ?_, .plus hc hs ha (by simp), by rw [hv, zpow_natCast]⟩
        rw [hr, hd]; simp
    by_cases hm : ∃ digits, rest = '-' :: digits
    · obtain ⟨digits, rfl⟩ := hm
      obtain ⟨ds, junk, hd, ha, -, he⟩ := readDigits_eq digits
      have hv : readExponent (c :: '-' :: digits) = if ds.length = 0 then 1 else 1 / 10 ^ digitsValue ds := by
        rw [readExponent, if_pos hc]
        simp only
        rw [he]
      cases ds with
      | nil => exact hnone hv
      | cons d ds =>
        refine ⟨c :: '-' :: (d :: ds), junk, _, by rw [hd]; simp, .minus hc ha (by simp), ?_⟩
        rw [hv, if_neg (by simp), zpow_neg, zpow_natCast, one_div]
    · by_cases hp : ∃ digits, rest = '+' :: digits
      · obtain ⟨digits, rfl⟩ := hp
        exact hplus ['+'] digits (Or.inr rfl) rfl (by rw [readExponent, if_pos hc])
      · refine hplus [] rest (Or.inl rfl) rfl ?_
        unfold readExponent
        simp only
        rw [if_pos hc]
        split
        · rename_i d; exact absurd ⟨d, rfl⟩ hm
        · rename_i d; exact absurd ⟨d, rfl⟩ hp
        · rfl

theorem readUnsigned_prefix {neg : Bool} {s : List Char} {r : Signed} (h : readUnsigned neg s = .number r) :
    r.neg = neg ∧ ∃ p junk, s = p ++ junk ∧ Magnitude p r.mag := by
  unfold readUnsigned at h
  split_ifs at h with hs
  obtain ⟨ip, rest, rfl, h1, h2, h3⟩ := readDigits_eq s
  rw [h3] at h
  simp only at h
  split at h
  · rename_i q
    obtain ⟨fp, rest, rfl, h4, h5, h6⟩ := readDigits_eq q
    rw [h6] at h
    simp only at h
    split_ifs at h with hl
    injection h with h
    subst h
    obtain ⟨ex, junk, e, rfl, he, hv⟩ := readExponent_prefix rest
    refine ⟨rfl, ip ++ '.' :: (fp ++ ex), junk, by simp, ?_⟩
    simp only [hv]
    rw [dotted_value]
    exact .dotted h1 h4 (fun hn => hl (by rw [← List.length_append, hn]; rfl)) he
  · simp only at h
    split_ifs at h with hl
    injection h with h
    subst h
    obtain ⟨ex, junk, e, rfl, he, hv⟩ := readExponent_prefix rest
    refine ⟨rfl, ip ++ ex, junk, by simp, ?_⟩
    simp only [hv]
    have : ((digitsValue ip : ℚ) + (0 : Nat) / 10 ^ 0) * 10 ^ e = digitsValue ip * 10 ^ e := by simp
    rw [this]
    exact .whole h1 (fun hn => hl (by rw [hn]; rfl)) he

theorem strToDouble_prefix {s : List Char} {r : Signed} (h : strToDouble s = .number r) :
    ∃ p junk, s = p ++ junk ∧ LineNumber p r.value := by
  unfold strToDouble at h
  split_ifs at h with hm
  · cases s with
    | nil => simp at hm
    | cons c s =>
      simp only [List.head?_cons, Option.some.injEq] at hm
      subst hm
      obtain ⟨hn, p, junk, hp, hq⟩ := readUnsigned_prefix h
      refine ⟨'-' :: p, junk, by rw [List.tail_cons] at hp; rw [hp]; rfl, ?_⟩
      rw [Signed.value, if_pos hn]
      exact .negative hq
  · obtain ⟨hn, p, junk, hp, hq⟩ := readUnsigned_prefix h
    refine ⟨p, junk, hp, ?_⟩
    rw [Signed.value, if_neg (by simp [hn])]
    exact .positive hq

theorem number_no_comma {s : List Char} {x : ℚ} (h : LineNumber s x) : ∀ c ∈ s, c.isWhitespace = false ∧ c ≠ ',' := by
  have hD : ∀ {c : Char}, c.isDigit = true → c ≠ ',' := by rintro c h rfl; revert h; decide
  have hE : ∀ {c : Char}, (c = 'e' ∨ c = 'E') → c ≠ ',' := by rintro c (rfl | rfl) <;> decide
  have he : ∀ {s : List Char} {e : ℤ}, Exponent s e → ∀ c ∈ s, c ≠ ',' := by
    intro s e h c hc
    cases h with
    | absent => simp at hc
    | plus hl hs hd =>
      rcases List.mem_cons.1 hc with rfl | hc
      · exact hE hl
      · rcases List.mem_append.1 hc with hc | hc
        · rcases hs with rfl | rfl
          · simp at hc
          · rw [List.mem_singleton.1 hc]; decide
        · exact hD (hd c hc)
    | minus hl hd =>
      rcases List.mem_cons.1 hc with rfl | hc
      · exact hE hl
      · rcases List.mem_cons.1 hc with rfl | hc
        · decide
        · exact hD (hd c hc)
  have hm : ∀ {s : List Char} {x : ℚ}, Magnitude s x → ∀ c ∈ s, c ≠ ',' := by
    intro s x h c hc
    cases h with
    | whole h1 h2 hx =>
      rcases List.mem_append.1 hc with hc | hc
      · exact hD (h1 c hc)
      · exact he hx c hc
    | dotted h1 h2 h3 hx =>
      rcases List.mem_append.1 hc with hc | hc
      · exact hD (h1 c hc)
      · rcases List.mem_cons.1 hc with rfl | hc
        · decide
        · rcases List.mem_append.1 hc with hc | hc
          · exact hD (h2 c hc)
          · exact he hx c hc
  intro c hc
  cases h with
  | positive h => exact ⟨(magnitude_chars h).1 c hc, hm h c hc⟩
  | negative h =>
    rcases List.mem_cons.1 hc with rfl | hc
    · decide
    · exact ⟨(magnitude_chars h).1 c hc, hm h c hc⟩

theorem number_ne_nil {s : List Char} {x : ℚ} (h : LineNumber s x) : s ≠ [] := by
  cases h with
  | positive h => obtain ⟨c, r, rfl, -⟩ := magnitude_head h; simp
  | negative h => simp

/-! ## C100 -/

/-- C100: a list of numbers in decimal notation, with any exponents, is read as these numbers, in order. -/
theorem C100_read {text : List Char} {xs : List ℚ} (h : NumberList text xs) :
    ∃ lines, readLines text = some lines ∧ lines.map Signed.value = xs := by
  induction h with
  | empty => exact ⟨[], rfl, rfl⟩
  | @last s x h =>
    obtain ⟨r, hr, hv⟩ := strToDouble_of h
    refine ⟨[r], ?_, by simp [hv]⟩
    rw [readLines, split, if_neg (number_ne_nil h), splitAll_single fun c hc => (number_no_comma h c hc).2]
    simp [readParts, hr]
  | @more s t x xs h ht _ ih =>
    obtain ⟨r, hr, hv⟩ := strToDouble_of h
    obtain ⟨lines, hl, hx⟩ := ih
    refine ⟨r :: lines, ?_, by simp [hv, hx]⟩
    rw [readLines, split, if_neg ht] at hl
    rw [readLines, split, if_neg (by simp), splitAll_append fun c hc => (number_no_comma h c hc).2]
    simp [readParts, hr, hl]

/-- `1.5e-3,-.25,2E+2,7` is a list of numbers. -/
example : NumberList "1.5e-3,-.25,2E+2,7".toList [3 / 2000, -1 / 4, 200, 7] := by
  have m : ∀ ds : List Char, ds.all Char.isDigit = true → AllDigits ds := fun ds h c hc => List.all_eq_true.1 h c hc
  have h1 : Magnitude "1.5e-3".toList (3 / 2000) := by
    have := Magnitude.dotted (ip := ['1']) (fp := ['5']) (m _ (by decide)) (m _ (by decide)) (by simp)
      (.minus (c := 'e') (ds := ['3']) (Or.inl rfl) (m _ (by decide)) (by simp))
    have v : (digitsValue (['1'] ++ ['5']) : ℚ) * 10 ^ (-(digitsValue ['3'] : ℤ) - (['5'] : List Char).length) = 3 / 2000 := by
      decide +kernel
    rw [v] at this
    exact this
  have h2 : Magnitude ".25".toList (1 / 4) := by
    have := Magnitude.dotted (ip := []) (fp := ['2', '5']) (m _ (by decide)) (m _ (by decide)) (by simp) .absent
    have v : (digitsValue ([] ++ ['2', '5']) : ℚ) * 10 ^ ((0 : ℤ) - (['2', '5'] : List Char).length) = 1 / 4 := by
      decide +kernel
    rw [v] at this
    exact this
  have h3 : Magnitude "2E+2".toList 200 := by
    have := Magnitude.whole (ip := ['2']) (m _ (by decide)) (by simp)
      (.plus (c := 'E') (sign := ['+']) (ds := ['2']) (Or.inr rfl) (Or.inr rfl) (m _ (by decide)) (by simp))
    have v : (digitsValue ['2'] : ℚ) * 10 ^ (digitsValue ['2'] : ℤ) = 200 := by decide +kernel
    rw [v] at this
    exact this
  have h4 : Magnitude "7".toList 7 := by
    have := Magnitude.whole (ip := ['7']) (m _ (by decide)) (by simp) .absent
    have v : (digitsValue ['7'] : ℚ) * 10 ^ (0 : ℤ) = 7 := by decide +kernel
    rw [v] at this
    exact this
  have h2' : LineNumber "-.25".toList (-1 / 4) := by
    have := LineNumber.negative h2
    rwa [show -(1 / 4 : ℚ) = -1 / 4 by norm_num] at this
  exact .more (s := "1.5e-3".toList) (.positive h1) (by decide) (.more (s := "-.25".toList) h2' (by decide)
    (.more (s := "2E+2".toList) (.positive h3) (by decide) (.last (.positive h4))))

/-- C100: whatever is accepted begins, at its start and after each comma, by a number, and these are the numbers read; any
other text is refused. What is missing: what follows each number, which is left out without a word. -/
theorem C100_accepted_partial {text : List Char} {lines : List Signed} (h : readLines text = some lines) :
    LooseList text (lines.map Signed.value) := by
  have key : ∀ (n : Nat) (text : List Char) (lines : List Signed), text.length = n → text ≠ [] →
      readParts (splitAll text) = some lines → LooseList text (lines.map Signed.value) := by
    intro n
    induction n using Nat.strong_induction_on with
    | _ n ih =>
      intro text lines hn hne h
      by_cases hc : ',' ∈ text
      · obtain ⟨a, b, rfl, ha⟩ := List.eq_append_cons_of_mem hc
        rw [splitAll_append (fun c hx e => ha (e ▸ hx)), readParts] at h
        split at h
        · rename_i r hr
          obtain ⟨rest, hrest, rfl⟩ := Option.map_eq_some_iff.1 h
          obtain ⟨p, junk, rfl, hp⟩ := strToDouble_prefix hr
          have hb : b ≠ [] := by
            rintro rfl
            simp [splitAll, readParts, show strToDouble [] = .invalid by decide +kernel] at hrest
          refine .more hp (fun hj => ha (List.mem_append_right _ hj)) hb (ih b.length ?_ b rest rfl hb hrest)
          rw [← hn, List.length_append, List.length_cons]
          omega
        · simp at h
      · rw [splitAll_single (fun c hx e => hc (e ▸ hx))] at h
        rw [readParts] at h
        split at h
        · rename_i r hr
          simp only [readParts, Option.map_some, Option.some.injEq] at h
          subst h
          obtain ⟨p, junk, rfl, hp⟩ := strToDouble_prefix hr
          exact .last hp (fun hj => hc (List.mem_append_right _ hj))
        · simp at h
  by_cases hne : text = []
  · subst hne
    simp only [readLines, split, if_pos, readParts, Option.some.injEq] at h
    subst h
    exact .empty
  · rw [readLines, split, if_neg hne] at h
    exact key _ text lines rfl hne h

/-- `10 mm,30` is accepted. -/
example : (readLines "10 mm,30".toList).map (·.map Signed.value) = some [10, 30] := by decide +kernel

/-- A space before a number, a plus, an empty part and a missing number make the whole list refused. -/
example : readLines "10, 30".toList = none ∧ readLines "+10".toList = none ∧ readLines "10,,30".toList = none ∧
    readLines "10,".toList = none ∧ readLines "ten".toList = none := by decide +kernel

/-- A list that is not one of numbers may be accepted, and lines lost: here the second of three, after a space in place of a
comma. -/
theorem C100_false : ∃ (text : List Char) (lines : List Signed), readLines text = some lines ∧
    lines.map Signed.value = [10, 30] ∧ (∃ a b c : List Char, text = a ++ ' ' :: b ++ ',' :: c ∧ LineNumber a 10 ∧
      LineNumber b 20 ∧ LineNumber c 30) ∧ ¬ ∃ xs, NumberList text xs := by
  have m : ∀ ds : List Char, ds.all Char.isDigit = true → AllDigits ds := fun ds h c hc => List.all_eq_true.1 h c hc
  have n : ∀ (ds : List Char) (x : ℚ), ds.all Char.isDigit = true → ds ≠ [] → (digitsValue ds : ℚ) * 10 ^ (0 : ℤ) = x →
      LineNumber ds x := by
    rintro ds x h hne rfl
    simpa using LineNumber.positive (Magnitude.whole (m ds h) hne .absent)
  have hsp : ∀ {s : List Char} {xs : List ℚ}, NumberList s xs → ∀ c ∈ s, c.isWhitespace = false := by
    intro s xs h
    induction h with
    | empty => simp
    | last h => exact fun c hc => (number_no_comma h c hc).1
    | more h _ _ ih =>
      intro c hc
      rcases List.mem_append.1 hc with hc | hc
      · exact (number_no_comma h c hc).1
      · rcases List.mem_cons.1 hc with rfl | hc
        · decide
        · exact ih c hc
  refine ⟨"10 20,30".toList, [⟨false, 10⟩, ⟨false, 30⟩], by decide +kernel, by decide +kernel,
    ⟨"10".toList, "20".toList, "30".toList, by decide +kernel, n _ _ (by decide +kernel) (by decide) (by decide +kernel),
      n _ _ (by decide +kernel) (by decide) (by decide +kernel), n _ _ (by decide +kernel) (by decide) (by decide +kernel)⟩, ?_⟩
  rintro ⟨xs, h⟩
  exact absurd (hsp h ' ' (by decide +kernel)) (by decide)

/-- C100, in a file: the lists of the three axes, kept where they are when there is no unit. -/
theorem C100_grid (node : GridNode) {x y z : List ℚ} (hx : NumberList node.x x) (hy : NumberList node.y y)
    (hz : NumberList node.z z) (hc : node.coordSystem = none ∨ node.coordSystem = some ['0'])
    (hu : node.deltaUnit = none) : ∃ has a b c, parseGrid true node = some (has, a, b, c) ∧ a.map Signed.value = x ∧
      b.map Signed.value = y ∧ c.map Signed.value = z := by
  obtain ⟨a, ha, va⟩ := C100_read hx
  obtain ⟨b, hb, vb⟩ := C100_read hy
  obtain ⟨c, hc', vc⟩ := C100_read hz
  obtain ⟨has, h⟩ := C57_partial node ha hb hc' hc (Or.inl hu)
  exact ⟨has, a, b, c, h, va, vb, vc⟩

example : (parseGrid true ⟨none, none, "1e-3,2e-3".toList, "0.5".toList, []⟩).map
    (fun g => (g.2.1.map Signed.value, g.2.2.1.map Signed.value, g.2.2.2.map Signed.value))
      = some ([1 / 1000, 1 / 500], [1 / 2], []) := by decide +kernel

end Verif.Csx
