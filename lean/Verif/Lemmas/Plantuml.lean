import Verif.Spec.Plantuml
import Verif.Lemmas.Text
import Verif.Lemmas.Dialog
import Mathlib.Data.List.Perm.Lattice
import Mathlib.Data.List.Nodup

/-! # Reading the lines of a state diagram -/

namespace Verif.Uml
open Spec
open Verif.Csx (decimal toString6 Signed digitChar sixDigits)

/-! ## Splitting -/

theorem splitAt_self {c : Char} {w : List Char} (h : c ∉ w) : splitAt c w = [w] := by
  induction w with
  | nil => rfl
  | cons d w ih =>
    simp only [List.mem_cons, not_or] at h
    rw [splitAt, if_neg (Ne.symm h.1), ih h.2]

theorem splitAt_append {c : Char} {w : List Char} (h : c ∉ w) (rest : List Char) :
    splitAt c (w ++ c :: rest) = w :: splitAt c rest := by
  induction w with
  | nil => simp [splitAt]
  | cons d w ih =>
    simp only [List.mem_cons, not_or] at h
    rw [List.cons_append, splitAt, if_neg (Ne.symm h.1), ih h.2]

theorem linesOf_lines {ls : List (List Char)} (h : ∀ l ∈ ls, '\n' ∉ l) :
    linesOf (ls.flatMap fun l => l ++ ['\n']) = ls ++ [[]] := by
  induction ls with
  | nil => rfl
  | cons l ls ih =>
    rw [List.flatMap_cons, List.append_assoc, linesOf, show ['\n'] ++ ls.flatMap (fun l => l ++ ['\n']) =
      '\n' :: ls.flatMap (fun l => l ++ ['\n']) from rfl, splitAt_append (h l (by simp))]
    have := ih fun l hl => h l (by simp [hl])
    rw [linesOf] at this
    rw [this]
    rfl

/-! ## The texts of the names -/

/-- A word that begins with a digit. -/
def Word (w : List Char) : Prop := (∃ c r, w = c :: r ∧ c.isDigit = true) ∧ ∀ c ∈ w, c ≠ ' ' ∧ c ≠ '"' ∧ c ≠ '\n'

theorem digit_ne {c : Char} (h : c.isDigit = true) : c ≠ ' ' ∧ c ≠ '"' ∧ c ≠ '\n' ∧ c ≠ 's' ∧ c ≠ '@' ∧ c ≠ '}' ∧ c ≠ '{' ∧ c ≠ '_' := by
  refine ⟨?_, ?_, ?_, ?_, ?_, ?_, ?_, ?_⟩ <;> (rintro rfl; revert h; decide)

theorem word_decimal (n : Nat) : Word (decimal n) := by
  refine ⟨?_, fun c hc => ?_⟩
  · cases h : decimal n with
    | nil => exact absurd h (Csx.decimal_digits n).1
    | cons c r => exact ⟨c, r, rfl, Dialog.decimal_isDigit n c (by simp [h])⟩
  · have := digit_ne (Dialog.decimal_isDigit n c hc)
    exact ⟨this.1, this.2.1, this.2.2.1⟩

theorem word_append {w s : List Char} (h : Word w) (hs : ∀ c ∈ s, c ≠ ' ' ∧ c ≠ '"' ∧ c ≠ '\n') : Word (w ++ s) := by
  obtain ⟨⟨c, r, rfl, hc⟩, hw⟩ := h
  refine ⟨⟨c, r ++ s, rfl, hc⟩, fun d hd => ?_⟩
  rcases List.mem_append.mp hd with hd | hd
  · exact hw d hd
  · exact hs d hd

theorem word_in (n : Nat) : Word (inPin n) := word_append (word_decimal n) (by decide)
theorem word_out (n : Nat) : Word (outPin n) := word_append (word_decimal n) (by decide)
theorem word_ink (n k : Nat) : Word (inPin n ++ decimal k) := word_append (word_in n) (word_decimal k).2
theorem word_in1 (n : Nat) : Word (inPin n ++ "1".toList) := word_append (word_in n) (by decide)
theorem word_in2 (n : Nat) : Word (inPin n ++ "2".toList) := word_append (word_in n) (by decide)

/-! ## The lines -/

/-- What is read of a line. -/
structure Reads (l : List Char) (declared : Option (List Char)) (drawn : Option (List Char × List Char)) (o c : Bool) : Prop where
  line : '\n' ∉ l
  declares : declares l = declared
  draws : draws l = drawn
  opens : opens l = o
  closes : closes l = c

theorem after_append (s r : List Char) : after s (s ++ r) = some r := by
  simp [after]

theorem after_ne {c d : Char} {s r : List Char} (h : c ≠ d) : after (c :: s) (d :: r) = none := by
  simp [after, h]

theorem dropWhile_title {t r : List Char} (h : '"' ∉ t) : (t ++ '"' :: r).dropWhile (· ≠ '"') = '"' :: r := by
  induction t with
  | nil => simp
  | cons c t ih =>
    simp only [List.mem_cons, not_or] at h
    rw [List.cons_append, List.dropWhile_cons_of_pos (by simpa using Ne.symm h.1), ih h.2]

theorem takeWhile_name {n r : List Char} (h : ' ' ∉ n) (hr : r = [] ∨ ∃ r', r = ' ' :: r') : (n ++ r).takeWhile (· ≠ ' ') = n := by
  induction n with
  | nil =>
    rcases hr with rfl | ⟨r', rfl⟩ <;> simp
  | cons c n ih =>
    simp only [List.mem_cons, not_or] at h
    rw [List.cons_append, List.takeWhile_cons_of_pos (by simpa using Ne.symm h.1), ih h.2]

theorem declares_state {title name r : List Char} (ht : '"' ∉ title) (hn : ' ' ∉ name) (hr : r = [] ∨ ∃ r', r = ' ' :: r') :
    declares ("state \"".toList ++ title ++ "\" as ".toList ++ name ++ r) = some name := by
  have : "state \"".toList ++ title ++ "\" as ".toList ++ name ++ r =
      "state \"".toList ++ (title ++ '"' :: (" as ".toList ++ (name ++ r))) := by simp
  rw [this, declares, after_append, Option.bind_some, dropWhile_title ht]
  have : '"' :: (" as ".toList ++ (name ++ r)) = "\" as ".toList ++ (name ++ r) := by simp
  rw [this, after_append, Option.map_some, takeWhile_name hn hr]

theorem draws_state (r : List Char) : draws ("state \"".toList ++ r) = none := by
  have h : splitAt ' ' ("state \"".toList ++ r) = "state".toList :: splitAt ' ' ('"' :: r) := by
    have := splitAt_append (c := ' ') (w := "state".toList) (by decide) ('"' :: r)
    simpa using this
  have h2 : ∃ w ws, splitAt ' ' ('"' :: r) = ('"' :: w) :: ws := by
    rw [splitAt, if_neg (by decide)]
    cases splitAt ' ' r with
    | nil => exact ⟨[], [], rfl⟩
    | cons w ws => exact ⟨w, ws, rfl⟩
  obtain ⟨w, ws, hw⟩ := h2
  rw [draws, words, h, hw, List.filter_cons_of_pos (by decide), List.filter_cons_of_pos (by simp)]
  cases ws.filter (· ≠ []) with
  | nil => rfl
  | cons x xs => cases xs <;> rfl

theorem not_mem_append {c : Char} {a b : List Char} (ha : c ∉ a) (hb : c ∉ b) : c ∉ a ++ b := by
  simp [ha, hb]

theorem assoc_six (a b c d e f : List Char) : a ++ b ++ c ++ d ++ e ++ f = a ++ b ++ c ++ d ++ (e ++ f) := by simp
theorem assoc_six' (a b c d e f : List Char) : a ++ b ++ c ++ d ++ e ++ f = a ++ (b ++ c ++ d ++ e ++ f) := by simp
theorem assoc_five (a b c d e : List Char) : a ++ b ++ c ++ d ++ e = a ++ b ++ (c ++ d ++ e) := by simp
theorem assoc_five' (a b c d e f : List Char) : (f ++ a) ++ b ++ c ++ d ++ e = f ++ (a ++ b ++ c ++ d ++ e) := by simp

theorem pin_text : "state \" \" as ".toList = "state \"".toList ++ " ".toList ++ "\" as ".toList := by decide
theorem pin_text' : "state \" \" as ".toList = "state \"".toList ++ " \" as ".toList := by decide

theorem last_append (a b : List Char) (x : Char) (h : b.getLast? = some x) : (a ++ b).getLast? = some x := by
  rw [List.getLast?_append, h]; rfl

theorem declares_opening {title name colour : List Char} (ht : '"' ∉ title) (hn : ' ' ∉ name)
    (hr : colour ++ " {".toList = [] ∨ ∃ r', colour ++ " {".toList = ' ' :: r') :
    declares (opening title name colour) = some name := by
  unfold opening
  rw [assoc_six]
  exact declares_state ht hn hr

theorem draws_opening (title name colour : List Char) : draws (opening title name colour) = none := by
  unfold opening
  rw [assoc_six']
  exact draws_state _

theorem declares_pin {name kind : List Char} (hn : ' ' ∉ name) : declares (pin name kind) = some name := by
  unfold pin
  rw [assoc_five, pin_text]
  exact declares_state (by decide) hn (.inr ⟨'<' :: '<' :: (kind ++ ">>".toList), rfl⟩)

theorem draws_pin (name kind : List Char) : draws (pin name kind) = none := by
  unfold pin
  rw [pin_text', assoc_five']
  exact draws_state _

theorem reads_opening {title name colour : List Char} (ht : ∀ c ∈ title, c ≠ '"' ∧ c ≠ '\n')
    (hn : ∀ c ∈ name, c ≠ ' ' ∧ c ≠ '"' ∧ c ≠ '\n') (hc : colour = [] ∨ colour = " #green".toList ∨ colour = " #red".toList ∨
      colour = " #chartreuse".toList) : Reads (opening title name colour) (some name) none true false where
  line := by
    have h1 : '\n' ∉ title := fun h => (ht _ h).2 rfl
    have h2 : '\n' ∉ name := fun h => (hn _ h).2.2 rfl
    have h3 : '\n' ∉ colour := by rcases hc with rfl | rfl | rfl | rfl <;> decide
    exact not_mem_append (not_mem_append (not_mem_append (not_mem_append (not_mem_append (by decide) h1) (by decide)) h2) h3)
      (by decide)
  declares := by
    refine declares_opening (fun h => (ht _ h).1 rfl) (fun h => (hn _ h).1 rfl) (.inr ?_)
    rcases hc with rfl | rfl | rfl | rfl <;> exact ⟨_, rfl⟩
  draws := draws_opening _ _ _
  opens := decide_eq_true (last_append _ _ _ (by decide))
  closes := rfl

theorem reads_pin {name kind : List Char} (hn : ∀ c ∈ name, c ≠ ' ' ∧ c ≠ '"' ∧ c ≠ '\n') (hk : '\n' ∉ kind) :
    Reads (pin name kind) (some name) none false false where
  line := by
    have h2 : '\n' ∉ name := fun h => (hn _ h).2.2 rfl
    exact not_mem_append (not_mem_append (not_mem_append (not_mem_append (by decide) h2) (by decide)) hk) (by decide)
  declares := by
    exact declares_pin (fun h => (hn _ h).1 rfl)
  draws := draws_pin _ _
  opens := by
    have : (pin name kind).getLast? = some '>' := last_append _ _ _ (by decide)
    rw [Spec.opens, this]; decide
  closes := rfl

theorem declares_word {w r : List Char} (h : Word w) : declares (w ++ r) = none := by
  obtain ⟨⟨c, r', rfl, hc⟩, -⟩ := h
  have : after "state \"".toList (c :: r' ++ r) = none := after_ne (s := "tate \"".toList) (Ne.symm (digit_ne hc).2.2.2.1)
  rw [declares, this]; rfl

theorem words_two {w v rest : List Char} (hw : Word w) (hv : ' ' ∉ v) (hv0 : v ≠ []) :
    words (w ++ ' ' :: (v ++ ' ' :: rest)) = w :: v :: words rest := by
  have h1 : ' ' ∉ w := fun h => (hw.2 _ h).1 rfl
  have hw0 : w ≠ [] := by obtain ⟨⟨c, r, rfl, -⟩, -⟩ := hw; simp
  rw [words, splitAt_append h1, splitAt_append hv, List.filter_cons_of_pos (by simpa using hw0),
    List.filter_cons_of_pos (by simpa using hv0), words]

theorem words_one {w tail : List Char} (hw : Word w) (ht : tail = [] ∨ tail = [' ']) : words (w ++ tail) = [w] := by
  have h1 : ' ' ∉ w := fun h => (hw.2 _ h).1 rfl
  have hw0 : w ≠ [] := by obtain ⟨⟨c, r, rfl, -⟩, -⟩ := hw; simp
  rcases ht with rfl | rfl
  · rw [words, List.append_nil, splitAt_self h1, List.filter_cons_of_pos (by simpa using hw0)]; rfl
  · rw [words, splitAt_append h1, List.filter_cons_of_pos (by simpa using hw0)]; rfl

theorem last_word {w : List Char} (h : ∀ c ∈ w, c ≠ '{') (a : List Char) (h0 : w ≠ []) : Spec.opens (a ++ w) = false := by
  rw [Spec.opens, List.getLast?_append]
  cases hl : w.getLast? with
  | none => exact absurd (List.getLast?_eq_none_iff.mp hl) h0
  | some x =>
    have := h x (List.mem_of_getLast? hl)
    simpa using this

theorem closes_word {w r : List Char} (h : Word w) : Spec.closes (w ++ r) = false := by
  obtain ⟨⟨c, r, rfl, hc⟩, -⟩ := h
  simp only [Spec.closes, List.cons_append, decide_eq_false_iff_not, List.cons.injEq, not_and]
  exact fun h => absurd h (digit_ne hc).2.2.2.2.2.1

theorem arrow_words (a s b t : List Char) :
    arrow a s b t = a ++ ' ' :: (('-' :: ("----".toList ++ s ++ "->".toList)) ++ ' ' :: (b ++ t)) := by
  have h1 : " -----".toList = [' ', '-'] ++ "----".toList := by decide
  have h2 : "-> ".toList = "->".toList ++ [' '] := by decide
  rw [arrow, h1, h2]
  generalize "----".toList = x
  generalize "->".toList = y
  simp

theorem reads_arrow {a style b tail : List Char} (ha : Word a) (hb : Word b) (hb' : ∀ c ∈ b, c ≠ '{')
    (hs : ∀ c ∈ style, c ≠ ' ' ∧ c ≠ '\n') (ht : tail = [] ∨ tail = [' ']) :
    Reads (arrow a style b tail) none (some (a, b)) false false where
  line := by
    have h1 : '\n' ∉ a := fun h => (ha.2 _ h).2.2 rfl
    have h2 : '\n' ∉ b := fun h => (hb.2 _ h).2.2 rfl
    have h3 : '\n' ∉ style := fun h => (hs _ h).2 rfl
    have h4 : '\n' ∉ tail := by rcases ht with rfl | rfl <;> decide
    exact not_mem_append (not_mem_append (not_mem_append (not_mem_append (not_mem_append h1 (by decide)) h3) (by decide)) h2) h4
  declares := by rw [arrow_words, declares_word ha]
  draws := by
    have h3 : ' ' ∉ style := fun h => (hs _ h).1 rfl
    have h4 : ' ' ∉ '-' :: ("----".toList ++ style ++ "->".toList) := by
      rw [List.mem_cons, not_or]
      exact ⟨by decide, not_mem_append (not_mem_append (by decide) h3) (by decide)⟩
    rw [arrow_words, draws, words_two ha h4 (by simp), words_one hb ht]
    rfl
  opens := by
    have : arrow a style b tail = (a ++ " -----".toList ++ style ++ "-> ".toList) ++ (b ++ tail) := List.append_assoc _ _ _
    rw [this]
    refine last_word ?_ _ ?_
    · intro c hc
      rcases List.mem_append.mp hc with hc | hc
      · exact hb' c hc
      · rcases ht with rfl | rfl
        · cases hc
        · simp only [List.mem_singleton] at hc; subst hc; decide
    · obtain ⟨⟨c, r, rfl, -⟩, -⟩ := hb; simp
  closes := by rw [arrow_words, closes_word ha]

theorem field_words (n l v : List Char) : field n l v = n ++ ' ' :: ([':'] ++ ' ' :: (l ++ " = ".toList ++ v)) := by
  have h1 : " : ".toList = [' ', ':', ' '] := by decide
  rw [field, h1]
  generalize " = ".toList = x
  simp

theorem reads_field {name label value : List Char} (hn : Word name) (hl : '\n' ∉ label) (hv : ∀ c ∈ value, c ≠ '\n' ∧ c ≠ '{')
    (h0 : value ≠ []) : Reads (field name label value) none none false false where
  line := by
    have h1 : '\n' ∉ name := fun h => (hn.2 _ h).2.2 rfl
    exact not_mem_append (not_mem_append (not_mem_append (not_mem_append h1 (by decide)) hl) (by decide)) (fun h => (hv _ h).1 rfl)
  declares := by rw [field_words, declares_word hn]
  draws := by
    rw [field_words, draws, words_two hn (by decide) (by simp)]
    cases words (label ++ " = ".toList ++ value) with
    | nil => rfl
    | cons x xs => cases xs <;> rfl
  opens := last_word (fun c hc => (hv c hc).2) _ h0
  closes := by rw [field_words, closes_word hn]

theorem reads_closing : Reads closing none none false true := ⟨by decide, by decide, by decide, by decide, by decide⟩
theorem reads_start : Reads "@startuml".toList none none false false := ⟨by decide, by decide, by decide, by decide, by decide⟩
theorem reads_end : Reads "@enduml".toList none none false false := ⟨by decide, by decide, by decide, by decide, by decide⟩

/-! ## Blocks of lines -/

/-- What is read of the lines of a state with all it holds. -/
structure Block (ls : List (List Char)) (declared : List (List Char)) (drawn : List (List Char × List Char)) : Prop where
  line : ∀ l ∈ ls, '\n' ∉ l
  declares : ls.filterMap Spec.declares = declared
  draws : ls.filterMap Spec.draws = drawn
  matched : ∀ n rest, Matched n (ls ++ rest) ↔ Matched n rest

theorem block_nil : Block [] [] [] := ⟨by simp, rfl, rfl, fun _ _ => Iff.rfl⟩

theorem block_append {ls ls' d d' a a'} (h : Block ls d a) (h' : Block ls' d' a') : Block (ls ++ ls') (d ++ d') (a ++ a') where
  line l hl := by
    rcases List.mem_append.mp hl with hl | hl
    · exact h.line l hl
    · exact h'.line l hl
  declares := by rw [List.filterMap_append, h.declares, h'.declares]
  draws := by rw [List.filterMap_append, h.draws, h'.draws]
  matched n rest := by rw [List.append_assoc, h.matched, h'.matched]

theorem block_flatMap {α : Type} {f : α → List (List Char)} {d : α → List (List Char)} {a : α → List (List Char × List Char)}
    {l : List α} (h : ∀ x ∈ l, Block (f x) (d x) (a x)) : Block (l.flatMap f) (l.flatMap d) (l.flatMap a) := by
  induction l with
  | nil => exact block_nil
  | cons x l ih => exact block_append (h x (by simp)) (ih fun y hy => h y (by simp [hy]))

theorem block_line {l : List Char} {d a} (h : Reads l d a false false) : Block [l] d.toList a.toList where
  line := by simpa using h.line
  declares := by cases d <;> simp [List.filterMap_cons, h.declares]
  draws := by cases a <;> simp [List.filterMap_cons, h.draws]
  matched n rest := by simp [Matched, h.opens, h.closes]

theorem block_cons {l : List Char} {ls d a ds as} (h : Reads l d a false false) (h' : Block ls ds as) :
    Block (l :: ls) (d.toList ++ ds) (a.toList ++ as) := block_append (block_line h) h'

theorem block_state {l : List Char} {ls d ds as} (h : Reads l (some d) none true false) (h' : Block ls ds as) :
    Block ([l] ++ ls ++ [closing]) (d :: ds) as where
  line x hx := by
    simp only [List.mem_append, List.mem_singleton] at hx
    rcases hx with (rfl | hx) | rfl
    · exact h.line
    · exact h'.line x hx
    · exact reads_closing.line
  declares := by simp [List.filterMap_append, h.declares, h'.declares, reads_closing.declares]
  draws := by simp [List.filterMap_append, h.draws, h'.draws, reads_closing.draws]
  matched n rest := by
    rw [List.append_assoc, List.append_assoc, List.singleton_append, Matched, h.opens, if_pos rfl, h'.matched,
      List.singleton_append, Matched, reads_closing.opens, reads_closing.closes]
    simp

end Verif.Uml
