import Verif.Model.Dialog

/-!
# What is expected of the dialogs
-/

namespace Verif.Dialog.Spec

/-- The number that digits make. -/
def digitsValue (ds : List Char) : Nat := ds.foldl (fun n c => 10 * n + (c.toNat - '0'.toNat)) 0

def AllDigits (ds : List Char) : Prop := ∀ c ∈ ds, c.isDigit = true

/-- The end of a number in decimal notation: nothing, or an exponent. -/
inductive Exponent : List Char → ℤ → Prop
  | absent : Exponent [] 0
  | plus {c : Char} {sign ds : List Char} : (c = 'e' ∨ c = 'E') → (sign = [] ∨ sign = ['+']) → AllDigits ds → ds ≠ [] →
      Exponent (c :: (sign ++ ds)) (digitsValue ds)
  | minus {c : Char} {ds : List Char} : (c = 'e' ∨ c = 'E') → AllDigits ds → ds ≠ [] →
      Exponent (c :: '-' :: ds) (-(digitsValue ds : ℤ))

/-- A number without sign in decimal notation: digits, maybe a dot with digits before it, after it or both, maybe an
exponent. -/
inductive Magnitude : List Char → ℚ → Prop
  | whole {ip ex : List Char} {e : ℤ} : AllDigits ip → ip ≠ [] → Exponent ex e →
      Magnitude (ip ++ ex) (digitsValue ip * 10 ^ e)
  | dotted {ip fp ex : List Char} {e : ℤ} : AllDigits ip → AllDigits fp → ip ++ fp ≠ [] → Exponent ex e →
      Magnitude (ip ++ '.' :: (fp ++ ex)) (digitsValue (ip ++ fp) * 10 ^ (e - fp.length))

/-- A number in decimal notation, maybe with spaces around it. -/
inductive Number : List Char → ℚ → Prop
  | positive {l r sign s : List Char} {x : ℚ} : (∀ c ∈ l ++ r, c.isWhitespace = true) → (sign = [] ∨ sign = ['+']) →
      Magnitude s x → Number (l ++ sign ++ s ++ r) x
  | negative {l r s : List Char} {x : ℚ} : (∀ c ∈ l ++ r, c.isWhitespace = true) → Magnitude s x →
      Number (l ++ '-' :: s ++ r) (-x)

/-- A natural number that a `size_t` holds, in decimal notation, maybe with a plus and with spaces around it. -/
def Natural (s : List Char) (n : Nat) : Prop :=
  ∃ l sign ds r, s = l ++ sign ++ ds ++ r ∧ (∀ c ∈ l ++ r, c.isWhitespace = true) ∧ (sign = [] ∨ sign = ['+']) ∧
    AllDigits ds ∧ ds ≠ [] ∧ n = digitsValue ds ∧ n < 2 ^ 64

/-- A number with at most six significant digits. -/
def SixDigits (x : ℚ) : Prop := ∃ k : Nat, k < 1000000 ∧ ∃ e : ℤ, |x| = k * 10 ^ e

/-- The same number up to half of the sixth significant digit. -/
def Near (x y : ℚ) : Prop := |y - x| ≤ |x| / 200000

end Verif.Dialog.Spec
