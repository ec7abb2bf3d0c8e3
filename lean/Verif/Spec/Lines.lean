import Verif.Spec.Dialog

/-!
# What is expected of the lists of lines in a file
-/

namespace Verif.Csx.Spec
open Verif.Dialog.Spec

/-- A number in decimal notation, maybe with a minus, and without spaces. -/
inductive LineNumber : List Char → ℚ → Prop
  | positive {s : List Char} {x : ℚ} : Magnitude s x → LineNumber s x
  | negative {s : List Char} {x : ℚ} : Magnitude s x → LineNumber ('-' :: s) (-x)

/-- Numbers in decimal notation with commas between. -/
inductive NumberList : List Char → List ℚ → Prop
  | empty : NumberList [] []
  | last {s : List Char} {x : ℚ} : LineNumber s x → NumberList s [x]
  | more {s t : List Char} {x : ℚ} {xs : List ℚ} : LineNumber s x → t ≠ [] → NumberList t xs →
      NumberList (s ++ ',' :: t) (x :: xs)

/-- Texts with commas between, each beginning by a number in decimal notation. -/
inductive LooseList : List Char → List ℚ → Prop
  | empty : LooseList [] []
  | last {s junk : List Char} {x : ℚ} : LineNumber s x → ',' ∉ junk → LooseList (s ++ junk) [x]
  | more {s junk t : List Char} {x : ℚ} {xs : List ℚ} : LineNumber s x → ',' ∉ junk → t ≠ [] → LooseList t xs →
      LooseList (s ++ junk ++ ',' :: t) (x :: xs)

end Verif.Csx.Spec
