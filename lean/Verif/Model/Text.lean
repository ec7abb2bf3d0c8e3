import Verif.Model.Interval
import Mathlib.Data.Rat.Floor

/-!
# Model of how numbers and lists of lines are written and read

`SerializerToCsx::visit` (`src/infra/serializers/serializer_to_csx.cpp`) and `str_to_double`, `parse_grid`
(`src/infra/parsers/parser_from_csx.cpp`). Texts are lists of characters. The functions of the standard library and of
pugixml used there are modelled from their documentation.
-/

namespace Verif.Csx

/-- A finite `double` as far as text is concerned: a sign and a magnitude, since zero has a sign. The magnitude is exact
(`to_string(double)`, `src/infra/serializers/serializer_to_csx.cpp:99`). -/
structure Signed where
  neg : Bool
  mag : ℚ
deriving DecidableEq, Repr

/-- The number printed at `src/infra/serializers/serializer_to_csx.cpp:99`. -/
def Signed.value (s : Signed) : ℚ := if s.neg then -s.mag else s.mag

/-- The digit character (`to_string`, `src/infra/serializers/serializer_to_csx.cpp:99`). -/
def digitChar (d : Nat) : Char := Char.ofNat (48 + d)

/-- Decimal digits of a number (`to_string`, `src/infra/serializers/serializer_to_csx.cpp:99`). -/
def decimal (n : Nat) : List Char :=
  if _h : n < 10 then [digitChar n] else decimal (n / 10) ++ [digitChar (n % 10)]
decreasing_by omega

/-- Six decimal digits, with leading zeros (`to_string`, `src/infra/serializers/serializer_to_csx.cpp:99`). -/
def sixDigits (n : Nat) : List Char :=
  [n / 100000, n / 10000 % 10, n / 1000 % 10, n / 100 % 10, n / 10 % 10, n % 10].map digitChar

/-- The nearest integer, the even one when there are two: the rounding of `printf`
(`to_string`, `src/infra/serializers/serializer_to_csx.cpp:99`). -/
def roundEven (x : ℚ) : Nat :=
  let n := ⌊x⌋₊
  if x - n < 1 / 2 then n else if 1 / 2 < x - n then n + 1 else if n % 2 = 0 then n else n + 1

/-- `std::to_string(double)` (`src/infra/serializers/serializer_to_csx.cpp:99,102`): the format `%f`, six digits after the
dot. -/
def toString6 (s : Signed) : List Char :=
  let n := roundEven (s.mag * 1000000)
  (if s.neg then ['-'] else []) ++ decimal (n / 1000000) ++ ['.'] ++ sixDigits (n % 1000000)

/-- The text of the lines of an axis (`src/infra/serializers/serializer_to_csx.cpp:95-108`): each followed by a comma,
the last comma removed. -/
def writeLines (lines : List Signed) : List Char := (lines.flatMap fun s => toString6 s ++ [',']).dropLast

/-- The value of leading digits, how many there are, and the rest (`std::from_chars`,
`src/infra/parsers/parser_from_csx.cpp:57-64`). -/
def readDigits : List Char → Nat → Nat → Nat × Nat × List Char
  | [], acc, n => (acc, n, [])
  | c :: rest, acc, n => if c.isDigit then readDigits rest (acc * 10 + (c.toNat - 48)) (n + 1) else (acc, n, c :: rest)

/-- What `std::from_chars` finds (`src/infra/parsers/parser_from_csx.cpp:57-64`): a number, an infinity or a NaN, or nothing. -/
inductive Read
  | number (s : Signed)
  | special
  | invalid
deriving DecidableEq, Repr

/-- The power of ten after a number. Without digits after the letter, the letter is not part of the number
(`std::from_chars`, `src/infra/parsers/parser_from_csx.cpp:57-64`). -/
def readExponent : List Char → ℚ
  | c :: rest =>
    if c = 'e' ∨ c = 'E' then
      match rest with
      | '-' :: digits => match readDigits digits 0 0 with | (e, n, _) => if n = 0 then 1 else 1 / 10 ^ e
      | '+' :: digits => match readDigits digits 0 0 with | (e, _, _) => 10 ^ e
      | digits => match readDigits digits 0 0 with | (e, _, _) => 10 ^ e
    else 1
  | [] => 1

/-- What `std::from_chars` reads after the sign (`src/infra/parsers/parser_from_csx.cpp:57-64`). -/
def readUnsigned (neg : Bool) (s : List Char) : Read :=
  if (s.take 3).map Char.toLower = ['i', 'n', 'f'] ∨ (s.take 3).map Char.toLower = ['n', 'a', 'n'] then .special
  else
    let (ip, ni, rest) := readDigits s 0 0
    let (fp, nf, rest) := match rest with | '.' :: r => readDigits r 0 0 | r => (0, 0, r)
    if ni + nf = 0 then .invalid
    else .number ⟨neg, ((ip : ℚ) + fp / 10 ^ nf) * readExponent rest⟩

/-- `str_to_double` (`src/infra/parsers/parser_from_csx.cpp:57-64`): `std::from_chars` reads a leading minus sign, digits
with at most one dot, a power of ten, and leaves what follows. Numbers too large or small for a `double`, an error, are
left out. -/
def strToDouble (s : List Char) : Read :=
  if s.head? = some '-' then readUnsigned true s.tail else readUnsigned false s

/-- `views::split` at commas of a text that is not empty (`src/infra/parsers/parser_from_csx.cpp:141`, 169). -/
def splitAll : List Char → List (List Char)
  | [] => [[]]
  | c :: rest =>
    if c = ',' then [] :: splitAll rest
    else match splitAll rest with
      | part :: parts => (c :: part) :: parts
      | [] => [[c]]

/-- `views::split` (`src/infra/parsers/parser_from_csx.cpp:141,169`): an empty text has no part. -/
def split (s : List Char) : List (List Char) := if s = [] then [] else splitAll s

/-- Reading the parts in order (`src/infra/parsers/parser_from_csx.cpp:141-147,169-175`): stops at the first part that is
not a number. Infinities and NaN, accepted by the code, are not numbers here. -/
def readParts : List (List Char) → Option (List Signed)
  | [] => some []
  | part :: rest =>
    match strToDouble part with
    | .number s => (readParts rest).map (s :: ·)
    | _ => none

/-- The lines of an axis (`src/infra/parsers/parser_from_csx.cpp:141-147,169-175`). -/
def readLines (s : List Char) : Option (List Signed) := readParts (split s)

/-- `xml_attribute::as_uint` of pugixml: spaces, a sign, then digits up to another character; negative numbers give 0, too
large ones the largest number. Hexadecimal numbers are left out (`src/infra/parsers/parser_from_csx.cpp:70`, 131-155). -/
def asUint (s : List Char) : Nat :=
  match s.dropWhile (fun c => c = ' ' ∨ c = '\t' ∨ c = '\n' ∨ c = '\r') with
  | '-' :: _ => 0
  | '+' :: rest => min (readDigits rest 0 0).1 4294967295
  | rest => min (readDigits rest 0 0).1 4294967295

/-- What is read of the node of the structure for the grid: its attributes, if present, and the texts of the three nodes
of lines, empty if absent (`src/infra/parsers/parser_from_csx.cpp:153-184`). -/
structure GridNode where
  coordSystem : Option (List Char)
  deltaUnit : Option (List Char)
  x : List Char
  y : List Char
  z : List Char
deriving DecidableEq, Repr

/-- `delta_unit * line.value()` (`src/infra/parsers/parser_from_csx.cpp:144,172`). -/
def scale (unit : Nat) (s : Signed) : Signed := ⟨s.neg, unit * s.mag⟩

/-- `ParserFromCsx::Pimpl::parse_grid` (`src/infra/parsers/parser_from_csx.cpp:153-184`): `has_grid_already` and the fixed
lines added on each axis. -/
def parseGrid (keepOld : Bool) (node : GridNode) : Option (Bool × List Signed × List Signed × List Signed) :=
  if (node.coordSystem.map asUint).getD 0 = 0 then
    let unit := (node.deltaUnit.map asUint).getD 1
    let has := decide (node.x ≠ []) || decide (node.y ≠ []) || decide (node.z ≠ [])
    if keepOld then do
      let x ← readLines node.x
      let y ← readLines node.y
      let z ← readLines node.z
      some (has, x.map (scale unit), y.map (scale unit), z.map (scale unit))
    else some (has, [], [], [])
  else none

/-- The part of `SerializerToCsx::visit` about the grid (`src/infra/serializers/serializer_to_csx.cpp:92-115`): the lines
of the axes wanted replace those of the file, those of the other axes are removed, attributes are kept. `lines` has the
lines, then those of the policies, if wanted. -/
def writeGrid (node : GridNode) (withX withY withZ : Bool) (x y z : List Signed) : GridNode :=
  { node with
    x := if withX then writeLines x else [],
    y := if withY then writeLines y else [],
    z := if withZ then writeLines z else [] }

end Verif.Csx
