import Verif.Model.Text
import Verif.Model.App
import Verif.Model.Diagonal
import Verif.Model.Document
import Mathlib.Data.Int.Log

/-!
# Model of the edition dialogs

`src/ui/qt/edit/edit_model.{hpp,cpp}` and the models derived from it. A row is modelled by the content of its column of
new values (`V`, `src/ui/qt/edit/edit_model.hpp:32`), the one read by `commit`. What `commit` emits is the step from which
to run again and the new state, or nothing. The functions of Qt are modelled from their documentation. Zero has no sign.
-/

namespace Verif.Dialog
open Verif.Csx (decimal digitChar readDigits)

/-! ## Numbers as texts -/

/-- The six digits of a positive number, as a natural number, and the exponent of the first one (`QString::number`, format
`g` with a precision of six, `src/ui/qt/edit/edit_model_global.cpp:29-42`). -/
def sixDigitsOf (x : ℚ) : Nat × ℤ :=
  let e := Int.log 10 x
  let m := ⌊x * 10 ^ (5 - e) + 1 / 2⌋₊
  if m = 1000000 then (100000, e + 1) else (m, e)

/-- Removes the zeros at the end of a number of so many digits (`QString::number`,
`src/ui/qt/edit/edit_model_global.cpp:29-42`). -/
def stripZeros : Nat → Nat → Nat × Nat
  | m, 0 => (m, 0)
  | m, n + 1 => if m % 10 = 0 then stripZeros (m / 10) n else (m, n + 1)

/-- So many digits, with leading zeros (`QString::number`, `src/ui/qt/edit/edit_model_global.cpp:29-42`). -/
def padded : Nat → Nat → List Char
  | 0, _ => []
  | p + 1, n => padded p (n / 10) ++ [digitChar (n % 10)]

/-- The number `m / 10 ^ p` (`QString::number`, `src/ui/qt/edit/edit_model_global.cpp:29-42`). -/
def withDot (m p : Nat) : List Char :=
  if p = 0 then decimal m else decimal (m / 10 ^ p) ++ '.' :: padded p (m % 10 ^ p)

/-- The exponent, of at least two digits (`QString::number`, `src/ui/qt/edit/edit_model_global.cpp:29-42`). -/
def exponentText (e : ℤ) : List Char :=
  'e' :: (if e < 0 then '-' else '+') :: ((if e.natAbs < 10 then ['0'] else []) ++ decimal e.natAbs)

/-- `QString::number` of a number that is not negative (`src/ui/qt/edit/edit_model_global.cpp:29-42`). -/
def magnitudeText (x : ℚ) : List Char :=
  if x = 0 then ['0']
  else
    let (digits, e) := sixDigitsOf x
    let (m, n) := stripZeros digits 6
    if -4 ≤ e ∧ e < 6 then
      if (n : ℤ) ≤ e + 1 then withDot (m * 10 ^ (e + 1 - n).toNat) 0 else withDot m (n - (e + 1)).toNat
    else withDot m (n - 1) ++ exponentText e

/-- `QString::number(double)` (`src/ui/qt/edit/edit_model_global.cpp:29-42`). -/
def number (x : ℚ) : List Char := (if x < 0 then ['-'] else []) ++ magnitudeText |x|

/-- Digits and nothing else (`QString::toDouble`, `toULong`, `src/ui/qt/edit/edit_model.cpp:27-42`). -/
def digitsOf (s : List Char) : Option Nat :=
  match readDigits s 0 0 with
  | (n, k, []) => if k = 0 then none else some n
  | _ => none

/-- The power of ten that ends a number (`QString::toDouble`, `src/ui/qt/edit/edit_model.cpp:27-33`). -/
def exponentOf : List Char → Option ℚ
  | [] => some 1
  | c :: rest =>
    if c = 'e' ∨ c = 'E' then
      match rest with
      | '-' :: digits => (digitsOf digits).map fun e => 1 / 10 ^ e
      | '+' :: digits => (digitsOf digits).map fun e => 10 ^ e
      | digits => (digitsOf digits).map fun e => 10 ^ e
    else none

/-- A number without sign (`QString::toDouble`, `src/ui/qt/edit/edit_model.cpp:27-33`). -/
def unsignedOf (s : List Char) : Option ℚ :=
  let (ip, ni, rest) := readDigits s 0 0
  let (fp, nf, rest) := match rest with | '.' :: r => readDigits r 0 0 | r => (0, 0, r)
  if ni + nf = 0 then none else (exponentOf rest).map fun k => ((ip : ℚ) + fp / 10 ^ nf) * k

/-- Spaces around a number are left out (`QString::toDouble`, `toULong`, `src/ui/qt/edit/edit_model.cpp:27-42`). -/
def trimmed (s : List Char) : List Char :=
  ((s.dropWhile Char.isWhitespace).reverse.dropWhile Char.isWhitespace).reverse

/-- `EditModel::try_to_double` (`src/ui/qt/edit/edit_model.cpp:27-33`), the number stored if any. Infinities, NaN and
numbers too large for a `double` are left out. -/
def toDouble (s : List Char) : Option ℚ :=
  match trimmed s with
  | '-' :: rest => (unsignedOf rest).map fun x => -x
  | '+' :: rest => unsignedOf rest
  | rest => unsignedOf rest

/-- `EditModel::try_to_ulong` (`src/ui/qt/edit/edit_model.cpp:36-42`), the number stored if any. -/
def toULong (s : List Char) : Option Nat :=
  (match trimmed s with
    | '+' :: rest => digitsOf rest
    | rest => digitsOf rest).filter fun n => n < 2 ^ 64

/-- `Qt::CheckState` (`src/ui/qt/edit/edit_model.cpp:45-60`). -/
inductive CheckState
  | unchecked | partially | checked
  deriving DecidableEq, Repr

/-- `EditModel::try_to_bool` (`src/ui/qt/edit/edit_model.cpp:45-60`), the value stored if any. -/
def toBool : CheckState → Option Bool
  | .checked => some true
  | .unchecked => some false
  | .partially => none

/-- `EditModel::set_content` of a boolean (`src/ui/qt/edit/edit_model.hpp:65-69`). -/
def ofBool (b : Bool) : CheckState := if b then .checked else .unchecked

/-! ## Global parameters -/

/-- The rows of `EditModelGlobal` (`src/ui/qt/edit/edit_model_global.cpp:22-43`). -/
structure GlobalRows where
  proximityLimit : List Char
  smoothness : List Char
  lmin : List Char
  dmax : List Char
  minimalAngle : List Char
  diagonalDmax : List Char
  diagonalLmin : List Char

/-- The constructor of `EditModelGlobal` (`src/ui/qt/edit/edit_model_global.cpp:22-43`). -/
def GlobalRows.shown (p : Csx.Params) : GlobalRows :=
  ⟨number p.proximityLimit, number p.smoothness, decimal p.lmin, number p.dmax, number p.minimalAngle,
    number p.diagonalDmax, decimal p.diagonalLmin⟩

/-- `EditModelGlobal::commit` (`src/ui/qt/edit/edit_model_global.cpp:46-64`): starts from default parameters, not from the
current ones. -/
def GlobalRows.commit (r : GlobalRows) : Option (Step × Csx.Params) :=
  (toDouble r.proximityLimit).bind fun proximityLimit =>
  (toDouble r.smoothness).bind fun smoothness =>
  (toULong r.lmin).bind fun lmin =>
  (toDouble r.dmax).bind fun dmax =>
  (toDouble r.minimalAngle).bind fun minimalAngle =>
  (toDouble r.diagonalDmax).bind fun diagonalDmax =>
  (toULong r.diagonalLmin).map fun diagonalLmin =>
    (.detectDiagZones, { proximityLimit, smoothness, lmin, dmax, minimalAngle, diagonalDmax, diagonalLmin })

/-! ## Intervals -/

/-- The rows of `EditModelInterval` (`src/ui/qt/edit/edit_model_interval.cpp:18-39`). -/
structure IntervalRows where
  dmax : List Char
  beforeLmin : List Char
  beforeSmoothness : List Char
  afterLmin : List Char
  afterSmoothness : List Char

/-- The constructor of `EditModelInterval` (`src/ui/qt/edit/edit_model_interval.cpp:18-39`): the new value offered for the
smoothness is 2, whatever it is. -/
def IntervalRows.shown (i : Mesh.Interval) : IntervalRows :=
  ⟨number i.dmax, decimal i.before.lmin, ['2'], decimal i.after.lmin, ['2']⟩

/-- `EditModelInterval::commit` (`src/ui/qt/edit/edit_model_interval.cpp:42-58`). -/
def IntervalRows.commit (r : IntervalRows) (i : Mesh.Interval) : Option (Step × Mesh.Interval) :=
  (toDouble r.dmax).bind fun dmax =>
  (toULong r.beforeLmin).bind fun beforeLmin =>
  (toDouble r.beforeSmoothness).bind fun beforeSmoothness =>
  (toULong r.afterLmin).bind fun afterLmin =>
  (toDouble r.afterSmoothness).map fun afterSmoothness =>
    (.mesh, { i with
      dmax := dmax
      before := { i.before with lmin := beforeLmin, smoothness := beforeSmoothness }
      after := { i.after with lmin := afterLmin, smoothness := afterSmoothness } })

/-! ## Meshline policies -/

/-- The rows of `EditModelMeshlinePolicy` (`src/ui/qt/edit/edit_model_meshline_policy.cpp:27-46`). -/
structure PolicyRows where
  kind : Mesh.Kind
  normal : Mesh.Facing
  enabled : CheckState
  d : List Char

/-- The constructor of `EditModelMeshlinePolicy` (`src/ui/qt/edit/edit_model_meshline_policy.cpp:27-46`). -/
def PolicyRows.shown (p : Mesh.Policy) : PolicyRows := ⟨p.kind, p.normal, ofBool p.enabled, number p.d⟩

/-- `are_policy_and_normal_compatible` (`src/ui/qt/edit/edit_model_meshline_policy.cpp:52-71`). -/
def compatible : Mesh.Kind → Mesh.Facing → Bool
  | .oneline, .none | .halfs, .none => true
  | .oneline, _ | .halfs, _ => false
  | .thirds, .none => false
  | .thirds, _ => true

/-- `EditModelMeshlinePolicy::commit` (`src/ui/qt/edit/edit_model_meshline_policy.cpp:49-87`). -/
def PolicyRows.commit (r : PolicyRows) (p : Mesh.Policy) : Option (Step × Mesh.Policy) :=
  if compatible r.kind r.normal then
    (toBool r.enabled).bind fun enabled =>
    (toDouble r.d).map fun d =>
      (.detectIntervals, { p with kind := r.kind, normal := r.normal, enabled := enabled, d := d })
  else none

/-! ## Diagonal zones -/

/-- The rows of `EditModelConflictDiagonalOrCircularZone`
(`src/ui/qt/edit/edit_model_conflict_diagonal_or_circular_zone.cpp:18-31`). -/
structure ZoneRows where
  lmin : List Char
  dmax : List Char
  minimalAngle : List Char

/-- The constructor of `EditModelConflictDiagonalOrCircularZone`
(`src/ui/qt/edit/edit_model_conflict_diagonal_or_circular_zone.cpp:18-31`). -/
def ZoneRows.shown (z : Board.Zone) : ZoneRows := ⟨decimal z.lmin, number z.dmax, number z.minimalAngle⟩

/-- `EditModelConflictDiagonalOrCircularZone::commit`
(`src/ui/qt/edit/edit_model_conflict_diagonal_or_circular_zone.cpp:34-50`). -/
def ZoneRows.commit (r : ZoneRows) (z : Board.Zone) : Option (Step × Board.Zone) :=
  (toULong r.lmin).bind fun lmin =>
  (toDouble r.dmax).bind fun dmax =>
  (toDouble r.minimalAngle).map fun minimalAngle =>
    (if minimalAngle ≠ z.minimalAngle then .solveDiagZonesAngles else .solveDiagZonesIntervals,
      { z with lmin := lmin, dmax := dmax, minimalAngle := minimalAngle })

/-! ## Edges and angles -/

/-- `EditModelEdge::commit` (`src/ui/qt/edit/edit_model_edge.cpp:30-43`), from the rows "To mesh" and "To reverse". -/
def commitEdge (toMesh toReverse : CheckState) (e : Board.BEdge) : Option (Step × Board.BEdge) :=
  (toBool toMesh).bind fun toMesh =>
  (toBool toReverse).map fun toReverse => (.detectConflictEip, { e with toMesh := toMesh, toReverse := toReverse })

/-- `EditModelAngle::commit` (`src/ui/qt/edit/edit_model_angle.cpp:30-43`), from the rows of the horizontal and of the
vertical axis: whether the angle is to mesh along each. -/
def commitAngle (h v : CheckState) : Option (Step × (Geom.ViewAxis → Bool)) :=
  (toBool h).bind fun h => (toBool v).map fun v => (.detectConflictEip, fun a => match a with | .h => h | .v => v)

/-- `EditModelConflictTooCloseMeshlinePolicies::commit`
(`src/ui/qt/edit/edit_model_conflict_too_close_meshline_policies.cpp:29-41`): whether the conflict is enabled. -/
def commitTooClose (enabled : CheckState) : Option (Step × Bool) :=
  (toBool enabled).map fun enabled => (.detectAndSolveTcmlp, enabled)

/-- `ConflictTooCloseMeshlinePoliciesState::is_enabled` when the conflict is made: the state is `State()`
(`src/utils/state_management.hpp:175-182`), which zeroes a member with no initializer
(`src/domain/conflicts/conflict_too_close_meshline_policies.hpp:18-20`). Solving sets other members only
(`src/domain/conflicts/conflict_too_close_meshline_policies.cpp:68-81`). -/
def tooCloseMade : Bool := false

/-- The row of the dialog of a conflict
(`src/ui/qt/edit/edit_model_conflict_too_close_meshline_policies.cpp:22-25`). -/
def tooCloseShown (enabled : Bool) : CheckState := ofBool enabled

end Verif.Dialog
