import Verif.Model.Decode
import Verif.Model.Build
import Verif.Model.Files

/-!
# The whole program, without its window

`main` (`src/main.cpp:20-90`) from the options of the command line and the document of the input file to the document of the
output file. A file holds a document that can be loaded; writing it succeeds (see `Verif.Model.Files` for
what happens otherwise). The other output formats are left out.
-/

namespace Verif.Board
open Verif.Geom
open Verif.Csx (Codec Node Signed Override Reading)
open Verif.Mesh (MeshParams)

/-- The parameters of the meshing (`src/domain/global.hpp:19-31`). -/
def meshParams (p : Csx.Params) : MeshParams := ⟨p.proximityLimit, p.smoothness, p.lmin, p.dmax⟩

/-- The parameters of the zones (`src/domain/global.hpp:19-31`). -/
def zoneParams (p : Csx.Params) : ZoneParams := ⟨p.lmin, p.diagonalLmin, p.diagonalDmax, p.minimalAngle⟩

/-- The options of the command line (`src/app/openemsh.hpp:28-45`, `src/ui/cli/cli.cpp:110-236`), with those of
`ParserFromCsx::Params` (`src/infra/parsers/parser_from_csx.hpp:27-33`) and `SerializerToCsx::Params`
(`src/infra/serializers/serializer_to_csx.hpp:21-28`). -/
structure Options where
  input : String
  output : String
  force : Bool := false
  flags : Csx.Flags := {}
  overrides : List Override := []
  withX : Bool := true
  withY : Bool := true
  withZ : Bool := true
  withParams : Bool := false
  withLines : Bool := true
  withPolicies : Bool := false

/-- Whether the value of an option is accepted (`src/ui/cli/cli.cpp:50-71`, `:155-201`): only that of the smoothness is checked. -/
def accepts : Override → Bool
  | .smoothness v => decide (1 < v ∧ v ≤ 2)
  | _ => true

/-- What is not decided by the source: the sorts, the directions of the points of a circle, the angles between edges, how
doubles are written and read, and the sign of zero (`src/main.cpp:20-90`). -/
structure World where
  sorters : Sorters
  sort : List (MaterialKind × Nat) → List (MaterialKind × Nat)
  dirs : List Point
  angle : Ang → ℚ
  codec : Codec
  signed : ℚ → Signed

/-- The overrides applied to what was read (`src/infra/parsers/parser_from_csx.cpp:636-644`). -/
def override (overrides : List Override) (r : Reading) : Reading :=
  let p := overrides.foldl Csx.Override.apply r.params
  { r with params := { p with fixed := [] }, added := r.added ++ p.fixed.map fun l => .line l.1 l.2 }

/-- The lines of the axes after `run_all_steps` (`src/app/openemsh.cpp:169-207`): the board is meshed once, and read for each
axis. -/
def meshReading (w : World) (r : Reading) : Outcome (Mesh.Axis × Mesh.Axis × Mesh.Axis) :=
  (Outcome.orUb (buildDesign w.angle r.background r.added)).bind fun D =>
  let run := runDesign w.sorters w.sort (meshParams r.params) (zoneParams r.params) D
  (run .x).bind fun x => (run .y).bind fun y => (run .z).map fun z => (x.2, y.2, z.2)

/-- The text of the lines of an axis (`src/infra/serializers/serializer_to_csx.cpp:95-108`). -/
def linesText (w : World) (o : Options) (a : Mesh.Axis) : List Char :=
  Csx.writeLines ((a.outputLines o.withLines o.withPolicies).map w.signed)

/-- What is written to the output (`src/infra/serializers/serializer_to_csx.cpp:76-131`). -/
def render (w : World) (o : Options) (p : Csx.Params) (x y z : Mesh.Axis) (doc : List Node) : List Node :=
  Csx.writeDocument w.codec
    { withX := o.withX, withY := o.withY, withZ := o.withZ, withParams := o.withParams
      x := linesText w o x, y := linesText w o y, z := linesText w o z } p doc

/-- The end of the reading of the command line (`src/ui/cli/cli.cpp:215-218`). -/
def finalOptions (o : Options) : Options := if o.output = "" then { o with output := o.input } else o

/-- `main` (`src/main.cpp:20-90`) without its window: whether the exit status is success, and the files afterwards. -/
def program (w : World) (options : Options) (files : String → Option (List Node)) :
    Outcome (Bool × (String → Option (List Node))) :=
  let o := finalOptions options
  match files o.input with
  | none => .ok (false, files)
  | some doc =>
    (Outcome.orUb (Csx.readDocument w.codec o.flags w.dirs doc)).bind fun
    | none => .ok (false, files)
    | some reading =>
      let r := override o.overrides reading
      if !o.force && ((files o.output).isSome || (o.input == o.output && r.params.hasGridAlready)) then .ok (false, files)
      else (meshReading w r).map fun m =>
        (true, fun path => if path = o.output then some (render w o r.params m.1 m.2.1 m.2.2 doc) else files path)

end Verif.Board
