import Verif.Model.Files

/-!
# The Python interface

Model of `api/python/openemsh.py`. `fdtd.Write2XML` and `fdtd.ReadFromXML` are those of openEMS: the first writes the whole text of
the structure or raises, the second reads the file. An exception is `none`, beside the disk as it is left.
-/

namespace Verif.Files

variable {β : Type}

/-- What the arguments given to `run_openemsh` ask for, without `-G` (`api/python/openemsh.py:6, 13`): the options `-o`, `--force` and
`--output-format` of `src/ui/cli/cli.cpp:133-142`. -/
structure Args where
  output : String
  force : Bool
  format : Format

/-- The parameters of the program started with `-i csx_file` and the arguments (`api/python/openemsh.py:13`,
`src/ui/cli/cli.cpp:129-142, 215-218`). -/
def Args.params (a : Args) (csxFile : String) : Params := finalCallback ⟨csxFile, a.output, a.force, a.format⟩

/-- `run_openemsh` (`api/python/openemsh.py:6-14`): `xml` is the text of the structure, `written` tells whether openEMS could write it.
`check=True` raises when the exit status is not zero. The result is the text that the structure is read back from. -/
def runOpenemsh (e : Env β) (xml : String) (written : Bool) (csxFile : String) (a : Args) (d : Disk) : Option String × Disk :=
  if written then
    let d : Disk := fun q => if q = csxFile then some xml else d q
    match main e (a.params csxFile) d with
    | (true, d) => (d csxFile, d)
    | (false, d) => (none, d)
  else (none, d)

/-- What a path is for `os` and `shutil` (`api/python/openemsh.py:47-51`). -/
inductive Entry where
  | absent
  | file
  | dir (names : List String)
  deriving DecidableEq, Repr

/-- `os.path.exists` (`api/python/openemsh.py:47, 50`). -/
def Entry.exists : Entry → Bool
  | .absent => false
  | _ => true

/-- `shutil.rmtree` with `ignore_errors` (`api/python/openemsh.py:48`): a file is left, of a directory there is left what could not be
removed; `left` is that, none if all could be removed. -/
def Entry.rmtree (left : Option (List String)) : Entry → Entry
  | .dir _ => match left with
    | none => .absent
    | some names => .dir names
  | x => x

/-- `os.mkdir` (`api/python/openemsh.py:49, 51`): raises when there is something already, or when it is not `possible`. -/
def Entry.mkdir (possible : Bool) : Entry → Option Entry
  | .absent => if possible then some (.dir []) else none
  | _ => none

/-- `ensure_sim_path` (`api/python/openemsh.py:39-51`). -/
def ensureSimPath (cleanup : Bool) (left : Option (List String)) (possible : Bool) (p : Entry) : Option Entry :=
  let next (p : Entry) : Option Entry := if !p.exists then p.mkdir possible else some p
  if cleanup && p.exists then ((p.rmtree left).mkdir possible).bind next else next p

end Verif.Files
