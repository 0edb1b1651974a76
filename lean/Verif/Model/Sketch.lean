import Verif.Model.Prep
import Verif.Model.EepromTool

/-!
# The folder or the archive for the Arduino IDE: `cmd_arduino_ide` tools/mkarduinosrc.py:79-134

A folder is a `Tree` (`Prep.lean`), in the order of `rglob("*")`.  The single file of `--one` is an argument (`Amalg.lean` makes it).
The archive is the list of its members; `zipfile` is assumed to write it when the program ends (the code never calls `close`).  Not
modelled: a copy to a name that is a folder (`none`), the compression and the dates of the members, the messages.
-/

namespace Wifinfo

/-- `src.glob("*")` with `is_file()` mkarduinosrc.py:119-123: the destination and the content -/
def sketchSources : Tree → List (FsPath × Str × Nat)
  | [] => []
  | ([n], .file c m) :: t => ([bs "wifinfo", n], c, m) :: sketchSources t
  | _ :: t => sketchSources t

/-- `data.rglob("*")` with `is_file()` mkarduinosrc.py:126-130 -/
def sketchData : Tree → List (FsPath × Str × Nat)
  | [] => []
  | (p, .file c m) :: t => (bs "wifinfo" :: bs "data" :: p, c, m) :: sketchData t
  | (_, .dir) :: t => sketchData t

/-- The calls of `op` mkarduinosrc.py:105-130, in order; `one` is the text and the date of the temporary file of `--one`. -/
def sketchOps (one : Option (Str × Nat)) (src data : Tree) : List (FsPath × Str × Nat) :=
  (match one with
   | some (text, m) => [([bs "wifinfo", bs "wifinfo.ino"], text, m)]
   | none => sketchSources src) ++ sketchData data

/-- `cp` mkarduinosrc.py:93-96; `none`: an exception. -/
def sketchCp (t : Tree) (x : FsPath × Str × Nat) : Option Tree := do
  let t ← t.mkdirs [] x.1.dropLast
  t.write x.1 x.2.1 x.2.2

/-- `--copy`: the target folder afterwards -/
def sketchCopy (one : Option (Str × Nat)) (src data target : Tree) : Option Tree := (sketchOps one src data).foldlM sketchCp target

/-- The name of the archive mkarduinosrc.py:100-101 -/
def archiveName (target : Str) : Str := if fileSuffix target = [] then target ++ bs ".zip" else target

/-- Without `--copy`: the names and the contents of the members of the archive -/
def sketchZip (one : Option (Str × Nat)) (src data : Tree) : List (FsPath × Str) :=
  (sketchOps one src data).map fun x => (x.1, x.2.1)

end Wifinfo
