import Verif.Model.Port
import Verif.Spec.Number

/-!
# The version: `get_version` of prep_data_folder.py

git is an assumption: `git describe --long --always --tags --all` prints the nearest name of `refs/` without `refs/`, the number of commits
since, and the abbreviated commit; or the abbreviated commit alone if no name leads to it (gitdocs, git-describe).
-/

namespace Wifinfo
open Spec

/-- What git prints for a commit -/
inductive Described
  /-- `kind` is `heads`, `tags`, `remotes`... -/
  | named (kind name : Str) (ahead : Nat) (commit : Str)
  | alone (commit : Str)

def Described.text : Described → Str
  | .named kind name ahead commit => kind ++ bs "/" ++ name ++ bs "-" ++ decText ahead ++ bs "-g" ++ commit ++ bs "\n"
  | .alone commit => commit ++ bs "\n"

/-- `str.index` and the slice after it prep_data_folder.py:45; `none` is the exception `ValueError` -/
def fromSlash : Str → Option Str
  | [] => none
  | c :: s => if c = 47 then some s else fromSlash s

/-- `get_version` prep_data_folder.py:37-50; `git` is what git prints, if there is a folder `.git`, `var` the variable of the environment.
The names are UTF-8 (`decode`). -/
def getVersion (git var : Option Str) : Option Str :=
  match git with
  | some out => fromSlash (pyStrip out) -- lines 42-45
  | none => some (var.getD (bs "develop")) -- line 47

end Wifinfo
