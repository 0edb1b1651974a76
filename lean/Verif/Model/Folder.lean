import Verif.Model.Prep
import Verif.Model.Mkerfs

/-!
# The files that `mkerfs32.py` takes from the data folder
-/

namespace Wifinfo

/-- `as_posix()` of a relative path. -/
def posix : FsPath → Str
  | [] => []
  | [n] => n
  | n :: r => n ++ 47 :: posix r

/-- The loop mkerfs32.py:104-115: the files of a folder, in the order of `rglob("*")`. -/
def imageFiles : Tree → List Src
  | [] => []
  | (_, .dir) :: t => imageFiles t
  | (p, .file c m) :: t =>
    if p.getLastD [] = bs ".DS_Store" ∨ p.getLastD [] = bs ".git" then imageFiles t
    else ⟨posix p, c, m⟩ :: imageFiles t

end Wifinfo
