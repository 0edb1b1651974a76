import Verif.Model.EepromTool
import Verif.Model.Mkerfs

/-!
# The installation of a board with a serial cable: README.md:105-116, 150-157 and the size argument of `mkerfs32.py`

The README gives the commands that make the image of the file system and those that write the program and this image with
`esptool.py`.  The places of the partitions are those of the linker scripts of the two boards (`eagle.flash.1m192.ld`,
`eagle.flash.4m1m.ld`, platformio.ini:26-62), which are not in the repository: an assumption.
-/

namespace Wifinfo
open Spec

/-- `int(text)` for a text of digits; the other texts that Python accepts (blanks, a sign, `_`) are not modelled. -/
def pyInt (s : Str) : Option Nat := if s ≠ [] ∧ numeral s = true then some (decVal s) else none

/-- The size argument of `create` mkerfs32.py:93-98; `none` for an exception. -/
def pySize (s : Str) : Option Nat :=
  match s.getLast? with
  | none => none
  | some c =>
    if c = 107 ∨ c = 75 then (pyInt s.dropLast).map (· * 1024)
    else if c = 109 ∨ c = 77 then (pyInt s.dropLast).map (· * 1048576)
    else pyInt s

/-- The default value of the option `-s` mkerfs32.py:272 -/
def defaultSize : Str := bs "1m"

/-- The commands of the README for a board: the option `-s` of `mkerfs32.py` (README.md:152-156) and the address of
`write_flash` (README.md:107-116). -/
structure Recipe where
  size : Str
  address : Nat

/-- "version 1Mo flash" README.md:107-110, 152-153 -/
def recipe1 : Recipe := ⟨bs "192k", 0xcb000⟩

/-- "version 4Mo flash" README.md:113-116, 155-156 -/
def recipe4 : Recipe := ⟨bs "1000k", 0x300000⟩

end Wifinfo
