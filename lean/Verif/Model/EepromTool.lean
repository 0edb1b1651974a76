import Verif.Model.Backup

/-!
# The commands of `tools/eeprom.py`

`read` copies the settings of a board to a file, `write` copies a file to a board, `conv` converts a file.  Here are the
files, the choice made by their extension, the address in the flash and the calls to `esptool.py`; the contents are in
`Model/Backup.lean`.

Simplified: a file is its name and its bytes, and opening it does not fail except when a file to read does not exist;
`esptool.py` either does what it is asked or nothing; PyYAML is a parameter.  `click.File("wb")` opens the file at its first
use only (`LazyFile`), which is why `output.close()` (eeprom.py:237) neither creates nor empties it.
-/

namespace Wifinfo
open Spec

/-- The files of the computer and the flash of the board that is connected to it. -/
structure Bench where
  files : Str → Option Str
  flash : Nat → Byte

/-- What `esptool.py` does: its answer to `flash_id`, and whether the other command succeeds. -/
structure Esptool where
  flashId : Str
  works : Bool

/-- PyYAML: the text of a dictionary, the value of a text. -/
structure Yaml where
  dump : List (String × PyVal) → Str
  load : Str → Option JVal

/-- How a command ends. -/
inductive ToolEnd
  /-- after a message of the tool -/
  | refused
  /-- by an exception, or by `click` -/
  | failed
  /-- `Configuration sauvée` -/
  | saved
  /-- the last command of `write` was run -/
  | written
  deriving DecidableEq

/-! ## The address: `get_eeprom_base` eeprom.py:22-45 -/

/-- `\w` of an expression on bytes -/
def isWord (b : Byte) : Bool :=
  (48 ≤ b.toNat && b.toNat ≤ 57) || (65 ≤ b.toNat && b.toNat ≤ 90) || b.toNat == 95 || (97 ≤ b.toNat && b.toNat ≤ 122)

/-- `Detected flash size: (\w+)(?=\n)` at the beginning of a text eeprom.py:27 -/
def sizeHere (s : Str) : Option Str :=
  if (bs "Detected flash size: ").isPrefixOf s then
    let t := s.drop (bs "Detected flash size: ").length
    let w := t.takeWhile isWord
    if w ≠ [] ∧ (t.drop w.length).head? = some 10 then some w else none
  else none

/-- `re.search` eeprom.py:27 -/
def findSize : Str → Option Str
  | [] => none
  | b :: r => match sizeHere (b :: r) with
    | some w => some w
    | none => findSize r

/-- `get_eeprom_base` eeprom.py:22-45 -/
def eepromBase (out : Str) : Option Nat :=
  match findSize out with
  | none => none
  | some m =>
    if m = bs "4MB" then some (0x405FB000 - 0x40200000)
    else if m = bs "1MB" then some (0x402FB000 - 0x40200000)
    else none

/-! ## `esptool.py` -/

/-- `esptool.py read_flash` eeprom.py:245-254 -/
def readFlash (flash : Nat → Byte) (base n : Nat) : Str := (List.range n).map fun i => flash (base + i)

/-- `esptool.py write_flash` eeprom.py:208-215: whole sectors of 4096 bytes are erased. -/
def writeFlash (flash : Nat → Byte) (base : Nat) (image : Str) : Nat → Byte := fun a =>
  if base ≤ a ∧ a < base + image.length then image.getD (a - base) 0
  else if base ≤ a ∧ a < base + (image.length + 4095) / 4096 * 4096 then 0xFF
  else flash a

/-! ## Names of files -/

/-- `pathlib.Path(name).suffix` -/
def fileSuffix (name : Str) : Str :=
  let r := name.reverse.takeWhile (· != 47)
  let e := r.takeWhile (· != 46)
  if e ≠ [] ∧ e.length + 1 < r.length then 46 :: e.reverse else []

/-- `str.lower()`, for the letters of ASCII -/
def pyLower (s : Str) : Str := s.map fun b => if 65 ≤ b.toNat ∧ b.toNat ≤ 90 then UInt8.ofNat (b.toNat + 32) else b

/-- A file is written. -/
def Bench.put (w : Bench) (name content : Str) : Bench :=
  { w with files := fun n => if n = name then some content else w.files n }

/-! ## The formats -/

/-- `read_eeprom` eeprom.py:119-168: the dictionary; `none`: an exception. -/
def configOf (image : Str) : Option (List (String × PyVal)) := do
  let (l, crc) ← readEeprom image
  let l ← decodeAll l
  pure (l ++ [("crc", .str ((bs "0x" ++ lowHex4 crc).map UInt8.toNat))])

/-- `write_eeprom` eeprom.py:48-116 of what was loaded; `none`: an exception. -/
def imageOf (v : Option JVal) : Option Str :=
  match v with
  | some (.obj l) =>
    if textNames.all (fun n => (textGet l n).isSome) && numNames.all (fun n => (numGet l n).isSome) then
      writeEeprom { text := fun n => (textGet l n).getD [], num := fun n => (numGet l n).getD 0 }
    else none
  | _ => none

/-! ## The commands -/

/-- `eeprom.py read -o name` eeprom.py:231-268 -/
def toolRead (y : Yaml) (t : Esptool) (name : Str) (w : Bench) : Bench × ToolEnd :=
  match eepromBase t.flashId with
  | none => (w, .refused)
  | some base =>
    let suffix := fileSuffix name
    let isYaml := suffix = bs ".yaml" ∨ suffix = bs ".yml"
    if isYaml ∨ suffix = bs ".json" then
      -- the temporary file is empty if esptool.py does nothing
      let eeprom := if t.works then readFlash w.flash base 0x400 else []
      -- open(output.name, "w") is evaluated before read_eeprom
      match configOf eeprom with
      | none => (w.put name [], .failed)
      | some l => (w.put name (if isYaml then y.dump l else jsonDump l), .saved)
    else
      (if t.works then w.put name (readFlash w.flash base 0x400) else w, .saved)

/-- `eeprom.py write -i name` eeprom.py:180-219; `agreed`: `-f` or the answer to the question. -/
def toolWrite (y : Yaml) (t : Esptool) (name : Str) (agreed : Bool) (w : Bench) : Bench × ToolEnd :=
  match w.files name with
  | none => (w, .failed)
  | some content =>
    let suffix := pyLower (fileSuffix name)
    let image : Except ToolEnd Str :=
      if suffix = bs ".bin" then
        match configOf content with
        | none => .error .failed
        | some _ => .ok content
      else if suffix = bs ".json" then
        match imageOf (parseJson content) with
        | none => .error .failed
        | some image => .ok image
      else if suffix = bs ".yaml" ∨ suffix = bs ".yml" then
        match imageOf (y.load content) with
        | none => .error .failed
        | some image => .ok image
      else .error .refused
    match image with
    | .error e => (w, e)
    | .ok image =>
      match eepromBase t.flashId with
      | none => (w, .refused)
      | some base =>
        if agreed then
          (if t.works then { w with flash := writeFlash w.flash base image } else w, .written)
        else (w, .failed)

/-- Formats of `conv` eeprom.py:278-280 -/
inductive ConvFormat
  | yaml
  | json
  | bin

/-- `eeprom.py conv -i name -f format` eeprom.py:281-309: what is printed; `none`: the command fails. -/
def toolConv (y : Yaml) (name content : Str) (f : ConvFormat) : Option Str := do
  let suffix := fileSuffix name
  let eeprom ←
    if suffix = bs ".json" then imageOf (parseJson content)
    else if suffix = bs ".yaml" ∨ suffix = bs ".yml" then imageOf (y.load content)
    else if (content.take 1024).length ≠ 1024 then none
    else some (content.take 1024)
  match f with
  | .json => (configOf eeprom).map fun l => jsonDump l ++ [10]
  | .yaml => (configOf eeprom).map fun l => y.dump l ++ [10]
  | .bin => some eeprom

end Wifinfo
