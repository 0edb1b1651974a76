import Verif.Spec.Settings

/-!
# Model of `mkerfs32.py`

The builder of file system images.  A source file is its relative path, its content and its
modification time; `rglob` gives each path once.  How
the list comes from the folder (mkerfs32.py:104-115) is in `Folder.lean`.  Sizes of files do not change while the program runs.
The parsing of the size argument is in `Flashing.lean`; the prints are left out.
-/

namespace Wifinfo
open Spec

/-- A file of the source directory. -/
structure Src where
  name : Str
  data : Str
  mtime : Int
deriving DecidableEq, Repr

/-- `align32` mkerfs32.py:81-85 -/
def pyAlign (i : Nat) : Nat := if i &&& 3 = 0 then i else (i ||| 3) + 1

/-- What `create` can do. -/
inductive Built
  /-- `FS too small`, exit 2 -/
  | tooSmall (missing : Nat)
  /-- an exception of `struct.pack` -/
  | raised
  /-- the announced occupied size, the number of bytes written before `truncate`, the image -/
  | image (occupied written : Nat) (img : Str)
deriving DecidableEq, Repr

/-- `total_size` mkerfs32.py:102-118 -/
def totalSize (files : List Src) : Nat :=
  pyAlign (files.foldl (fun t f => t + (2 + 16 + pyAlign (f.name.length + 1) + pyAlign f.data.length)) 8)

/-- The hash of a name mkerfs32.py:136-140, a Python integer. -/
def pyHash (name : Str) : Nat := name.foldl (fun h c => (h + c.toNat) * 2) 0

/-- The hash table mkerfs32.py:134-140 -/
def pyHashes : List Src → Option Str
  | [] => some []
  | f :: r => do
    let a ← pack [(.H, .int (pyHash f.name &&& 0xFFFF))]
    let b ← pyHashes r
    some (a ++ b)

/-- The records mkerfs32.py:155-159 (a negative time is refused by `struct.pack`) -/
def pyFat : List Src → Nat → Nat → Option Str
  | [], _, _ => some []
  | f :: r, namesPtr, dataPtr => do
    let a ← (if f.mtime < 0 then none else
      pack [(.I, .int namesPtr), (.I, .int dataPtr), (.I, .int f.data.length), (.I, .int f.mtime.toNat)])
    let b ← pyFat r (namesPtr + pyAlign (f.name.length + 1)) (dataPtr + pyAlign f.data.length)
    some (a ++ b)

/-- `b"\0" * n` -/
def zeros (n : Nat) : Str := List.replicate n 0

/-- The names mkerfs32.py:161-166 -/
def pyNames (files : List Src) : Str :=
  files.flatMap fun f => f.name ++ zeros (pyAlign (f.name.length + 1) - f.name.length)

/-- The contents mkerfs32.py:168-172 -/
def pyDatas (files : List Src) : Str :=
  files.flatMap fun f => f.data ++ zeros (pyAlign f.data.length - f.data.length)

/-- The bytes written mkerfs32.py:130-172 -/
def pyWrite (files : List Src) : Option Str := do
  let n ← pack [(.H, .int files.length)]
  let hashes ← pyHashes files
  let pad ← (if files.length &&& 1 ≠ 0 then pack [(.H, .int 0)] else some [])
  let namesPtr := 8 + pyAlign (2 * files.length) + 16 * files.length
  let namesLen := (files.map fun f => pyAlign (f.name.length + 1)).sum
  let fat ← pyFat files namesPtr (namesPtr + namesLen)
  some (bs "ERFS" ++ [3, 2] ++ n ++ hashes ++ pad ++ fat ++ pyNames files ++ pyDatas files)

/-- `fs.truncate(size)`: cuts, or extends with zeros. -/
def truncate (b : Str) (size : Nat) : Str := b.take size ++ zeros (size - b.length)

/-- `create` mkerfs32.py:88-180 -/
def create (files : List Src) (size : Nat) : Built :=
  let total := totalSize files
  if total > size then .tooSmall (total - size)
  else
    match pyWrite files with
    | none => .raised
    | some b => .image total b.length (truncate b size)

/-! ## Extraction -/

/-- `f"{i}"` of a byte below 32. -/
def dec8 (b : Byte) : Str := if b < 10 then [48 + b] else [48 + b / 10, 48 + b % 10]

/-- One character of `get_string` mkerfs32.py:71-77, as the bytes (UTF-8) that it gives in a file name. -/
def pyChr (b : Byte) : Str :=
  if b < 32 then bs "<" ++ dec8 b ++ bs ">"
  else if b < 128 then [b]
  else [(0xC0 : Byte) ||| (b >>> 6), (0x80 : Byte) ||| (b &&& 0x3F)]

/-- `get_string` mkerfs32.py:64-78 of a name that is not empty. -/
def getString (fs : Str) (ptr : Nat) : Str := ((fs.drop ptr).takeWhile (· ≠ 0)).flatMap pyChr

/-- The records mkerfs32.py:203-206 -/
def pyRecords (fs : Str) : Nat → Nat → Option (List (Nat × Nat × Nat))
  | 0, _ => some []
  | n + 1, offset => do
    match ← unpackFrom [.I, .I, .I, .I] ((fs.drop offset).take 16) with
    | [.int a, .int b, .int c, .int _] =>
      let r ← pyRecords fs n (offset + 16)
      some ((a, b, c) :: r)
    | _ => none

/-- The loop mkerfs32.py:215-242 for an extraction to a directory, without pattern: the names and contents of
the files written.  It stops at an entry without name; `none`: an exception (an address after the end). -/
def pyFiles (fs : Str) : List (Nat × Nat × Nat) → Option (List (Str × Str))
  | [] => some []
  | (s, d, n) :: r => do
    let b ← fs[s]?
    if b = 0 then some []
    else do
      let l ← pyFiles fs r
      some ((getString fs s, (fs.drop d).take n) :: l)

/-- `list_content` mkerfs32.py:183-256 with `--extract`.  The dates given to the files are not modelled. -/
def extract (fs : Str) : Option (List (Str × Str)) := do
  match ← unpackFrom [.s 4, .B, .B, .H] (fs.take 8) with
  | [.bytes sig, .int _, .int _, .int n] =>
    if sig ≠ bs "ERFS" then none
    else do
      let r ← pyRecords fs n (pyAlign (8 + 2 * n))
      pyFiles fs r
  | _ => none

end Wifinfo
