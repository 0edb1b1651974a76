import Verif.Model.Config
import Verif.Spec.Fs

/-!
# Model of `src/ERFS.cpp`

The read-only file system.  `uint32_t` and `uint16_t` values are natural numbers, reduced where the C++
operation can wrap.  The flash driver (`flash_hal_read`) copies what the flash holds and always succeeds
inside the partition; a read that would leave the partition is a fault.
-/

namespace Wifinfo

/-- `uint32_t` addition. -/
def add32 (a b : Nat) : Nat := (a + b) % 4294967296

/-- `align32` ERFS.cpp:70-81 -/
def align32 (n : Nat) : Nat := if n &&& 3 = 0 then n else (n ||| 3) + 1

/-- `ERFSImpl` ERFS.cpp:83-121: what the partition holds and `num_files_`. -/
structure Erfs where
  img : Str
  num : Nat

/-- `hal_read` ERFS.cpp:106-115: the bytes copied to the destination, `none` if it returns `false`
(the destination is left as it was). -/
def halRead (img : Str) (addr size : Nat) : Res (Option Str) :=
  if add32 addr size > img.length then .ok none
  else if addr + size ≤ img.length then .ok (some ((img.drop addr).take size))
  else .error .outOfBounds

/-- `hal_read` whose result is ignored: what becomes of the destination `old`. -/
def halInto {α : Type} (img : Str) (addr size : Nat) (old : α) (f : Str → Res α) : Res α :=
  match halRead img addr size with
  | .ok (some b) => f b
  | .ok none => .ok old
  | .error e => .error e

/-- Little-endian `uint16_t` at an offset. -/
def rd16 (x : Str) (o : Nat) : Nat := (x.getD o 0).toNat + 256 * (x.getD (o + 1) 0).toNat

/-- Little-endian `uint32_t` at an offset. -/
def rd32 (x : Str) (o : Nat) : Nat := rd16 x o + 65536 * rd16 x (o + 2)

/-- `begin` ERFS.cpp:238-256 on the object of ERFS.cpp:234 (`num_files_` is 0 before). -/
def Erfs.begin (img : Str) : Res (Bool × Erfs) := do
  match ← halRead img 0 8 with
  | none => pure (false, ⟨img, 0⟩)
  | some h =>
    if rd32 h 0 ≠ 0x53465245 ∨ h.getD 4 0 ≠ 3 ∨ h.getD 5 0 ≠ 2 then pure (false, ⟨img, 0⟩)
    else pure (true, ⟨img, rd16 h 6⟩)

/-- `FATRecord` ERFS.cpp:60-66 -/
structure Fat where
  namePtr : Nat
  dataPtr : Nat
  len : Nat
  time : Nat
deriving DecidableEq, Repr

/-- The record whose sixteen bytes have been read. -/
def Fat.ofBytes (b : Str) : Fat := ⟨rd32 b 0, rd32 b 4, rd32 b 8, rd32 b 12⟩

/-- Address of the records ERFS.cpp:202, 271, 358. -/
def Erfs.fatAddr (fs : Erfs) : Nat := 8 + align32 (2 * fs.num)

/-- A copy of `src` at the beginning of the array `dst`. -/
def copyTo (dst src : Str) : Res Str :=
  if src.length ≤ dst.length then .ok (src ++ dst.drop src.length) else .error .outOfBounds

/-- `info` ERFS.cpp:263-286: total and used bytes. -/
def Erfs.info (fs : Erfs) : Res (Nat × Nat) :=
  if fs.num > 0 then do
    match ← halInto fs.img (fs.fatAddr + 16 * (fs.num - 1)) 16 none (fun b => .ok (some (Fat.ofBytes b))) with
    | none => .error .uninit
    | some r => pure (fs.img.length, add32 r.dataPtr r.len)
  else pure (fs.img.length, 8)

/-! ## Files -/

/-- `strncmp(a, b, n) == 0` -/
def strncmpEq : Nat → Str → Str → Res Bool
  | 0, _, _ => .ok true
  | n + 1, x :: a, y :: b =>
    if x ≠ y then .ok false else if x = 0 then .ok true else strncmpEq n a b
  | _ + 1, _, _ => .error .outOfBounds

/-- The name hash ERFS.cpp:350-356 -/
def nameHash (path : Str) : Nat := path.foldl (fun h b => (h + b.toNat) % 65536 * 2 % 65536) 0

/-- The variables of the constructor of `ERFSFileImpl`: `hash_cache` and `record_` are not initialised
at first, `name_` is zero. -/
structure Scan where
  cache : Option Str
  fat : Option Fat
  name : Str

/-- The loop ERFS.cpp:360-381 with `k` turns left, `i` the index.  When a record matches, the record and
the name. -/
def Erfs.scan (fs : Erfs) (path : Str) : Nat → Nat → Scan → Res (Option (Fat × Str))
  | 0, _, _ => .ok none
  | k + 1, i, s => do
    let cache ← (if i % 8 = 0 then halInto fs.img (8 + i * 2) 16 s.cache (fun b => .ok (some b))
      else .ok s.cache : Res (Option Str))
    match cache with
    | none => .error .uninit
    | some c =>
      if nameHash path = rd16 c (2 * (i % 8)) then do
        match ← halInto fs.img (fs.fatAddr + 16 * i) 16 s.fat (fun b => .ok (some (Fat.ofBytes b))) with
        | none => .error .uninit
        | some r =>
          let name ← halInto fs.img r.namePtr 63 s.name (copyTo s.name)
          if ← strncmpEq 64 name (path ++ [0]) then pure (some (r, name))
          else fs.scan path k (i + 1) ⟨cache, some r, name⟩
      else fs.scan path k (i + 1) { s with cache := cache }

/-- An open `ERFSFileImpl` ERFS.cpp:151-155. -/
structure File where
  fs : Erfs
  fat : Fat
  name : Str
  pos : Nat

/-- The leading `/` is skipped ERFS.cpp:345-348 -/
def skipSlash : Str → Str
  | b :: r => if b = 47 then r else b :: r
  | [] => []

/-- `open` ERFS.cpp:318-334 for reading (`exists` ERFS.cpp:303-307 tells if it succeeds), with the
constructor ERFS.cpp:336-382. -/
def Erfs.open (fs : Erfs) (path : Str) : Res (Option File) := do
  match ← fs.scan (skipSlash path) fs.num 0 ⟨none, none, List.replicate 64 0⟩ with
  | some (r, n) => pure (some ⟨fs, r, n, 0⟩)
  | none => pure none

/-- `seek` ERFS.cpp:384-411; the modes are `SeekSet`, `SeekCur` and `SeekEnd`. -/
def File.seek (f : File) (pos : Nat) : Spec.Whence → Bool × File
  | .start => if pos < f.fat.len then (true, { f with pos := pos }) else (false, f)
  | .here => if add32 pos f.pos < f.fat.len then (true, { f with pos := add32 f.pos pos }) else (false, f)
  | .finish => if pos ≤ f.fat.len then (true, { f with pos := f.fat.len - pos }) else (false, f)

/-- The loop ERFS.cpp:441-455: `out` is what has been written to the caller's buffer so far, `buf32` the
static intermediate buffer (260 bytes). -/
def readLoop (img : Str) : Nat → Nat → Nat → Str → Str → Res (Str × Str)
  | 0, _, remain, buf32, out => if remain = 0 then .ok (buf32, out) else .error .diverge
  | k + 1, addr, remain, buf32, out =>
    if remain = 0 then .ok (buf32, out)
    else do
      let align := 4 - (align32 addr - addr)
      let chunk := if remain > 256 then 256 else remain
      let buf32 ← halInto img addr chunk buf32 fun b =>
        if align + b.length ≤ buf32.length then
          .ok (buf32.take align ++ b ++ buf32.drop (align + b.length))
        else .error .outOfBounds
      if align + chunk ≤ buf32.length then
        readLoop img k (add32 addr chunk) (remain - chunk) buf32 (out ++ (buf32.drop align).take chunk)
      else .error .outOfBounds

/-- `read` ERFS.cpp:413-460 into a buffer that holds `buf` and whose address is `a` modulo 4; `buf32` is
the static buffer.  Gives the file, the static buffer, the caller's buffer and the result. -/
def File.read (f : File) (buf32 : Str) (a : Nat) (buf : Str) (size : Nat) :
    Res (File × Str × Str × Nat) := do
  if size = 0 then pure (f, buf32, buf, 0)
  else do
    let size := if add32 f.pos size > f.fat.len then (f.fat.len + 4294967296 - f.pos) % 4294967296 else size
    let addr := add32 f.fat.dataPtr f.pos
    let (buf32, buf) ← (if addr % 4 = a % 4 then do
        let buf ← halInto f.fs.img addr size buf (copyTo buf)
        pure (buf32, buf)
      else do
        let (buf32, out) ← readLoop f.fs.img (size + 1) addr size buf32 []
        let buf ← copyTo buf out
        pure (buf32, buf) : Res (Str × Str))
    pure ({ f with pos := add32 f.pos size }, buf32, buf, size)

/-- A sequence of calls of `read` and `seek`: what each gives and `position()` ERFS.cpp:133 after it. -/
def File.run (f : File) (buf32 : Str) : List Spec.FileOp → Res (List (Spec.FileRes × Nat))
  | [] => .ok []
  | .read a buf size :: r => do
    let (f, buf32, buf, n) ← f.read buf32 a buf size
    let l ← f.run buf32 r
    pure ((.got buf n, f.pos) :: l)
  | .seek o w :: r => do
    let (b, f) := f.seek o.toNat w
    let l ← f.run buf32 r
    pure ((.sought b, f.pos) :: l)

/-! ## Directories -/

/-- `ERFSDirImpl` ERFS.cpp:158-230 -/
structure Dir where
  fs : Erfs
  index : Nat
  fat : Fat
  name : Str

/-- `openDir` ERFS.cpp:309-316 and the constructor ERFS.cpp:161-165 -/
def Erfs.openDir (fs : Erfs) (path : Str) : Option Dir :=
  if path ≠ bs "/" then none else some ⟨fs, 0, ⟨0, 0, 0, 0⟩, List.replicate 64 0⟩

/-- `next` ERFS.cpp:198-211 -/
def Dir.next (d : Dir) : Res (Bool × Dir) :=
  if d.index < d.fs.num then do
    let fat ← halInto d.fs.img (d.fs.fatAddr + 16 * d.index) 16 d.fat (fun b => .ok (Fat.ofBytes b))
    let name ← halInto d.fs.img fat.namePtr 63 d.name (copyTo d.name)
    pure (true, { d with index := d.index + 1, fat := fat, name := name })
  else pure (false, d)

/-- `rewind` ERFS.cpp:213-217 -/
def Dir.rewind (d : Dir) : Dir := { d with index := 0 }

/-- `fileName`, `fileSize`, `fileTime` ERFS.cpp:176-189: what they give, `("", 0, 0)` if there is no
current file. -/
def Dir.entry (d : Dir) : Str × Nat × Nat :=
  if d.index ≠ 0 ∧ d.index ≤ d.fs.num then (cstrOf d.name, d.fat.len, d.fat.time) else ([], 0, 0)

/-- The loop of `fs_get_json` and `fs_ls` filesystem.cpp:28-34, 55-59: what a listing gives.  `num_files_`
is at most 65535. -/
def Dir.list : Nat → Dir → Res (List (Str × Nat × Nat) × Dir)
  | 0, _ => .error .diverge
  | k + 1, d => do
    let (more, d) ← d.next
    if more then do
      let (l, d') ← Dir.list k d
      pure (d.entry :: l, d')
    else pure ([], d)

end Wifinfo
