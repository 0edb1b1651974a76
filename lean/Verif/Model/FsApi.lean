import Verif.Model.Erfs
import Verif.Spec.Folder

/-!
# The file system ERFS as a program uses it, ERFS.cpp:81-230, 258-334

Each call is a method of `ERFSImpl`, `ERFSFileImpl` or `ERFSDirImpl`.  The wrapper classes `FS`, `File` and `Dir` of the core are not
modelled, nor `flush` and `close`, which do nothing (ERFS.cpp:131, 136), nor `info64`, which copies `info` (ERFS.cpp:288-301).
-/

namespace Wifinfo
open Spec

/-- The object `ERFS`, the static buffer of `read` ERFS.cpp:439, and what has been opened -/
structure Fsys where
  fs : Erfs
  buf32 : Str
  files : List File
  dirs : List Dir

/-- `strrchr(s, '/')`: what follows the last slash, if there is one -/
def afterSlash : Str → Option Str
  | [] => none
  | b :: r =>
    match afterSlash r with
    | some x => some x
    | none => if b = 47 then some r else none

/-- `name` ERFS.cpp:137-141 -/
def File.shortName (f : File) : Str :=
  match afterSlash (cstrOf f.name) with
  | some x => x
  | none => cstrOf f.name

/-- `open` ERFS.cpp:318-334 -/
def Fsys.open (s : Fsys) (path : Str) (m : OpenMode) : Res (Fsys × FsAnswer) := do
  if m.flags ≠ 0 ∨ m.access ≠ 1 then pure (s, .opened none)
  else
    match ← s.fs.open path with
    | some f => pure ({ s with files := s.files ++ [f] }, .opened (some s.files.length))
    | none => pure (s, .opened none)

/-- A listing points to the file system, which may have been unmounted since ERFS.cpp:226 -/
def Fsys.dir (s : Fsys) (d : Nat) : Option Dir := (s.dirs[d]?).map fun x => { x with fs := s.fs }

/-- `is_valid` ERFS.cpp:220-223 -/
def Dir.valid (d : Dir) : Bool := d.index ≠ 0 ∧ d.index ≤ d.fs.num

/-- A call -/
def Fsys.step (s : Fsys) : FsCall → Res (Fsys × FsAnswer)
  | .mount => do
    let (ok, fs) ← Erfs.begin s.fs.img
    pure ({ s with fs := if ok then fs else s.fs }, .yes ok)
  | .unmount => pure ({ s with fs := { s.fs with num := 0 } }, .yes true)
  | .info => do
    let (total, used) ← s.fs.info
    pure (s, .sizes total used)
  | .there path => do
    let f ← s.fs.open path
    pure (s, .yes f.isSome)
  | .openFile path m => s.open path m
  | .openDir path =>
    match s.fs.openDir path with
    | some d => pure ({ s with dirs := s.dirs ++ [d] }, .opened (some s.dirs.length))
    | none => pure (s, .opened none)
  | .next d =>
    match s.dir d with
    | none => pure (s, .noSuch)
    | some x => do
      let (more, x) ← x.next
      pure ({ s with dirs := s.dirs.set d x }, .yes more)
  | .entry d =>
    match s.dir d with
    | none => pure (s, .noSuch)
    | some x => pure (s, .entry x.entry.1 x.entry.2.1 x.entry.2.2)
  | .rewind d =>
    match s.dir d with
    | none => pure (s, .noSuch)
    | some x => pure ({ s with dirs := s.dirs.set d x.rewind }, .yes true)
  | .openEntry d m =>
    match s.dir d with
    | none => pure (s, .noSuch)
    | some x => if x.valid then s.open (cstrOf x.name) m else pure (s, .opened none)
  | .use h op =>
    match s.files[h]? with
    | none => pure (s, .noSuch)
    | some f =>
      match op with
      | .read a buf size => do
        let (f, buf32, buf, n) ← f.read s.buf32 a buf size
        pure ({ s with files := s.files.set h f, buf32 := buf32 }, .file (.got buf n))
      | .seek o w =>
        let (b, f) := f.seek o.toNat w
        pure ({ s with files := s.files.set h f }, .file (.sought b))
  | .position h => pure (s, match s.files[h]? with | some f => .number f.pos | none => .noSuch)
  | .size h => pure (s, match s.files[h]? with | some f => .number f.fat.len | none => .noSuch)
  | .shortName h => pure (s, match s.files[h]? with | some f => .text f.shortName | none => .noSuch)
  | .fullName h => pure (s, match s.files[h]? with | some f => .text (cstrOf f.name) | none => .noSuch)
  | .lastWrite h => pure (s, match s.files[h]? with | some f => .number f.fat.time | none => .noSuch)
  | .write h _ => pure (s, match s.files[h]? with | some _ => .number 0 | none => .noSuch)
  | .truncate h _ => pure (s, match s.files[h]? with | some _ => .yes false | none => .noSuch)
  | .remove _ => pure (s, .yes false)
  | .rename _ _ => pure (s, .yes false)
  | .mkdir _ => pure (s, .yes false)
  | .rmdir _ => pure (s, .yes false)
  | .format => pure (s, .yes false)

/-- A sequence of calls: the answers -/
def Fsys.run (s : Fsys) : List FsCall → Res (List FsAnswer × Fsys)
  | [] => pure ([], s)
  | c :: r => do
    let (s, a) ← s.step c
    let (l, s) ← s.run r
    pure (a :: l, s)

/-- The object after the start ERFS.cpp:234, on a partition -/
def Fsys.init (img buf32 : Str) : Fsys := ⟨⟨img, 0⟩, buf32, [], []⟩

end Wifinfo
