import Verif.Spec.Fs
import Verif.Model.Mkerfs

/-!
# What a read-only folder is

What a program can ask of a file system, what it is answered, and what a folder whose files never change answers.
-/

namespace Wifinfo.Spec

/-- How a file is opened: the flags of creation and the access. -/
structure OpenMode where
  /-- 0 unless the file is to be created, cleared or continued -/
  flags : Nat
  /-- 1 to read, 2 to write, 3 for both -/
  access : Nat

/-- To read only. -/
def OpenMode.reads (m : OpenMode) : Bool := m.flags = 0 && m.access = 1

/-- The calls.  The files and the listings that have been opened are numbered from 0. -/
inductive FsCall
  | mount | unmount | info
  | there (path : Str) | openFile (path : Str) (mode : OpenMode) | openDir (path : Str)
  | next (d : Nat) | entry (d : Nat) | rewind (d : Nat) | openEntry (d : Nat) (mode : OpenMode)
  | use (h : Nat) (op : FileOp)
  | position (h : Nat) | size (h : Nat) | shortName (h : Nat) | fullName (h : Nat) | lastWrite (h : Nat)
  | write (h : Nat) (data : Str) | truncate (h : Nat) (size : Nat)
  | remove (path : Str) | rename (old new : Str) | mkdir (path : Str) | rmdir (path : Str) | format

/-- The answers. -/
inductive FsAnswer
  | yes (b : Bool) | number (n : Nat) | text (s : Str)
  /-- the total and the used size -/
  | sizes (total used : Nat)
  /-- the number of what has been opened, if it has -/
  | opened (n : Option Nat)
  /-- name, size and date -/
  | entry (name : Str) (size time : Nat)
  | file (r : FileRes)
  /-- nothing has this number: there is no such call -/
  | noSuch
deriving DecidableEq

/-- A folder in use: if it is mounted, the files that have been opened with their position, and for each listing how many entries have
been seen. -/
structure Folder where
  mounted : Bool
  files : List (Src × Nat)
  dirs : List Nat

/-- The file that a path names, with or without a leading slash. -/
def inFolder (l : List Src) (path : Str) : Option Src := l.find? fun s => path = s.name || path = 47 :: s.name

/-- What follows the last slash. -/
def baseName (name : Str) : Str := (name.reverse.takeWhile (· ≠ 47)).reverse

/-- A file that is opened. -/
def Folder.opens (p : Folder) : Option Src → Folder × FsAnswer
  | some s => ({ p with files := p.files ++ [(s, 0)] }, .opened (some p.files.length))
  | none => (p, .opened none)

/-- What a folder with the files `l` does; `total` and `used` are the sizes that are told, `empty` is the used size when it is not
mounted. -/
def Folder.step (l : List Src) (total used empty : Nat) (p : Folder) : FsCall → Folder × FsAnswer
  | .mount => ({ p with mounted := true }, .yes true)
  | .unmount => ({ p with mounted := false }, .yes true)
  | .info => (p, .sizes total (if p.mounted then used else empty))
  | .there path => (p, .yes (p.mounted && (inFolder l path).isSome))
  | .openFile path m => p.opens (if p.mounted && m.reads then inFolder l path else none)
  | .openDir path =>
    if path = bs "/" then ({ p with dirs := p.dirs ++ [0] }, .opened (some p.dirs.length)) else (p, .opened none)
  | .next d =>
    match p.dirs[d]? with
    | none => (p, .noSuch)
    | some k => if p.mounted && k < l.length then ({ p with dirs := p.dirs.set d (k + 1) }, .yes true) else (p, .yes false)
  | .entry d =>
    match p.dirs[d]? with
    | none => (p, .noSuch)
    | some 0 => (p, .entry [] 0 0)
    | some (k + 1) =>
      match l[k]? with
      | some s => if p.mounted then (p, .entry s.name s.data.length s.mtime.toNat) else (p, .entry [] 0 0)
      | none => (p, .entry [] 0 0)
  | .rewind d =>
    match p.dirs[d]? with
    | none => (p, .noSuch)
    | some _ => ({ p with dirs := p.dirs.set d 0 }, .yes true)
  | .openEntry d m =>
    match p.dirs[d]? with
    | none => (p, .noSuch)
    | some 0 => (p, .opened none)
    | some (k + 1) => p.opens (if p.mounted && m.reads then l[k]? else none)
  | .use h op =>
    match p.files[h]? with
    | none => (p, .noSuch)
    | some (s, pos) => ({ p with files := p.files.set h (s, (fileStep s.data pos op).2) }, .file (fileStep s.data pos op).1)
  | .position h => (p, match p.files[h]? with | some (_, pos) => .number pos | none => .noSuch)
  | .size h => (p, match p.files[h]? with | some (s, _) => .number s.data.length | none => .noSuch)
  | .shortName h => (p, match p.files[h]? with | some (s, _) => .text (baseName s.name) | none => .noSuch)
  | .fullName h => (p, match p.files[h]? with | some (s, _) => .text s.name | none => .noSuch)
  | .lastWrite h => (p, match p.files[h]? with | some (s, _) => .number s.mtime.toNat | none => .noSuch)
  | .write h _ => (p, match p.files[h]? with | some _ => .number 0 | none => .noSuch)
  | .truncate h _ => (p, match p.files[h]? with | some _ => .yes false | none => .noSuch)
  | .remove _ => (p, .yes false)
  | .rename _ _ => (p, .yes false)
  | .mkdir _ => (p, .yes false)
  | .rmdir _ => (p, .yes false)
  | .format => (p, .yes false)

/-- The answers to a sequence of calls. -/
def Folder.run (l : List Src) (total used empty : Nat) (p : Folder) : List FsCall → List FsAnswer
  | [] => []
  | c :: r => (p.step l total used empty c).2 :: (p.step l total used empty c).1.run l total used empty r

/-- The paths are C strings and the buffers have room. -/
def FsCall.Valid : FsCall → Prop
  | .there path => 0 ∉ path
  | .openFile path _ => 0 ∉ path
  | .use _ op => op.Valid
  | _ => True

end Wifinfo.Spec
