import Verif.Model.Restrict

/-!
# The preparation of the data folder, `prepare_www_files` of `prep_data_folder.py`

A folder is a list of entries, in the order of `rglob("*")`: a path below the folder, and a folder or a file
with its content and its date of modification.  `html-minifier` and `gzip` are arguments, and so are the dates
that the written files get.  An exception is `none`.  Not modelled: the messages, the renaming of a `data` folder
without `data_src` (prep_data_folder.py:97-100), the text encoding of the pages, names that the shell does not take as
they are, failures of `gzip` and of the file system other than a file in the place of a folder or the contrary.
-/

namespace Wifinfo

/-- The names of a path, below the folder. -/
abbrev FsPath := List Str

/-- What there is at a path. -/
inductive Node
  | dir
  | file (data : Str) (mtime : Nat)
deriving DecidableEq, Repr

/-- A folder. -/
abbrev Tree := List (FsPath × Node)

/-- What there is at a path of a folder. -/
def Tree.at (t : Tree) (p : FsPath) : Option Node := (t.find? fun x => x.1 = p).map Prod.snd

/-- `exists()` -/
def Tree.has (t : Tree) (p : FsPath) : Bool := (t.at p).isSome

/-- Puts an entry, in the place of the one with the same path if there is one. -/
def Tree.put : Tree → FsPath → Node → Tree
  | [], p, n => [(p, n)]
  | x :: t, p, n => if x.1 = p then (p, n) :: t else x :: Tree.put t p n

/-- `shutil.rmtree` or `unlink` -/
def Tree.remove (t : Tree) (p : FsPath) : Tree := t.filter fun x => !p.isPrefixOf x.1

/-- Writes a file; a folder cannot be written. -/
def Tree.write (t : Tree) (p : FsPath) (data : Str) (mtime : Nat) : Option Tree :=
  match t.at p with
  | some .dir => none
  | _ => some (t.put p (.file data mtime))

/-- `mkdir(exist_ok=True, parents=True)` of the folder `done ++ p`, `done` being there. -/
def Tree.mkdirs (t : Tree) (done : FsPath) : FsPath → Option Tree
  | [] => some t
  | n :: r =>
    match t.at (done ++ [n]) with
    | some .dir => t.mkdirs (done ++ [n]) r
    | some (.file _ _) => none
    | none => (t.put (done ++ [n]) .dir).mkdirs (done ++ [n]) r

/-! ## Names -/

/-- `PurePath.suffix`: from the last dot, unless it is the first or the last character. -/
def pySuffix (n : Str) : Str :=
  let r := n.reverse.takeWhile (· ≠ 46)
  if r ≠ [] ∧ r.length + 1 < n.length then 46 :: r.reverse else []

/-- `PurePath.with_suffix("")` -/
def pyStem (n : Str) : Str := n.take (n.length - (pySuffix n).length)

/-- `split('.')` -/
def splitDots : Str → List Str
  | [] => [[]]
  | b :: r =>
    if b = 46 then [] :: splitDots r
    else match splitDots r with
      | x :: l => (b :: x) :: l
      | [] => [[b]]

/-- `PurePath.suffixes` -/
def pySuffixes (n : Str) : List Str :=
  if n.getLast? = some 46 then []
  else ((splitDots (n.dropWhile (· = 46))).drop 1).map (46 :: ·)

/-- The programs that are called. -/
structure Tools where
  /-- `html-minifier`, `none` if it fails or is not there -/
  minify : Str → Option Str
  /-- `gzip`, `gzip -9` -/
  gzip : Str → Str

/-- The command line of prep_data_folder.py:20-22: the status of a pipe is the status of its last command. -/
def Tools.html (w : Tools) (s : Str) : Str := w.gzip ((w.minify s).getD [])

/-- `get_minifier` prep_data_folder.py:15-30: the command for a suffix; the files it makes end with `.gz`. -/
def Tools.minifier (w : Tools) (suffix : Str) : Option (Str → Str) :=
  if suffix = bs ".htm" ∨ suffix = bs ".html" then some w.html
  else if suffix = bs ".js" ∨ suffix = bs ".css" ∨ suffix = bs ".ttf" then some w.gzip
  else none

/-- The name of a restricted page prep_data_folder.py:67-71 -/
def restrictName (n : Str) : Str := pyStem n ++ (bs ".restrict" ++ (pySuffixes n).flatten ++ bs ".gz")

/-! ## Preparation -/

/-- prep_data_folder.py:111-119: an entry of the data folder that has to be removed. -/
def stale (src : Tree) (p : FsPath) : Bool :=
  let n := p.getLastD []
  !src.has p && !(pySuffix n = bs ".gz" && src.has (p.dropLast ++ [pyStem n])) &&
    !((pySuffixes n).contains (bs ".restrict"))

/-- The cleaning prep_data_folder.py:109-126 -/
def clean (src data : Tree) : Tree :=
  ((data.map Prod.fst).filter (stale src)).foldl Tree.remove data

/-- Is there a file as recent as the source ? prep_data_folder.py:141-144 -/
def upToDate (data : Tree) (dest : FsPath) (mtime : Nat) : Bool :=
  match data.at dest with
  | some (.file _ m) => decide (mtime ≤ m)
  | _ => false

/-- One source file prep_data_folder.py:128-157; `now` gives the date of what is written at a path
(`shutil.copy2` keeps the date of the source, and copies into a folder when the destination is one). -/
def prepOne (w : Tools) (now : FsPath → Nat) (p : FsPath) (c : Str) (m : Nat) (data : Tree) : Option Tree :=
  let n := p.getLastD []
  match w.minifier (pySuffix n) with
  | some cmd =>
    let dest := p.dropLast ++ [n ++ bs ".gz"]
    if upToDate data dest m then some data
    else do
      let data ← data.mkdirs [] p.dropLast
      let data ← data.write dest (cmd c) (now dest)
      if pySuffix n = bs ".html" then
        match makeRestrict c with
        | some r =>
          let dest := p.dropLast ++ [restrictName n]
          data.write dest (w.html r) (now dest)
        | none => some data
      else some data
  | none =>
    if upToDate data p m then some data
    else do
      let data ← data.mkdirs [] p.dropLast
      match data.at p with
      | some .dir => data.write (p ++ [n]) c m
      | _ => data.write p c m

/-- The loop prep_data_folder.py:128-157 -/
def prepAll (w : Tools) (now : FsPath → Nat) : Tree → Tree → Option Tree
  | [], data => some data
  | (_, .dir) :: l, data => prepAll w now l data
  | (p, .file c m) :: l, data => do
    let data ← prepOne w now p c m data
    prepAll w now l data

/-- `prepare_www_files` prep_data_folder.py:77-161 -/
def prepare (w : Tools) (now : FsPath → Nat) (version : Str) (src data : Tree) : Option Tree := do
  let data ← prepAll w now src (clean src data)
  data.write [bs "version"] version (now [bs "version"])

end Wifinfo
