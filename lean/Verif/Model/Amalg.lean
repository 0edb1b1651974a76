import Verif.Model.Base

/-!
# The single-file sketch: `tools/mkarduinosrc.py`

Class `Amalgamation`.  The sources are in one folder, without sub-folders, and are ASCII text; a line is given with its
newline.  `glob` gives the files in an unspecified order: the order is an argument.
-/

namespace Wifinfo

/-- The files of the folder, by name. -/
abbrev Sources := List (Str × List Str)

/-- `file.open()`; `none`: the exception `FileNotFoundError`. -/
def Sources.lines (p : Sources) (name : Str) : Option (List Str) := (p.find? fun x => x.1 == name).map (·.2)

/-- What `str.lstrip` removes, in ASCII. -/
def pyBlank (b : Byte) : Bool := b == 32 || (9 ≤ b && b ≤ 13) || (28 ≤ b && b ≤ 31)

/-- `line.lstrip()` -/
def pyLstrip (line : Str) : Str := line.dropWhile pyBlank

/-- The text after the first occurrence of `pat`. -/
def textAfter (pat : Str) : Str → Option Str
  | [] => if pat = [] then some [] else none
  | b :: r => if pat.isPrefixOf (b :: r) then some ((b :: r).drop pat.length) else textAfter pat r

/-- The part of `x` before its last byte `q` (the group `.+` of a regular expression: as long as possible, not empty, on
one line). -/
def upToLast (q : Byte) (x : Str) : Option Str :=
  let x := x.takeWhile (· ≠ 10)
  let r := x.reverse.dropWhile (· ≠ q)
  match r with
  | [] => none
  | _ :: r => if r = [] then none else some r.reverse

/-- `re.search(r'#include "(.+)"', line)` mkarduinosrc.py:52.  If the first occurrence of `#include "` does not match, a
later one does not either. -/
def quotedName (line : Str) : Option Str := (textAfter (bs "#include \"") line).bind (upToLast 34)

/-- `re.search(r"#include <(.+)>", line)` mkarduinosrc.py:64 -/
def systemName (line : Str) : Option Str := (textAfter (bs "#include <") line).bind (upToLast 62)

/-- What a line is for the tool, mkarduinosrc.py:47-72. -/
inductive SrcLine
  | once | quoted (name : Str) | plain | bad
deriving DecidableEq, Repr

def srcLine (line : Str) : SrcLine :=
  if (bs "#pragma once").isPrefixOf (pyLstrip line) then .once
  else if (bs "#include").isPrefixOf (pyLstrip line) then
    match quotedName line with
    | some h => .quoted h
    | none => if (systemName line).isSome then .plain else .bad
  else .plain

/-- `self.lines`, `self.included` -/
structure Amalg where
  lines : List Str
  included : List Str

/-- How it can fail: a file is missing, a line is not understood (`exit(2)`), too many nested calls (only in the model,
see `c93_ends`). -/
inductive AmalgErr
  | missing (name : Str) | badLine (line : Str) | deep
deriving DecidableEq, Repr

/-- The loop on the lines, mkarduinosrc.py:46-74; `add` is `self._add`. -/
def Amalg.loop (add : Str → Amalg → Except AmalgErr Amalg) : List Str → Amalg → Except AmalgErr Amalg
  | [], s => .ok s
  | line :: r, s =>
    match srcLine line with
    | .once => Amalg.loop add r { s with lines := s.lines ++ [bs "// " ++ line] }
    | .plain => Amalg.loop add r { s with lines := s.lines ++ [line] }
    | .bad => .error (.badLine line)
    | .quoted h => do
      let s : Amalg := { s with lines := s.lines ++ [bs "// " ++ line] }
      let s ← if s.included.contains h then .ok s else add h s
      Amalg.loop add r s

/-- `_add` mkarduinosrc.py:34-76; the names are relative to the folder. -/
def Amalg.add (p : Sources) : Nat → Str → Amalg → Except AmalgErr Amalg
  | 0, _, _ => .error .deep
  | n + 1, name, s =>
    if s.included.contains name then .ok s
    else
      match p.lines name with
      | none => .error (.missing name)
      | some ls => do
        let s ← Amalg.loop (Amalg.add p n) ls
          { lines := s.lines ++ [bs "\n", bs "//begin: " ++ name ++ bs "\n"], included := name :: s.included }
        .ok { s with lines := s.lines ++ [bs "//end: " ++ name ++ bs "\n"] }

/-- The roots, one after the other. -/
def Amalg.addAll (p : Sources) (n : Nat) : List Str → Amalg → Except AmalgErr Amalg
  | [], s => .ok s
  | f :: r, s => do
    let s ← Amalg.add p n f s
    Amalg.addAll p n r s

/-- `Amalgamation(src).lines` mkarduinosrc.py:19-32: the `*.ino` files, `main.cpp` if there is one, the `*.cpp` files. -/
def amalgamation (p : Sources) (folder : Str) (inos cpps : List Str) : Except AmalgErr Amalg :=
  Amalg.addAll p (p.length + 1) (inos ++ (if (p.lines (bs "main.cpp")).isSome then [bs "main.cpp"] else []) ++ cpps)
    { lines := [bs "//amalgamation: " ++ folder ++ bs " *.ino *.cpp\n"], included := [] }

end Wifinfo
