import Verif.Model.Base

/-!
# A C preprocessor, as far as the order of the lines goes

Sources are lines with their newlines.  Directives begin with `#` immediately followed by their name; block comments and
continued lines are not known.  What is compiled is the list of the lines that are kept: text, macro definitions, system
headers.  The value of a condition is any function of the lines kept before it (which define the macros) and of its line.
-/

namespace Wifinfo.Spec

/-- What a line is. -/
inductive CLine
  | nothing | once | include (name : Str) | cond | elif | els | endif | item
deriving DecidableEq, Repr

/-- White space. -/
def cBlank (b : Byte) : Bool := b = 32 || (9 ≤ b && b ≤ 13)

def cLine (line : Str) : CLine :=
  let t := line.dropWhile cBlank
  if t = [] ∨ bs "//" <+: t then .nothing
  else if bs "#pragma once" <+: t then .once
  else if bs "#include \"" <+: t then .include ((t.drop 10).takeWhile (· ≠ 34))
  else if bs "#if" <+: t then .cond
  else if bs "#elif" <+: t then .elif
  else if bs "#else" <+: t then .els
  else if bs "#endif" <+: t then .endif
  else .item

/-- An open `#if`: is its present part kept, has a part been kept before or now. -/
structure Branch where
  on : Bool
  taken : Bool
deriving DecidableEq

/-- A compilation: lines kept, files that said `#pragma once`, open conditions (the innermost first). -/
structure Compile where
  out : List Str
  once : List Str
  open_ : List Branch

/-- At the beginning. -/
def Compile.start : Compile := ⟨[], [], []⟩

/-- Are the lines kept? -/
def Compile.active (u : Compile) : Bool := u.open_.all (·.on)

/-- The effect of a line on the conditions. -/
def Compile.condition (eval : List Str → Str → Bool) (u : Compile) (line : Str) : List Branch :=
  match cLine line, u.open_ with
  | .cond, l => (if u.active then ⟨eval u.out line, eval u.out line⟩ else ⟨false, true⟩) :: l
  | .elif, b :: l => ⟨!b.taken && eval u.out line, b.taken || eval u.out line⟩ :: l
  | .els, b :: l => ⟨!b.taken, true⟩ :: l
  | .endif, _ :: l => l
  | _, l => l

/-- The lines of a file are compiled. -/
inductive Cpp (file : Str → Option (List Str)) (eval : List Str → Str → Bool) : Str → List Str → Compile → Compile → Prop
  | nil (cur u) : Cpp file eval cur [] u u
  | condition {cur line r u u'} (h : cLine line ∈ [.cond, .elif, .els, .endif])
      (hr : Cpp file eval cur r { u with open_ := u.condition eval line } u') : Cpp file eval cur (line :: r) u u'
  | skipped {cur line r u u'} (h : cLine line ∉ [.cond, .elif, .els, .endif]) (ha : u.active = false)
      (hr : Cpp file eval cur r u u') : Cpp file eval cur (line :: r) u u'
  | nothing {cur line r u u'} (h : cLine line = .nothing) (ha : u.active = true)
      (hr : Cpp file eval cur r u u') : Cpp file eval cur (line :: r) u u'
  | item {cur line r u u'} (h : cLine line = .item) (ha : u.active = true)
      (hr : Cpp file eval cur r { u with out := u.out ++ [line] } u') : Cpp file eval cur (line :: r) u u'
  | once {cur line r u u'} (h : cLine line = .once) (ha : u.active = true)
      (hr : Cpp file eval cur r { u with once := cur :: u.once } u') : Cpp file eval cur (line :: r) u u'
  | again {cur line r u u' name} (h : cLine line = .include name) (ha : u.active = true) (hn : name ∈ u.once)
      (hr : Cpp file eval cur r u u') : Cpp file eval cur (line :: r) u u'
  | enter {cur line r u u1 u' name ls} (h : cLine line = .include name) (ha : u.active = true) (hn : name ∉ u.once)
      (hf : file name = some ls) (hi : Cpp file eval name ls { u with open_ := [] } u1)
      (hr : Cpp file eval cur r { u1 with open_ := u.open_ } u') : Cpp file eval cur (line :: r) u u'

/-- Some files are compiled one after the other, as one unit. -/
inductive Unity (file : Str → Option (List Str)) (eval : List Str → Str → Bool) : List Str → Compile → Compile → Prop
  | nil (u) : Unity file eval [] u u
  | cons {f r ls u u1 u'} (hf : file f = some ls) (h1 : Cpp file eval f ls u u1) (h2 : Unity file eval r u1 u') :
      Unity file eval (f :: r) u u'

/-- The elements of a list, each at its first place only. -/
def distinct (l : List Str) : List Str := l.foldl (fun acc x => if x ∈ acc then acc else acc ++ [x]) []

/-- A line which is written in the usual way. -/
structure TidyLine (line : Str) : Prop where
  /-- no odd control characters -/
  control : ∀ b ∈ line, ¬ (28 ≤ b ∧ b ≤ 31)
  /-- the newline is at the end and only there -/
  newline : ∃ x, line = x ++ [10] ∧ (10 : Byte) ∉ x
  /-- an `#include` is followed by a name between quotes, or by one between angle brackets, and nothing else looks like it -/
  inclusion : ∀ x, line.dropWhile cBlank = bs "#include" ++ x →
    (∃ name r, x = bs " \"" ++ name ++ 34 :: r ∧ name ≠ [] ∧ (34 : Byte) ∉ name ∧ (34 : Byte) ∉ r ∧ (10 : Byte) ∉ name) ∨
    (∃ name r, x = bs " <" ++ name ++ 62 :: r ∧ name ≠ [] ∧ (10 : Byte) ∉ name ∧ (34 : Byte) ∉ x)

/-- Conditions are closed in the file that opens them, and files are included outside of them. -/
def PlainIncludes : Nat → List Str → Prop
  | n, [] => n = 0
  | n, line :: r =>
    match cLine line with
    | .include _ => n = 0 ∧ PlainIncludes n r
    | .cond => PlainIncludes (n + 1) r
    | .elif | .els => 0 < n ∧ PlainIncludes n r
    | .endif => 0 < n ∧ PlainIncludes (n - 1) r
    | _ => PlainIncludes n r

/-- The file begins with `#pragma once`. -/
def Guarded (ls : List Str) : Prop :=
  ∃ pre line r, ls = pre ++ line :: r ∧ (∀ x ∈ pre, cLine x = .nothing) ∧ cLine line = .once

/-- Some file includes this name. -/
def Included (file : Str → Option (List Str)) (name : Str) : Prop :=
  ∃ f ls line, file f = some ls ∧ line ∈ ls ∧ cLine line = .include name

/-- Read from some files, directly or not. -/
inductive ReadFrom (file : Str → Option (List Str)) (roots : List Str) : Str → Prop
  | root {f} : f ∈ roots → ReadFrom file roots f
  | step {f ls line name} : ReadFrom file roots f → file f = some ls → line ∈ ls → cLine line = .include name →
      ReadFrom file roots name

end Wifinfo.Spec
