import Verif.Spec.Number

/-!
# A JSON parser (RFC 8259)

What a client of the device does with an answer.  Strings are byte strings: UTF-8 validity is not
checked and bytes above 127 are passed through; a `\u` escape gives the UTF-8 bytes of its character,
two of them if they are a surrogate pair.  Objects are lists of members, in order, duplicates
kept.
-/

namespace Wifinfo.Spec
open Wifinfo

/-- A JSON value.  Integers are values, other numbers are kept as text. -/
inductive JVal
  | null
  | bool (b : Bool)
  | int (n : Int)
  | dec (text : Str)
  | str (s : Str)
  | arr (l : List JVal)
  | obj (l : List (Str × JVal))

/-- Insignificant blanks. -/
def skipWs (s : Str) : Str := s.dropWhile fun b => b = 32 || b = 9 || b = 10 || b = 13

/-- Value of a hexadecimal digit. -/
def hexVal (b : Byte) : Option Nat :=
  if 48 ≤ b ∧ b ≤ 57 then some (b.toNat - 48)
  else if 97 ≤ b ∧ b ≤ 102 then some (b.toNat - 87)
  else if 65 ≤ b ∧ b ≤ 70 then some (b.toNat - 55)
  else none

/-- UTF-8 bytes of a code point. -/
def utf8 (n : Nat) : Str :=
  if n < 0x80 then [UInt8.ofNat n]
  else if n < 0x800 then [UInt8.ofNat (0xC0 + n / 64), UInt8.ofNat (0x80 + n % 64)]
  else if n < 0x10000 then
    [UInt8.ofNat (0xE0 + n / 4096), UInt8.ofNat (0x80 + n / 64 % 64), UInt8.ofNat (0x80 + n % 64)]
  else [UInt8.ofNat (0xF0 + n / 262144), UInt8.ofNat (0x80 + n / 4096 % 64), UInt8.ofNat (0x80 + n / 64 % 64),
    UInt8.ofNat (0x80 + n % 64)]

/-- Value of four hexadecimal digits. -/
def hex4 (a b c d : Byte) : Option Nat := do
  pure (4096 * (← hexVal a) + 256 * (← hexVal b) + 16 * (← hexVal c) + (← hexVal d))

/-- The escape of the second half of a surrogate pair, and what follows. -/
def lowHalf : Str → Option (Nat × Str)
  | e :: u :: a :: b :: c :: d :: r =>
    if e = 92 ∧ u = 117 then
      match hex4 a b c d with
      | some n => if 0xDC00 ≤ n ∧ n < 0xE000 then some (n, r) else none
      | none => none
    else none
  | _ => none

/-- The code point of a `\u` escape of value `n` followed by `r`, and what follows it. -/
def codePoint (n : Nat) (r : Str) : Nat × Str :=
  if 0xD800 ≤ n ∧ n < 0xDC00 then
    match lowHalf r with
    | some (m, r) => (0x10000 + (n - 0xD800) * 1024 + (m - 0xDC00), r)
    | none => (n, r)
  else (n, r)

/-- Meaning of a one-character escape. -/
def escape (b : Byte) : Option Byte :=
  if b = 34 ∨ b = 92 ∨ b = 47 then some b
  else if b = 98 then some 8 else if b = 102 then some 12 else if b = 110 then some 10
  else if b = 114 then some 13 else if b = 116 then some 9 else none

/-- A string, after its opening quote: content and what follows the closing quote. -/
def pString : Nat → Str → Option (Str × Str)
  | 0, _ => none
  | _, [] => none
  | f + 1, b :: r =>
    if b = 34 then some ([], r)
    else if b < 32 then none
    else if b = 92 then
      match r with
      | [] => none
      | e :: r =>
        if e = 117 then
          match r with
          | h1 :: h2 :: h3 :: h4 :: r => do
            let n ← hex4 h1 h2 h3 h4
            let (s, r') ← pString f (codePoint n r).2
            pure (utf8 (codePoint n r).1 ++ s, r')
          | _ => none
        else do
          let c ← escape e
          let (s, r) ← pString f r
          pure (c :: s, r)
    else do
      let (s, r) ← pString f r
      pure (b :: s, r)

/-- Digits at the beginning of a text, and the rest. -/
def pDigits (s : Str) : Str × Str := (s.takeWhile digit, s.dropWhile digit)

/-- A number: optional minus, integer part without superfluous zero, optional fraction and
exponent. -/
def pNumber (s : Str) : Option (JVal × Str) := do
  let (neg, s) := if s.head? = some 45 then (true, s.tail) else (false, s)
  let (ip, s) := pDigits s
  if ip = [] ∨ (ip.head? = some 48 ∧ ip ≠ [48]) then none
  let (fp, s) ← (if s.head? = some 46 then
      let (fp, r) := pDigits s.tail
      if fp = [] then none else some (46 :: fp, r)
    else some ([], s) : Option (Str × Str))
  let (ep, s) ← (if s.head? = some 101 ∨ s.head? = some 69 then
      let sg := s.tail.takeWhile (fun b => b = 43 || b = 45)
      let (ep, r) := pDigits (s.tail.drop sg.length)
      if ep = [] ∨ 1 < sg.length then none else some (101 :: sg ++ ep, r)
    else some ([], s) : Option (Str × Str))
  if fp = [] ∧ ep = [] then
    pure (.int (if neg then -(decVal ip : Int) else decVal ip), s)
  else pure (.dec ((if neg then [45] else []) ++ ip ++ fp ++ ep), s)

mutual
/-- A value and what follows. -/
def pValue : Nat → Str → Option (JVal × Str)
  | 0, _ => none
  | f + 1, s =>
    match skipWs s with
    | [] => none
    | b :: r =>
      if b = 34 then (pString (r.length + 1) r).map fun p => (.str p.1, p.2)
      else if b = 123 then
        match skipWs r with
        | [] => none
        | c :: r' => if c = 125 then some (.obj [], r')
            else (pMembers f (c :: r')).map fun p => (.obj p.1, p.2)
      else if b = 91 then
        match skipWs r with
        | [] => none
        | c :: r' => if c = 93 then some (.arr [], r')
            else (pElems f (c :: r')).map fun p => (.arr p.1, p.2)
      else if b = 116 then (if r.take 3 = bs "rue" then some (.bool true, r.drop 3) else none)
      else if b = 102 then (if r.take 4 = bs "alse" then some (.bool false, r.drop 4) else none)
      else if b = 110 then (if r.take 3 = bs "ull" then some (.null, r.drop 3) else none)
      else pNumber (b :: r)

/-- Members of an object up to its closing brace. -/
def pMembers : Nat → Str → Option (List (Str × JVal) × Str)
  | 0, _ => none
  | f + 1, s =>
    match skipWs s with
    | [] => none
    | b :: r => if b ≠ 34 then none else
      match pString (r.length + 1) r with
      | none => none
      | some (k, r) =>
        match skipWs r with
        | [] => none
        | c :: r => if c ≠ 58 then none else
          match pValue f r with
          | none => none
          | some (v, r) =>
            match skipWs r with
            | [] => none
            | c :: r =>
              if c = 44 then (pMembers f r).map fun p => ((k, v) :: p.1, p.2)
              else if c = 125 then some ([(k, v)], r)
              else none

/-- Elements of an array up to its closing bracket. -/
def pElems : Nat → Str → Option (List JVal × Str)
  | 0, _ => none
  | f + 1, s =>
    match pValue f s with
    | none => none
    | some (v, r) =>
      match skipWs r with
      | [] => none
      | c :: r =>
        if c = 44 then (pElems f r).map fun p => (v :: p.1, p.2)
        else if c = 93 then some ([v], r)
        else none
end

/-- A whole JSON text. -/
def parseJson (s : Str) : Option JVal :=
  match pValue (2 * s.length + 2) s with
  | none => none
  | some (v, r) => if skipWs r = [] then some v else none

/-- Characters that a JSON string can carry without escape. -/
def plain (b : Byte) : Bool := 32 ≤ b && b != 34 && b != 92

/-- A text that a JSON string can carry without escape. -/
def Plain (s : Str) : Prop := ∀ b ∈ s, plain b = true

end Wifinfo.Spec
