import Verif.Spec.Frame
import Verif.Spec.FrameJson
import Verif.Spec.Number

/-!
# URL templates

A template is a list of tokens; `text` is how the user writes it.
-/

namespace Wifinfo.Spec
open Wifinfo

/-- Letters and underscore. -/
def nameChar (b : Byte) : Bool :=
  (65 ≤ b.toNat && b.toNat ≤ 90) || (97 ≤ b.toNat && b.toNat ≤ 122) || b.toNat = 95

/-- A piece of template. -/
inductive Tok
  /-- an ordinary character -/
  | lit (b : Byte)
  /-- `$$` -/
  | dollar
  /-- `~~` -/
  | tilde
  /-- `$NAME` -/
  | name (n : Str)
  /-- `~NAME~` -/
  | quoted (n : Str)

/-- How a token is written. -/
def Tok.text : Tok → Str
  | .lit b => [b]
  | .dollar => [36, 36]
  | .tilde => [126, 126]
  | .name n => 36 :: n
  | .quoted n => 126 :: n ++ [126]

/-- How a template is written. -/
def tmplText (l : List Tok) : Str := l.flatMap Tok.text

/-- Well-formed templates: ordinary characters are neither `$`, `~` nor NUL, names have 1 to 15
characters, names after `$` are made of letters and underscores and are not followed by another such
character (unless they have 15). -/
def GoodTmpl : List Tok → Prop
  | [] => True
  | .lit b :: l => b ≠ 0 ∧ b ≠ 36 ∧ b ≠ 126 ∧ GoodTmpl l
  | .dollar :: l => GoodTmpl l
  | .tilde :: l => GoodTmpl l
  | .name n :: l => n ≠ [] ∧ n.length ≤ 15 ∧ (∀ b ∈ n, nameChar b = true) ∧
      (n.length = 15 ∨ ∀ b ∈ (tmplText l).head?, nameChar b = false) ∧ GoodTmpl l
  | .quoted n :: l => n ≠ [] ∧ n.length ≤ 15 ∧ (∀ b ∈ n, b ≠ 0 ∧ b ≠ 126) ∧ GoodTmpl l

/-- What is known when the template is used. -/
structure TmplEnv where
  notif : Str
  iso : Str
  sec : Nat
  seconds : Str
  chipId : Str
  groups : List (Str × Str)

/-- Lower case of an ASCII letter. -/
def lower (b : Byte) : Byte := if 65 ≤ b.toNat ∧ b.toNat ≤ 90 then UInt8.ofNat (b.toNat + 32) else b

/-- What a name stands for. -/
def nameValue (e : TmplEnv) (n : Str) : Str :=
  let l := n.map lower
  if l = bs "type" ∨ l = bs "notif" then e.notif
  else if l = bs "date" then e.iso
  else if l = bs "timestamp" then decText e.sec
  else if l = bs "seconds" then e.seconds
  else if l = bs "chipid" then e.chipId
  else match lookup n e.groups with
    | some v => normNum v
    | none => []

/-- What a token becomes. -/
def Tok.value (e : TmplEnv) : Tok → Str
  | .lit b => [b]
  | .dollar => [36]
  | .tilde => [126]
  | .name n => nameValue e n
  | .quoted n => nameValue e n

/-- The expansion of a template. -/
def tmplValue (e : TmplEnv) (l : List Tok) : Str := l.flatMap (Tok.value e)

/-- `0x` and at least six hexadecimal digits of a number. -/
def IsHex6 (t : Str) (n : Nat) : Prop :=
  ∃ d, t = bs "0x" ++ d ∧ 6 ≤ d.length ∧
    (∀ b ∈ d, (48 ≤ b.toNat ∧ b.toNat ≤ 57) ∨ (65 ≤ b.toNat ∧ b.toNat ≤ 70)) ∧
    d.foldl (fun a b => 16 * a + (if b.toNat ≤ 57 then b.toNat - 48 else b.toNat - 55)) 0 = n

/-- Reading a setting byte by byte, as a reader of the documentation would: `none` between the names,
`some n` inside a name opened by a `~`, `n` bytes of which have been seen.  A name ends with a `~`, with
the NUL, or after 15 bytes, and the byte that ends it is passed.  A NUL between the names ends the URL.
True when the bytes are exhausted before that. -/
def runsOff : Option Nat → Str → Bool
  | _, [] => true
  | none, b :: s => if b = 0 then false else runsOff (if b = 126 then some 0 else none) s
  | some n, b :: s => runsOff (if b = 0 ∨ b = 126 ∨ n = 15 then none else some (n + 1)) s

/-- Does a text end inside a name opened by a `~` ? -/
def dangling : Option Nat → Str → Bool
  | none, [] => false
  | some _, [] => true
  | none, b :: s => dangling (if b = 126 then some 0 else none) s
  | some n, b :: s => dangling (if b = 126 ∨ n = 15 then none else some (n + 1)) s

end Wifinfo.Spec
