import Verif.Spec.Number
import Verif.Model.Base

/-!
# The scripts of `data_src/index.html`

The choice of a file for an update and the table of the meter.  Texts are in ASCII.
-/

namespace Wifinfo
open Spec

/-! ## Choice of a file, index.html:1006-1056 -/

/-- `toLowerCase` for an ASCII character -/
def jsLower (b : Byte) : Byte := if 65 ≤ b ∧ b ≤ 90 then b + 32 else b

/-- `.` of a regular expression: any character but the ends of lines -/
def jsAny (b : Byte) : Bool := b ≠ 10 && b ≠ 13

/-- `name.match("fs.bin$")` index.html:1014 -/
def jsEndsFs (name : Str) : Bool :=
  match name.reverse with
  | 110 :: 105 :: 98 :: c :: 115 :: 102 :: _ => jsAny c
  | _ => false

/-- `name.match(".bin$")` index.html:1015 -/
def jsEndsBin (name : Str) : Bool :=
  match name.reverse with
  | 110 :: 105 :: 98 :: c :: _ => jsAny c
  | _ => false

/-- What the page announces, index.html:1039-1043: `Mise à jour Logiciel` or `Mise à jour Web`. -/
inductive UpdateKind
  | firmware | web
deriving DecidableEq, Repr

/-- The handler of `change` index.html:1006-1056: what is announced, if the file is accepted.  `typeOk`: the type
of the file is one of the two of line 1020.  The name that is posted afterwards is the one of the file, not the
one in lower case. -/
def chooseFile (typeOk : Bool) (fname : Str) : Option UpdateKind :=
  let name := fname.map jsLower
  let isFilesystem := jsEndsFs name
  let isFirmware := jsEndsBin name && !isFilesystem
  if typeOk = false then none
  else if !isFilesystem && !isFirmware then none
  else if isFirmware then some .firmware else some .web

/-! ## The table of the meter, index.html:722-761 -/

/-- `' <span class="glyphicon glyphicon-triangle-top"></span>'` -/
def arrowUp : Str := bs " <span class=\"glyphicon glyphicon-triangle-top\"></span>"

/-- `' <span class="glyphicon glyphicon-triangle-bottom"></span>'` -/
def arrowDown : Str := bs " <span class=\"glyphicon glyphicon-triangle-bottom\"></span>"

/-- `<` for texts: character by character -/
def jsLess : Str → Str → Bool
  | _, [] => false
  | [], _ :: _ => true
  | a :: r, b :: s => if a < b then true else if b < a then false else jsLess r s

/-- The end of `valueFormatter` index.html:746-760 for a value that is a text: the text shown and the new `counters`.
`isNumber t` is `!isNaN(t)`; a label that is not in `counters` gives `undefined`, which is not a number. -/
def formatValue (isNumber : Str → Bool) (counters : Str → Option Str) (na value : Str) :
    Str × (Str → Option Str) :=
  if isNumber value then
    let shown := match counters na with
      | none => value
      | some ref =>
        if isNumber ref = false ∨ ref = value then value
        else if jsLess ref value then value ++ arrowUp
        else if jsLess value ref then value ++ arrowDown
        else value ++ bs " ??"
    (shown, fun n => if n = na then some shown else counters n)
  else (value, counters)

/-- `parseInt` for a text that begins with a digit, `none` for `NaN`.  (Signs, blanks and the prefix `0x` are not
modelled.) -/
def jsParseInt (t : Str) : Option Nat :=
  let d := t.takeWhile digit
  if d = [] then none else some (decVal d)

/-- Colours of the bar -/
inductive Colour
  | success | info | warning | danger
deriving DecidableEq, Repr

/-- The bar of the current load: the variable `isousc`, the badge of the tab, the text, the colour and the width of
the bar. -/
structure LoadBar where
  /-- `none`: undefined, `some none`: `NaN` -/
  isousc : Option (Option Nat)
  badge : Str
  text : Str
  colour : Colour
  width : Nat

/-- A number or `NaN` as a text -/
def jsText : Option Nat → Str
  | some n => decText n
  | none => bs "NaN"

/-- The beginning of `valueFormatter` index.html:723-744.  The quotient is the exact one, rounded down: the floats
are exact for the values of a meter.  A division by zero gives `Infinity` or `NaN`, whose `parseInt` is
`NaN`. -/
def formatLoad (s : LoadBar) (na value : Str) : LoadBar :=
  if na = bs "ISOUSC" then { s with isousc := some (jsParseInt value) }
  else if na = bs "IINST" then
    let iinst := jsParseInt value
    let pe := match iinst, s.isousc with
      | some i, some (some n) => if n = 0 then 0 else i * 100 / n
      | _, _ => 0
    let cl := Colour.success
    let cl := if pe > 70 then .info else cl
    let cl := if pe > 80 then .warning else cl
    let cl := if pe > 90 then .danger else cl
    { s with
      badge := if pe > 0 then decText pe ++ bs "%" else s.badge
      text := match s.isousc with
        | some n => jsText iinst ++ bs "A / " ++ jsText n ++ bs "A"
        | none => s.text
      colour := cl
      width := pe }
  else s

end Wifinfo
