import Verif.Model.Amalg
import Verif.Spec.Number

/-!
# The terminal of the project: its choice of a port and what it shows, tools/cli.py:344-358, 427-461

`comports()` and what is typed are arguments; the names are ASCII text.  What is shown is a list of Unicode characters.  Not modelled:
what is shown of the keys (`print` cli.py:394-395) and of the frames that are sent (cli.py:417-422), the failure of the serial line.
-/

namespace Wifinfo
open Spec

/-- The ports that are kept cli.py:434-440, for the list `sorted(comports())` of their names -/
def keptPorts (ports : List Str) : List Str :=
  ports.filter fun p => !((bs "/dev/cu.").isPrefixOf p && !(bs "/dev/cu.usb").isPrefixOf p)

/-- The digits of `int()`: single underscores are allowed between them; `n` is the value so far. -/
def pyDigits (n : Nat) : Str → Option Nat
  | [] => some n
  | b :: r =>
    if digit b then pyDigits (10 * n + (b.toNat - 48)) r
    else if b = 95 then
      match r with
      | c :: r => if digit c then pyDigits (10 * n + (c.toNat - 48)) r else none
      | [] => none
    else none

/-- `str.strip()` -/
def pyStrip (s : Str) : Str := ((s.dropWhile pyBlank).reverse.dropWhile pyBlank).reverse

/-- `int(text)` for ASCII text; `none`: the exception `ValueError` -/
def pyIntText (s : Str) : Option Int :=
  let s := pyStrip s
  let neg := s.head? = some 45
  let s := if s.head? = some 45 ∨ s.head? = some 43 then s.tail else s
  match s with
  | [] => none
  | b :: r => if digit b then (pyDigits 0 (b :: r)).map fun n => if neg then -n else n else none

/-- The question cli.py:449-461, for the lines that are typed; `none`: it waits for another line. -/
def askLoop (ports : List Str) : List Str → Option Str
  | [] => none
  | line :: r =>
    match pyIntText line with
    | some k =>
      let index := k - 1
      if ¬ (0 ≤ index ∧ index < ports.length) then askLoop ports r
      else ports[index.toNat]?
    | none => some line

/-- `ask_for_port` cli.py:427-461 -/
def askForPort (comports lines : List Str) : Option Str :=
  let ports := keptPorts comports
  if ports.length = 1 then ports[0]? else askLoop ports lines

/-- `Colorize.rx` cli.py:208-217 -/
def inputColor : List Nat := (bs "[36m").map UInt8.toNat |> (27 :: ·)

/-- The decoder `ascii` with `replace` cli.py:334-337, 507 -/
def asciiChar (b : Byte) : Nat := if b.toNat < 128 then b.toNat else 0xFFFD

/-- `reader` cli.py:344-358: what is written to the console for the pieces that the serial line gives (the transformation `CRLF` leaves
what is received as it is) -/
def readerOut (pieces : List Str) : List Nat :=
  pieces.flatMap fun data => if data = [] then [] else inputColor ++ data.map asciiChar

end Wifinfo
