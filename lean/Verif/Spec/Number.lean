import Verif.Model.Base

/-!
# Specification of decimal numbers
-/

namespace Wifinfo.Spec
open Wifinfo

/-- Decimal digit character. -/
def digit (b : Byte) : Bool := 48 ≤ b.toNat && b.toNat ≤ 57

/-- Text made only of digits (the empty text included). -/
def numeral (s : Str) : Bool := s.all digit

/-- Value of a numeral. -/
def decVal (s : Str) : Nat := s.foldl (fun a b => 10 * a + (b.toNat - 48)) 0

/-- A numeral without superfluous leading zero. -/
def Canonical (s : Str) : Prop := ∀ r, s = 48 :: r → r = []

/-- The canonical numeral of a text of digits; other texts are unchanged. -/
def stripZeros : Str → Str
  | 48 :: b :: r => stripZeros (b :: r)
  | s => s

/-- What the user sees of a value when leading zeros are to be removed. -/
def normNum (s : Str) : Str := if numeral s then stripZeros s else s

/-- Decimal text of a natural number (`%d`, `%u`, `String(n)`). -/
def decDigits : Nat → Nat → Str
  | 0, _ => []
  | f + 1, n => if n < 10 then [UInt8.ofNat (48 + n)]
      else decDigits f (n / 10) ++ [UInt8.ofNat (48 + n % 10)]

/-- Decimal text of a natural number. -/
def decText (n : Nat) : Str := decDigits (n + 1) n

end Wifinfo.Spec
