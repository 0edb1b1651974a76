import Verif.Spec.Json

/-!
# Texts in UTF-8
-/

namespace Wifinfo.Spec
open Wifinfo

/-- A character of Unicode: not a surrogate. -/
def Scalar (n : Nat) : Prop := n < 0xD800 ∨ (0xE000 ≤ n ∧ n < 0x110000)

/-- A text in UTF-8. -/
def IsUtf8 (b : Str) : Prop := ∃ l : List Nat, (∀ n ∈ l, Scalar n) ∧ b = l.flatMap utf8

/-- The length of a text for a browser: two for the characters beyond the first 65536. -/
def utf16Length (l : List Nat) : Nat := (l.map fun n => if n < 0x10000 then 1 else 2).sum

end Wifinfo.Spec
