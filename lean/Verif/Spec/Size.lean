import Verif.Spec.Number

/-!
# Sizes as people read them
-/

namespace Wifinfo.Spec

/-- The results of floating-point operations with 53 significant bits: the nearest number (to within `(x + 1) / 2^53`, which leaves
room for the smallest numbers), in the order of the exact results, and exact for integers. -/
structure Rounding (fl : Rat → Rat) : Prop where
  up : ∀ x : Rat, 0 ≤ x → 9007199254740992 * (fl x - x) ≤ x + 1
  down : ∀ x : Rat, 0 ≤ x → 9007199254740992 * (x - fl x) ≤ x + 1
  mono : ∀ x y : Rat, x ≤ y → fl x ≤ fl y
  exact : ∀ n : Nat, n ≤ 9007199254740992 → fl n = n

/-- The text is a number with two decimals and a unit, and this number is one of those that are nearest to `bytes / unit`. -/
def ShownIn (s name : Str) (unit bytes : Nat) : Prop :=
  ∃ a c : Str, s = a ++ 46 :: c ++ 32 :: name ∧ a ≠ [] ∧ numeral a = true ∧ Canonical a ∧ c.length = 2 ∧ numeral c = true ∧
    2 * unit * decVal (a ++ c) ≤ 200 * bytes + unit ∧ 200 * bytes ≤ 2 * unit * decVal (a ++ c) + unit

/-- The text of a size: exact below 1024 bytes, else in the largest unit that is not above it. -/
def ShowsSize (s : Str) (bytes : Nat) : Prop :=
  if bytes < 1024 then ∃ a : Str, s = a ++ 32 :: bs "byte" ∧ a ≠ [] ∧ numeral a = true ∧ Canonical a ∧ decVal a = bytes
  else if bytes < 1024 * 1024 then ShownIn s (bs "kB") 1024 bytes
  else if bytes < 1024 * 1024 * 1024 then ShownIn s (bs "MB") (1024 * 1024) bytes
  else ShownIn s (bs "GB") (1024 * 1024 * 1024) bytes

end Wifinfo.Spec
