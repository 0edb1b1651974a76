import Verif.Spec.Size

/-!
# Numbers with 53 significant bits

What is used of the numbers of Python (`float`) beyond `Rounding`.  `fl x` is the number that represents the exact result `x`; `fl x = x`
says that `x` is one of these numbers.  Results too large to be represented are left out.
-/

namespace Wifinfo.Spec

/-- Rounding to the nearest number with 53 significant bits. -/
structure Binary64 (fl : Rat → Rat) : Prop extends Rounding fl where
  /-- a result is one of the numbers -/
  idem : ∀ x, fl (fl x) = fl x
  /-- no number is nearer than the result -/
  near : ∀ x z, fl z = z → z ≤ x → fl x - x ≤ x - z
  /-- for what is not minute, half a unit of the last of the 53 bits at most -/
  rel : ∀ x : Rat, 1 / 1267650600228229401496703205376 ≤ x → 9007199254740992 * (fl x - x) ≤ x

/-- A result of the clock, of the sine and of two random draws, as they can be while the last time is `last`: the clock does not go back and
has steps of a picosecond at least, the sine is between -1 and 1, the draws are between 0.85 and 1.15, taken a little wider for the rounding
of these ends. -/
structure Draw (last now sin c1 c2 : Rat) : Prop where
  clock : now = last ∨ last + 1 / 1000000000000 ≤ now
  low : -1 ≤ sin
  high : sin ≤ 1
  phi1 : 4 / 5 ≤ c1 ∧ c1 ≤ 6 / 5
  phi2 : 4 / 5 ≤ c2 ∧ c2 ≤ 6 / 5

end Wifinfo.Spec
