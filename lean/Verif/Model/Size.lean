import Verif.Model.Base
import Verif.Spec.Number

/-!
# The sizes of the system page: `sys_format_size`, src/sys.cpp:48-66

`String(double)` is `dtostrf(value, 4, 2, buffer)` of the Arduino core, modelled after its source (`core_esp8266_noniso.cpp`), which
is an assumption.  `fl` is the rounding of the operations on `double`.  The blanks that fill a width of 4 are left out: a number
with two decimals has at least four characters.
-/

namespace Wifinfo
open Spec

/-- `rounding = 2.0; for (i < prec) rounding *= 10.0; rounding = 1.0 / rounding` for two decimals. -/
def dtoRounding (fl : Rat → Rat) : Rat := fl (1 / fl (fl (2 * 10) * 10))

/-- `while (number >= 10.0 * tenpow) { tenpow *= 10.0; digitcount++; }`; 20 turns are enough for sizes. -/
def dtoScale (fl : Rat → Rat) (number : Rat) : Nat → Rat → Nat → Rat × Nat
  | 0, p, c => (p, c)
  | f + 1, p, c => if fl (10 * p) ≤ number then dtoScale fl number f (fl (10 * p)) (c + 1) else (p, c)

/-- `digit = (int8_t)number; if (digit > 9) digit = 9` -/
def dtoDigit (n : Rat) : Nat := min n.floor.toNat 9

/-- `while (digitcount-- > 0) …`: the digits, with the point before the last two. -/
def dtoDigits (fl : Rat → Rat) : Nat → Rat → Str
  | 0, _ => []
  | k + 1, n => UInt8.ofNat (48 + dtoDigit n) :: (if k = 2 then [46] else []) ++ dtoDigits fl k (fl (fl (n - dtoDigit n) * 10))

/-- `dtostrf(value, 4, 2, buffer)` of a number that is not negative -/
def dtostrf (fl : Rat → Rat) (x : Rat) : Str :=
  let number := fl (x + dtoRounding fl)
  let (tenpow, count) := dtoScale fl number 20 1 1
  dtoDigits fl (count + 2) (fl (number / tenpow))

/-- `sys_format_size` sys.cpp:48-66 -/
def sysFormatSize (fl : Rat → Rat) (bytes : Nat) : Str :=
  if bytes < 1024 then decText bytes ++ bs " byte"
  else if bytes < 1024 * 1024 then dtostrf fl (fl (bytes / 1024)) ++ bs " kB"
  else if bytes < 1024 * 1024 * 1024 then dtostrf fl (fl (fl (bytes / 1024) / 1024)) ++ bs " MB"
  else dtostrf fl (fl (fl (fl (bytes / 1024) / 1024) / 1024)) ++ bs " GB"

end Wifinfo
