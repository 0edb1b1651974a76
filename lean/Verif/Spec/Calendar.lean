import Verif.Spec.Number

/-!
# The calendar, the legal time in France, and dates of ISO 8601

The Gregorian calendar from 1970 on, without leap seconds (POSIX).  Days are numbered from 1970-01-01, a Thursday.
-/

namespace Wifinfo.Spec
open Wifinfo

/-- Leap years. -/
def leapYear (y : Nat) : Bool := y % 4 == 0 && (y % 100 != 0 || y % 400 == 0)

/-- The days of a year. -/
def yearDays (y : Nat) : Nat := if leapYear y then 366 else 365

/-- The days of a month. -/
def monthDays (y m : Nat) : Nat :=
  if m = 2 then if leapYear y then 29 else 28
  else if m = 4 ∨ m = 6 ∨ m = 9 ∨ m = 11 then 30 else 31

/-- The days before the year `1970 + k`. -/
def yearStart : Nat → Nat
  | 0 => 0
  | k + 1 => yearStart k + yearDays (1970 + k)

/-- The days of the first `m` months of a year. -/
def monthStart (y : Nat) : Nat → Nat
  | 0 => 0
  | m + 1 => monthStart y m + monthDays y (m + 1)

/-- A day of the calendar. -/
structure Day where
  year : Nat
  month : Nat
  day : Nat
deriving DecidableEq, Repr

/-- The day exists. -/
def Day.Exists (x : Day) : Prop := 1970 ≤ x.year ∧ 1 ≤ x.month ∧ x.month ≤ 12 ∧ 1 ≤ x.day ∧ x.day ≤ monthDays x.year x.month

instance (x : Day) : Decidable x.Exists := by unfold Day.Exists; infer_instance

/-- Its number. -/
def Day.number (x : Day) : Nat := yearStart (x.year - 1970) + monthStart x.year (x.month - 1) + (x.day - 1)

/-- The day of the week, 0 for Sunday. -/
def weekday (n : Nat) : Nat := (n + 4) % 7

/-- `n` is the number of the last Sunday of a month. -/
def LastSunday (y m n : Nat) : Prop :=
  ∃ d, Day.Exists ⟨y, m, d⟩ ∧ n = Day.number ⟨y, m, d⟩ ∧ weekday n = 0 ∧ ¬ Day.Exists ⟨y, m, d + 7⟩

/-- Summer time (directive 2000/84/EC): from 1:00 UTC on the last Sunday of March to 1:00 UTC on the last Sunday of October. -/
def SummerTime (t : Nat) : Prop :=
  ∃ y a b, LastSunday y 3 a ∧ LastSunday y 10 b ∧ 86400 * a + 3600 ≤ t ∧ t < 86400 * b + 3600

/-- `n` bytes from `i` on, a numeral. -/
def numberAt (s : Str) (i n : Nat) : Option Nat :=
  let f := (s.drop i).take n
  if f.length = n ∧ numeral f = true then some (decVal f) else none

/-- The instant that a date such as `2020-02-02T12:12:00+0100` (README.md:61) denotes, in seconds from 1970-01-01 00:00 UTC, and
the difference to UTC that it tells, in seconds. -/
def readInstant (s : Str) : Option (Int × Int) := do
  if s.length = 24 ∧ s[4]? = some 45 ∧ s[7]? = some 45 ∧ s[10]? = some 84 ∧ s[13]? = some 58 ∧ s[16]? = some 58 ∧
      (s[19]? = some 43 ∨ s[19]? = some 45) then
    let x : Day := ⟨← numberAt s 0 4, ← numberAt s 5 2, ← numberAt s 8 2⟩
    let hour ← numberAt s 11 2
    let min ← numberAt s 14 2
    let sec ← numberAt s 17 2
    let h ← numberAt s 20 2
    let m ← numberAt s 22 2
    if x.Exists ∧ hour < 24 ∧ min < 60 ∧ sec < 60 ∧ h < 24 ∧ m < 60 then
      let off : Int := if s[19]? = some 43 then 3600 * h + 60 * m else -(3600 * h + 60 * m)
      some (86400 * x.number + 3600 * hour + 60 * min + sec - off, off)
    else none
  else none

example : readInstant (bs "2020-02-02T12:12:00+0100") = some (1580641920, 3600) := by decide +kernel

end Wifinfo.Spec
