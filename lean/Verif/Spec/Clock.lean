import Verif.Spec.Calendar
import Verif.Spec.Http

/-!
# Dates as the C library prints them
-/

namespace Wifinfo.Spec
open Wifinfo

/-- The number given for a word in `word=1`. -/
def wordValue (word w : Str) : Option Nat :=
  match cutAt 61 w with
  | (k, some v) => if k = word ∧ v ≠ [] ∧ numeral v = true then some (decVal v) else none
  | _ => none

/-- The number that a line of the form `name: a=1 b=2` gives for a word. -/
def lineValue (line word : Str) : Option Nat := (parts 32 line).findSome? (wordValue word)

/-- The fields of `struct tm` on a line denote `u` seconds from 1970-01-01 00:00 on in the time of the place; the day of the week
(0 for Sunday) and the day of the year (from 0 on) are those of this day. -/
def FieldsTell (line : Str) (u : Nat) : Prop :=
  ∃ (x : Day) (hour min sec : Nat), x.Exists ∧ hour < 24 ∧ min < 60 ∧ sec < 60 ∧
    86400 * x.number + 3600 * hour + 60 * min + sec = u ∧
    (lineValue line (bs "year")).map (1900 + ·) = some x.year ∧ (lineValue line (bs "mon")).map (· + 1) = some x.month ∧
    lineValue line (bs "mday") = some x.day ∧ lineValue line (bs "hour") = some hour ∧ lineValue line (bs "min") = some min ∧
    lineValue line (bs "sec") = some sec ∧ lineValue line (bs "wday") = some (weekday x.number) ∧
    (lineValue line (bs "yday")).map (Day.number ⟨x.year, 1, 1⟩ + ·) = some x.number

/-- The names of the days, from Sunday on. -/
def dayNames : List Str := [bs "Sun", bs "Mon", bs "Tue", bs "Wed", bs "Thu", bs "Fri", bs "Sat"]

/-- The names of the months. -/
def monthNames : List Str :=
  [bs "Jan", bs "Feb", bs "Mar", bs "Apr", bs "May", bs "Jun", bs "Jul", bs "Aug", bs "Sep", bs "Oct", bs "Nov", bs "Dec"]

/-- What a date such as `Sun Feb  2 12:12:00 2020` denotes, in seconds from 1970-01-01 00:00 on in the time of the place, provided
that the day of the week is the right one. -/
def readCtime (s : Str) : Option Nat := do
  if s.length = 24 ∧ s[3]? = some 32 ∧ s[7]? = some 32 ∧ s[10]? = some 32 ∧ s[13]? = some 58 ∧ s[16]? = some 58 ∧
      s[19]? = some 32 then
    let m := monthNames.findIdx (· == (s.drop 4).take 3)
    let d ← (if s[8]? = some 32 then numberAt s 9 1 else numberAt s 8 2 : Option Nat)
    let hour ← numberAt s 11 2
    let min ← numberAt s 14 2
    let sec ← numberAt s 17 2
    let x : Day := ⟨← numberAt s 20 4, m + 1, d⟩
    if x.Exists ∧ hour < 24 ∧ min < 60 ∧ sec < 60 ∧ dayNames[weekday x.number]? = some (s.take 3) then
      some (86400 * x.number + 3600 * hour + 60 * min + sec)
    else none
  else none

example : readCtime (bs "Sun Feb  2 12:12:00 2020") = some (1580641920 + 3600) := by decide +kernel
example : readCtime (bs "Mon Feb  2 12:12:00 2020") = none := by decide +kernel

end Wifinfo.Spec
