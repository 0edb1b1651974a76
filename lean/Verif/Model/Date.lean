import Verif.Model.Base
import Verif.Spec.Number

/-!
# The dates of the device: `src/teleinfo.h`, `src/sys.cpp`, `src/timesync.cpp`

`localtime` and `strftime` belong to the C library of the ESP8266 (newlib); they are modelled after its sources (`gmtime_r.c`,
`tzcalc_limits.c`, `localtime_r.c`), which is an assumption.  The time zone is `TZ_Europe_Paris` of the core,
`CET-1CEST,M3.5.0,M10.5.0/3` (timesync.cpp:49, 158).

Simplifications: times from 1970 on and without the range of `time_t`; months count from 1 in `gmDate` and from 0 in `Tm`.
-/

namespace Wifinfo
open Spec

/-- `gmtime_r`: the year, the month from 1 and the day of the month of a day from 1970 on. -/
def gmDate (days : Nat) : Nat × Nat × Nat :=
  let n := days + 719468
  let era := n / 146097
  let eraday := n % 146097
  let erayear := (eraday - eraday / 1460 + eraday / 36524 - eraday / 146096) / 365
  let yearday := eraday - (365 * erayear + erayear / 4 - erayear / 100)
  let month := (5 * yearday + 2) / 153
  let day := yearday - (153 * month + 2) / 5 + 1
  let month' := if month < 10 then month + 2 else month - 10
  (erayear + era * 400 + (if month' ≤ 1 then 1 else 0), month' + 1, day)

/-- `isleap` -/
def isLeap (y : Nat) : Bool := decide (y % 4 = 0) && (decide (y % 100 ≠ 0) || decide (y % 400 = 0))

/-- `__month_lengths` -/
def monthLengths (leap : Bool) : List Nat := [31, if leap then 29 else 28, 31, 30, 31, 30, 31, 31, 30, 31, 30, 31]

/-- `while (m_day >= ip[j-1]) m_day -= DAYSPERWEEK` -/
def backWeeks (len : Nat) : Nat → Nat → Nat
  | 0, d => d
  | f + 1, d => if len ≤ d then backWeeks len f (d - 7) else d

/-- `__tzcalc_limits`: the day of the rule `M<mon>.5.0`. -/
def ruleDay (year mon : Nat) : Nat :=
  let years := year - 1970
  let yearDays := years * 365 + (years + 1) / 4 - (years + 69) / 100 + (years + 369) / 400
  let ip := monthLengths (isLeap year)
  let days := yearDays + (ip.take (mon - 1)).sum
  let wday := (4 + days) % 7
  let diff := (7 - wday) % 7
  days + backWeeks (ip.getD (mon - 1) 0) 5 (4 * 7 + diff)

/-- Is it summer time ? `localtime_r`, with the rules of the zone: at 2:00 of the time +1, at 3:00 of the time +2. -/
def isDst (t : Nat) : Bool :=
  let year := (gmDate (t / 86400)).1
  decide (ruleDay year 3 * 86400 + 7200 - 3600 ≤ t) && decide (t < ruleDay year 10 * 86400 + 10800 - 7200)

/-- `tm_gmtoff`, in seconds -/
def gmtOff (t : Nat) : Nat := if isDst t then 7200 else 3600

/-- Two digits. -/
def pad2 (n : Nat) : Str := [UInt8.ofNat (48 + n / 10 % 10), UInt8.ofNat (48 + n % 10)]

/-- `struct tm`, with the full year instead of the years from 1900 on -/
structure Tm where
  sec : Nat
  min : Nat
  hour : Nat
  mday : Nat
  mon : Nat
  year : Nat
  wday : Nat
  yday : Nat
  isdst : Bool
deriving DecidableEq, Repr

/-- `gmtime_r`: the day of the year, from 0 on. -/
def gmYday (days : Nat) : Nat :=
  let eraday := (days + 719468) % 146097
  let erayear := (eraday - eraday / 1460 + eraday / 36524 - eraday / 146096) / 365
  let yearday := eraday - (365 * erayear + erayear / 4 - erayear / 100)
  if 306 ≤ yearday then yearday - 306 else yearday + 31 + 28 + (if isLeap erayear then 1 else 0)

/-- `gmtime_r` -/
def gmTm (t : Nat) : Tm :=
  let days := t / 86400
  let rem := t % 86400
  let (y, m, d) := gmDate days
  { sec := rem % 3600 % 60, min := rem % 3600 / 60, hour := rem / 3600, mday := d, mon := m - 1, year := y,
    wday := (4 + days) % 7, yday := gmYday days, isdst := false }

/-- `localtime_r`: the hours are added, and when the day is over the fields are corrected one by one. -/
def localTm (t : Nat) : Tm :=
  let r := gmTm t
  let len := (monthLengths (isLeap r.year)).getD r.mon 0
  let r := { r with isdst := isDst t, hour := r.hour + gmtOff t / 3600 }
  if 24 ≤ r.hour then
    let r := { r with yday := r.yday + 1, wday := if 6 < r.wday + 1 then 0 else r.wday + 1, mday := r.mday + 1, hour := r.hour - 24 }
    if len < r.mday then
      let r := { r with mday := r.mday - len, mon := r.mon + 1 }
      if r.mon = 12 then { r with mon := 0, year := r.year + 1, yday := 0 } else r
    else r
  else r

/-- `strftime("%Y-%m-%dT%H:%M:%S%z")`, with the difference to UTC -/
def strftimeIso (r : Tm) (off : Nat) : Str :=
  (if r.year < 10000 then pad2 (r.year / 100) ++ pad2 r.year else decText r.year) ++ [45] ++ pad2 (r.mon + 1) ++ [45] ++
    pad2 r.mday ++ [84] ++ pad2 r.hour ++ [58] ++ pad2 r.min ++ [58] ++ pad2 r.sec ++ [43] ++ pad2 (off / 3600) ++ pad2 (off / 60 % 60)

/-- The date of an instant. -/
def dateText (t : Nat) : Str := strftimeIso (localTm t) (gmtOff t)

/-- `get_timestamp_iso8601` teleinfo.h:331-337, `sys_time_now` sys.cpp:82-89: a text that does not fit into the buffer with its
NUL leaves the buffer unspecified. -/
def isoDate (t : Nat) : Option Str := if (dateText t).length < 32 then some (dateText t) else none

/-- The clock before the time is known, timesync.cpp:35, 147. -/
def rtcStart : Nat := 1510592825

end Wifinfo
