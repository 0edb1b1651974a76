import Verif.Spec.Frame
import Verif.Spec.Number

/-!
# Specification of the textual dump and of the power estimate
-/

namespace Wifinfo.Spec
open Wifinfo

/-- The textual dump of a list of pairs: one `LABEL value` line per pair. -/
def dumpText (ps : List (Str × Str)) : Str := ps.flatMap fun p => p.1 ++ 32 :: p.2 ++ [10]

/-- A measurement: time in milliseconds and energy index in Wh, as plain integers. -/
structure Measure where
  ms : Nat
  wh : Nat
deriving DecidableEq, Repr

/-- The oldest measurement of the unbroken run, going back in time from `now`, of measurements
dated within the last `period` ms; `cur` if there is none. -/
def oldest (now period : Nat) : Measure → List Measure → Measure
  | cur, [] => cur
  | cur, m :: r => if m.ms ≤ now ∧ now ≤ m.ms + period then oldest now period m r else cur

/-- Average power in W over the last `period` seconds, from the measurements, latest first: slope
between the latest measurement and the oldest one of the run, among the 48 last ones. -/
def averagePower (period : Nat) : List Measure → Nat
  | [] => 0
  | m :: r =>
    let o := oldest m.ms (period * 1000) m (r.take 47)
    if m.ms = o.ms then 0 else 3600000 * (m.wh - o.wh) / (m.ms - o.ms)

/-- The latest measurement and the oldest one of the run that the average is taken from. -/
def powerSpan (period : Nat) : List Measure → Option (Measure × Measure)
  | [] => none
  | m :: r => some (m, oldest m.ms (period * 1000) m (r.take 47))

end Wifinfo.Spec
