import Verif.Model.Influx

/-!
# The panels of the dashboard: `tools/dashboard/dashboard.json`

The queries of the panels, as InfluxDB 1.x answers them (InfluxQL: `mean`, `max`, `min` and `GROUP BY time`, `derivative`, `last`).  Times
are in seconds, as the dates that the device gives.  The database is a list of measures; a measure with the same tag `host` and the
same date as another takes its place.  How Grafana draws the answers is left out.
-/

namespace Wifinfo
open Spec

/-- A point of the measurement `conso` with numbers: influx.py:75-91 -/
structure ConsoPoint where
  host : Int
  time : Nat
  hchc : Int
  hchp : Int
  papp : Int
  iinst : Int
deriving DecidableEq, Repr

/-- The point that the database keeps; `date` reads the date.  `none`: it refuses the point. -/
def measureOf (date : Str → Option Nat) (p : Point) : Option ConsoPoint :=
  match p.host, p.time, p.hchc, p.hchp, p.papp, p.iinst with
  | .int host, .str iso, .int hchc, .int hchp, .int papp, .int iinst =>
    (date iso).map fun time => { host, time, hchc, hchp, papp, iinst }
  | _, _, _, _, _, _ => none

/-- A point is written. -/
def storeMeasure (db : List ConsoPoint) (m : ConsoPoint) : List ConsoPoint :=
  db.filter (fun x => !(x.host == m.host && x.time == m.time)) ++ [m]

/-- Points are written one after the other. -/
def storeAll (ms : List ConsoPoint) : List ConsoPoint := ms.foldl storeMeasure []

/-! ## `SELECT last(...) FROM conso WHERE time > now() - 1h` -/

/-- `last`: the most recent; of two at the same time the larger value. -/
def later (f : ConsoPoint → Int) (best : Option ConsoPoint) (m : ConsoPoint) : Option ConsoPoint :=
  match best with
  | none => some m
  | some b => if b.time < m.time ∨ (b.time = m.time ∧ f b < f m) then some m else some b

/-- The panels *Index courant Heures Pleines*, *Heures Creuses* and *Puissance apparente courante* -/
def currentPanel (f : ConsoPoint → Int) (now : Nat) (db : List ConsoPoint) : Option Int :=
  ((db.filter fun m => now < m.time + 3600).foldl (later f) none).map f

/-! ## `SELECT derivative(mean(...), 3600s) FROM conso WHERE $timeFilter GROUP BY time($interval)` -/

/-- `mean` -/
def meanOf (f : ConsoPoint → Int) (l : List ConsoPoint) : Rat := (((l.map f).sum : Int) : Rat) / (l.length : Rat)

/-- The measures of the interval number `k` of `w` seconds, between the times `a` and `b` of the dashboard -/
def interval (w a b : Nat) (db : List ConsoPoint) (k : Nat) : List ConsoPoint :=
  db.filter fun m => decide (a ≤ m.time ∧ m.time ≤ b ∧ m.time / w = k)

/-- `mean` by intervals: those without a measure give nothing (they are null, and `derivative` passes them over). -/
def meansOf (f : ConsoPoint → Int) (w a b : Nat) (db : List ConsoPoint) : List (Nat × Rat) :=
  (List.range (b / w + 1)).filterMap fun k =>
    if interval w a b db k = [] then none else some (k * w, meanOf f (interval w a b db k))

/-- `derivative(..., unit)`: the change from one value to the next, by `unit` seconds -/
def derivativeOf (unit : Nat) : List (Nat × Rat) → List (Nat × Rat)
  | [] => []
  | [_] => []
  | x :: y :: l => (y.1, (y.2 - x.2) / (((y.1 : Rat) - (x.1 : Rat)) / (unit : Rat))) :: derivativeOf unit (y :: l)

/-- A curve of the panel *Consommation* -/
def consumption (f : ConsoPoint → Int) (w a b : Nat) (db : List ConsoPoint) : List (Nat × Rat) := derivativeOf 3600 (meansOf f w a b db)

/-- `$tarif_hc_ttc` -/
def tarifHc : Rat := 0.131988

/-- `$tarif_hp_ttc` -/
def tarifHp : Rat := 0.170988

/-- The panel *Coût*: every measure has both indexes, so the two curves have the same times. -/
def costPanel (w a b : Nat) (db : List ConsoPoint) : List (Nat × Rat) :=
  List.zipWith (fun x y => (x.1, x.2 * tarifHp / 1000 + y.2 * tarifHc / 1000))
    (consumption (·.hchp) w a b db) (consumption (·.hchc) w a b db)

/-! ## `SELECT max(...), mean(...), min(...) FROM conso WHERE $timeFilter GROUP BY time($interval)` -/

/-- `max` and `min` of values that are not empty -/
def maxOf (l : List Int) : Int := l.tail.foldl max (l.headD 0)
def minOf (l : List Int) : Int := l.tail.foldl min (l.headD 0)

/-- The panels *Intensité instantanée* and *Puissance apparente*: the start of the interval, `max`, `mean` and `min` -/
def rangePanel (f : ConsoPoint → Int) (w a b : Nat) (db : List ConsoPoint) : List (Nat × Int × Rat × Int) :=
  (List.range (b / w + 1)).filterMap fun k =>
    let l := interval w a b db k
    if l = [] then none else some (k * w, maxOf (l.map f), meanOf f l, minOf (l.map f))

end Wifinfo
