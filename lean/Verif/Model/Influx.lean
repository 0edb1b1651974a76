import Verif.Model.Gauges

/-!
# The collector of the dashboard: `tools/dashboard/wifinfo_sse/influx.py`

`json.loads` is the reader of `Spec/Json.lean`.  The database itself (`influxdb`) and the HTTP and event stream clients
(`requests`, `sseclient`) are not here: the collector is fed with the messages or the answers, and gives the points it
writes.  An exception that is not caught ends the program.  The event stream is used when the period is below thirty
seconds, polling otherwise (influx.py:170-173).
-/

namespace Wifinfo
open Spec

/-- A point of measure influx.py:75-91: `host`, `time` and the five fields. -/
structure Point where
  host : JVal
  time : JVal
  hchc : JVal
  hchp : JVal
  papp : JVal
  iinst : JVal
  ptec : JVal

/-- `insert_data` influx.py:70-93; `none` is the exception `KeyError` (or `TypeError` when it is not a dictionary). -/
def pointOf (data : JVal) : Option Point := do
  let host ← jsGet data (bs "ADCO")
  let time ← jsGet data (bs "timestamp")
  let hchc ← jsGet data (bs "HCHC")
  let hchp ← jsGet data (bs "HCHP")
  let papp ← jsGet data (bs "PAPP")
  let iinst ← jsGet data (bs "IINST")
  let ptec ← jsGet data (bs "PTEC")
  pure { host, time, hchc, hchp, papp, iinst, ptec }

/-! ## Event stream -/

/-- `sse` influx.py:95-123: is the program still running, `last_write`. -/
structure Collector where
  running : Bool
  last : Nat

/-- influx.py:100-106 -/
def Collector.init : Collector := { running := true, last := 0 }

/-- One message, at the time `t` in microseconds, influx.py:107-119.  `int(time.time() / frequency)` is computed here
without rounding.  An exception of `json.loads` or of `insert_data` is not caught (influx.py:121). -/
def Collector.message (freq : Nat) (s : Collector) (t : Nat) (data : Str) : Collector × List (Nat × Point) :=
  if s.running = false then (s, [])
  else
    let now := t / (1000000 * freq)
    if now = s.last then (s, [])
    else
      let s := { s with last := now }
      match parseJson data with
      | none => ({ s with running := false }, [])
      | some v =>
        match pointOf v with
        | none => ({ s with running := false }, [])
        | some p => (s, [(t, p)])

/-- What happens to the collector: a message comes, or the connection is lost and opened again. -/
inductive StreamEvent
  | message (t : Nat) (data : Str)
  | lost

/-- influx.py:100-106, 107-119, 121-124 -/
def Collector.step (freq : Nat) (s : Collector) : StreamEvent → Collector × List (Nat × Point)
  | .message t data => s.message freq t data
  | .lost => (if s.running then { s with last := 0 } else s, [])

/-- All the events; the points written, with the time of each. -/
def Collector.run (freq : Nat) (s : Collector) : List StreamEvent → Collector × List (Nat × Point)
  | [] => (s, [])
  | e :: l =>
    let (s, p) := s.step freq e
    let (s, q) := Collector.run freq s l
    (s, p ++ q)

/-! ## Polling -/

/-- `req` influx.py:126-143: is the program still running, `last_timestamp`. -/
structure Poller where
  running : Bool
  last : Option JVal

/-- influx.py:130 -/
def Poller.init : Poller := { running := true, last := none }

/-- `!=` of two values.  `odd` is the answer of Python when one of them is neither `None` nor a text. -/
def pyNe (odd : JVal → JVal → Bool) : Option JVal → Option JVal → Bool
  | some (.str a), some (.str b) => a != b
  | some a, some b => odd a b
  | none, none => false
  | _, _ => true

/-- One answer of `/json` with its code, influx.py:133-141. -/
def Poller.answer (odd : JVal → JVal → Bool) (s : Poller) (code : Nat) (body : Str) : Poller × List Point :=
  if s.running = false then (s, [])
  else if code = 200 then
    match parseJson body with
    | none => ({ s with running := false }, [])
    | some v =>
      match jsGet v (bs "timestamp") with
      | none => ({ s with running := false }, [])
      | some ts =>
        if pyNe odd (some ts) s.last then
          match pointOf v with
          | none => ({ running := false, last := some ts }, [])
          | some p => ({ s with last := some ts }, [p])
        else (s, [])
  else (s, [])

/-- The answers, one after the other. -/
def Poller.run (odd : JVal → JVal → Bool) (s : Poller) : List (Nat × Str) → Poller × List Point
  | [] => (s, [])
  | a :: l =>
    let (s, p) := s.answer odd a.1 a.2
    let (s, q) := Poller.run odd s l
    (s, p ++ q)

end Wifinfo
