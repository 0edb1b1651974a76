import Verif.Model.Tic

/-!
# The timers of the notifications with the millisecond clock

In `Model/Tic.lean` the expiry of a timer is an argument.  Here it is computed from the 32-bit `millis()`, for a
`polledTimeout::periodicMs` as the framework documents it.  The class itself is in the ESP8266 core, not in /repo
(`test/support/PolledTimeout.h` is a stub without time).
-/

namespace Wifinfo

/-- `operator bool` of a `periodicMs` whose period began at `start`, polled at `ms`, and where the period begins
afterwards: true when a period has elapsed, and the beginning then moves by a whole number of periods.  Used at
tic.cpp:108, 114, 119, 124. -/
def Timer.check (t : Timer) (start ms : UInt32) : Bool × UInt32 :=
  match t with
  | .never => (false, start)
  | .always => (true, start)
  | .every p => if p ≤ ms - start then (true, start + (ms - start) / p * p) else (false, start)

/-- Where the periods of the four timers tic.cpp:37-40 began. -/
structure Clocks where
  http : UInt32
  jeedom : UInt32
  emoncms : UInt32
  sse : UInt32
deriving DecidableEq, Repr

/-- `tic_make_timers` at `ms`: `reset` begins a period.  tic.cpp:131-180 -/
def Clocks.make (ms : UInt32) : Clocks := ⟨ms, ms, ms, ms⟩

/-- A frame in `tinfo`, the clock when it is processed, whether there is an event-stream client. -/
structure Arrival where
  ms : UInt32
  clients : Bool
  t : Teleinfo

/-- `tic_notifs` tic.cpp:88-129 with the clock.  The HTTP timer is polled only when there is a host. -/
def timedNotifs (w : World) (c : Config) (tm : Timers) (k : Clocks) (s : NotifState) (a : Arrival) :
    Res (Clocks × NotifState × List Out) := do
  let h := if c.httpreq.host[0] ≠ 0 then tm.http.check k.http a.ms else (false, k.http)
  let j := tm.jeedom.check k.jeedom a.ms
  let e := tm.emoncms.check k.emoncms a.ms
  let v := tm.sse.check k.sse a.ms
  let (s, o) ← ticNotifs w c tm ⟨h.1, j.1, e.1, v.1, a.clients⟩ a.t s
  pure (⟨h.2, j.2, e.2, v.2⟩, s, o)

/-- Frame after frame: what is sent for each. -/
def timedRun (w : World) (c : Config) (tm : Timers) : Clocks → NotifState → List Arrival → Res (List (List Out))
  | _, _, [] => pure []
  | k, s, a :: as => do
    let (k, s, o) ← timedNotifs w c tm k s a
    let os ← timedRun w c tm k s as
    pure (o :: os)

end Wifinfo
