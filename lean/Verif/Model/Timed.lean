import Verif.Model.Clock
import Verif.Model.Device

/-!
# The whole device with its millisecond clock

`Model/Device.lean` takes the expiry of the timers from outside; here it is computed.
-/

namespace Wifinfo

/-- The device and where the periods of its timers began. -/
structure Clocked where
  d : Device
  clk : Clocks

/-- Does this event call `tic_make_timers`?  main.cpp:71 in `setup`, config.cpp:458-459 at the end of the
handler of the configuration form (webserver.cpp:147-153), cli.cpp:101 -/
def Device.makesTimers (b : Build) (d : Device) : Event → Res Bool
  | .boot .. => pure true
  | .cliTimers => pure true
  | .handle r e =>
    match route b.cpuload e.static r.method r.uri with
    | .configForm => do
      let (a, _) ← getAuth d.nv.config r
      pure (a != .none)
    | _ => pure false
  | _ => pure false

/-- A meter byte: the timers are polled by `tic_notifs` tic.cpp:88-129, when the byte completes a frame (tic.cpp:61-78). -/
def Clocked.byte (b : Build) (s : Clocked) (ms : UInt32) (now : TimeVal) (conn : Nat → Bool) (x : Byte) :
    Res (Clocked × List Eff) := do
  let tm := s.d.timers
  let h := if s.d.nv.config.httpreq.host[0] ≠ 0 then tm.http.check s.clk.http ms else (false, s.clk.http)
  let j := tm.jeedom.check s.clk.jeedom ms
  let e := tm.emoncms.check s.clk.emoncms ms
  let v := tm.sse.check s.clk.sse ms
  let (d, l) ← s.d.byte b now ⟨h.1, j.1, e.1, v.1, false⟩ conn x
  pure (⟨d, if !s.d.tic.pause && d.tic.dec.ready then ⟨h.2, j.2, e.2, v.2⟩ else s.clk⟩, l)

/-- One event when `millis()` is `ms`.  The answers of the timers that a byte event of `Model/Device.lean` carries are
not used. -/
def Clocked.step (b : Build) (s : Clocked) (ms : UInt32) (ev : Event) : Res (Clocked × List Eff) :=
  match ev with
  | .byte now _ conn x => s.byte b ms now conn x
  | ev => do
    let made ← s.d.makesTimers b ev
    let (d, l) ← s.d.step b ev
    pure (⟨d, if made then Clocks.make ms else s.clk⟩, l)

end Wifinfo
