import Verif.Model.Sys
import Verif.Model.Store

/-!
# The network and the options on the system page: `src/sys.cpp`, `src/main.cpp`, `platformio.ini`

Simplified: the radio is that of the SDK: it stays with the network of the last `WiFi.begin`, loses it and comes back to it by itself
(`WiFi.setAutoReconnect(true)`, sys.cpp:351), and `WiFi.disconnect()` makes it forget the network.  Posts to the configuration form are the
only changes of the settings that are not followed by a restart (cli.cpp:104-119, sys.cpp:382-392).
-/

namespace Wifinfo

/-- The radio, as the access points see it. -/
structure Radio where
  /-- the network it was told to join -/
  target : Option Str
  joined : Bool
  /-- how many times it has joined since the start -/
  joins : Nat

/-- The device. -/
structure Station where
  nv : Nv
  radio : Radio
  /-- `nb_reconnect` sys.cpp:45 -/
  nbReconnect : Nat

/-- What happens. -/
inductive StationOp
  /-- power-up or restart: `setup` main.cpp:20-80; what the SDK remembers, and the answers of `WiFi.status()` -/
  | start (id : UInt32) (k1 k2 : Commit) (sdkSsid sdkPsk : Str) (k : Commit) (status : Nat → Bool)
  /-- `POST /config_form.json` -/
  | post (a : Args) (restricted : Bool) (k : Commit)
  /-- the network is lost -/
  | lost
  /-- the network is there again -/
  | back

/-- The network given to `WiFi.begin` -/
def begun : List WifiEff → Option Str
  | [] => none
  | .begin n _ :: _ => some n
  | _ :: l => begun l

/-- One operation. -/
def Station.step (s : Station) : StationOp → Res Station
  | .start id k1 k2 sdkSsid sdkPsk k status => do
    let nv ← Nv.configSetup s.nv.ee.flash id k1 k2
    let nv ← nv.wifiSetup sdkSsid sdkPsk k
    let (ok, _, e) ← wifiConnect nv.config status
    -- `nb_reconnect++` sys.cpp:300, from zero
    pure { nv, radio := ⟨if ok then some ((begun e).getD sdkSsid) else none, ok, if ok then 1 else 0⟩,
           nbReconnect := if ok then 0 + 1 else 0 }
  | .post a r k => do
    let (nv, _) ← s.nv.handleForm a r k
    pure { s with nv }
  | .lost => pure { s with radio := { s.radio with joined := false } }
  | .back => pure (if s.radio.target.isSome && !s.radio.joined then
      { s with radio := { s.radio with joined := true, joins := s.radio.joins + 1 } } else s)

/-- A sequence of operations. -/
def Station.run (s : Station) : List StationOp → Res Station
  | [] => pure s
  | o :: l => do (← s.step o).run l

/-! ## Options -/

/-- The options of a build (README.md:128-132), and the name that sys.cpp:123 looks for. -/
structure Flags where
  debug : Bool
  cli : Bool
  led : Bool
  ota : Bool
  cpuload : Bool
  /-- `ENABLED_LED`, which no file of the project defines -/
  enabledLed : Bool := false

/-- The text of the row `Options` sys.cpp:116-132 -/
def Flags.text (f : Flags) : Str :=
  (if f.debug then bs " DEBUG" else []) ++ (if f.cli then bs " CLI" else []) ++ (if f.enabledLed then bs " LED" else []) ++
    (if f.ota then bs " OTA" else []) ++ (if f.cpuload then bs " CPULOAD" else [])

/-- The environments of platformio.ini:20-79 -/
def projectBuilds : List Flags :=
  [{ debug := true, cli := true, led := true, ota := true, cpuload := true },
   { debug := true, cli := true, led := true, ota := false, cpuload := false },
   { debug := false, cli := false, led := true, ota := false, cpuload := false },
   { debug := false, cli := false, led := true, ota := true, cpuload := false }]

/-- `/system.json` of a device: the rest of what it says is in `rest`. -/
def Station.page (s : Station) (f : Flags) (rest : SysEnv) (sse : Sse) (restricted : Bool) : Res Str :=
  sysInfoJson { rest with connected := s.radio.joined, nbReconnect := s.nbReconnect, flags := f.text } s.nv.config sse restricted

end Wifinfo
