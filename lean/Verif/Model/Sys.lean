import Verif.Model.Json
import Verif.Model.Sse

/-!
# Model of `src/sys.cpp`, `src/cpuload.cpp` and of the JSON of `src/filesystem.cpp`

What the SDK answers is an argument (`SysEnv`).  Formatted sizes (`sys_format_size`, floating
point) are arguments too, as is the date (`strftime`).  Serial prints and the LED are left out.
-/

namespace Wifinfo
open Spec

/-- `%02d` of a number below 100 -/
def dec2 (n : Nat) : Str := [UInt8.ofNat (48 + n / 10 % 10), UInt8.ofNat (48 + n % 10)]

/-- Decimal text of an `int` (`%d`). -/
def decInt (n : Int) : Str := if n < 0 then 45 :: decText n.natAbs else decText n.natAbs

/-- `sys_uptime` sys.cpp:68-80 for an uptime of less than 2^31 seconds (after that the conversion
to `int` changes the value).  The text has at most 42 characters, the buffer has 64. -/
def sysUptime (micros : Nat) : Str :=
  let sec := micros / 1000000
  let min := sec / 60
  let hr := min / 60
  let day := hr / 24
  decText day ++ bs " days " ++ dec2 (hr % 24) ++ bs " h " ++ dec2 (min % 60) ++ bs " m " ++
    dec2 (sec % 60) ++ bs " sec"

/-- What the SDK and the build say when `/system.json` is asked. -/
structure SysEnv where
  micros : Nat
  timestamp : Str
  connected : Bool
  rssi : Int
  mac : Str
  nbReconnect : Nat
  version : Str
  built : Str
  flags : Str
  sdk : Str
  chipId : UInt32
  flashSize : Str
  sketchSize : Str
  flashFree : Str
  ramFree : Str
  /-- `cpuload_cpu()` in the builds that have it -/
  cpu : Option Int
  fsTotal : Nat
  fsUsed : Nat
  fsTotalText : Str
  fsUsedText : Str
  /-- `SseClient::remote()` -/
  remote : Nat → Str

/-- `SseClients::remotes` sse.h:109-117 -/
def Sse.remotes (s : Sse) (remote : Nat → Str) : Str := s.clients.flatMap fun c => remote c ++ bs " "

/-- `sys_get_info_json` sys.cpp:92-167.  `é` is two bytes in the sources. -/
def sysInfoJson (e : SysEnv) (c : Config) (sse : Sse) (restricted : Bool) : Res Str := do
  let s := Jt.open
  let s := Jt.text s (bs "Uptime") (sysUptime e.micros)
  let s := Jt.text s (bs "Timestamp") e.timestamp
  let s ← (if e.connected ∧ restricted = false then do
      let s := Jt.text s (bs "Wi-Fi R" ++ [0xC3, 0xA9] ++ bs "seau") (← c.ssid.cstr)
      let s := Jt.text s (bs "Wi-Fi RSSI") (decInt e.rssi ++ bs " dB")
      pure (Jt.text s (bs "Adresse MAC station") e.mac)
    else pure s : Res Str)
  let s := Jt.num s (bs "Nb reconnexions Wi-Fi") e.nbReconnect
  let s := if restricted then s else
    let s := Jt.text s (bs "WifInfo Version (Firmware)") e.version
    let s := Jt.text s (bs "Compil" ++ [0xC3, 0xA9] ++ bs " le") e.built
    let s := Jt.text s (bs "Options") e.flags
    let s := Jt.text s (bs "SDK Version") e.sdk
    let s := Jt.text s (bs "Chip ID") (bs "0x" ++ hex06 e.chipId)
    let s := Jt.text s (bs "Taille m" ++ [0xC3, 0xA9] ++ bs "moire Flash") e.flashSize
    Jt.text s (bs "Taille Firmware") e.sketchSize
  let s := Jt.text s (bs "M" ++ [0xC3, 0xA9] ++ bs "moire Flash libre") e.flashFree
  let s := Jt.text s (bs "M" ++ [0xC3, 0xA9] ++ bs "moire RAM libre") e.ramFree
  let s := match e.cpu with
    | some x => Jt.text s (bs "CPU") (decInt x ++ bs " %")
    | none => s
  let s := Jt.text s (bs "FS Total") e.fsTotalText
  let s := Jt.text s (bs "FS Utilis" ++ [0xC3, 0xA9] ++ bs "s") e.fsUsedText
  let s ← (if e.fsTotal = 0 then .error .divByZero
    else pure (Jt.text s (bs "FS Occupation") (decText (100 * e.fsUsed % 2 ^ 32 / e.fsTotal) ++ bs " %")) :
      Res Str)
  let s := Jt.num s (bs "SSE Clients") sse.clients.length
  let s := Jt.text s (bs "SSE Connexions") (sse.remotes e.remote)
  Jt.finalize s

/-- A network found by `WiFi.scanNetworks()`. -/
structure Ap where
  ssid : Str
  rssi : Int
  bssid : Str
  channel : Int
  encryption : Nat
deriving DecidableEq, Repr

/-- The body of the loop of `sys_wifi_scan_json` sys.cpp:186-208. -/
def apJson (a : Ap) : Str :=
  bs "{\"ssid\":\"" ++ a.ssid ++ bs "\",\"rssi\":" ++ decInt a.rssi ++ bs ",\"bssi\":\"" ++ a.bssid ++
    bs "\",\"channel\":" ++ decInt a.channel ++ bs ",\"encryptionType\":" ++ decText a.encryption ++ bs "}"

/-- The loop of `sys_wifi_scan_json` sys.cpp:186-208; `i` tells if it is not the first turn. -/
def scanLoop : Bool → Str → List Ap → Str
  | _, s, [] => s
  | i, s, a :: r => scanLoop true ((if i then s ++ bs "," else s) ++ apJson a) r

/-- `sys_wifi_scan_json` sys.cpp:170-212; `none` is a failed scan (a negative count). -/
def wifiScanJson (aps : Option (List Ap)) (restricted : Bool) : Str :=
  if restricted then bs "{}" else scanLoop false (bs "[") (aps.getD []) ++ bs "]"

/-- `fs_get_json` filesystem.cpp:38-75: the files listed and the sizes. -/
def fsJson (files : List (Str × Nat)) (total used : Nat) (restricted : Bool) : Res Str :=
  if restricted then pure (bs "{}") else do
    let s := bs "{\"files\":"
    let t ← Jt.finalize (files.foldl (fun t f => Jt.num t f.1 f.2) Jt.open)
    let s := s ++ t ++ bs ",\"info\":"
    let u := Jb.num (Jb.num Jb.open (bs "Total") total) (bs "Used") used true
    pure (s ++ u ++ bs "}")

/-! ## CPU load -/

/-- Static variables cpuload.cpp:14-17 -/
structure CpuLoad where
  counter : UInt32
  perfs : Vector UInt32 10
  index : Nat
deriving DecidableEq

/-- After static initialisation. -/
def CpuLoad.init : CpuLoad := { counter := 0, perfs := Vector.replicate 10 0, index := 0 }

/-- `cpuload_loop` cpuload.cpp:19-37; `fired` is the one-second timer. -/
def CpuLoad.loop (c : CpuLoad) (fired : Bool) : Res CpuLoad :=
  let n := c.counter + 1
  if fired then
    if h : c.index < 10 then
      .ok { counter := 0, perfs := c.perfs.set c.index n, index := (c.index + 1) % 10 }
    else .error .outOfBounds
  else .ok { c with counter := n }

/-- `MAX_COUNTER_80MHZ` cpuload.cpp:12 -/
def MAX_COUNTER : UInt32 := 85000

/-- The average cpuload.cpp:41-46: sum of the ten counts in 32 bits, divided by ten. -/
def CpuLoad.average (c : CpuLoad) : UInt32 := (c.perfs.toList.foldl (· + ·) 0) / 10

/-- `cpuload_cpu` cpuload.cpp:39-48: unsigned arithmetic, then conversion to `int`. -/
def CpuLoad.cpu (c : CpuLoad) : Int :=
  ((100 * (MAX_COUNTER - c.average)) / MAX_COUNTER).toInt32.toInt

/-! ## Wi-Fi connection -/

/-- What the connection does with the radio. -/
inductive WifiEff
  /-- `WiFi.begin(ssid, psk)` or `WiFi.begin(ssid)` sys.cpp:275, 282 -/
  | begin (ssid : Str) (psk : Option Str)
  /-- one turn of the waiting loop, 200 ms -/
  | wait
  /-- `WiFi.mode(WIFI_STA)` sys.cpp:302 -/
  | station
  /-- `WiFi.disconnect()` sys.cpp:321 -/
  | disconnect
  /-- `WiFi.softAP(ssid, psk)` or `WiFi.softAP(ssid)` sys.cpp:336, 342 -/
  | softAp (ssid : Str) (psk : Option Str)
deriving DecidableEq, Repr

/-- The loop sys.cpp:285-295: `status` is the sequence of answers of `WiFi.status()`, `i` the rank of
the next answer.  Returns the last status and the rank after it. -/
def wifiWait (status : Nat → Bool) : Nat → Nat → Bool × Nat × List WifiEff
  | 0, i => (status i, i + 1, [])
  | t + 1, i =>
    if status i then (true, i + 1, [])
    else
      let (r, j, e) := wifiWait status t (i + 1)
      (r, j, .wait :: e)

/-- `sys_wifi_connect` sys.cpp:215-352 without the copy from the SDK (`Nv.wifiSetup`) and the OTA
part, up to the decision (the status read once more for the result, sys.cpp:378, which nobody uses, is left
out); returns if connected, the number of status polls and the effects. -/
def wifiConnect (c : Config) (status : Nat → Bool) : Res (Bool × Nat × List WifiEff) := do
  let ret := status 0
  let (ret, polls, e) ← (if c.ssid[0] ≠ 0 then do
      let ssid ← c.ssid.cstr
      let psk ← (if c.psk[0] ≠ 0 then do pure (some (← c.psk.cstr)) else pure none : Res (Option Str))
      let (ret, j, e) := wifiWait status 50 1
      pure (ret, j, .begin ssid psk :: e)
    else pure (ret, 1, []) : Res (Bool × Nat × List WifiEff))
  if ret then pure (ret, polls, e ++ [.station])
  else do
    let host ← c.host.cstr
    let ap ← strncpyS (Vector.replicate 32 (0 : Byte)) host 31
    let ap ← ap.cstr
    let psk ← (if c.apPsk[0] ≠ 0 then do pure (some (← c.apPsk.cstr)) else pure none : Res (Option Str))
    pure (ret, polls, e ++ [.disconnect, .softAp ap psk])

end Wifinfo
