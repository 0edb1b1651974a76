import Verif.Model.Config
import Verif.Spec.Number

/-!
# Updates over the air: `src/sys.cpp`, with ENABLE_OTA (environments `esp12` and `esp12e_prod` of platformio.ini)

`ArduinoOTA` belongs to the core of the ESP8266 and is modelled after its source (`ArduinoOTA.cpp`, release 2.7), which is an
assumption: the settings, the datagrams and the authentication.  MD5 is a parameter.  Left out: the transfer itself (its outcome is
a parameter), mDNS, the LED, the messages on the serial line.
-/

namespace Wifinfo
open Spec

/-- `ota_state_t` -/
inductive OtaState
  | idle | waitAuth | runUpdate
deriving DecidableEq, Repr

/-- The members of `ArduinoOTAClass`; `password` is the MD5 of the password. -/
structure OtaLib where
  initialized : Bool
  port : Nat
  hostname : Str
  password : Str
  state : OtaState
  nonce : Str
deriving DecidableEq, Repr

/-- After its construction. -/
def OtaLib.new : OtaLib := { initialized := false, port := 0, hostname := [], password := [], state := .idle, nonce := [] }

/-- `setPort` -/
def OtaLib.setPort (o : OtaLib) (port : Nat) : OtaLib :=
  if !o.initialized && o.port == 0 && port != 0 then { o with port } else o

/-- `setHostname` -/
def OtaLib.setHostname (o : OtaLib) (hostname : Str) : OtaLib :=
  if !o.initialized && o.hostname.length == 0 then { o with hostname } else o

/-- `setPassword` -/
def OtaLib.setPassword (md5 : Str → Str) (o : OtaLib) (password : Str) : OtaLib :=
  if !o.initialized && o.password.length == 0 then { o with password := md5 password } else o

/-- `begin` -/
def OtaLib.begin (o : OtaLib) (chip : Str) : OtaLib :=
  if o.initialized then o
  else
    { o with
      hostname := if o.hostname.length == 0 then chip else o.hostname
      port := if o.port == 0 then 8266 else o.port
      initialized := true
      state := .idle }

/-- The settings at the end of `sys_wifi_connect` sys.cpp:356-361; `chip` is the name the library makes of the chip. -/
def otaStart (md5 : Str → Str) (c : Config) (chip : Str) : Res OtaLib := do
  let host ← c.host.cstr
  let auth ← c.otaAuth.cstr
  pure ((((OtaLib.new.setPort c.otaPort.toNat).setHostname host).setPassword md5 auth).begin chip)

/-- `parseInt`: spaces, then at most 15 digits; `atoi` of them, which saturates. -/
def otaInt (d : Str) : Nat × Str :=
  let d := d.dropWhile (· == 32)
  let n := d.takeWhile digit
  if n.length < 16 then (min (decVal n) 2147483647, d.drop n.length) else (0, d.drop 16)

/-- `readStringUntil(end)`: a NUL ends it as well. -/
def otaUntil (e : Byte) (d : Str) : Str × Str :=
  let p : Byte → Bool := fun b => b != 0 && b != e
  (d.takeWhile p, (d.dropWhile p).drop 1)

/-- What the device does. -/
inductive OtaEff
  /-- the challenge is sent -/
  | challenge (nonce : Str)
  /-- `Authentication Failed` is sent -/
  | failed
  /-- the flash memory is written -/
  | install
  | restart
deriving DecidableEq, Repr

/-- `sys_ota_setup` sys.cpp:420-438: any error restarts, once the callback is installed. -/
def otaError (callback : Bool) : List OtaEff := if callback then [.restart] else []

/-- `String.trim` of a text, for its length -/
def otaTrim (s : Str) : Str :=
  let sp : Byte → Bool := fun b => b == 32 || (9 ≤ b && b ≤ 13)
  ((s.dropWhile sp).reverse.dropWhile sp).reverse

/-- `_onRx`: a datagram arrives when `micros()` is `us`. -/
def OtaLib.receive (md5 : Str → Str) (callback : Bool) (o : OtaLib) (d : Str) (us : Nat) : OtaLib × List OtaEff :=
  match o.state with
  | .idle =>
    let (cmd, d) := otaInt d
    if cmd ≠ 0 ∧ cmd ≠ 100 then (o, [])
    else
      let (_, d) := otaInt d
      let (_, d) := otaInt d
      let (sum, _) := otaUntil 10 (d.drop 1)
      if (otaTrim sum).length ≠ 32 then (o, [])
      else if o.password.length ≠ 0 then
        let nonce := md5 (decText us)
        ({ o with state := .waitAuth, nonce }, [.challenge nonce])
      else ({ o with state := .runUpdate }, [])
  | .waitAuth =>
    let (cmd, d) := otaInt d
    if cmd ≠ 200 then ({ o with state := .idle }, [])
    else
      let (cnonce, d) := otaUntil 32 (d.drop 1)
      let (response, _) := otaUntil 10 d
      if cnonce.length ≠ 32 ∨ response.length ≠ 32 then ({ o with state := .idle }, [])
      else if md5 (o.password ++ 58 :: o.nonce ++ 58 :: cnonce) = response then ({ o with state := .runUpdate }, [])
      else ({ o with state := .idle }, .failed :: otaError callback)
  | .runUpdate => (o, [])

/-- How `_runUpdate` ends: nothing can be written, or something is written and it fails, or it succeeds. -/
inductive OtaRun
  | refused | broken | done
deriving DecidableEq, Repr

/-- `ArduinoOTA.handle()` main.cpp:91, sys.cpp:373 -/
def OtaLib.handle (callback : Bool) (o : OtaLib) (run : OtaRun) : OtaLib × List OtaEff :=
  match o.state with
  | .runUpdate => ({ o with state := .idle },
    match run with
    | .refused => otaError callback
    | .broken => .install :: otaError callback
    | .done => [.install, .restart])
  | _ => (o, [])

/-- The device as far as these updates go: the settings now, the library, whether the callbacks are installed. -/
structure OtaDevice where
  config : Config
  lib : OtaLib
  callback : Bool

/-- What happens after the start. -/
inductive OtaEvent
  | datagram (d : Str) (us : Nat)
  /-- `handle` is called -/
  | handle (run : OtaRun)
  /-- `sys_ota_setup` (main.cpp:53) -/
  | callbacks
  /-- other settings are saved -/
  | saved (c : Config)

/-- The device at the end of `sys_wifi_connect`, with the settings read from the flash. -/
def OtaDevice.start (md5 : Str → Str) (c : Config) (chip : Str) : Res OtaDevice := do
  let lib ← otaStart md5 c chip
  pure { config := c, lib, callback := false }

/-- One event. -/
def OtaDevice.step (md5 : Str → Str) (v : OtaDevice) : OtaEvent → OtaDevice × List OtaEff
  | .datagram d us => let (lib, ef) := v.lib.receive md5 v.callback d us; ({ v with lib }, ef)
  | .handle run => let (lib, ef) := v.lib.handle v.callback run; ({ v with lib }, ef)
  | .callbacks => ({ v with callback := true }, [])
  | .saved c => ({ v with config := c }, [])

/-- All of them: what happens with what the device does (a device that restarts does not go on, the following events are then
meaningless). -/
def OtaDevice.run (md5 : Str → Str) (v : OtaDevice) : List OtaEvent → OtaDevice × List (OtaEvent × List OtaEff)
  | [] => (v, [])
  | e :: r =>
    let (v', ef) := v.step md5 e
    let (w, l) := v'.run md5 r
    (w, (e, ef) :: l)

end Wifinfo
