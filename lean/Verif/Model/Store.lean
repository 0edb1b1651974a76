import Verif.Model.Config

/-!
# Other operations on the stored configuration

`src/sys.cpp` (first Wi-Fi connection, factory reset) and `src/cli.cpp` (serial commands).
-/

namespace Wifinfo

/-- The first part of `sys_wifi_connect` sys.cpp:228-256: when there is no SSID in the
configuration, the one remembered by the SDK (`WiFi.SSID()`, `WiFi.psk()`) is copied and saved. -/
def Nv.wifiSetup (s : Nv) (sdkSsid sdkPsk : Str) (k : Commit) : Res Nv :=
  if s.config.ssid[0] = 0 then
    if sdkSsid = [] then pure s
    else do
      let ssid ← strncpyS s.config.ssid sdkSsid 32
      let psk ← if sdkPsk ≠ [] then strncpyS s.config.psk sdkPsk 32
        else pure (s.config.psk.setNul 0)
      pure (Nv.configSave { s with config := { s.config with ssid, psk } } k).1
  else pure s

/-- `set wifi <ssid> <psk>` cli.cpp:104-111 (the restart that follows is a boot). -/
def Nv.cliWifi (s : Nv) (ssid psk : Str) (k : Commit) : Res Nv := do
  let ssid ← strncpyS s.config.ssid ssid 32
  let psk ← strncpyS s.config.psk psk 64
  pure (Nv.configSave { s with config := { s.config with ssid, psk } } k).1

/-- `set ap <host> <psk>` cli.cpp:112-119. -/
def Nv.cliAp (s : Nv) (host psk : Str) (k : Commit) : Res Nv := do
  let host ← strncpyS s.config.host host 16
  let apPsk ← strncpyS s.config.apPsk psk 64
  pure (Nv.configSave { s with config := { s.config with host, apPsk } } k).1

/-- `esp reset` cli.cpp:180-204: EEPROM cleared. -/
def Nv.espReset (s : Nv) (k : Commit) : Nv :=
  { s with ee := { s.ee with ram := Vector.replicate 1024 0 }.commit k }

/-- What can happen to the configuration while the device runs. -/
inductive NvOp
  /-- power-up or restart: the flash is loaded (`config_setup`, main.cpp) -/
  | boot (chipId : UInt32) (k1 k2 : Commit)
  /-- power-up after something else has changed the flash (erase, external tool, corruption) -/
  | bootFrom (flash : Arr 1024) (chipId : UInt32) (k1 k2 : Commit)
  /-- `POST /config_form.json` -/
  | form (args : Args) (restricted : Bool) (k : Commit)
  /-- `/factory_reset` sys.cpp:382-392 -/
  | factoryReset (chipId : UInt32) (k : Commit)
  /-- Wi-Fi connection -/
  | wifi (sdkSsid sdkPsk : Str) (k : Commit)
  | cliWifi (ssid psk : Str) (k : Commit)
  | cliAp (host psk : Str) (k : Commit)
  | espReset (k : Commit)

/-- One operation. -/
def Nv.step (s : Nv) : NvOp → Res Nv
  | .boot id k1 k2 => Nv.configSetup s.ee.flash id k1 k2
  | .bootFrom f id k1 k2 => Nv.configSetup f id k1 k2
  | .form a r k => do let (s, _) ← s.handleForm a r k; pure s
  | .factoryReset id k => s.configReset id k
  | .wifi a b k => s.wifiSetup a b k
  | .cliWifi a b k => s.cliWifi a b k
  | .cliAp a b k => s.cliAp a b k
  | .espReset k => pure (s.espReset k)

end Wifinfo
