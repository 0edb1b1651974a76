import Verif.Model.Config
import Verif.Spec.Number

/-!
# Model of `src/jsonbuilder.h` and of `config_get_json`

An Arduino `String` is a list of bytes.  `s.concat(uint32_t)` writes the decimal text
(`Spec.decText`).
-/

namespace Wifinfo
open Spec

/-- `JSONBuilder` constructors jsonbuilder.h:13-24 (the second one clears the string first). -/
def Jb.open : Str := bs "{\""

/-- `append(name, const char *, last)` jsonbuilder.h:26-37 -/
def Jb.text (s name value : Str) (last : Bool := false) : Str :=
  s ++ name ++ bs "\":\"" ++ value ++ (if last then bs "\"}" else bs "\",\"")

/-- `append_without_quote` jsonbuilder.h:52-63 -/
def Jb.raw (s name value : Str) (last : Bool := false) : Str :=
  s ++ name ++ bs "\":" ++ value ++ (if last then bs "}" else bs ",\"")

/-- `append(name, uint32_t, last)` jsonbuilder.h:39-50 -/
def Jb.num (s name : Str) (value : Nat) (last : Bool := false) : Str :=
  Jb.raw s name (decText value) last

/-- `finalize` jsonbuilder.h:65-86: drops the last character, then replaces the new last one by
`}` unless it is `{`.  `s[s.length() - 1]` on an empty string is out of bounds. -/
def Jb.finalize (s : Str) : Res Str :=
  match s.dropLast.getLast? with
  | none => .error .outOfBounds
  | some c => if c = 0x7B then .ok (s.dropLast ++ [0x7D]) else .ok (s.dropLast.dropLast ++ [0x7D])

/-- `JSONTableBuilder` constructors jsonbuilder.h:94-105 -/
def Jt.open : Str := bs "["

/-- `append(name, const char *)` jsonbuilder.h:107-115 -/
def Jt.text (s name value : Str) : Str :=
  s ++ bs "{\"na\":\"" ++ name ++ bs "\",\"va\":\"" ++ value ++ bs "\"},"

/-- `append(name, uint32_t)` jsonbuilder.h:123-131 -/
def Jt.num (s name : Str) (value : Nat) : Str :=
  s ++ bs "{\"na\":\"" ++ name ++ bs "\",\"va\":" ++ decText value ++ bs "},"

/-- `finalize` jsonbuilder.h:133-141 -/
def Jt.finalize (s : Str) : Res Str :=
  match s.getLast? with
  | none => .error .outOfBounds
  | some c => if c = 0x5B then .ok (s ++ [0x5D]) else .ok (s.dropLast ++ [0x5D])

/-- A `bool` / bit-field converted to `uint32_t`. -/
def bit (b : Bool) : Nat := if b then 1 else 0

/-- `config_get_json` config.cpp:314-360 -/
def Config.getJson (c : Config) (restricted : Bool) : Res Str := do
  let s := Jb.open
  let s ← (if restricted then pure s else do
    let s := Jb.text s (bs "ssid") (← c.ssid.cstr)
    let s := Jb.text s (bs "psk") (← c.psk.cstr)
    let s := Jb.text s (bs "host") (← c.host.cstr)
    let s := Jb.text s (bs "ap_psk") (← c.apPsk.cstr)
    let s := Jb.text s (bs "ota_auth") (← c.otaAuth.cstr)
    let s := Jb.num s (bs "ota_port") c.otaPort.toNat
    let s := Jb.text s (bs "username") (← c.username.cstr)
    let s := Jb.text s (bs "password") (← c.password.cstr)
    pure s : Res Str)
  let s := Jb.num s (bs "sse_freq") c.sseFreq.toNat
  let s := Jb.num s (bs "cfg_led_tinfo") (bit (c.options &&& 1 != 0))
  let s := Jb.text s (bs "emon_host") (← c.emoncms.host.cstr)
  let s := Jb.num s (bs "emon_port") c.emoncms.port.toNat
  let s := Jb.text s (bs "emon_url") (← c.emoncms.url.cstr)
  let s := Jb.text s (bs "emon_apikey") (← c.emoncms.apikey.cstr)
  let s := Jb.num s (bs "emon_node") c.emoncms.node.toNat
  let s := Jb.num s (bs "emon_freq") c.emoncms.freq.toNat
  let s := Jb.text s (bs "jdom_host") (← c.jeedom.host.cstr)
  let s := Jb.num s (bs "jdom_port") c.jeedom.port.toNat
  let s := Jb.text s (bs "jdom_url") (← c.jeedom.url.cstr)
  let s := Jb.text s (bs "jdom_apikey") (← c.jeedom.apikey.cstr)
  let s := Jb.text s (bs "jdom_adco") (← c.jeedom.adco.cstr)
  let s := Jb.num s (bs "jdom_freq") c.jeedom.freq.toNat
  let s := Jb.text s (bs "httpreq_host") (← c.httpreq.host.cstr)
  let s := Jb.num s (bs "httpreq_port") c.httpreq.port.toNat
  let s := Jb.text s (bs "httpreq_url") (← c.httpreq.url.cstr)
  let s := Jb.num s (bs "httpreq_use_post") (bit c.httpreq.usePost)
  let s := Jb.num s (bs "httpreq_freq") c.httpreq.freq.toNat
  let s := Jb.num s (bs "httpreq_trigger_ptec") (bit c.httpreq.triggerPtec)
  let s := Jb.num s (bs "httpreq_trigger_adps") (bit c.httpreq.triggerAdps)
  let s := Jb.num s (bs "httpreq_trigger_seuils") (bit c.httpreq.triggerSeuils)
  let s := Jb.num s (bs "httpreq_seuil_bas") c.httpreq.seuilBas.toNat
  let s := Jb.num s (bs "httpreq_seuil_haut") c.httpreq.seuilHaut.toNat true
  pure s

end Wifinfo
