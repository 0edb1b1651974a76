import Verif.Model.Config
import Verif.Spec.Number

/-!
# Specification vocabulary of the configuration

What a user sees of a configuration: a list of named settings, each a text or a number; the values
a form post is meant to give; the external EEPROM tool (`tools/eeprom.py`) as an independent
description of the stored image.
-/

namespace Wifinfo.Spec
open Wifinfo

/-- The text held by a `char[]` member: what precedes its first NUL; nothing if there is none. -/
def textOf (raw : Str) : Option Str :=
  if (0 : Byte) ∈ raw then some (raw.takeWhile (· != 0)) else none

/-- Value of a setting; `text none` is a text without terminator. -/
inductive Setting
  | text (t : Option Str)
  | num (n : Nat)
deriving DecidableEq, Repr

/-- Settings which are about the network or the access to the device. -/
def privateSettings (c : Config) : List (String × Setting) :=
  [("ssid", .text (textOf c.ssid.toList)), ("psk", .text (textOf c.psk.toList)),
   ("host", .text (textOf c.host.toList)), ("ap_psk", .text (textOf c.apPsk.toList)),
   ("ota_auth", .text (textOf c.otaAuth.toList)), ("ota_port", .num c.otaPort.toNat),
   ("username", .text (textOf c.username.toList)), ("password", .text (textOf c.password.toList))]

/-- The other settings. -/
def publicSettings (c : Config) : List (String × Setting) :=
  [("sse_freq", .num c.sseFreq.toNat), ("cfg_led_tinfo", .num (c.options.toNat % 2)),
   ("emon_host", .text (textOf c.emoncms.host.toList)), ("emon_port", .num c.emoncms.port.toNat),
   ("emon_url", .text (textOf c.emoncms.url.toList)),
   ("emon_apikey", .text (textOf c.emoncms.apikey.toList)),
   ("emon_node", .num c.emoncms.node.toNat), ("emon_freq", .num c.emoncms.freq.toNat),
   ("jdom_host", .text (textOf c.jeedom.host.toList)), ("jdom_port", .num c.jeedom.port.toNat),
   ("jdom_url", .text (textOf c.jeedom.url.toList)),
   ("jdom_apikey", .text (textOf c.jeedom.apikey.toList)),
   ("jdom_adco", .text (textOf c.jeedom.adco.toList)), ("jdom_freq", .num c.jeedom.freq.toNat),
   ("httpreq_host", .text (textOf c.httpreq.host.toList)),
   ("httpreq_port", .num c.httpreq.port.toNat),
   ("httpreq_url", .text (textOf c.httpreq.url.toList)),
   ("httpreq_use_post", .num (c.httpreq.flags.toNat / 128 % 2)),
   ("httpreq_freq", .num c.httpreq.freq.toNat),
   ("httpreq_trigger_ptec", .num (c.httpreq.flags.toNat / 2 % 2)),
   ("httpreq_trigger_adps", .num (c.httpreq.flags.toNat % 2)),
   ("httpreq_trigger_seuils", .num (c.httpreq.flags.toNat / 4 % 2)),
   ("httpreq_seuil_bas", .num c.httpreq.seuilBas.toNat),
   ("httpreq_seuil_haut", .num c.httpreq.seuilHaut.toNat)]

/-- Everything the user can set. -/
def settings (c : Config) : List (String × Setting) := privateSettings c ++ publicSettings c

/-- Every text setting has a terminator inside its field. -/
def Terminated (c : Config) : Prop := ∀ p ∈ settings c, p.2 ≠ .text none

/-! ## Form posts -/

/-- The value posted under a name (the first one if there are several), empty if none. -/
def posted (a : Args) (name : String) : Str :=
  ((a.filter fun p => p.1 = bs name).head?.map Prod.snd).getD []

/-- Is there a value posted under that name? -/
def isPosted (a : Args) (name : String) : Bool := decide (∃ p ∈ a, p.1 = bs name)

/-- Blank character. -/
def blank (b : Byte) : Bool := b.toNat = 32 || (9 ≤ b.toNat && b.toNat ≤ 13)

/-- The integer a text begins with (blanks, sign, digits), 0 if none; no size limit. -/
def leadingInt (s : Str) : Int :=
  let r := s.dropWhile blank
  let neg := r.head? = some 45
  let r := if r.head? = some 45 ∨ r.head? = some 43 then r.tail else r
  let n : Int := decVal (r.takeWhile digit)
  if neg then -n else n

/-- The posted number if it is in `0..hi`, else the default. -/
def inRange (v : Str) (hi d : Nat) : Nat :=
  if 0 ≤ leadingInt v ∧ leadingInt v ≤ hi then (leadingInt v).toNat else d

/-- The posted text (up to a NUL if it has one) cut to `n` bytes. -/
def cutText (v : Str) (n : Nat) : Setting := .text (some ((v.takeWhile (· != 0)).take n))

/-- 0 or 1. -/
def flag (b : Bool) : Setting := .num (if b then 1 else 0)

/-- Network and access settings meant by a form post. -/
def postedPrivate (a : Args) : List (String × Setting) :=
  [("ssid", cutText (posted a "ssid") 32), ("psk", cutText (posted a "psk") 64),
   ("host", cutText (posted a "host") 16), ("ap_psk", cutText (posted a "ap_psk") 64),
   ("ota_auth", cutText (posted a "ota_auth") 64),
   ("ota_port", .num (inRange (posted a "ota_port") 65535 8266)),
   ("username", cutText (posted a "username") 31), ("password", cutText (posted a "password") 31)]

/-- Other settings meant by a form post. -/
def postedPublic (a : Args) : List (String × Setting) :=
  [("sse_freq", .num (inRange (posted a "sse_freq") 360 0)),
   ("cfg_led_tinfo", flag (isPosted a "cfg_led_tinfo")),
   ("emon_host", cutText (posted a "emon_host") 32),
   ("emon_port", .num (inRange (posted a "emon_port") 65535 80)),
   ("emon_url", cutText (posted a "emon_url") 32),
   ("emon_apikey", cutText (posted a "emon_apikey") 32),
   ("emon_node", .num (inRange (posted a "emon_node") 255 0)),
   ("emon_freq", .num (inRange (posted a "emon_freq") 86400 0)),
   ("jdom_host", cutText (posted a "jdom_host") 32),
   ("jdom_port", .num (inRange (posted a "jdom_port") 65535 80)),
   ("jdom_url", cutText (posted a "jdom_url") 64),
   ("jdom_apikey", cutText (posted a "jdom_apikey") 48),
   ("jdom_adco", cutText (posted a "jdom_adco") 12),
   ("jdom_freq", .num (inRange (posted a "jdom_freq") 86400 0)),
   ("httpreq_host", cutText (posted a "httpreq_host") 32),
   ("httpreq_port", .num (inRange (posted a "httpreq_port") 65535 80)),
   ("httpreq_url", cutText (posted a "httpreq_url") 150),
   ("httpreq_use_post", flag (isPosted a "httpreq_use_post")),
   ("httpreq_freq", .num (inRange (posted a "httpreq_freq") 86400 0)),
   ("httpreq_trigger_ptec", flag (isPosted a "httpreq_trigger_ptec")),
   ("httpreq_trigger_adps", flag (isPosted a "httpreq_trigger_adps")),
   ("httpreq_trigger_seuils", flag (isPosted a "httpreq_trigger_seuils")),
   ("httpreq_seuil_bas", .num (inRange (posted a "httpreq_seuil_bas") 20000 0)),
   ("httpreq_seuil_haut", .num (inRange (posted a "httpreq_seuil_haut") 20000 0))]

/-- Documented range of the numeric settings. -/
def maxOf : String → Nat
  | "ota_port" | "emon_port" | "jdom_port" | "httpreq_port" => 65535
  | "sse_freq" => 360
  | "emon_freq" | "jdom_freq" | "httpreq_freq" => 86400
  | "emon_node" => 255
  | "httpreq_seuil_bas" | "httpreq_seuil_haut" => 20000
  | _ => 1

/-! ## Factory defaults -/

/-- The settings of a device with chip identifier `id` after a factory reset (README and
config.h:35-61). -/
def factory (hostName : Str) : List (String × Setting) :=
  let t (s : String) : Setting := .text (some (bs s))
  [("ssid", t ""), ("psk", t ""), ("host", .text (some hostName)), ("ap_psk", t ""),
   ("ota_auth", t "OTA_WifInfo"), ("ota_port", .num 8266), ("username", t ""), ("password", t ""),
   ("sse_freq", .num 10), ("cfg_led_tinfo", .num 0),
   ("emon_host", t "emoncms.org"), ("emon_port", .num 80), ("emon_url", t "/input/post.json"),
   ("emon_apikey", t ""), ("emon_node", .num 0), ("emon_freq", .num 0),
   ("jdom_host", t ""), ("jdom_port", .num 80),
   ("jdom_url", t "/plugins/teleinfo/core/php/jeeTeleinfo.php"),
   ("jdom_apikey", t ""), ("jdom_adco", t ""), ("jdom_freq", .num 0),
   ("httpreq_host", t ""), ("httpreq_port", .num 80),
   ("httpreq_url",
     t "/json.htm?type=command&param=udevice&idx=1&nvalue=0&svalue=$HCHP;$HCHC;0;0;$PAPP;0"),
   ("httpreq_use_post", .num 0), ("httpreq_freq", .num 0), ("httpreq_trigger_ptec", .num 0),
   ("httpreq_trigger_adps", .num 0), ("httpreq_trigger_seuils", .num 0),
   ("httpreq_seuil_bas", .num 0), ("httpreq_seuil_haut", .num 0)]

/-! ## `tools/eeprom.py` -/

/-- Item of a Python `struct` format with `<` (little-endian, no padding). -/
inductive Fmt
  | s (n : Nat)
  | H
  | I
  | B

/-- A Python value. -/
inductive Py
  | bytes (b : Str)
  | int (n : Nat)
deriving DecidableEq

/-- Value of little-endian bytes. -/
def le : Str → Nat
  | [] => 0
  | b :: r => b.toNat + 256 * le r

/-- `struct.unpack_from(fmt, buf)`: the items one after the other. -/
def unpackFrom : List Fmt → Str → Option (List Py)
  | [], _ => some []
  | f :: fs, b =>
    let n := match f with | .s n => n | .H => 2 | .I => 4 | .B => 1
    if n ≤ b.length then
      (unpackFrom fs (b.drop n)).map fun r =>
        (match f with | .s _ => Py.bytes (b.take n) | _ => Py.int (le (b.take n))) :: r
    else none

/-- `b.rstrip(b"\0")` -/
def rstrip (b : Str) : Str := (b.reverse.dropWhile (· == 0)).reverse

/-- `read_eeprom` eeprom.py:119-167, in the order of `settings`; texts are kept as bytes (the tool
decodes them as UTF-8).  `none`: the tool raises an exception. -/
def readEeprom (img : Str) : Option (List (String × Py) × Nat) := do
  if img.length ≠ 1024 then none
  match ← unpackFrom [.s 33, .s 65, .s 17, .s 65, .s 65, .I, .H, .H, .s 32, .s 32, .s 65, .s 128,
      .s 256, .s 256, .H] img with
  | [.bytes d0, .bytes d1, .bytes d2, .bytes d3, .bytes d4, .int d5, .int d6, .int d7, .bytes d8,
      .bytes d9, .bytes _, .bytes d11, .bytes d12, .bytes d13, .int d14] =>
    match ← unpackFrom [.s 33, .s 33, .s 33, .H, .B, .I] d11,
      ← unpackFrom [.s 33, .s 49, .s 65, .s 13, .H, .I] d12,
      ← unpackFrom [.s 33, .s 151, .H, .I, .B, .H, .H] d13 with
    | [.bytes e0, .bytes e1, .bytes e2, .int e3, .int e4, .int e5],
      [.bytes j0, .bytes j1, .bytes j2, .bytes j3, .int j4, .int j5],
      [.bytes h0, .bytes h1, .int h2, .int h3, .int h4, .int h5, .int h6] =>
      some ([("ssid", .bytes (rstrip d0)), ("psk", .bytes (rstrip d1)), ("host", .bytes (rstrip d2)),
        ("ap_psk", .bytes (rstrip d3)), ("ota_auth", .bytes (rstrip d4)), ("ota_port", .int d6),
        ("username", .bytes (rstrip d8)), ("password", .bytes (rstrip d9)),
        ("sse_freq", .int d7), ("cfg_led_tinfo", .int (d5 &&& 1)),
        ("emon_host", .bytes (rstrip e0)), ("emon_port", .int e3), ("emon_url", .bytes (rstrip e2)),
        ("emon_apikey", .bytes (rstrip e1)), ("emon_node", .int e4), ("emon_freq", .int e5),
        ("jdom_host", .bytes (rstrip j0)), ("jdom_port", .int j4), ("jdom_url", .bytes (rstrip j2)),
        ("jdom_apikey", .bytes (rstrip j1)), ("jdom_adco", .bytes (rstrip j3)),
        ("jdom_freq", .int j5),
        ("httpreq_host", .bytes (rstrip h0)), ("httpreq_port", .int h2),
        ("httpreq_url", .bytes (rstrip h1)), ("httpreq_use_post", .int ((h4 &&& 128) >>> 7)),
        ("httpreq_freq", .int h3), ("httpreq_trigger_ptec", .int ((h4 &&& 2) >>> 1)),
        ("httpreq_trigger_adps", .int (h4 &&& 1)),
        ("httpreq_trigger_seuils", .int ((h4 &&& 4) >>> 2)),
        ("httpreq_seuil_bas", .int h6), ("httpreq_seuil_haut", .int h5)], d14)
    | _, _, _ => none
  | _ => none

/-- `struct.pack` of one item; `none`: `struct.error`. -/
def packItem : Fmt → Py → Option Str
  | .s n, .bytes b => some (b.take n ++ List.replicate (n - b.length) 0)
  | .H, .int n => if n < 65536 then some [UInt8.ofNat n, UInt8.ofNat (n / 256)] else none
  | .I, .int n => if n < 4294967296 then some [UInt8.ofNat n, UInt8.ofNat (n / 256),
      UInt8.ofNat (n / 65536), UInt8.ofNat (n / 16777216)] else none
  | .B, .int n => if n < 256 then some [UInt8.ofNat n] else none
  | _, _ => none

/-- `struct.pack` -/
def pack : List (Fmt × Py) → Option Str
  | [] => some []
  | (f, v) :: r => do
    let a ← packItem f v
    let b ← pack r
    some (a ++ b)

/-- The tool's checksum loop eeprom.py:99-107 on Python integers. -/
def toolCrc (x : Str) : Nat :=
  x.foldl (fun crc a =>
    (List.range 8).foldl (fun crc _ => if crc % 2 = 1 then (crc >>> 1) ^^^ 0xA001 else crc >>> 1)
      (crc ^^^ a.toNat)) 0xFFFF

/-- The configuration file of the tool: a Python dictionary. -/
structure ToolConf where
  text : String → Str
  num : String → Nat

/-- The numbers fit their fields and the switches are 0 or 1. -/
structure ToolConf.Valid (c : ToolConf) : Prop where
  port : ∀ n ∈ ["ota_port", "sse_freq", "emon_port", "jdom_port", "httpreq_port",
    "httpreq_seuil_bas", "httpreq_seuil_haut"], c.num n < 65536
  freq : ∀ n ∈ ["emon_freq", "jdom_freq", "httpreq_freq"], c.num n < 4294967296
  node : c.num "emon_node" < 256
  switch : ∀ n ∈ ["cfg_led_tinfo", "httpreq_use_post", "httpreq_trigger_ptec",
    "httpreq_trigger_adps", "httpreq_trigger_seuils"], c.num n ≤ 1

/-- The settings described by a configuration file: each text, cut to the length of its field. -/
def ToolConf.settings (c : ToolConf) : List (String × Setting) :=
  let t (s : String) (n : Nat) : String × Setting := (s, cutText (c.text s) n)
  let n (s : String) : String × Setting := (s, .num (c.num s))
  [t "ssid" 32, t "psk" 64, t "host" 16, t "ap_psk" 64, t "ota_auth" 64, n "ota_port",
   t "username" 31, t "password" 31, n "sse_freq", n "cfg_led_tinfo",
   t "emon_host" 32, n "emon_port", t "emon_url" 32, t "emon_apikey" 32, n "emon_node", n "emon_freq",
   t "jdom_host" 32, n "jdom_port", t "jdom_url" 64, t "jdom_apikey" 48, t "jdom_adco" 12,
   n "jdom_freq", t "httpreq_host" 32, n "httpreq_port", t "httpreq_url" 150, n "httpreq_use_post",
   n "httpreq_freq", n "httpreq_trigger_ptec", n "httpreq_trigger_adps", n "httpreq_trigger_seuils",
   n "httpreq_seuil_bas", n "httpreq_seuil_haut"]

/-- `write_eeprom` eeprom.py:49-116 -/
def writeEeprom (c : ToolConf) : Option Str := do
  let t (s : String) := Py.bytes (c.text s)
  let n (s : String) := Py.int (c.num s)
  let emoncms ← pack [(.s 33, t "emon_host"), (.s 33, t "emon_apikey"), (.s 33, t "emon_url"),
    (.H, n "emon_port"), (.B, n "emon_node"), (.I, n "emon_freq")]
  let jeedom ← pack [(.s 33, t "jdom_host"), (.s 49, t "jdom_apikey"), (.s 65, t "jdom_url"),
    (.s 13, t "jdom_adco"), (.H, n "jdom_port"), (.I, n "jdom_freq")]
  let httpreq ← pack [(.s 33, t "httpreq_host"), (.s 151, t "httpreq_url"), (.H, n "httpreq_port"),
    (.I, n "httpreq_freq"),
    (.B, .int (c.num "httpreq_trigger_adps" ||| c.num "httpreq_trigger_ptec" <<< 1
      ||| c.num "httpreq_trigger_seuils" <<< 2 ||| c.num "httpreq_use_post" <<< 7)),
    (.H, n "httpreq_seuil_haut"), (.H, n "httpreq_seuil_bas")]
  let e ← pack [(.s 33, t "ssid"), (.s 65, t "psk"), (.s 17, t "host"), (.s 65, t "ap_psk"),
    (.s 65, t "ota_auth"), (.I, n "cfg_led_tinfo"), (.H, n "ota_port"), (.H, n "sse_freq"),
    (.s 32, t "username"), (.s 32, t "password"), (.s 65, .bytes []), (.s 128, .bytes emoncms),
    (.s 256, .bytes jeedom), (.s 256, .bytes httpreq)]
  let crc ← pack [(.H, .int (toolCrc e))]
  let img := e ++ crc
  if img.length ≠ 1024 then none else some img

end Wifinfo.Spec
