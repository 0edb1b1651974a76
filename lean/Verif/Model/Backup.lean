import Verif.Spec.Settings
import Verif.Spec.Json

/-!
# Saving the settings to a file and putting them back: `tools/eeprom.py`

`eeprom.py read -o config.json` reads the settings of the device and writes them as JSON,
`eeprom.py write -i config.json` makes an image of such a file.  The packing of the fields is in
`Spec.readEeprom` and `Spec.writeEeprom`; here are the texts (`decode`, `encode`), the writing of the file
(`json.dump`) and its reading (`json.load`, for which the JSON parser of the specifications is taken).

Simplified: the members of the file are in the order of `Spec.readEeprom`, which is not the one of the dictionary of the
tool; the YAML and `.bin` formats, `esptool.py` and the question asked before writing are in `Model/EepromTool.lean`.
-/

namespace Wifinfo
open Spec

/-! ## `bytes.decode()`: strict UTF-8 -/

/-- Value of a continuation byte. -/
def utf8Cont (b : Byte) : Option Nat := if 0x80 ≤ b.toNat ∧ b.toNat < 0xC0 then some (b.toNat - 0x80) else none

/-- The first character of a text, and what follows; `none`: `UnicodeDecodeError`.  Overlong forms, surrogates and values
above 10FFFF are errors. -/
def utf8Next : Str → Option (Nat × Str)
  | [] => none
  | b :: r =>
    if b.toNat < 0x80 then some (b.toNat, r)
    else if b.toNat < 0xC0 then none
    else if b.toNat < 0xE0 then
      match r with
      | c :: r => do
        let x ← utf8Cont c
        let n := (b.toNat - 0xC0) * 64 + x
        if 0x80 ≤ n then some (n, r) else none
      | _ => none
    else if b.toNat < 0xF0 then
      match r with
      | c :: d :: r => do
        let x ← utf8Cont c
        let y ← utf8Cont d
        let n := (b.toNat - 0xE0) * 4096 + x * 64 + y
        if 0x800 ≤ n ∧ ¬ (0xD800 ≤ n ∧ n < 0xE000) then some (n, r) else none
      | _ => none
    else if b.toNat < 0xF8 then
      match r with
      | c :: d :: e :: r => do
        let x ← utf8Cont c
        let y ← utf8Cont d
        let z ← utf8Cont e
        let n := (b.toNat - 0xF0) * 262144 + x * 4096 + y * 64 + z
        if 0x10000 ≤ n ∧ n < 0x110000 then some (n, r) else none
      | _ => none
    else none

/-- The characters of a text, with enough fuel. -/
def utf8All : Nat → Str → Option (List Nat)
  | _, [] => some []
  | 0, _ :: _ => none
  | f + 1, b :: r => do
    let (n, r) ← utf8Next (b :: r)
    let l ← utf8All f r
    pure (n :: l)

/-- `b.decode()` eeprom.py:125-162 -/
def pyDecode (b : Str) : Option (List Nat) := utf8All b.length b

/-! ## `json.dump(config, output, indent=4)` -/

/-- A hexadecimal digit, in lower case. -/
def lowHex (n : Nat) : Byte := if n < 10 then UInt8.ofNat (48 + n) else UInt8.ofNat (87 + n)

/-- Four hexadecimal digits (`"{0:04x}"`). -/
def lowHex4 (n : Nat) : Str := [lowHex (n / 4096 % 16), lowHex (n / 256 % 16), lowHex (n / 16 % 16), lowHex (n % 16)]

/-- A character inside a JSON string (`py_encode_basestring_ascii` of Python's `json/encoder.py`). -/
def dumpChar (n : Nat) : Str :=
  if n = 34 then [92, 34]
  else if n = 92 then [92, 92]
  else if n = 10 then [92, 110]
  else if n = 13 then [92, 114]
  else if n = 9 then [92, 116]
  else if n = 12 then [92, 102]
  else if n = 8 then [92, 98]
  else if 32 ≤ n ∧ n ≤ 126 then [UInt8.ofNat n]
  else if n < 0x10000 then 92 :: 117 :: lowHex4 n
  else 92 :: 117 :: lowHex4 (0xD800 + (n - 0x10000) / 1024) ++ 92 :: 117 :: lowHex4 (0xDC00 + (n - 0x10000) % 1024)

/-- Values of the dictionary. -/
inductive PyVal
  | str (s : List Nat)
  | int (n : Nat)

/-- A value in the file. -/
def dumpValue : PyVal → Str
  | .str s => 34 :: s.flatMap dumpChar ++ [34]
  | .int n => decText n

/-- The members, one by line, indented, and the end of the object. -/
def dumpMembers : List (String × PyVal) → Str
  | [] => bs "\n}"
  | [x] => bs "\n    \"" ++ bs x.1 ++ bs "\": " ++ dumpValue x.2 ++ bs "\n}"
  | x :: l => bs "\n    \"" ++ bs x.1 ++ bs "\": " ++ dumpValue x.2 ++ bs "," ++ dumpMembers l

/-- The text of a dictionary which is not empty. -/
def jsonDump (l : List (String × PyVal)) : Str := 123 :: dumpMembers l

/-- The texts decoded. -/
def decodeAll : List (String × Py) → Option (List (String × PyVal))
  | [] => some []
  | (n, .int k) :: l => do pure ((n, .int k) :: (← decodeAll l))
  | (n, .bytes b) :: l => do
    let s ← pyDecode b
    pure ((n, .str s) :: (← decodeAll l))

/-- `eeprom.py read -o config.json` eeprom.py:119-168, 236-262: the file for the content of the flash; `none`: the tool
fails. -/
def toolBackup (image : Str) : Option Str := do
  let (l, crc) ← readEeprom image
  let l ← decodeAll l
  pure (jsonDump (l ++ [("crc", .str ((bs "0x" ++ lowHex4 crc).map UInt8.toNat))]))

/-! ## `json.load` and `write_eeprom` -/

/-- `config[name]` in what `json.load` gives: the last member of the name. -/
def dictGet (l : List (Str × JVal)) (n : String) : Option JVal :=
  (l.reverse.find? fun p => p.1 == bs n).map (·.2)

/-- `config[name].encode()` eeprom.py:52-96: fails on other things than texts and on lone surrogates. -/
def textGet (l : List (Str × JVal)) (n : String) : Option Str :=
  match dictGet l n with
  | some (.str s) => if (pyDecode s).isSome then some s else none
  | _ => none

/-- `config[name]` where `struct.pack` wants a number. -/
def numGet (l : List (Str × JVal)) (n : String) : Option Nat :=
  match dictGet l n with
  | some (.int k) => if 0 ≤ k then some k.toNat else none
  | some (.bool b) => some b.toNat
  | _ => none

/-- Names of the texts in the dictionary. -/
def textNames : List String := ["ssid", "psk", "host", "ap_psk", "ota_auth", "username", "password", "emon_host",
  "emon_apikey", "emon_url", "jdom_host", "jdom_apikey", "jdom_url", "jdom_adco", "httpreq_host", "httpreq_url"]

/-- Names of the numbers in the dictionary. -/
def numNames : List String := ["cfg_led_tinfo", "ota_port", "sse_freq", "emon_port", "emon_node", "emon_freq", "jdom_port",
  "jdom_freq", "httpreq_port", "httpreq_use_post", "httpreq_freq", "httpreq_trigger_adps", "httpreq_trigger_ptec",
  "httpreq_trigger_seuils", "httpreq_seuil_haut", "httpreq_seuil_bas"]

/-- `eeprom.py write -i config.json` eeprom.py:49-116, 186-203: the image for a file; `none`: the tool fails (not JSON, a
setting is missing or has the wrong type, a number does not fit). -/
def toolRestore (file : Str) : Option Str :=
  match parseJson file with
  | some (.obj l) =>
    if textNames.all (fun n => (textGet l n).isSome) && numNames.all (fun n => (numGet l n).isSome) then
      writeEeprom { text := fun n => (textGet l n).getD [], num := fun n => (numGet l n).getD 0 }
    else none
  | _ => none

end Wifinfo
