import Verif.Model.Base

/-!
# Model of `src/config.h`, `src/config.cpp`, `src/strncpy_s.h`

The configuration block, its image in EEPROM, the checksum, the web form.
`Serial.print...` calls (config_show etc.) are left out.
-/

namespace Wifinfo

/-- A `char[n]` / `uint8_t[n]` member. -/
abbrev Arr (n : Nat) := Vector Byte n

/-- The C string starting at the beginning of a buffer, for a source known to be terminated
(`String::c_str()`). -/
def cstrOf (s : Str) : Str := s.takeWhile (· != 0)

/-- Using a `char[n]` member as a C string: runs past the member if there is no NUL in it. -/
def Arr.cstr {n} (a : Arr n) : Res Str :=
  if (0 : Byte) ∈ a.toList then .ok (cstrOf a.toList) else .error .outOfBounds

/-- `strncpy_s` strncpy_s.h:3-7: `strncpy(dest, source.c_str(), k); dest[k] = 0` (`strncpy` pads
with NULs). -/
def strncpyS {n} (dest : Arr n) (src : Str) (k : Nat) : Res (Arr n) :=
  if k < n then
    .ok (Vector.ofFn fun i =>
      if i.val < k then (cstrOf src).getD i.val 0 else if i.val = k then 0 else dest[i])
  else .error .outOfBounds

/-- `strcpy_P` / `sprintf_P` of an already formatted text. -/
def strcpyP {n} (dest : Arr n) (src : Str) : Res (Arr n) :=
  if src.length < n then
    .ok (Vector.ofFn fun i =>
      if i.val < src.length then src.getD i.val 0 else if i.val = src.length then 0 else dest[i])
  else .error .outOfBounds

/-- One upper-case hexadecimal digit. -/
def hexDigit (n : Nat) : Byte := if n < 10 then UInt8.ofNat (48 + n) else UInt8.ofNat (55 + n)

/-- `%06X` of a 32-bit value: at least six digits, up to eight. -/
def hex06 (v : UInt32) : Str :=
  let n := v.toNat
  let d (k : Nat) := hexDigit (n / 16 ^ k % 16)
  let low := [d 5, d 4, d 3, d 2, d 1, d 0]
  if n < 16 ^ 6 then low else if n < 16 ^ 7 then d 6 :: low else d 7 :: d 6 :: low

/-- `struct EmoncmsConfig` config.h:105-114 -/
structure EmoncmsConfig where
  host : Arr 33
  apikey : Arr 33
  url : Arr 33
  port : UInt16
  node : UInt8
  freq : UInt32
  filler : Arr 22
deriving DecidableEq

/-- `struct JeedomConfig` config.h:118-128 -/
structure JeedomConfig where
  host : Arr 33
  apikey : Arr 49
  url : Arr 65
  adco : Arr 13
  port : UInt16
  freq : UInt32
  usePost : UInt8
  filler : Arr 89
deriving DecidableEq

/-- `struct HttpreqConfig` config.h:132-146; `flags` is the byte of the bit-fields: bit 0
`trigger_adps`, bit 1 `trigger_ptec`, bit 2 `trigger_seuils`, bits 3-6 unused, bit 7 `use_post`
(gcc allocates bit-fields from the least significant bit on little-endian targets). -/
structure HttpreqConfig where
  host : Arr 33
  url : Arr 151
  port : UInt16
  freq : UInt32
  flags : UInt8
  seuilHaut : UInt16
  seuilBas : UInt16
  filler : Arr 61
deriving DecidableEq

/-- `trigger_adps` config.h:138 -/
def HttpreqConfig.triggerAdps (h : HttpreqConfig) : Bool := h.flags &&& 1 != 0
/-- `trigger_ptec` config.h:139 -/
def HttpreqConfig.triggerPtec (h : HttpreqConfig) : Bool := h.flags &&& 2 != 0
/-- `trigger_seuils` config.h:140 -/
def HttpreqConfig.triggerSeuils (h : HttpreqConfig) : Bool := h.flags &&& 4 != 0
/-- `use_post` config.h:142 -/
def HttpreqConfig.usePost (h : HttpreqConfig) : Bool := h.flags &&& 128 != 0

/-- Assignment to a one-bit field. -/
def setFlag (flags mask : UInt8) (v : Bool) : UInt8 :=
  if v then flags ||| mask else flags &&& (255 ^^^ mask)

/-- `struct Config` config.h:150-167 -/
structure Config where
  ssid : Arr 33
  psk : Arr 65
  host : Arr 17
  apPsk : Arr 65
  otaAuth : Arr 65
  options : UInt32
  otaPort : UInt16
  sseFreq : UInt16
  username : Arr 32
  password : Arr 32
  filler : Arr 65
  emoncms : EmoncmsConfig
  jeedom : JeedomConfig
  httpreq : HttpreqConfig
  crc : UInt16
deriving DecidableEq

/-- little-endian bytes of a `uint16_t` -/
def u16le (v : UInt16) : Str := [UInt8.ofNat (v.toNat % 256), UInt8.ofNat (v.toNat / 256)]
/-- little-endian bytes of a `uint32_t` -/
def u32le (v : UInt32) : Str :=
  [UInt8.ofNat (v.toNat % 256), UInt8.ofNat (v.toNat / 256 % 256),
   UInt8.ofNat (v.toNat / 65536 % 256), UInt8.ofNat (v.toNat / 16777216)]

/-- The object representation of `EmoncmsConfig` (packed, members in order). -/
def EmoncmsConfig.bytes (e : EmoncmsConfig) : Str :=
  e.host.toList ++ (e.apikey.toList ++ (e.url.toList ++ (u16le e.port ++ ([e.node] ++
    (u32le e.freq ++ e.filler.toList)))))

/-- The object representation of `JeedomConfig`. -/
def JeedomConfig.bytes (j : JeedomConfig) : Str :=
  j.host.toList ++ (j.apikey.toList ++ (j.url.toList ++ (j.adco.toList ++ (u16le j.port ++
    (u32le j.freq ++ ([j.usePost] ++ j.filler.toList))))))

/-- The object representation of `HttpreqConfig`. -/
def HttpreqConfig.bytes (h : HttpreqConfig) : Str :=
  h.host.toList ++ (h.url.toList ++ (u16le h.port ++ (u32le h.freq ++ ([h.flags] ++
    (u16le h.seuilHaut ++ (u16le h.seuilBas ++ h.filler.toList))))))

/-- The object representation of `Config`, i.e. what `(const uint8_t *)&config` designates. -/
def Config.bytes (c : Config) : Str :=
  c.ssid.toList ++ (c.psk.toList ++ (c.host.toList ++ (c.apPsk.toList ++ (c.otaAuth.toList ++
    (u32le c.options ++ (u16le c.otaPort ++ (u16le c.sseFreq ++ (c.username.toList ++
      (c.password.toList ++ (c.filler.toList ++ (c.emoncms.bytes ++ (c.jeedom.bytes ++
        (c.httpreq.bytes ++ u16le c.crc)))))))))))))

/-- `n` bytes at offset `off`. -/
def sliceAt (x : Str) (off n : Nat) : Arr n := Vector.ofFn fun i => x.getD (off + i.val) 0
/-- `uint8_t` at offset `off`. -/
def u8At (x : Str) (off : Nat) : UInt8 := x.getD off 0
/-- `uint16_t` at offset `off`. -/
def u16At (x : Str) (off : Nat) : UInt16 :=
  UInt16.ofNat ((x.getD off 0).toNat + 256 * (x.getD (off + 1) 0).toNat)
/-- `uint32_t` at offset `off`. -/
def u32At (x : Str) (off : Nat) : UInt32 :=
  UInt32.ofNat ((x.getD off 0).toNat + 256 * (x.getD (off + 1) 0).toNat +
    65536 * (x.getD (off + 2) 0).toNat + 16777216 * (x.getD (off + 3) 0).toNat)

/-- The `Config` object whose bytes have been overwritten with `x` (config.cpp:139-153). -/
def Config.ofBytes (x : Str) : Config :=
  { ssid := sliceAt x 0 33, psk := sliceAt x 33 65, host := sliceAt x 98 17,
    apPsk := sliceAt x 115 65, otaAuth := sliceAt x 180 65, options := u32At x 245,
    otaPort := u16At x 249, sseFreq := u16At x 251, username := sliceAt x 253 32,
    password := sliceAt x 285 32, filler := sliceAt x 317 65,
    emoncms :=
      { host := sliceAt x 382 33, apikey := sliceAt x 415 33, url := sliceAt x 448 33,
        port := u16At x 481, node := u8At x 483, freq := u32At x 484, filler := sliceAt x 488 22 },
    jeedom :=
      { host := sliceAt x 510 33, apikey := sliceAt x 543 49, url := sliceAt x 592 65,
        adco := sliceAt x 657 13, port := u16At x 670, freq := u32At x 672,
        usePost := u8At x 676, filler := sliceAt x 677 89 },
    httpreq :=
      { host := sliceAt x 766 33, url := sliceAt x 799 151, port := u16At x 950,
        freq := u32At x 952, flags := u8At x 956, seuilHaut := u16At x 957,
        seuilBas := u16At x 959, filler := sliceAt x 961 61 },
    crc := u16At x 1022 }

/-- `sizeof(Config)` -/
def CONFIG_SIZE : Nat := 1024

/-- `memset(&config, 0, sizeof(Config))` -/
def Config.zero : Config := Config.ofBytes []

/-- `a[i] = 0` for an index inside the member. -/
def Arr.setNul {n} (a : Arr n) (i : Nat) : Arr n := a.setIfInBounds i 0

/-- `config_securize_cstrings` config.cpp:61-84 -/
def Config.securize (c : Config) : Config :=
  { c with
    ssid := c.ssid.setNul 32, psk := c.psk.setNul 64, host := c.host.setNul 16,
    apPsk := c.apPsk.setNul 64, otaAuth := c.otaAuth.setNul 64,
    username := c.username.setNul 31, password := c.password.setNul 31,
    emoncms := { c.emoncms with
      host := c.emoncms.host.setNul 32, apikey := c.emoncms.apikey.setNul 32,
      url := c.emoncms.url.setNul 32 },
    jeedom := { c.jeedom with
      host := c.jeedom.host.setNul 32, apikey := c.jeedom.apikey.setNul 48,
      url := c.jeedom.url.setNul 64, adco := c.jeedom.adco.setNul 12 },
    httpreq := { c.httpreq with
      host := c.httpreq.host.setNul 32, url := c.httpreq.url.setNul 150 } }

/-! ## Checksum -/

/-- Body of the loop of `crc16Update` config.cpp:122-132 -/
def crcBit (crc : UInt16) : UInt16 :=
  if crc &&& 1 ≠ 0 then (crc >>> 1) ^^^ 0xA001 else crc >>> 1

/-- `crc16Update` config.cpp:118-134 -/
def crc16Update (crc : UInt16) (a : Byte) : UInt16 :=
  let c := crc ^^^ a.toUInt16
  crcBit (crcBit (crcBit (crcBit (crcBit (crcBit (crcBit (crcBit c)))))))

/-- The accumulation loops config.cpp:139-153 and 181-187 (initial value `~0`). -/
def crcOf (x : Str) : UInt16 := x.foldl crc16Update 0xFFFF

/-! ## EEPROM -/

/-- The EEPROM emulation: a RAM copy (`EEPROM.read/write`) and the flash sector behind it
(`EEPROM.begin`, `EEPROM.commit`). -/
structure Eeprom where
  ram : Arr 1024
  flash : Arr 1024
deriving DecidableEq

/-- What `EEPROM.commit()` does to the flash: succeeds, or fails leaving anything there (the
result of `commit` is ignored by the firmware). -/
inductive Commit
  | ok
  | failed (flash : Arr 1024)

/-- `EEPROM.commit()` -/
def Eeprom.commit (e : Eeprom) : Commit → Eeprom
  | .ok => { e with flash := e.ram }
  | .failed f => { e with flash := f }

/-- The persistent part of the device: running configuration and EEPROM. -/
structure Nv where
  config : Config
  ee : Eeprom
deriving DecidableEq

/-- `config_read` config.cpp:137-169 -/
def Nv.configRead (s : Nv) (clearOnError : Bool := true) : Nv × Bool :=
  let x := s.ee.ram.toList
  let config := (Config.ofBytes x).securize
  if crcOf x ≠ 0 then
    ({ s with config := if clearOnError then Config.zero else config }, false)
  else ({ s with config := config }, true)

/-- The `EEPROM.write` loop config.cpp:190-196. -/
def eepromImage (c : Config) : Arr 1024 := Vector.ofFn fun i => c.bytes.getD i.val 0

/-- `config_save` config.cpp:172-209 -/
def Nv.configSave (s : Nv) (k : Commit) : Nv × Bool :=
  let config := { s.config with crc := crcOf (s.config.bytes.take (CONFIG_SIZE - 2)) }
  let ee := { s.ee with ram := eepromImage config }
  let ee := ee.commit k
  Nv.configRead { config := config, ee := ee } false

/-- `config_reset` config.cpp:87-116 -/
def Nv.configReset (s : Nv) (chipId : UInt32) (k : Commit) : Res Nv := do
  let c := Config.zero
  let host ← strcpyP c.host (bs "WifInfo-" ++ hex06 chipId)
  let otaAuth ← strcpyP c.otaAuth (bs "OTA_WifInfo")
  let eHost ← strcpyP c.emoncms.host (bs "emoncms.org")
  let eUrl ← strcpyP c.emoncms.url (bs "/input/post.json")
  let jHost ← strcpyP c.jeedom.host (bs "")
  let jUrl ← strcpyP c.jeedom.url (bs "/plugins/teleinfo/core/php/jeeTeleinfo.php")
  let jAdco ← strcpyP c.jeedom.adco (bs "")
  let hHost ← strcpyP c.httpreq.host (bs "")
  let hUrl ← strcpyP c.httpreq.url
    (bs "/json.htm?type=command&param=udevice&idx=1&nvalue=0&svalue=$HCHP;$HCHC;0;0;$PAPP;0")
  let c := { c with
    host := host, otaAuth := otaAuth, otaPort := 8266, sseFreq := 10,
    emoncms := { c.emoncms with host := eHost, port := 80, url := eUrl },
    jeedom := { c.jeedom with host := jHost, port := 80, url := jUrl, adco := jAdco },
    httpreq := { c.httpreq with host := hHost, port := 80, url := hUrl } }
  pure (Nv.configSave { s with config := c } k).1

/-- `config_setup` config.cpp:39-59 at power-up: `EEPROM.begin` loads the flash; the static
`config` object is zero before.  `k1`, `k2`: outcomes of the two commits. -/
def Nv.configSetup (flash : Arr 1024) (chipId : UInt32) (k1 k2 : Commit) : Res Nv := do
  let s : Nv := { config := Config.zero, ee := { ram := flash, flash := flash } }
  let (s, ok) := s.configRead
  if ok then pure s
  else do
    let s ← s.configReset chipId k1
    pure (s.configSave k2).1

/-! ## Form -/

/-- Request arguments, in order (`server.args()`, `argName(i)`, `arg(i)`). -/
abbrev Args := List (Str × Str)

/-- `server.hasArg(name)` -/
def hasArg (a : Args) (name : String) : Bool := a.any fun p => p.1 == bs name

/-- `server.arg(name)`: first argument of that name, or the empty String. -/
def getArg (a : Args) (name : String) : Str :=
  match a.find? fun p => p.1 == bs name with
  | some p => p.2
  | none => []

/-- `isspace` in the C locale -/
def isSpace (b : Byte) : Bool := b == 32 || (9 ≤ b && b ≤ 13)

/-- The digits loop of `strtol`. -/
def strtolDigits : Nat → Str → Nat
  | acc, b :: r => if 48 ≤ b && b ≤ 57 then strtolDigits (10 * acc + (b.toNat - 48)) r else acc
  | acc, [] => acc

/-- `String::toInt`, i.e. `atol`: blanks, sign, digits; saturates at the bounds of a 32-bit
`long` (newlib).  Text after the digits is ignored. -/
def toInt (s : Str) : Int :=
  match s.dropWhile isSpace with
  | 45 :: r => max (-(strtolDigits 0 r : Int)) (-2147483648)
  | 43 :: r => min (strtolDigits 0 r : Int) 2147483647
  | r => min (strtolDigits 0 r : Int) 2147483647

/-- `validate_int` config.cpp:362-370 -/
def validateInt (value : Str) (a b d : Int) : Int :=
  let v := toInt value
  if a ≤ v ∧ v ≤ b then v else d

/-- Conversion of an `int` to `uint8_t`. -/
def toU8 (v : Int) : UInt8 := UInt8.ofNat (v % 256).toNat
/-- Conversion of an `int` to `uint16_t`. -/
def toU16 (v : Int) : UInt16 := UInt16.ofNat (v % 65536).toNat
/-- Conversion of an `int` to `uint32_t`. -/
def toU32 (v : Int) : UInt32 := UInt32.ofNat (v % 4294967296).toNat

/-- The part of `config_handle_form` that is skipped for restricted users, config.cpp:386-397. -/
def Config.formFull (c : Config) (a : Args) : Res Config := do
  let ssid ← strncpyS c.ssid (getArg a "ssid") 32
  let psk ← strncpyS c.psk (getArg a "psk") 64
  let host ← strncpyS c.host (getArg a "host") 16
  let apPsk ← strncpyS c.apPsk (getArg a "ap_psk") 64
  let otaAuth ← strncpyS c.otaAuth (getArg a "ota_auth") 64
  let otaPort := toU16 (validateInt (getArg a "ota_port") 0 65535 8266)
  let username ← strncpyS c.username (getArg a "username") 31
  let password ← strncpyS c.password (getArg a "password") 31
  pure { c with ssid, psk, host, apPsk, otaAuth, otaPort, username, password }

/-- `config.emoncms` part, config.cpp:406-412. -/
def EmoncmsConfig.form (e : EmoncmsConfig) (a : Args) : Res EmoncmsConfig := do
  let host ← strncpyS e.host (getArg a "emon_host") 32
  let port := toU16 (validateInt (getArg a "emon_port") 0 65535 80)
  let url ← strncpyS e.url (getArg a "emon_url") 32
  let apikey ← strncpyS e.apikey (getArg a "emon_apikey") 32
  let node := toU8 (validateInt (getArg a "emon_node") 0 255 0)
  let freq := toU32 (validateInt (getArg a "emon_freq") 0 86400 0)
  pure { e with host, port, url, apikey, node, freq }

/-- `config.jeedom` part, config.cpp:414-420. -/
def JeedomConfig.form (j : JeedomConfig) (a : Args) : Res JeedomConfig := do
  let host ← strncpyS j.host (getArg a "jdom_host") 32
  let port := toU16 (validateInt (getArg a "jdom_port") 0 65535 80)
  let url ← strncpyS j.url (getArg a "jdom_url") 64
  let apikey ← strncpyS j.apikey (getArg a "jdom_apikey") 48
  let adco ← strncpyS j.adco (getArg a "jdom_adco") 12
  let freq := toU32 (validateInt (getArg a "jdom_freq") 0 86400 0)
  pure { j with host, port, url, apikey, adco, freq }

/-- `config.httpreq` part, config.cpp:422-433. -/
def HttpreqConfig.form (h : HttpreqConfig) (a : Args) : Res HttpreqConfig := do
  let host ← strncpyS h.host (getArg a "httpreq_host") 32
  let port := toU16 (validateInt (getArg a "httpreq_port") 0 65535 80)
  let url ← strncpyS h.url (getArg a "httpreq_url") 150
  let flags := setFlag h.flags 128 (hasArg a "httpreq_use_post")
  let freq := toU32 (validateInt (getArg a "httpreq_freq") 0 86400 0)
  let flags := setFlag flags 1 (hasArg a "httpreq_trigger_adps")
  let flags := setFlag flags 2 (hasArg a "httpreq_trigger_ptec")
  let flags := setFlag flags 4 (hasArg a "httpreq_trigger_seuils")
  let seuilBas := toU16 (validateInt (getArg a "httpreq_seuil_bas") 0 20000 0)
  let seuilHaut := toU16 (validateInt (getArg a "httpreq_seuil_haut") 0 20000 0)
  pure { h with host, port, url, flags, freq, seuilBas, seuilHaut }

/-- `config_handle_form` config.cpp:372-460: new state and HTTP status.  The call to
`tic_make_timers` (line 459) is modelled with the timers (Model/Tic.lean). -/
def Nv.handleForm (s : Nv) (a : Args) (restricted : Bool) (k : Commit) : Res (Nv × Nat) := do
  if hasArg a "save" then
    let c ← (if restricted then pure s.config else s.config.formFull a)
    let sseFreq := toU16 (validateInt (getArg a "sse_freq") 0 360 0)
    let options : UInt32 := if hasArg a "cfg_led_tinfo" then 0 ||| 1 else 0
    let emoncms ← c.emoncms.form a
    let jeedom ← c.jeedom.form a
    let httpreq ← c.httpreq.form a
    let (s, ok) := Nv.configSave { s with config := { c with sseFreq, options, emoncms, jeedom, httpreq } } k
    pure (s, if ok then 200 else 412)
  else pure (s, 400)

end Wifinfo
