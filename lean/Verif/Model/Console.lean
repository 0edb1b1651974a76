import Verif.Model.Config
import Verif.Model.Sse
import Verif.Model.Erfs
import Verif.Spec.Number

/-!
# Model of what the console prints

`config_show` (src/config.cpp), `cli_eeprom_dump` and `get ver` (src/cli.cpp), `fs_ls` (src/filesystem.cpp): the text
written on the serial line.  `Serial.println` ends a line with CR LF; `Serial.printf` is taken as the standard one.  The
serial line itself is left out: in the builds for the field its output is switched off (main.cpp:31-32), the text below
is that of the debug builds.
-/

namespace Wifinfo
open Spec

/-- The lines of the Wi-Fi and of the advanced settings, config.cpp:214-244. -/
def showFull (c : Config) : Res Str := do
  let ssid ← c.ssid.cstr
  let psk ← c.psk.cstr
  let host ← c.host.cstr
  let apPsk ← c.apPsk.cstr
  let otaAuth ← c.otaAuth.cstr
  let username ← c.username.cstr
  let password ← c.password.cstr
  pure (println [] ++ println (bs "===== Wi-Fi") ++ (bs "ssid     :" ++ println ssid) ++ (bs "psk      :" ++ println psk) ++
    (bs "host     :" ++ println host) ++ println (bs "===== Advanced") ++ (bs "ap_psk   :" ++ println apPsk) ++
    (bs "OTA auth :" ++ println otaAuth) ++ (bs "OTA port :" ++ println (decText c.otaPort.toNat)) ++
    (bs "Username :" ++ println username) ++ (bs "Password :" ++ println password) ++
    (bs "SSE freq :" ++ println (decText c.sseFreq.toNat)) ++
    (bs "Config   :" ++ (if c.options &&& 1 != 0 then bs " LED_TINFO" else []) ++ println []))

/-- The lines of the emoncms settings, config.cpp:246-258. -/
def EmoncmsConfig.show (e : EmoncmsConfig) : Res Str := do
  let host ← e.host.cstr
  let url ← e.url.cstr
  let apikey ← e.apikey.cstr
  pure (println (bs "===== Emoncms") ++ (bs "host     :" ++ println host) ++
    (bs "port     :" ++ println (decText e.port.toNat)) ++ (bs "url      :" ++ println url) ++
    (bs "key      :" ++ println apikey) ++ (bs "node     :" ++ println (decText e.node.toNat)) ++
    (bs "freq     :" ++ println (decText e.freq.toNat)))

/-- The lines of the Jeedom settings, config.cpp:260-272. -/
def JeedomConfig.show (j : JeedomConfig) : Res Str := do
  let host ← j.host.cstr
  let url ← j.url.cstr
  let apikey ← j.apikey.cstr
  let adco ← j.adco.cstr
  pure (println (bs "===== Jeedom") ++ (bs "host     :" ++ println host) ++
    (bs "port     :" ++ println (decText j.port.toNat)) ++ (bs "url      :" ++ println url) ++
    (bs "key      :" ++ println apikey) ++ (bs "compteur :" ++ println adco) ++
    (bs "freq     :" ++ println (decText j.freq.toNat)))

/-- The lines of the HTTP request settings, config.cpp:274-308; the address is printed after the method, not after its
caption. -/
def HttpreqConfig.show (h : HttpreqConfig) : Res Str := do
  let host ← h.host.cstr
  let url ← h.url.cstr
  pure (println (bs "===== HTTP request") ++ (bs "host      : " ++ println host) ++
    (bs "port      : " ++ println (decText h.port.toNat)) ++
    (bs "url       : " ++ (bs "method    : " ++ println (if h.usePost then bs "POST" else bs "GET"))) ++ println url ++
    (bs "freq      : " ++ println (decText h.freq.toNat)) ++
    (bs "notifs    :" ++ (if h.triggerPtec then bs " PTEC" else []) ++ (if h.triggerAdps then bs " ADPS" else []) ++
      (if h.triggerSeuils then bs " seuils" else []) ++ println []) ++
    (bs "seuil bas : " ++ println (decText h.seuilBas.toNat)) ++
    (bs "seuil haut: " ++ println (decText h.seuilHaut.toNat)))

/-- `config_show` config.cpp:211-311 -/
def configShow (c : Config) : Res Str := do
  let a ← showFull c
  let e ← c.emoncms.show
  let j ← c.jeedom.show
  let h ← c.httpreq.show
  pure (a ++ e ++ j ++ h)

/-- `%02X` of a byte -/
def hex02 (b : Byte) : Str := [hexDigit (b.toNat / 16), hexDigit (b.toNat % 16)]

/-- `%04X` of an address below 65536 -/
def hex04 (n : Nat) : Str :=
  [hexDigit (n / 4096 % 16), hexDigit (n / 256 % 16), hexDigit (n / 16 % 16), hexDigit (n % 16)]

/-- The loop of `cli_eeprom_dump` cli.cpp:320-340 with the bytes from address `i` on; `j` is the number of bytes already
in the row. -/
def dumpLoop (perRow : Nat) : Nat → Nat → Str → Str
  | _, _, [] => []
  | i, j, b :: r =>
    (if j = 0 then hex04 i ++ bs " : " else []) ++ hex02 b ++ bs " " ++
      (if j + 1 ≥ perRow then println [] ++ dumpLoop perRow (i + 1) 0 r else dumpLoop perRow (i + 1) (j + 1) r)

/-- The command `dump` cli.cpp:76-78, 307-341: `cli_eeprom_dump(16, 1024)` of the copy of the EEPROM in memory
(`EEPROM.read`). -/
def eepromDump (ram : Arr 1024) : Str := println [] ++ dumpLoop 16 0 0 ram.toList

/-- `%2d` -/
def padDec (n : Nat) : Str := if n < 10 then 32 :: decText n else decText n

/-- The loop of `fs_ls` filesystem.cpp:25-35 on the names and sizes of the directory; `i` files already printed. -/
def lsLoop : Nat → List (Str × Nat) → Str
  | _, [] => []
  | i, (name, size) :: r =>
    bs "FS File: " ++ padDec (i + 1) ++ bs " " ++ name ++ bs ", size: " ++ decText size ++ bs "\n" ++ lsLoop (i + 1) r

/-- `fs_ls` filesystem.cpp:25-35 -/
def fsLs (files : List (Str × Nat)) : Str := lsLoop 0 files

/-- `get ver` cli.cpp:148-158 with the file `/version` open: `buf` is what is in the buffer of 64 bytes before, `a` its
address modulo 4, `buf32` the static buffer of the file system.  What is printed when there is no such file depends on
the core (`File::read` of a closed file) and is left out. -/
def getVer (f : File) (buf32 : Str) (a : Nat) (buf : Str) : Res Str := do
  let (_, _, buf, n) ← f.read buf32 a buf (buf.length - 1)
  if n < buf.length then
    pure (bs "read " ++ decText n ++ bs ", version: '" ++ cstrOf (buf.set n 0) ++ bs "'\n")
  else .error .outOfBounds

end Wifinfo
