import Verif.Tests.Tic
import Verif.Model.Sys
import Verif.Model.Size
import Verif.Props.SysJson

/-!
# The unit tests of the project, replayed on the model: settings, system, files

As `Tests/Teleinfo.lean`: `test/test_config.cpp`, `test/test_sys.cpp`, `test/test_filesystem.cpp`.
-/

namespace Wifinfo.Tests
open Wifinfo Spec

/-! ## `test_sys.cpp` -/

/-- `format` test_sys.cpp:9-15 -/
example : [1, 1536, 10485760, 3221225472].map (sysFormatSize id) = [bs "1 byte", bs "1.50 kB", bs "10.00 MB", bs "3.00 GB"] := by
  decide +kernel

/-- `get_json` test_sys.cpp:17-28 -/
example : (match parsed (sysInfoJson sampleEnv Config.zero Sse.init false) with
    | .arr _ => true
    | _ => false) = true := by decide +kernel

/-- The networks of test/support/ESP8266WiFi.h -/
def mockAps : List Ap :=
  [{ ssid := bs "superwifi", rssi := -72, bssid := bs "blah", channel := 1, encryption := 8 },
   { ssid := bs "mauvaiswifi", rssi := -99, bssid := bs "lol", channel := 2, encryption := 6 }]

/-- `wifi_scan` test_sys.cpp:30-53 -/
example : let j := parsed (.ok (wifiScanJson (some mockAps) false))
    [count j, count (element j 0), count (element j 1)] = [2, 5, 5] := by decide +kernel
example : let j := parsed (.ok (wifiScanJson (some mockAps) false))
    ["ssid", "rssi", "bssi", "channel", "encryptionType"].map (member (element j 0)) =
      [some (bs "superwifi", 0), some ([], -72), some (bs "blah", 0), some ([], 1), some ([], 8)] := by decide +kernel
example : let j := parsed (.ok (wifiScanJson (some mockAps) false))
    ["ssid", "encryptionType"].map (member (element j 1)) = [some (bs "mauvaiswifi", 0), some ([], 6)] := by decide +kernel

/-- `wifi_scan_restricted` test_sys.cpp:127-134 -/
example : wifiScanJson (some mockAps) true = bs "{}" := by decide +kernel

/-- `get_json_restricted` test_sys.cpp:112-125 (the test looks for `Wi-Fi network`, which is never there; the row is called `Wi-Fi
Réseau`). -/
example : let j := parsed (sysInfoJson sampleEnv Config.zero Sse.init true)
    let names := (List.range (count j)).map fun i => member (element j i) "na"
    (some (bs "Wi-Fi R" ++ [0xC3, 0xA9] ++ bs "seau", 0) ∈ names, some (bs "Uptime", 0) ∈ names) = (False, True) := by
  simp only [Prod.mk.injEq, eq_iff_iff]
  decide +kernel

/-! ## `test_filesystem.cpp` -/

/-- `json` test_filesystem.cpp:21-35, with the files of test/support/FS.h -/
example : let j := parsed (fsJson [(bs "fichier1.txt", 1000), (bs "fichier2.bin", 2000)] 1000000 3000 false)
    (match j with
      | .obj l => (match l.lookup (bs "files") with
        | some f => (count f, member (element f 0) "na", member (element f 0) "va")
        | none => (0, none, none))
      | _ => (0, none, none)) = (2, some (bs "fichier1.txt", 0), some ([], 1000)) := by decide +kernel

/-- `json_restricted` test_filesystem.cpp:37-44 -/
example : fsJson [(bs "fichier1.txt", 1000), (bs "fichier2.bin", 2000)] 1000000 3000 true = .ok (bs "{}") := by decide +kernel

/-! ## `test_config.cpp` -/

/-- `sizes` test_config.cpp:8-14 -/
example : (Config.zero.emoncms.bytes.length, Config.zero.jeedom.bytes.length, Config.zero.httpreq.bytes.length,
    Config.zero.bytes.length) = (128, 256, 256, 1024) := by decide +kernel

/-! The other tests of `test_config.cpp` and that of `test_eeprom.py` save or read the 1024 bytes of the settings with their checksum,
which is too much for the kernel to evaluate.  They are instances of theorems: `setup` of `c29_save_then_read`, `form` and
`form_restricted` of `c59_answer`, `get_json` of `c36_parses_partial`, `test_deserialize` of `c94_restore_partial`. -/

end Wifinfo.Tests
