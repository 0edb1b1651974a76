import Verif.Model.Dumps
import Verif.Model.SimuClock
import Verif.Model.Asks

/-!
# The simulated module, `tools/srv.py`

A web server made with Flask that gives the page from the folder of the sources and answers in the place of a device, with the values of the
simulated meter.

Assumptions about Flask (1.1) and its development server: an exact address goes before `/<path:path>`; a route without `methods` answers
`GET`; an address that only routes of other methods answer gives 405; `return body, "text/plain"` makes of the second text the status of the
answer, which begins with `0`, and browsers and jQuery 2.1.4 take such an answer for a success; requests and events are dealt with one at a
time.  Simplifications: `HEAD`, `OPTIONS` and CORS are left out, the members that `jsonify` writes are in the order of their names (it sorts
them); the floating-point numbers and the draws are as in `Model/SimuClock.lean`; what is printed on the terminal is left out.
-/

namespace Wifinfo
open Spec

/-- What is outside the program: the clock (`time.monotonic()`), the sine and the two draws, the date. -/
structure SrvEnv where
  now : Rat
  sin : Rat
  c1 : Rat
  c2 : Rat
  date : Str

/-- What `tic.iinst` and the rest of an answer do to the meter and show, simutic.py:223-267. -/
def SrvEnv.use (e : SrvEnv) : SimuUse := .frame e.now e.sin e.c1 e.c2

/-- `uptime` srv.py:25-31 -/
def srvUptime (now : Nat) : Str :=
  decText (now / 86400) ++ bs " days " ++ decText (now / 3600 % 24) ++ bs " h " ++ zeroPad 2 (now / 60 % 60) ++ bs " m " ++
    decText (now % 60) ++ bs " sec"

/-- An entry of a table. -/
def srvRow (na va : Str) : JVal := .obj [(bs "na", .str na), (bs "va", .str va)]

/-- `spiffs_json` srv.py:83-99 -/
def srvFiles : JVal :=
  let f (na : Str) (va : Nat) : JVal := .obj [(bs "na", .str na), (bs "va", .int va)]
  .obj [(bs "files", .arr [f (bs "/index.htm.gz") 6468, f (bs "/favicon.ico") 1150, f (bs "/css/wifinfo.css.gz") 21983,
      f (bs "/js/wifinfo.js.gz") 56176, f (bs "/js/Chart.min.js.gz") 52811, f (bs "/js/gauge.min.js.gz") 13599, f (bs "/version") 8,
      f (bs "/fonts/glyphicons.woff2") 18028, f (bs "/fonts/glyphicons.woff") 23424]),
    (bs "spiffs", .arr [.obj [(bs "Total", .int 957314), (bs "Used", .int 197537), (bs "ram", .int 37200)]])]

/-- `config_json` srv.py:102-135 -/
def srvConfig : List (Str × JVal) :=
  [(bs "ap_psk", .str []), (bs "emon_apikey", .str []), (bs "emon_freq", .str (bs "0")), (bs "emon_host", .str (bs "emoncms.org")),
   (bs "emon_node", .str (bs "0")), (bs "emon_port", .str (bs "80")), (bs "emon_url", .str (bs "/input/post.json")),
   (bs "host", .str (bs "WifInfo-123456")), (bs "httpreq_freq", .str (bs "300")), (bs "httpreq_host", .str (bs "192.168.4.2")),
   (bs "httpreq_port", .str (bs "8080")), (bs "httpreq_seuil_bas", .int 4200), (bs "httpreq_seuil_haut", .int 5700),
   (bs "httpreq_trigger_adps", .int 1), (bs "httpreq_trigger_ptec", .int 1), (bs "httpreq_trigger_seuils", .int 0),
   (bs "httpreq_url", .str (bs "/tinfo.php?hchp=$HCHP;hchc=$HCHC;papp=$PAPP;iinst=$IINST;type=$type")), (bs "httpreq_use_post", .int 0),
   (bs "jdom_adco", .str []), (bs "jdom_apikey", .str []), (bs "jdom_freq", .str (bs "0")), (bs "jdom_host", .str (bs "jeedom.local")),
   (bs "jdom_port", .str (bs "80")), (bs "jdom_url", .str (bs "/plugins/teleinfo/core/php/jeeTeleinfo.php")),
   (bs "ota_auth", .str (bs "OTA_WifInfo")), (bs "ota_port", .str (bs "8266")), (bs "psk", .str (bs "motdepasseinviolable")),
   (bs "sse_freq", .int 0), (bs "ssid", .str (bs "monsuperwifi"))]

/-- `wifiscan_json` srv.py:138-144; the other members (`bssi`, `channel`, `encryptionType`) are not used by the page but are there. -/
def srvScan : List JVal :=
  let a (ssid : Str) (rssi : Int) (channel enc : Nat) : JVal :=
    .obj [(bs "bssi", .str (bs "11:22:33:00:00:00")), (bs "channel", .int channel), (bs "encryptionType", .int enc), (bs "rssi", .int rssi),
      (bs "ssid", .str ssid)]
  [a (bs "orange") (-84) 1 7, a (bs "FreeWifi") (-74) 6 8]

/-- `system_json` srv.py:147-169 -/
def srvSystem (e : SrvEnv) : List (Str × Str) :=
  [(bs "Uptime", srvUptime e.now.floor.toNat), (bs "Timestamp", e.date), (bs "Wi-Fi RSSI", bs "-72 dB"),
   (bs "Wi-Fi network", bs "monsuperwifi"), (bs "Adresse MAC station", bs "cc:dd:ee:11:22:33"), (bs "Nb reconnexions Wi-Fi", bs "1"),
   (bs "WifInfo Version", bs "develop"), (bs "Compil" ++ [0xC3, 0xA9] ++ bs " le", bs "Feb  6 2020 23:21:40"),
   (bs "SDK Version", bs "2.2.2-dev(38a443e)"), (bs "Chip ID", bs "0x123456"), (bs "Boot Version", bs "0x1F"),
   (bs "Flash Real Size", bs "4.00 MB"), (bs "Firmware Size", bs "404.47 kB"), (bs "Free Size", bs "2.60 MB"),
   (bs "SPIFFS Total", bs "934.88 kB"), (bs "SPIFFS Used", bs "192.91 kB"), (bs "SPIFFS Occupation", bs "20%"),
   (bs "Free RAM", bs "34.00 kB")]

/-- `flask.jsonify` -/
def jsonify (v : JVal) : Str := pyDumps jsonifyStyle v ++ [10]

/-- The functions behind the routes. -/
inductive SrvPage
  | home | restricted | heartbeat | toggle | version | tinfo | files | config | scan | system | form | php | stream
deriving DecidableEq, Repr

/-- The routes with an exact address and their methods, srv.py:49-191. -/
def srvRoutes : List (Str × List Method × SrvPage) :=
  [(bs "/", [.get], .home), (bs "/r", [.get], .restricted), (bs "/hb.htm", [.get], .heartbeat), (bs "/hc", [.get], .toggle),
   (bs "/version", [.get], .version), (bs "/tinfo.json", [.get], .tinfo), (bs "/spiffs.json", [.get], .files),
   (bs "/config.json", [.get], .config), (bs "/wifiscan.json", [.get], .scan), (bs "/system.json", [.get], .system),
   (bs "/config_form.json", [.post], .form), (bs "/tinfo.php", [.get, .post], .php), (bs "/sse/json", [.get, .post], .stream),
   (bs "/tic", [.get, .post], .stream)]

/-- An answer. -/
inductive SrvAns
  /-- status 200 -/
  | ok (body : Str)
  /-- a status that begins with 0, taken for a success -/
  | odd (body : Str)
  | redirect (uri : Str)
  /-- an event stream, which stays open -/
  | stream
  | error (code : Nat)
deriving DecidableEq, Repr

/-- The functions, srv.py:49-191; `restrictPage` is the content of `data/index.restrict.html.gz`, decompressed. -/
def SrvPage.answer (fl : Rat → Rat) (restrictPage : Str) (s : SimuMeter) (e : SrvEnv) : SrvPage → SimuMeter × SrvAns
  | .home => (s, .redirect (bs "/index.html"))
  | .restricted => (s, .odd restrictPage)
  | .heartbeat => (s, .ok (bs "OK"))
  | .toggle =>
    let s := s.bascule 84
    (s, .odd (((if s.heuresCreuses then bs "HC" else bs "HP") ++ bs "....").take 4))
  | .version => (s, .odd (bs "flask-develop-version"))
  | .tinfo =>
    let s := s.read fl e.now e.sin e.c1
    (s, .odd (pyDumps indentStyle ((s.shown fl e.c2).jsonArray e.date)))
  | .files => (s, .ok (jsonify srvFiles))
  | .config => (s, .ok (jsonify (.obj srvConfig)))
  | .scan => (s, .ok (jsonify (.arr srvScan)))
  | .system => (s, .ok (jsonify (.arr ((srvSystem e).map fun r => srvRow r.1 r.2))))
  | .form => (s, .ok (bs "OK"))
  | .php => (s, .ok (bs "OK"))
  | .stream => (s, .stream)

/-- A request: an exact route, or else a file of `data_src` (`files` srv.py:194-196); `src` is the content of these files. -/
def srvAnswer (fl : Rat → Rat) (src : Str → Option Str) (restrictPage : Str) (s : SimuMeter) (e : SrvEnv) (m : Method) (u : Str) :
    SimuMeter × SrvAns :=
  match srvRoutes.find? fun r => r.1 = u ∧ m ∈ r.2.1 with
  | some r => r.2.2.answer fl restrictPage s e
  | none =>
    if u = bs "/" then (s, .error 405)
    else if m = .get then
      match src u with
      | some c => (s, .ok c)
      | none => (s, .error 404)
    else (s, .error 405)

/-- An event of the stream, `event_stream` srv.py:41-46 -/
def srvEvent (d : Str) : Str := bs "data: " ++ d ++ bs "\n\n"

/-- The server: the meter (simutic.py:270) and the number of event streams that have been opened. -/
structure Srv where
  meter : SimuMeter
  opened : Nat

/-- At the start. -/
def Srv.init : Srv := ⟨.init, 0⟩

/-- What happens: a request, or a stream wakes up (`time.sleep(1.424)`). -/
inductive SrvIn
  | request (m : Method) (u : Str) (e : SrvEnv)
  | wake (c : Nat) (e : SrvEnv)

/-- What is sent: the answer to a request, or text on an event stream. -/
inductive SrvOut
  | answer (a : SrvAns)
  | opened (c : Nat)
  | sent (c : Nat) (text : Str)
deriving DecidableEq, Repr

/-- One step; a stream that has not been opened does not wake up. -/
def Srv.step (fl : Rat → Rat) (src : Str → Option Str) (restrictPage : Str) (s : Srv) : SrvIn → Srv × List SrvOut
  | .request m u e =>
    match srvAnswer fl src restrictPage s.meter e m u with
    | (t, .stream) => (⟨t, s.opened + 1⟩, [.opened s.opened])
    | (t, a) => (⟨t, s.opened⟩, [.answer a])
  | .wake c e =>
    if c < s.opened then
      let t := s.meter.read fl e.now e.sin e.c1
      (⟨t, s.opened⟩, [.sent c (srvEvent (pyDumps tightStyle ((t.shown fl e.c2).jsonDict e.date)))])
    else (s, [])

/-- Steps in sequence, and what is sent. -/
def Srv.run (fl : Rat → Rat) (src : Str → Option Str) (restrictPage : Str) : Srv → List SrvIn → Srv × List SrvOut
  | s, [] => (s, [])
  | s, i :: r =>
    let (s, l) := s.step fl src restrictPage i
    let (s, m) := s.run fl src restrictPage r
    (s, l ++ m)

end Wifinfo
