import Verif.Tests.Teleinfo
import Verif.Model.Led
import Verif.Spec.Json

/-!
# The unit tests of the project, replayed on the model: `test/test_tic.cpp`

As `Tests/Teleinfo.lean`.  The requests are compared as a whole: host, port, URL and payload.
-/

namespace Wifinfo.Tests
open Wifinfo Spec

/-- `TeleinfoBuilder::add_group` test/mock.cpp:47-66 -/
def group (label value : Str) : Str :=
  10 :: label ++ 32 :: value ++ [32, UInt8.ofNat ((32 + ((label ++ value).map UInt8.toNat).sum) % 64 + 32), 13]

/-- The number of `TeleinfoBuilder::add_group` test/mock.cpp:68-80 -/
def wide : Nat → Nat → Str
  | 0, _ => []
  | w + 1, n => wide w (n / 10) ++ [UInt8.ofNat (48 + n % 10)]

/-- The frame of `tinfo_init(papp, heures_creuses, adps)` test/mock.cpp:102-130 -/
def built (papp : Nat) (hc : Bool) (adps : Nat := 0) : Str :=
  2 :: group (bs "ADCO") (bs "111111111111") ++ group (bs "OPTARIF") (bs "HC..") ++ group (bs "ISOUSC") (bs "30") ++
    group (bs "ISOUSC") (bs "30") ++ group (bs "HCHC") (wide 9 52890470) ++ group (bs "HCHP") (wide 9 49126843) ++
    group (bs "PTEC") (if hc then bs "HC.." else bs "HP..") ++ group (bs "IINST") (wide 3 (papp / 230)) ++
    group (bs "IMAX") (wide 3 42) ++ group (bs "PAPP") (wide 5 papp) ++
    (if adps ≠ 0 then group (bs "ADPS") (wide 5 adps) else []) ++ group (bs "HHPHC") (bs "A") ++ group (bs "MOTDETAT") (wide 6 0) ++ [3]

/-- `test_config_notif` test_tic.cpp:23-73 -/
def notifConfig (emoncms jeedom httpreq : Bool) : Config :=
  let z := Config.zero
  let z := if emoncms then
    { z with emoncms := { z.emoncms with host := padArr 33 (bs "emoncms.home"), port := 8080, url := padArr 33 (bs "/e.php"),
                                         apikey := padArr 33 (bs "key"), node := 1, freq := 300 } } else z
  let z := if jeedom then
    { z with jeedom := { z.jeedom with host := padArr 33 (bs "jeedom.home"), port := 80, url := padArr 65 (bs "/url.php"),
                                       freq := 300 } } else z
  if httpreq then
    { z with httpreq := { z.httpreq with host := padArr 33 (bs "sql.home"), port := 88, freq := 15, flags := 0,
                                         url := padArr 151 (bs "/tinfo.php?hchc=$HCHC&hchp=$HCHP&papp=$PAPP"),
                                         seuilHaut := 5900, seuilBas := 4200 } } else z

/-- `strcpy(config.httpreq.url, …)` and the bits of the triggers (1 ADPS, 2 PTEC, 4 seuils, 128 POST) -/
def httpWith (url : Str) (flags : UInt8 := 0) : Config :=
  let z := notifConfig false false true
  { z with httpreq := { z.httpreq with url := padArr 151 url, flags := flags } }

/-- `tinfo_init(papp, heures_creuses, adps)`: the frame of `tinfo`. -/
def init (papp : Nat) (hc : Bool) (adps : Nat := 0) : Res Teleinfo := copied (built papp hc adps)

/-- No timer fires (`test_reset_timers`). -/
def quiet : Tick := ⟨false, false, false, false, false⟩

/-- Timers that are to be asked, so that `trigger()` of a test is the answer `true`. -/
def asked : Timers := ⟨.every 1, .every 1, .every 1, .never⟩

/-- `for (auto c : trame_teleinfo) tic_decode(c);` with the timers as `k` says: what is sent. -/
def decodeAll (c : Config) (k : Tick) : Tic → Str → Res (Tic × List Out)
  | x, [] => pure (x, [])
  | x, b :: r => do
    let (x, o) ← x.decode mockWorld c asked mockNow k b
    let (x, p) ← decodeAll c k x r
    pure (x, o ++ p)

/-- A new module. -/
def fresh' : Tic := Tic.init (List.replicate MAX_FRAME_SIZE none)

/-- `tinfo_builder` test_tic.cpp:79-101 -/
example : [init 100 true 0, init 200 false 0, init 300 true 100, init 400 false 200].map (fun t => t.map fun t => t.fr.isEmpty) =
    [.ok false, .ok false, .ok false, .ok false] := by decide +kernel
example : Teleinfo.init.fr.isEmpty = true := by decide +kernel

/-- `notif_aucun` test_tic.cpp:105-118 -/
example : (do let (x, o) ← decodeAll (notifConfig false false false) ⟨true, true, true, true, true⟩ fresh' trame
              pure (x.tinfo.fr.isEmpty, o)) = .ok (false, []) := by decide +kernel

/-- `notif_tous` test_tic.cpp:122-142: three requests. -/
example : (do let (x, o) ← decodeAll (notifConfig true true true) ⟨true, true, true, false, false⟩ fresh' trame
              pure (x.tinfo.fr.isEmpty, o.length)) = .ok (false, 3) := by decide +kernel

/-- A request of `http_notif`. -/
def http (c : Config) (t : Res Teleinfo) (n : Notif) : Res Out := do httpNotif mockWorld c (← t) n

/-- `http_notif` test_tic.cpp:146-177 (the test sends the kind `XYZ`, which no caller does). -/
example : http (httpWith (bs "/tinfo.php?hchc=~HCHC~&hchp=~HCHP~&papp=~PAPP~&o=$OPTARIF&tilde=~~")) (init 1800 false) .maj =
    .ok (.http .maj { host := bs "sql.home", port := 88,
                      url := bs "/tinfo.php?hchc=52890470&hchp=49126843&papp=1800&o=HC&tilde=~", data := none }) := by decide +kernel
example : http (httpWith (bs "/tinfo.php?hchc=$HCHC&hchp=$HCHP&papp=$PAPP&ptec=$PTEC&dollar=$$")) (init 1800 false) .maj =
    .ok (.http .maj { host := bs "sql.home", port := 88,
                      url := bs "/tinfo.php?hchc=52890470&hchp=49126843&papp=1800&ptec=HP&dollar=$", data := none }) := by decide +kernel
example : (do expandUrl mockWorld (httpWith (bs "/maj?id=$ChipID&i=$PAPP&y=$TYPE&t=$TimeStamp&d=$Date&r=$rien&blah"))
                (← init 1800 false) (bs "XYZ")) =
    .ok (bs "/maj?id=0x0012AB&i=1800&y=XYZ&t=1951835&d=1969-07-21T02:56:00Z&r=&blah") := by decide +kernel

/-- A text or a number of a JSON value. -/
def leaf : JVal → Option (Str × Int)
  | .str s => some (s, 0)
  | .int n => some ([], n)
  | _ => none

/-- A member of an object. -/
def member (j : JVal) (n : String) : Option (Str × Int) :=
  match j with
  | .obj l => l.lookup (bs n) >>= leaf
  | _ => none

/-- How many members or elements. -/
def count : JVal → Nat
  | .obj l => l.length
  | .arr l => l.length
  | _ => 0

/-- An element of an array. -/
def element (j : JVal) (i : Nat) : JVal :=
  match j with
  | .arr l => l.getD i .null
  | _ => .null

/-- The JSON value of a text, `null` if there is none. -/
def parsed (s : Res Str) : JVal :=
  match s with
  | .ok s => (parseJson s).getD .null
  | .error _ => .null

/-- `http_get_post` test_tic.cpp:181-218: with GET no payload; with POST a JSON object (the test sends the kinds `GET` and `POST`;
here `MAJ`; the test counts 14 members, because its parser keeps one of the two `ISOUSC` of the frame). -/
example : http (httpWith (bs "/json?chipid=$chipid&papp=~PAPP~&n=$notif")) (init 1800 false) .maj =
    .ok (.http .maj { host := bs "sql.home", port := 88, url := bs "/json?chipid=0x0012AB&papp=1800&n=MAJ", data := none }) := by
  decide +kernel
/-- The payload of a request. -/
def payload : Res Out → Res Str
  | .ok (.http _ r) => pure (r.data.getD [])
  | _ => pure []

example : let j := parsed (payload (http (httpWith (bs "/json?chipid=$chipid&papp=~PAPP~&n=$notif") 128) (init 1800 false) .maj))
    (count j, member j "notif", member j "PAPP") = (15, some (bs "MAJ", 0), some ([], 1800)) := by decide +kernel

/-- `tic_notifs()` with a state, for the frame of `tinfo_init`. -/
def notifs (c : Config) (s : NotifState) (k : Tick) (t : Res Teleinfo) : Res (NotifState × List Out) := do
  ticNotifs mockWorld c asked k (← t) s

/-- The URLs of requests. -/
def urls (l : List Out) : List Str := l.map fun o =>
  match o with
  | .http _ r => r.url
  | .jeedom r => r.url
  | .emoncms r => r.url
  | .sse d => d

/-- A sequence of frames, each followed by `tic_notifs()`: the URLs of each. -/
def series (c : Config) : NotifState → List (Tick × Res Teleinfo) → Res (List (List Str))
  | _, [] => pure []
  | s, (k, t) :: r => do
    let (s, o) ← notifs c s k t
    let l ← series c s r
    pure (urls o :: l)

/-- The timer of the HTTP notifications fires. -/
def fires : Tick := ⟨true, false, false, false, false⟩

/-- `http_timer` test_tic.cpp:222-261 -/
example : series (httpWith (bs "/tinfo.php?p=$PAPP&t=$type")) NotifState.init
    [(quiet, init 1234 false), (quiet, init 1234 false), (quiet, init 1234 false), (fires, init 1234 false), (quiet, init 1234 false),
      (fires, init 4321 false)] =
    .ok [[], [], [], [bs "/tinfo.php?p=1234&t=MAJ"], [], [bs "/tinfo.php?p=4321&t=MAJ"]] := by decide +kernel
example : series (notifConfig false false false) NotifState.init [(fires, init 4321 false)] = .ok [[]] := by decide +kernel

/-- `http_ptec` test_tic.cpp:265-310 -/
example : series (httpWith (bs "/tinfo.php?p=$PAPP&ptec=$PTEC&t=$type") 2) NotifState.init
    [(quiet, copied trame), (quiet, init 1800 true), (quiet, init 2800 true), (quiet, init 1000 false)] =
    .ok [[], [bs "/tinfo.php?p=1800&ptec=HC&t=PTEC"], [], [bs "/tinfo.php?p=1000&ptec=HP&t=PTEC"]] := by decide +kernel
example : series (httpWith (bs "/tinfo.php?p=$PAPP&ptec=$PTEC&t=$type") 0) NotifState.init
    [(quiet, copied trame), (quiet, init 1900 true), (quiet, init 1100 false)] = .ok [[], [], []] := by decide +kernel

/-- `http_seuils` test_tic.cpp:312-355 -/
example : series (httpWith (bs "/tinfo.php?p=$PAPP&t=$type") 4) NotifState.init
    [(quiet, copied trame), (quiet, init 6000 false), (quiet, init 5000 false), (quiet, init 6000 false), (quiet, init 4000 false),
      (quiet, init 5000 false), (quiet, init 4000 false)] =
    .ok [[], [bs "/tinfo.php?p=6000&t=HAUT"], [], [], [bs "/tinfo.php?p=4000&t=BAS"], [], []] := by decide +kernel

/-- `http_adps` test_tic.cpp:359-394 -/
example : series (httpWith (bs "/tinfo.php?p=$PAPP&t=$type") 1) NotifState.init
    [(quiet, init 5000 true 0), (quiet, init 6000 true 0), (quiet, init 7000 true 10), (quiet, init 7200 true 11),
      (quiet, init 4000 true 0), (quiet, init 1000 true 0)] =
    .ok [[], [], [bs "/tinfo.php?p=7000&t=ADPS"], [], [bs "/tinfo.php?p=4000&t=NORM"], []] := by decide +kernel

/-- A URL that the tests expect, test_tic.cpp:408. -/
def expected1 : Str := bs "/url.php?api=&ADCO=111111111111&OPTARIF=HC&ISOUSC=30&HCHC=052890470&HCHP=049126843&PTEC=HP&IINST=008&IMAX=042&PAPP=01890&HHPHC=D&MOTDETAT=000000"

/-- A URL that the tests expect, test_tic.cpp:417. -/
def expected2 : Str := bs "/url.php?api=&ADCO=12345678&OPTARIF=HC&ISOUSC=30&HCHC=052890470&HCHP=049126843&PTEC=HP&IINST=008&IMAX=042&PAPP=01890&HHPHC=D&MOTDETAT=000000"

/-- A URL that the tests expect, test_tic.cpp:438. -/
def expected3 : Str := bs "/e.php?node=1&apikey=key&json={ADCO:111111111111,OPTARIF:2,ISOUSC:30,HCHC:52890470,HCHP:49126843,PTEC:3,IINST:8,IMAX:42,PAPP:1890,HHPHC:68,MOTDETAT:0}"

/-- `jeedom` test_tic.cpp:396-424 -/
example : (do jeedomNotif (notifConfig false true false) (← copied trame)) =
    .ok [.jeedom { host := bs "jeedom.home", port := 80, url := expected1, data := none }] := by
  decide +kernel
example : (do jeedomNotif (let z := notifConfig false true false
                           { z with jeedom := { z.jeedom with adco := padArr 13 (bs "12345678") } }) (← copied trame)) =
    .ok [.jeedom { host := bs "jeedom.home", port := 80, url := expected2, data := none }] := by
  decide +kernel
example : (do jeedomNotif (notifConfig false false false) (← copied trame)) = .ok [] := by decide +kernel

/-- `emoncms` test_tic.cpp:426-444 -/
example : (do emoncmsNotif (notifConfig true false false) (← copied trame)) =
    .ok [.emoncms { host := bs "emoncms.home", port := 8080, url := expected3, data := none }] := by
  decide +kernel
example : (do emoncmsNotif (notifConfig false false false) (← copied trame)) = .ok [] := by decide +kernel

/-- `json_empty` test_tic.cpp:446-458 -/
example : ticJsonArray mockWorld Teleinfo.init = .ok (bs "[]") ∧ ticJsonDict mockWorld Teleinfo.init none = .ok (bs "{}") := by
  decide +kernel

/-- `json` test_tic.cpp:460-493 -/
example : let j := parsed (do ticJsonArray mockWorld (← copied trame))
    (count j, member (element j 2) "na", member (element j 2) "va") = (13, some (bs "ADCO", 0), some (bs "111111111111", 0)) := by
  decide +kernel
example : let j := parsed (do ticJsonDict mockWorld (← copied trame) none)
    ["OPTARIF", "HCHC", "HCHP", "PTEC", "MOTDETAT"].map (member j) =
    [some (bs "HC", 0), some ([], 52890470), some ([], 49126843), some (bs "HP", 0), some ([], 0)] := by decide +kernel

/-- `led` test_tic.cpp:497-524: the LED is written twice for a frame, or not at all. -/
def ledCount (c : Config) : Tic → Str → Res Nat
  | _, [] => pure 0
  | x, b :: r => do
    let l ← x.leds c mockNow b
    let (x, _) ← x.decode mockWorld c asked mockNow quiet b
    let n ← ledCount c x r
    pure (l.length + n)

example : ledCount { notifConfig false false false with options := 1 } fresh' trame = .ok 2 := by decide +kernel
example : ledCount (notifConfig false false false) fresh' trame = .ok 0 := by decide +kernel

/-- `get_value` test_tic.cpp:528-535 -/
example : (do let t ← init 2001 false; [bs "PAPP", bs "OPTARIF", bs "HHPHC"].mapM (ticGetValue mockWorld t)) =
    .ok [some (bs "2001"), some (bs "HC"), some (bs "A")] := by decide +kernel

end Wifinfo.Tests
