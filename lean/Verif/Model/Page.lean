import Verif.Spec.Json
import Verif.Spec.Utf8
import Verif.Spec.Number
import Verif.Model.Config

/-!
# The configuration form of the web page

`data_src/index.html` lines 159-557: the form `frm_config`, filled from `/config.json` when its tab is
shown (lines 881-883, the `autofill` plug-in of `data_src/js/wifinfo.js`) and posted to
`/config_form.json` (lines 988-1001, `serialize` of jQuery 2.1.4 in `data_src/js/wifinfo.js`).

Simplifications: the `validator` plug-in, which may refuse to post, is left out; the encoding of the
post by `$.param` and its decoding by the web server of the SDK are taken as inverse of each other;
`JSON.parse` is `Spec.parseJson`.
-/

namespace Wifinfo
open Spec

/-- A control of the form. -/
inductive Control
  /-- `<input type="hidden" value=…>` -/
  | hidden (value : Str)
  /-- `<input type="text" maxlength=…>`, also `password` and `username` -/
  | text (maxlength : Option Nat)
  /-- `<input type="number" min=… max=…>` -/
  | number (min max : Nat)
  /-- `<select>` with the values of its options -/
  | select (options : List Str)
  /-- `<input type="checkbox" value=…>` -/
  | checkbox (value : Str)

/-- The options of the three `<select>` index.html:281-293, 355-367, 429-441 -/
def periodOptions : List Str :=
  [bs "0", bs "15", bs "30", bs "60", bs "300", bs "900", bs "1800", bs "3600", bs "21600", bs "42300", bs "86400"]

/-- index.html:180-221 and 498-515, between `RESTRICT_ON` and `RESTRICT_OFF` -/
def privateFields1 : List (Str × Control) :=
  [(bs "ssid", .text (some 32)), (bs "psk", .text (some 64)), (bs "host", .text (some 32)),
   (bs "username", .text (some 31)), (bs "password", .text (some 31))]

/-- index.html:498-515, between `RESTRICT_ON` and `RESTRICT_OFF` -/
def privateFields2 : List (Str × Control) :=
  [(bs "ap_psk", .text (some 64)), (bs "ota_auth", .text none), (bs "ota_port", .number 1024 65534)]

/-- index.html:253-464 -/
def publicFields1 : List (Str × Control) :=
  [(bs "emon_host", .text (some 32)), (bs "emon_port", .text (some 5)), (bs "emon_url", .text (some 32)),
   (bs "emon_apikey", .text (some 32)), (bs "emon_freq", .select periodOptions), (bs "emon_node", .number 0 254),
   (bs "jdom_host", .text (some 32)), (bs "jdom_port", .text (some 5)), (bs "jdom_url", .text (some 64)),
   (bs "jdom_apikey", .text (some 48)), (bs "jdom_freq", .select periodOptions), (bs "jdom_adco", .text (some 12)),
   (bs "httpreq_host", .text (some 32)), (bs "httpreq_port", .text (some 5)), (bs "httpreq_url", .text (some 150)),
   (bs "httpreq_use_post", .checkbox (bs "1")), (bs "httpreq_freq", .select periodOptions),
   (bs "httpreq_trigger_ptec", .checkbox (bs "1")), (bs "httpreq_trigger_adps", .checkbox (bs "1")),
   (bs "httpreq_trigger_seuils", .checkbox (bs "1")), (bs "httpreq_seuil_bas", .text (some 5)),
   (bs "httpreq_seuil_haut", .text (some 5))]

/-- index.html:524-532 -/
def publicFields2 : List (Str × Control) :=
  [(bs "sse_freq", .number 0 360), (bs "cfg_led_tinfo", .checkbox (bs "1"))]

/-- The form of the page for everybody and of the page for restricted clients (`make_restrict`,
prep_data_folder.py:50-57, removes what is between the marks), in the order of the page. -/
def formFields (restricted : Bool) : List (Str × Control) :=
  (bs "save", .hidden (bs "1")) ::
    ((if restricted then [] else privateFields1) ++ publicFields1 ++ (if restricted then [] else privateFields2) ++
      publicFields2)

/-- The browser: what becomes of the bytes of a text decoded as UTF-8 and encoded again; a text that is not UTF-8 gets
replacement characters. -/
structure Browser where
  recode : Str → Str
  same : ∀ s, IsUtf8 s → recode s = s
  valid : ∀ s, IsUtf8 (recode s)

/-- The text that a JSON value gives to a control (`val` in jquery: a number is turned into a text).
Arrays and objects are left out, the device sends none. -/
def Browser.text (w : Browser) : JVal → Str
  | .null => []
  | .bool b => if b then bs "true" else bs "false"
  | .int (.ofNat n) => decText n
  | .int (.negSucc n) => 45 :: decText (n + 1)
  | .dec t => t
  | .str s => w.recode s
  | .arr _ => []
  | .obj _ => []

/-- What `autofill` leaves for a control: the last member with its name. -/
def Browser.filled (w : Browser) (o : List (Str × JVal)) (name : Str) : Option Str :=
  ((o.reverse.find? fun p => p.1 = name).map fun p => w.text p.2)

/-- What `serialize` posts for a control: nothing for a `<select>` that has none of its options selected
(`selectedIndex = -1`, `val()` is null) and for a checkbox that is not checked.  Before it is filled a text
is empty, a `<select>` has its first option, a checkbox is not checked. -/
def Browser.control (w : Browser) (o : List (Str × JVal)) (f : Str × Control) : Option (Str × Str) :=
  match f.2, w.filled o f.1 with
  | .hidden v, x => some (f.1, x.getD v)
  | .text _, x => some (f.1, x.getD [])
  | .number _ _, x => some (f.1, x.getD [])
  | .select l, none => l.head?.map fun v => (f.1, v)
  | .select l, some v => if v ∈ l then some (f.1, v) else none
  | .checkbox v, x => if x = some v then some (f.1, v) else none

/-- The post of the form, saved as it is after the answer `j` to `GET /config.json`; when it is not JSON the
form stays as it was (index.html:884-886). -/
def Browser.save (w : Browser) (restricted : Bool) (j : Str) : Args :=
  let o := match parseJson j with
    | some (.obj o) => o
    | _ => []
  (formFields restricted).filterMap (w.control o)

end Wifinfo
