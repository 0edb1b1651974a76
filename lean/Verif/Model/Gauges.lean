import Verif.Spec.Json
import Verif.Spec.Number

/-!
# The gauges of `data_src/index.html`

The listener of the event stream index.html:894-914.  `JSON.parse` is the reader of `Spec/Json.lean`.  The needles are
drawn by a library (`js/gauge.min.js`), only the values given to it are here.
-/

namespace Wifinfo
open Spec

/-- What JavaScript makes of values that no meter frame gives here: the text of `(v / 1000).toFixed(3)` when `v` is not
a natural number below one thousand million, and `v == "HC"` when `v` is neither a text nor a number. -/
structure JsOdd where
  fixed : JVal → Str
  isHC : JVal → Bool

/-- Which of the two tariffs bears the mark `glyphicon-ok-sign`. -/
inductive TariffMark
  | none | hp | hc
deriving DecidableEq, Repr

/-- What the tab shows: the values of the two gauges (`none`: undefined), the texts of `#HCHP` and `#HCHC`, the mark. -/
structure Gauges where
  papp : Option JVal
  iinst : Option JVal
  hchp : Str
  hchc : Str
  mark : TariffMark

/-- As the page is loaded: index.html:94-99, 1109-1175 (the gauges have the value 0 of the library). -/
def Gauges.init : Gauges :=
  { papp := some (.int 0), iinst := some (.int 0), hchp := bs "0", hchc := bs "0", mark := .none }

/-- `tic.NAME`: the last member of this name (`JSON.parse` keeps the last one), undefined if there is none or if the
value is not an object. -/
def jsGet (v : JVal) (name : Str) : Option JVal :=
  match v with
  | .obj l => (l.reverse.find? fun p => p.1 == name).map (·.2)
  | _ => none

/-- `n / 1000` with three decimals, exact for these sizes: the double nearest to `n / 1000` is nearer to it than half a
thousandth. -/
def kwhText (n : Nat) : Str :=
  decText (n / 1000) ++ bs "." ++
    [UInt8.ofNat (48 + n / 100 % 10), UInt8.ofNat (48 + n / 10 % 10), UInt8.ofNat (48 + n % 10)]

/-- `(tic.X / 1000).toFixed(3) + ""` index.html:904-905 -/
def jsFixed (js : JsOdd) : Option JVal → Str
  | none => bs "NaN"
  | some (.int n) => if 0 ≤ n ∧ n < 1000000000 then kwhText n.toNat else js.fixed (.int n)
  | some v => js.fixed v

/-- `tic.PTEC == "HC"` index.html:906 -/
def jsIsHC (js : JsOdd) : Option JVal → Bool
  | none => false
  | some (.str s) => s == bs "HC"
  | some (.int _) => false
  | some v => js.isHC v

/-- The listener of `message` index.html:899-914.  An exception of `JSON.parse`, or of `tic.PAPP` when the value is
`null`, leaves everything as it was. -/
def Gauges.message (js : JsOdd) (g : Gauges) (data : Str) : Gauges :=
  match parseJson data with
  | none => g
  | some .null => g
  | some tic =>
    { papp := jsGet tic (bs "PAPP")
      iinst := jsGet tic (bs "IINST")
      hchp := jsFixed js (jsGet tic (bs "HCHP"))
      hchc := jsFixed js (jsGet tic (bs "HCHC"))
      mark := if jsIsHC js (jsGet tic (bs "PTEC")) then .hc else .hp }

/-- The messages of a stream, one after the other. -/
def Gauges.messages (js : JsOdd) (g : Gauges) (l : List Str) : Gauges := l.foldl (Gauges.message js) g

end Wifinfo
