import Verif.Model.Page
import Verif.Model.Sys
import Verif.Model.Script

/-!
# The HTML that the page writes for its tables

`initBody` of bootstrap-table 1.9.1 (`data_src/js/wifinfo.js` line 17) with the columns and the formatters of
`data_src/index.html`.  The other view of the tables (cards) and the choice of columns are left out; the order of the
rows is a parameter (searching and sorting are in `Model/Search.lean`).
-/

namespace Wifinfo
open Spec

/-- What the header of a column gives to its cells: `class` and `data-align`. -/
structure Column where
  cls : Option Str
  align : Option Str

/-- The opening tag of a cell, `'<td%s %s %s %s %s %s>'`. -/
def tdOpen (c : Column) : Str :=
  bs "<td " ++ (match c.cls with | some x => bs " class=\"" ++ x ++ bs "\"" | none => []) ++ bs " style=\"" ++
    (match c.align with | some x => bs "text-align: " ++ x ++ bs "; " | none => []) ++ bs "\"   >"

/-- A cell: the content is inserted as it is. -/
def tdHtml (x : Column × Str) : Str := tdOpen x.1 ++ x.2 ++ bs "</td>"

/-- The row number `k`. -/
def trHtml (k : Nat) (cells : List (Column × Str)) : Str :=
  bs "<tr  data-index=\"" ++ decText k ++ bs "\">" ++ cells.flatMap tdHtml ++ bs "</tr>"

/-- The rows from number `k`. -/
def trsHtml : Nat → List (List (Column × Str)) → Str
  | _, [] => []
  | k, r :: l => trHtml k r ++ trsHtml (k + 1) l

/-- `initBody`: the content of the table; `n` is the number of columns. -/
def tableHtml (n : Nat) (rows : List (List (Column × Str))) : Str :=
  if rows = [] then
    bs "<tr class=\"no-records-found\"><td colspan=\"" ++ decText n ++ bs "\">No matching records found</td></tr>"
  else trsHtml 0 rows

/-- The value of a field of a row: `-` if there is none. -/
def Browser.value (w : Browser) (row : JVal) (field : Str) : Str :=
  match row with
  | .obj o =>
    match o.reverse.find? fun p => p.1 = field with
    | some (_, .null) => bs "-"
    | some (_, v) => w.text v
    | none => bs "-"
  | _ => bs "-"

/-- The width of the bar of the quality, `Math.min(Math.max(2 * (rssi + 100), 0), 100)` index.html:781 -/
def rssiSignal (rssi : Int) : Int := min (max (2 * (rssi + 100)) 0) 100

/-- The colour of the bar, index.html:783-786 -/
def rssiColour (signal : Int) : Str :=
  let cl := bs "success"
  let cl := if signal < 70 then bs "info" else cl
  let cl := if signal < 50 then bs "warning" else cl
  if signal < 30 then bs "danger" else cl

/-- `RSSIFormatter` index.html:779-793 for a number -/
def rssiHtml (rssi : Int) : Str :=
  let signal := rssiSignal rssi
  bs "<div class='progress progress-tbl'>" ++
    bs "<div class='progress-bar " ++ (bs "progress-bar-" ++ rssiColour signal) ++
      bs "' role='progressbar' aria-valuemin='0' aria-valuemax='100' " ++
    bs "aria-valuenow='" ++ decInt signal ++ bs "' style='width:" ++ decInt signal ++ bs "%'>" ++ decInt rssi ++
      bs "dB</div></div>"

/-- The number in the field `rssi`; the device sends a number. -/
def rowRssi : JVal → Int
  | .obj o =>
    match o.reverse.find? fun p => p.1 = bs "rssi" with
    | some (_, .int n) => n
    | _ => 0
  | _ => 0

/-- The table of the networks, index.html:644-651 -/
def Browser.scanTable (w : Browser) (rows : List JVal) : Str :=
  tableHtml 3 (rows.map fun r =>
    [(⟨some (bs "col-sm-5"), none⟩, w.value r (bs "ssid")),
     (⟨some (bs "col-sm-4"), some (bs "center")⟩, rssiHtml (rowRssi r)),
     (⟨some (bs "col-sm-3"), some (bs "center")⟩, w.value r (bs "rssi"))])

/-- The column of the tables of the meter and of the system, index.html:134-135, 148-149 -/
def leftColumn : Column := ⟨none, some (bs "left")⟩

/-- The table of the system, index.html:144-152 -/
def Browser.sysTable (w : Browser) (rows : List JVal) : Str :=
  tableHtml 2 (rows.map fun r => [(leftColumn, w.value r (bs "na")), (leftColumn, w.value r (bs "va"))])

/-- What `valueFormatter` adds to a value, index.html:746-757 -/
inductive Deco
  | none | up | down | unknown

def Deco.html : Deco → Str
  | .none => []
  | .up => arrowUp
  | .down => arrowDown
  | .unknown => bs " ??"

/-- The table of the meter, index.html:130-139; what is added to the values is a parameter here (see `formatValue`). -/
def Browser.ticTable (w : Browser) (rows : List (JVal × Deco)) : Str :=
  tableHtml 2 (rows.map fun r =>
    [(leftColumn, w.value r.1 (bs "na")), (leftColumn, w.value r.1 (bs "va") ++ r.2.html)])

end Wifinfo
