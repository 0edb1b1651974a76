import Verif.Model.Page
import Verif.Model.Sys

/-!
# The list of networks of the configuration page

`data_src/index.html` lines 633-660 (the table `tab_scan_data`, filled from `/wifiscan.json`) and 942-949 (the choice of a
row).  The table is shown sorted by strength, the chosen row is given by its rank in the answer instead.
-/

namespace Wifinfo
open Spec

/-- The names in the rows of the table, for the answer `j` to `GET /wifiscan.json`: one row for each element of the list,
none if the answer is not a list. -/
def Browser.networks (w : Browser) (j : Str) : List Str :=
  match parseJson j with
  | some (.arr l) => l.map fun
    | .obj o => (w.filled o (bs "ssid")).getD []
    | _ => []
  | _ => []

/-- `$(…).val(v)`, or the user enters `v`: the post of the form with this text in the control `name`. -/
def setText (a : Args) (name v : Str) : Args := a.map fun p => if p.1 = name then (p.1, v) else p

/-- The post of the form (filled from `cfg`) after the choice of the row `i` of the list (filled from `scan`),
index.html:942-949, where the user has then entered the key. -/
def Browser.choose (w : Browser) (cfg scan : Str) (i : Nat) (key : Str) : Args :=
  match (w.networks scan)[i]? with
  | some name => setText (setText (w.save false cfg) (bs "ssid") name) (bs "psk") key
  | none => setText (w.save false cfg) (bs "psk") key

end Wifinfo
