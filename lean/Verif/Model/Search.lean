import Verif.Model.Script
import Verif.Model.Device

/-!
# Searching and sorting the table of the meter

bootstrap-table 1.9.1 (`data_src/js/wifinfo.js` line 17: `load`, `initData`, `initSort`, `onSort`, `onSearch`, `initSearch`, `initBody`)
with the table of `data_src/index.html:130-139`: two columns, `na` and `va`, both to be sorted and searched, the formatters
`labelFormatter` (index.html:712-719, the identity) and `valueFormatter` (index.html:721-761, `formatValue` in `Model/Script.lean`).

The functions of the browser are parameters: `toLowerCase`, `isNaN`, `$.isNumeric` with `parseFloat`, `localeCompare` and `Array.sort`.
Left out: the other view of the table (cards), the choice of the columns, the bar of the load.
-/

namespace Wifinfo

/-- A row of the answer of `/tinfo.json`: label and value -/
abbrev Cells := Str × Str

/-- The functions of the browser that the table uses -/
structure Engine where
  /-- `toLowerCase` -/
  lower : Str → Str
  /-- `!isNaN` -/
  isNumber : Str → Bool
  /-- `parseFloat` when `$.isNumeric` holds -/
  number : Str → Option Int
  /-- `localeCompare` -/
  locale : Str → Str → Int
  /-- `Array.sort` -/
  sort : (Cells → Cells → Int) → List Cells → List Cells

/-- What the table keeps.  `all` is `options.data`; `found` is `this.data`, `none` when it is the same array. -/
structure SearchTable where
  all : List Cells
  found : Option (List Cells)
  /-- `searchText` -/
  text : Option Str
  /-- `sortName` and `sortOrder`: the column of the values?  descending? -/
  order : Option (Bool × Bool)
  /-- `data("order")` of the title of a column: descending? -/
  last : Bool → Bool
  /-- `counters` of index.html -/
  counters : Str → Option Str

/-- The table of a page that is loaded. -/
def SearchTable.start : SearchTable := ⟨[], none, none, none, fun _ => false, fun _ => none⟩

/-- The cell of a column -/
def cell (value : Bool) (r : Cells) : Str := if value then r.2 else r.1

/-- The comparison of `initSort`, for texts.  It never gives 0 for two numbers. -/
def compareRows (e : Engine) (value desc : Bool) (f g : Cells) : Int :=
  let d : Int := if desc then -1 else 1
  let i := cell value f
  let j := cell value g
  match e.number i, e.number j with
  | some x, some y => if y > x then -1 * d else d
  | _, _ => if i = j then 0 else if e.locale i j = -1 then -1 * d else d

/-- `initSort`: sorts `this.data` in place. -/
def SearchTable.sorted (e : Engine) (s : SearchTable) : SearchTable :=
  match s.order with
  | none => s
  | some (value, desc) =>
    match s.found with
    | none => { s with all := e.sort (compareRows e value desc) s.all }
    | some l => { s with found := some (e.sort (compareRows e value desc) l) }

/-- The `$.grep` of `initSearch`: the label is looked at first; the value is formatted, and then looked at, only if the label does not
contain the text. -/
def grepRows (e : Engine) (c : Str) : (Str → Option Str) → List Cells → List Cells × (Str → Option Str)
  | k, [] => ([], k)
  | k, (na, va) :: rows =>
    if contains c (e.lower na) then
      ((na, va) :: (grepRows e c k rows).1, (grepRows e c k rows).2)
    else
      let x := formatValue e.isNumber k na va
      let y := grepRows e c x.2 rows
      (if contains c (e.lower x.1) then (na, va) :: y.1 else y.1, y.2)

/-- `initSearch` -/
def SearchTable.searched (e : Engine) (s : SearchTable) : SearchTable :=
  match s.text with
  | none => { s with found := none }
  | some t =>
    if t = [] then { s with found := none }
    else { s with found := some (grepRows e (e.lower t) s.counters s.all).1, counters := (grepRows e (e.lower t) s.counters s.all).2 }

/-- `this.data` -/
def SearchTable.rows (s : SearchTable) : List Cells := s.found.getD s.all

/-- `initBody`: formats every row again. -/
def drawRows (isNumber : Str → Bool) : (Str → Option Str) → List Cells → List Cells × (Str → Option Str)
  | k, [] => ([], k)
  | k, (na, va) :: rows =>
    let x := formatValue isNumber k na va
    ((na, x.1) :: (drawRows isNumber x.2 rows).1, (drawRows isNumber x.2 rows).2)

/-- The new state, and what is then shown -/
def SearchTable.draw (e : Engine) (s : SearchTable) : SearchTable × Option (List Cells) :=
  ({ s with counters := (drawRows e.isNumber s.counters s.rows).2 }, some (drawRows e.isNumber s.counters s.rows).1)

/-- What happens to the table -/
inductive TableEvent
  /-- a refresh: the rows of the answer -/
  | load (rows : List Cells)
  /-- the text of the search field, without the blanks around it -/
  | search (text : Str)
  /-- a click on the title of a column -/
  | click (value : Bool)

/-- `onSort`: the new order -/
def SearchTable.nextOrder (s : SearchTable) (value : Bool) : Bool :=
  match s.order with
  | some (v, desc) => if v = value then !desc else !(s.last value)
  | none => !(s.last value)

/-- `load`, `onSearch` and `onSort`; `none` when nothing is drawn again. -/
def SearchTable.step (e : Engine) (s : SearchTable) : TableEvent → SearchTable × Option (List Cells)
  | .load rows => ((({ s with all := rows, found := none } : SearchTable).sorted e).searched e).draw e
  | .search text => if s.text = some text then (s, none) else (({ s with text := some text } : SearchTable).searched e).draw e
  | .click value =>
    let desc := s.nextOrder value
    (({ s with order := some (value, desc), last := fun v => if v = value then desc else s.last v } : SearchTable).sorted e).draw e

/-- The table after some events -/
def SearchTable.run (e : Engine) (s : SearchTable) (evs : List TableEvent) : SearchTable := evs.foldl (fun s ev => (s.step e ev).1) s

end Wifinfo
