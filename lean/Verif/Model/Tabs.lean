import Verif.Model.Base

/-!
# Model of the tabs of the web page: `data_src/index.html` (script) with what it uses of `data_src/js/wifinfo.js`

The tabs (Bootstrap 3.3.5), the tables (bootstrap-table), the timers and the event stream.  What is drawn is elsewhere
(`Model/Script.lean`, `Model/Gauges.lean`).  A browser with event streams; times are in milliseconds.
-/

namespace Wifinfo

/-- The tabs index.html:29-36. -/
inductive Tab
  | gauges | tinfo | sys | cfg
deriving DecidableEq, Repr

/-- The tables that are loaded from the device: `tab_tinfo_data`, `tab_sys_data`, `tab_scan_data`. -/
inductive Table
  | tinfo | sys | scan
deriving DecidableEq, Repr

/-- The tab whose timer follows this table, index.html:922, 932. -/
def Table.tab : Table → Option Tab
  | .tinfo => some .tinfo
  | .sys => some .sys
  | .scan => none

/-- The delay of the timer, index.html:927, 937. -/
def Table.delay : Table → Nat
  | .tinfo => 5000
  | .sys => 1000
  | .scan => 0

/-- A timer of the browser. -/
structure Armed where
  handle : Nat
  table : Table
  due : Nat
deriving DecidableEq, Repr

/-- What the page asks the device for. -/
inductive Ask
  | table (t : Table)
  | config
  | version
  | stream (n : Nat)
  | close (n : Nat)
deriving DecidableEq, Repr

/-- The state of the page. -/
structure Tabs where
  /-- the tab of class `active` -/
  active : Option Tab
  /-- the tabs that are being shown (the transition takes 150 ms), oldest first -/
  shows : List Tab
  /-- `source` index.html:696 -/
  source : Option Nat
  /-- the event streams that are open -/
  streams : List Nat
  /-- `Timer_sys`, `Timer_tinfo` index.html:691-692 -/
  timerSys : Option Nat
  timerTinfo : Option Nat
  /-- the timers that have not fired -/
  armed : List Armed
  /-- the requests of the tables that have no answer yet -/
  waiting : List Table
  /-- does the table have an address? -/
  sysUrl : Bool
  scanUrl : Bool
  /-- the handle of the next timer or stream -/
  next : Nat
deriving DecidableEq, Repr

/-- What happens to the page. -/
inductive TabEvent
  /-- a click on a tab -/
  | click (t : Tab)
  /-- the oldest transition ends -/
  | shown
  /-- a click on the button of a table, or on `btn_scan` for the scan -/
  | button (t : Table)
  /-- the request number `i` gets an answer, or fails -/
  | answer (i : Nat) (ok : Bool) (now : Nat)
  /-- a timer fires -/
  | fire (handle : Nat) (now : Nat)
deriving DecidableEq, Repr

/-- `clearTimeout` -/
def Tabs.clear (s : Tabs) (h : Option Nat) : Tabs := { s with armed := s.armed.filter fun a => h ≠ some a.handle }

/-- `refresh` of bootstrap-table on a table that has an address (`initServer`). -/
def Tabs.refresh (s : Tabs) (t : Table) : Tabs × List Ask := ({ s with waiting := s.waiting ++ [t] }, [.table t])

/-- `Tab.prototype.show` of Bootstrap: nothing for the active tab. -/
def Tabs.click (s : Tabs) (t : Tab) : Tabs :=
  if s.active = some t then s else { s with active := some t, shows := s.shows ++ [t] }

/-- The part of the handler of `shown.bs.tab` that depends on the tab, index.html:869-917. -/
def Tabs.enter (s : Tabs) : Tab → Tabs × List Ask
  | .tinfo => s.refresh .tinfo
  | .sys => ({ s with sysUrl := true } : Tabs).refresh .sys
  | .cfg =>
    let (s, l) := ({ s with scanUrl := true } : Tabs).refresh .scan
    (s, .config :: l)
  | .gauges => ({ s with source := some s.next, streams := s.streams ++ [s.next], next := s.next + 1 }, [.stream s.next])

/-- The handler of `shown.bs.tab` index.html:846-918. -/
def Tabs.onShown (s : Tabs) (t : Tab) : Tabs × List Ask :=
  let s := s.clear s.timerSys
  let s := s.clear s.timerTinfo
  let (s, l) := match s.source with
    | some n => ({ s with source := none, streams := s.streams.filter (· ≠ n) }, [Ask.close n])
    | none => (s, [])
  let (s, m) := s.enter t
  (s, l ++ m)

/-- The handlers of `load-success.bs.table` index.html:920-939; the table of the scan has none. -/
def Tabs.loaded (s : Tabs) (t : Table) (now : Nat) : Tabs :=
  if t.tab ≠ none ∧ s.active = t.tab then
    let s := { s with armed := s.armed ++ [⟨s.next, t, now + t.delay⟩], next := s.next + 1 }
    match t with
    | .tinfo => { s with timerTinfo := some (s.next - 1) }
    | .sys => { s with timerSys := some (s.next - 1) }
    | .scan => s
  else s

/-- One event, and what is asked. -/
def Tabs.step (s : Tabs) : TabEvent → Tabs × List Ask
  | .click t => (s.click t, [])
  | .shown =>
    match s.shows with
    | [] => (s, [])
    | t :: r => ({ s with shows := r } : Tabs).onShown t
  | .button .tinfo => s.refresh .tinfo
  | .button .sys => if s.sysUrl then s.refresh .sys else (s, [])
  | .button .scan => ({ s with scanUrl := true } : Tabs).refresh .scan -- index.html:951-957
  | .answer i ok now =>
    match s.waiting[i]? with
    | none => (s, [])
    | some t =>
      let s := { s with waiting := s.waiting.eraseIdx i }
      (if ok then s.loaded t now else s, [])
  | .fire h now =>
    match s.armed.find? fun a => a.handle = h ∧ a.due ≤ now with
    | none => (s, [])
    | some a => ({ s with armed := s.armed.filter fun x => x.handle ≠ h } : Tabs).refresh a.table

/-- The page before `window.onload`: no tab is active, index.html:29-36. -/
def Tabs.init : Tabs :=
  { active := none, shows := [], source := none, streams := [], timerSys := none, timerTinfo := none, armed := [],
    waiting := [], sysUrl := false, scanUrl := false, next := 0 }

/-- `window.onload` index.html:1084-1105 with the tab that the address names after `#`, if it names one. -/
def Tabs.load (hash : Option Tab) : Tabs × List Ask :=
  let s := match hash with
    | some t => Tabs.init.click t
    | none => Tabs.init
  let (s, l) := s.refresh .tinfo
  (s, l ++ [.version])

/-- A sequence of events: the state reached, and what is asked at each event. -/
def Tabs.run : Tabs → List TabEvent → Tabs × List (List Ask)
  | s, [] => (s, [])
  | s, e :: r =>
    let (s, l) := s.step e
    let (s, ls) := s.run r
    (s, l :: ls)

end Wifinfo
