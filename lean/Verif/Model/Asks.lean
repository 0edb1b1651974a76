import Verif.Model.Tabs
import Verif.Model.Buttons

/-!
# The whole page of a browser: `data_src/index.html`

The tabs and tables (`Model/Tabs.lean`), the form and the dialogues (`Model/Buttons.lean`), the sending of a file and the wait for
a restart, with the requests that the browser sends.

Simplifications: the tabs and the form go on side by side (a click may come on a tab that hides the form: more requests than in a
browser); an upload is one request; the files that the page is made of are left out (`Model/Static.lean`).
-/

namespace Wifinfo

/-- The requests, index.html:871, 877, 881, 891 (the table of the networks index.html:646 is not in the restricted page, and
jQuery does nothing with an element that is not there), 896, 1096-1103. -/
def Ask.reqs (restricted : Bool) : Ask → List PageReq
  | .table .tinfo => [⟨.get, bs "/tinfo.json", []⟩]
  | .table .sys => [⟨.get, bs "/system.json", []⟩]
  | .table .scan => if restricted then [] else [⟨.get, bs "/wifiscan.json", []⟩]
  | .config => [⟨.get, bs "/config.json", []⟩]
  | .version => [⟨.get, bs "/version", []⟩]
  | .stream _ => [⟨.get, bs "/sse/json", []⟩]
  | .close _ => []

/-- The page in a browser. -/
structure WholePage where
  tabs : Tabs
  panel : Panel
  /-- the timer of `waitReboot` index.html:825 -/
  waits : Bool
deriving DecidableEq, Repr

/-- What happens to it. -/
inductive PageEvent
  | tab (e : TabEvent)
  | act (a : Act)
  /-- a click on the button that sends the file, and whether the browser takes the answer for a success -/
  | upload (done : Bool)
  /-- a second of `waitReboot` -/
  | beat
deriving DecidableEq, Repr

/-- One event: index.html:1055-1082 (upload, not in the restricted page), 825-844 (wait). -/
def WholePage.step (restricted : Bool) (p : WholePage) : PageEvent → WholePage × List PageReq
  | .tab e => ({ p with tabs := (p.tabs.step e).1 }, (p.tabs.step e).2.flatMap (Ask.reqs restricted))
  | .act a =>
    let q := p.panel.act restricted a
    ({ p with panel := q.1, waits := p.waits || decide (bs "#mdl_wait" ∈ q.1.dialogs) }, q.2)
  | .upload done => if restricted then (p, []) else ({ p with waits := p.waits || done }, [⟨.post, bs "/update", []⟩])
  | .beat => (p, if p.waits then [⟨.get, bs "/hb.htm", []⟩] else [])

/-- The events, and the requests. -/
def WholePage.run (restricted : Bool) : WholePage → List PageEvent → List PageReq
  | _, [] => []
  | p, e :: r => (p.step restricted e).2 ++ (p.step restricted e).1.run restricted r

/-- The page is opened, at the address `#tab` if there is one, and used. -/
def visit (restricted : Bool) (hash : Option Tab) (form : Args) (evs : List PageEvent) : List PageReq :=
  (Tabs.load hash).2.flatMap (Ask.reqs restricted) ++ (WholePage.mk (Tabs.load hash).1 ⟨form, []⟩ false).run restricted evs

end Wifinfo
