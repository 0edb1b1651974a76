import Verif.Model.Page
import Verif.Model.Device

/-!
# The buttons of the configuration page: `data_src/index.html`

The buttons of the form `frm_config` and of the dialogues, with the rules of HTML for forms (assumption): a `<button>` without
`type` submits its form; Enter in a field presses the first button of the form that submits it; what a click does by itself is
left out when a script has called `preventDefault`, and a script that returns `false` (jQuery) prevents it and hides the click
from the elements around the button, hence from Bootstrap (`data_src/js/wifinfo.js`, "click.bs.modal.data-api" and
"click.dismiss.bs.modal").

Simplifications: the buttons of the tables and of the firmware panel (which is outside the form) are left out; only the dialogue
on top can be used; whether the `validator` plug-in finds the form valid is an oracle; the accents of the captions are left out;
the content of the form is what `serialize` gives, and may change in any way between two presses.
-/

namespace Wifinfo

/-- A `<button>`: its caption, its attributes `type` and `id`, `data-target` if it has `data-toggle="modal"`, and whether it has
`data-dismiss="modal"`. -/
structure Button where
  caption : Str
  type : Option Str := some (bs "button")
  id : Option Str := none
  toggle : Option Str := none
  dismiss : Bool := false
deriving DecidableEq, Repr

/-- index.html:230, 308, 383, 474, 549 -/
def saveButton : Button := { caption := bs "Enregistrer", type := some (bs "submit") }

/-- index.html:183-184, a magnifying glass -/
def scanButton : Button := { caption := bs "[networks]", id := some (bs "btn_scan"), toggle := some (bs "#tab_scan") }

/-- index.html:541 -/
def rebootButton : Button := { caption := bs "Redemarrer WiFinfo", type := none, id := some (bs "btn_reboot") }

/-- index.html:545 -/
def razButton : Button := { caption := bs "RAZ Usine", type := none, toggle := some (bs "#confirm-raz") }

/-- index.html:611, 639 -/
def closeButton : Button := { caption := bs "[x]", dismiss := true }

/-- index.html:624, 657 -/
def cancelButton : Button := { caption := bs "Annuler", dismiss := true }

/-- index.html:625-626 -/
def yesButton : Button := { caption := bs "Oui tout effacer", id := some (bs "btn_reset"), dismiss := true }

/-- The buttons of the form, in the order of the page index.html:159-557; the restricted page is without what is between
`RESTRICT_ON` and `RESTRICT_OFF`. -/
def formButtons (restricted : Bool) : List Button :=
  (if restricted then [] else [scanButton, saveButton]) ++ [saveButton, saveButton, saveButton, rebootButton] ++
    (if restricted then [] else [razButton]) ++ [saveButton]

/-- The buttons of the dialogues index.html:605-659, 662-679; the restricted page has only the last. -/
def dialogButtons (restricted : Bool) (dialog : Str) : List Button :=
  if restricted then []
  else if dialog = bs "#confirm-raz" then [closeButton, cancelButton, yesButton]
  else if dialog = bs "#tab_scan" then [closeButton, cancelButton]
  else []

/-- A request of the page. -/
structure PageReq where
  method : Method
  uri : Str
  args : Args
deriving DecidableEq, Repr

/-- The page: the content of the form and the open dialogues, the last one opened first. -/
structure Panel where
  form : Args
  dialogs : List Str
deriving DecidableEq, Repr

/-- HTML: does the button submit its form ? -/
def Button.submits (b : Button) : Bool := b.type = none || b.type = some (bs "submit")

/-- What the scripts bound to a button by its id do: the requests, the dialogue opened, and whether they return `false`.
index.html:951-964 (`btn_scan`, `btn_reset`), 966-970 (`btn_reboot`), 820-824 (`waitReboot`) -/
def Button.script (b : Button) : List PageReq × List Str × Bool :=
  if b.id = some (bs "btn_scan") then ([⟨.get, bs "/wifiscan.json", []⟩], [], false)
  else if b.id = some (bs "btn_reset") then ([⟨.post, bs "/factory_reset", []⟩], [bs "#mdl_wait"], true)
  else if b.id = some (bs "btn_reboot") then ([⟨.post, bs "/reset", []⟩], [bs "#mdl_wait"], true)
  else ([], [], false)

/-- The submission of the form index.html:988-1002; the form itself (`method="post" action=""`) is never sent, the script
prevents it. -/
def Panel.submit (p : Panel) (valid : Bool) : List PageReq :=
  if valid then [⟨.post, bs "/config_form.json", p.form⟩] else []

/-- A click on a button, in the form or in the dialogue on top. -/
def Panel.click (p : Panel) (inForm : Bool) (b : Button) (valid : Bool) : Panel × List PageReq :=
  let (reqs, opened, stop) := b.script
  let dialogs := opened ++ (if stop then p.dialogs
    else match b.toggle with
      | some t => t :: p.dialogs
      | none => if b.dismiss then p.dialogs.tail else p.dialogs)
  ({ p with dialogs := dialogs }, reqs ++ if !stop && inForm && b.submits then p.submit valid else [])

/-- What a user does. -/
inductive Act
  /-- fills the form in any way, or the page does -/
  | edit (form : Args)
  /-- Enter in a field of the form -/
  | enter (valid : Bool)
  | press (b : Button) (valid : Bool)
  /-- Escape, or a click beside the dialogue -/
  | leave
deriving DecidableEq, Repr

/-- One action; what cannot be reached is not pressed. -/
def Panel.act (restricted : Bool) (p : Panel) : Act → Panel × List PageReq
  | .edit form => ({ p with form := form }, [])
  | .enter valid =>
    match p.dialogs, (formButtons restricted).find? Button.submits with
    | [], some b => p.click true b valid
    | _, _ => (p, [])
  | .press b valid =>
    match p.dialogs with
    | [] => if b ∈ formButtons restricted then p.click true b valid else (p, [])
    | dialog :: _ => if b ∈ dialogButtons restricted dialog then p.click false b valid else (p, [])
  | .leave => ({ p with dialogs := p.dialogs.tail }, [])

/-- A session: the requests, in order. -/
def Panel.session (restricted : Bool) : Panel → List Act → Panel × List PageReq
  | p, [] => (p, [])
  | p, a :: l =>
    let q := p.act restricted a
    let s := q.1.session restricted l
    (s.1, q.2 ++ s.2)

end Wifinfo
