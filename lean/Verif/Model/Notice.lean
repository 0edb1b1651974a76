import Verif.Model.Device

/-!
# What the page tells after an action: `data_src/index.html`

jQuery calls `done`/`success` for the codes 200 to 299 and 304 and `fail`/`error` for the others (assumption); the answers in
question are plain texts, so that nothing is parsed.  A request without answer is left out.  The texts are represented by the
kind of notice with the code and the message that it shows.
-/

namespace Wifinfo

/-- The codes that jQuery takes for a success. -/
def jqSuccess (code : Nat) : Bool := decide (200 ≤ code ∧ code < 300) || decide (code = 304)

/-- The answer that a browser gets: the first one; `requestAuthentication` answers 401. -/
def firstAnswer : List Eff → Option (Nat × Str)
  | [] => none
  | .send code text :: _ => some (code, text)
  | .needAuth :: _ => some (401, [])
  | _ :: l => firstAnswer l

/-- A green or a red notice, with the code and the message shown. -/
inductive Notice
  | done (code : Nat) (text : Str)
  | error (code : Nat)
deriving DecidableEq, Repr

/-- The notice after saving the configuration index.html:994-1001: "Enregistrement effectué" or "Erreur lors de
l'enregistrement"; the notice after an update index.html:1071-1080: "Envoi de la mise à jour terminé" or "Erreur lors de la mise
à jour". -/
def noticeOf (l : List Eff) : Option Notice :=
  (firstAnswer l).map fun a => if jqSuccess a.1 then .done a.1 a.2 else .error a.1

/-- Does the page begin to wait for the restart of the device after an upload ? index.html:1071-1075 -/
def waitsAfterUpload (l : List Eff) : Bool :=
  match noticeOf l with
  | some (.done _ _) => true
  | _ => false

/-- `waitReboot` index.html:820-845: the page, which asks for `/hb.htm` every second, comes back at this answer. -/
def comesBack (l : List Eff) : Bool :=
  match firstAnswer l with
  | some (code, text) => jqSuccess code && decide (text = bs "OK")
  | none => false

end Wifinfo
