import Verif.Model.Script

/-!
# The bar of an upload on the configuration page: data_src/index.html:567-593, 691-696, 794-801, 1005-1082

The file input, the button and the bar.  `fl` is the rounding of the operations on `double`; `toFixed(0)` is the nearest integer of
the exact value of the double, the larger one of two (ECMAScript).  Sizes are below 2⁵³: their divisions by 1024 are exact.
-/

namespace Wifinfo
open Spec

/-- `x.toFixed(0)` for a number that is not negative -/
def toFixed0 (x : Rat) : Str := decText (x + 1 / 2).floor.toNat

/-- `formatSize` index.html:691-696 -/
def jsFormatSize (bytes : Nat) : Str :=
  if bytes < 1024 then decText bytes ++ bs " Bytes"
  else if bytes < 1024 * 1024 then toFixed0 (bytes / 1024) ++ bs " KB"
  else if bytes < 1024 * 1024 * 1024 then toFixed0 (bytes / 1024 / 1024) ++ bs " MB"
  else toFixed0 (bytes / 1024 / 1024 / 1024) ++ bs " GB"

/-- What is seen of the panel: `pgfw` has the class `hide`; `pfw` has the class `progress-bar-danger`; the style `width` of `pfw`; the
texts of `psfw` and of `sfw`; the button has not the class `hide`. -/
structure UploadBar where
  hidden : Bool
  danger : Bool
  width : Str
  text : Str
  name : Str
  button : Bool
deriving DecidableEq

/-- The panel of a page that was just loaded, index.html:571-592 -/
def UploadBar.init : UploadBar := { hidden := true, danger := false, width := bs "0", text := [], name := [], button := false }

/-- What happens to the panel: a file is chosen, the button is pressed, the browser tells how much was sent, the device answers
(`success`) or not (`error`). -/
inductive BarEvent
  | choose (typeOk : Bool) (fname : Str)
  | press
  | progress (computable : Bool) (loaded total : Nat)
  | success
  | error
deriving DecidableEq

/-- `progressUpload` index.html:794-801 -/
def progressUpload (fl : Rat → Rat) (b : UploadBar) (computable : Bool) (loaded total : Nat) : UploadBar :=
  if computable then
    { b with width := toFixed0 (fl (fl (loaded / total) * 100)) ++ bs "%"
             text := jsFormatSize loaded ++ bs " / " ++ jsFormatSize total }
  else b

/-- The handlers index.html:1005-1082.  A button that is hidden is not pressed. -/
def UploadBar.step (fl : Rat → Rat) (b : UploadBar) : BarEvent → UploadBar
  | .choose typeOk fname =>
    { b with hidden := true, name := fname.map jsLower ++ bs " : ", button := (chooseFile typeOk fname).isSome }
  | .press => if b.button then { b with hidden := false } else b
  | .progress c l t => progressUpload fl b c l t
  | .success => b
  | .error => { b with danger := true }

/-- The panel after a sequence of events -/
def UploadBar.run (fl : Rat → Rat) (evs : List BarEvent) : UploadBar := evs.foldl (UploadBar.step fl) .init

end Wifinfo
