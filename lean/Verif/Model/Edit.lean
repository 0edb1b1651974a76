import Verif.Model.Page

/-!
# Model of the form of the configuration page after some controls were changed

data_src/index.html:178-532 (the controls), 876-890 (`autofill`), 991-1001 (`serialize`).
-/

namespace Wifinfo
open Spec

/-- The post of the form filled from the answer `j` to `GET /config.json` where the user has then changed some controls: `ed` tells for
each of them what `serialize` posts, `none` for a checkbox that is not checked any more. -/
def Browser.edited (w : Browser) (restricted : Bool) (j : Str) (ed : Str → Option (Option Str)) : Args :=
  let o := match parseJson j with
    | some (.obj o) => o
    | _ => []
  (formFields restricted).filterMap fun f =>
    match ed f.1 with
    | some x => x.map fun v => (f.1, v)
    | none => w.control o f

end Wifinfo
