import Verif.Model.Device

/-!
# The development proxy: `tools/httpdev.sh`, `tools/default.conf`

nginx gives the page from the folder of the sources and passes some addresses on to the device.

Assumptions about nginx: among the prefix locations the longest that begins the address is taken, an exact location goes first;
`proxy_pass` without an address passes the request on as it is, and adds no `X-Forwarded-For`; a static file is given to `GET`, a
`POST` to a file is answered 405, a file that is not there 404.  Simplifications: addresses are decoded and have no `..` and no `//`;
folders (a redirection), the buffering of the event stream and a device that cannot be reached (502) are left out.
-/

namespace Wifinfo

/-- What a location does. -/
inductive Place
  /-- `root /usr/share/nginx/html`, which is `data_src` (httpdev.sh:12) -/
  | folder
  /-- `proxy_pass http://backend_teleinfo`, which is the device (default.conf:2-4, httpdev.sh:11) -/
  | device
deriving DecidableEq, Repr

/-- The prefix locations, default.conf:13-16, 27-62 -/
def nginxPrefixes : List (Str × Place) :=
  [(bs "/", .folder), (bs "/spiffs.json", .device), (bs "/wifiscan.json", .device), (bs "/config.json", .device),
   (bs "/config_form.json", .device), (bs "/tinfo.json", .device), (bs "/system.json", .device), (bs "/json", .device),
   (bs "/hb.html", .device), (bs "/reset", .device), (bs "/factory_reset", .device), (bs "/sse/json", .device),
   (bs "/tic", .device)]

/-- The exact location, default.conf:23-25 -/
def nginxExact : List (Str × Place) := [(bs "/50x.html", .folder)]

/-- The longest of the prefixes that begin the address; the first of two of the same length. -/
def longestPrefix (u : Str) : List (Str × Place) → Option (Str × Place)
  | [] => none
  | p :: l =>
    match longestPrefix u l with
    | none => if p.1.isPrefixOf u then some p else none
    | some q => if p.1.isPrefixOf u ∧ q.1.length ≤ p.1.length then some p else some q

/-- Where an address leads. -/
def nginxPlace (u : Str) : Option Place :=
  match nginxExact.find? fun p => p.1 = u with
  | some p => some p.2
  | none => (longestPrefix u nginxPrefixes).map Prod.snd

/-- An answer of the proxy. -/
inductive ProxyAns
  /-- a file of the sources -/
  | file (content : Str)
  /-- an error of nginx -/
  | error (code : Nat)
  /-- what the device answers -/
  | device (l : List Eff)
deriving DecidableEq

/-- The file for an address, default.conf:14-15: `/` is `/index.html`. -/
def nginxFile (src : Str → Option Str) (m : Method) (u : Str) : ProxyAns :=
  if m = .other then .error 405
  else
    match src (if u = bs "/" then bs "/index.html" else u) with
    | none => .error 404
    | some c => if m = .get then .file c else .error 405

/-- A request to the proxy; `src` is the content of the files of `data_src`. -/
def Device.throughProxy (b : Build) (src : Str → Option Str) (d : Device) (e : Env) (r : Req) : Res (Device × ProxyAns) :=
  match nginxPlace r.uri with
  | some .device => do
    let (d, l) ← d.handle b e r
    pure (d, .device l)
  | some .folder => pure (d, nginxFile src r.method r.uri)
  | none => pure (d, .error 404)

/-- What happens: to the device itself, or to the proxy. -/
inductive ProxyEvent
  | direct (ev : Event)
  | proxy (r : Req) (e : Env)

/-- One event. -/
def Device.proxyStep (b : Build) (src : Str → Option Str) (d : Device) : ProxyEvent → Res (Device × ProxyAns)
  | .direct ev => do
    let (d, l) ← d.step b ev
    pure (d, .device l)
  | .proxy r e => d.throughProxy b src e r

/-- The events, and the answers. -/
def Device.proxyRun (b : Build) (src : Str → Option Str) : Device → List ProxyEvent → Res (Device × List ProxyAns)
  | d, [] => pure (d, [])
  | d, ev :: r => do
    let (d, a) ← d.proxyStep b src ev
    let (d, as) ← d.proxyRun b src r
    pure (d, a :: as)

/-- What a browser sees of an answer. -/
def ProxyAns.seen : ProxyAns → List Eff
  | .file c => [.send 200 c]
  | .error code => [.send code []]
  | .device l => l

end Wifinfo
