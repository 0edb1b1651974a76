import Verif.Model.Store
import Verif.Model.Sys
import Verif.Model.Tic

/-!
# Model of `src/webserver.cpp`, `src/update.cpp` and of the main loop `src/main.cpp`

The whole device: configuration, meter module, event-stream clients, web server, firmware upload.
`ESP8266WebServer` is modelled by what it gives to the handlers: method, URI, arguments, whether
the credentials of the request are those of a given user (`server.authenticate`), whether the
forwarding header is there, the pieces of an uploaded file.  Its static file handlers are an
argument (`Env.static`).  The `Update` object is modelled by its answers.  Response headers, MIME
types, serial prints, ArduinoOTA and the NTP client are left out; the LED is in `Model/Led.lean`.
-/

namespace Wifinfo
open Spec

/-- HTTP method. -/
inductive Method
  | get | post | other
deriving DecidableEq, Repr

/-- A request as the handlers see it. -/
structure Req where
  method : Method
  uri : Str
  args : Args
  /-- `server.authenticate(user, password)` -/
  creds : Str → Str → Bool
  /-- `server.hasHeader("X-Forwarded-For")` -/
  forwarded : Bool

/-- What the SDK answers while a request is handled. -/
structure Env where
  sys : SysEnv
  /-- networks found, if the scan succeeds -/
  scan : Option (List Ap)
  /-- what the listing of the root gives -/
  files : List (Str × Nat)
  /-- `WIFINFO_FS.exists` -/
  fileExists : Str → Bool
  /-- the file that the static handlers (webserver.cpp:227-230) find for a URI -/
  static : Str → Option Str
  /-- is the connection still there when an event-stream client is created -/
  up : Bool
  /-- text of `cpuload_print` -/
  cpuText : Str
  /-- outcome of `EEPROM.commit` -/
  commit : Commit

/-- What the build and the linker fix. -/
structure Build where
  world : World
  /-- `ENABLE_CPULOAD` -/
  cpuload : Bool
  /-- `_FS_end - _FS_start` -/
  fsSize : Nat

/-- Everything the device does that can be seen from outside. -/
inductive Eff
  /-- `server.send(code, ..., body)` -/
  | send (code : Nat) (body : Str)
  /-- `server.sendHeader`, only for the home page (webserver.cpp:206); the caching headers are not modelled -/
  | header (name value : Str)
  /-- `server.requestAuthentication` (a 401 answer) -/
  | needAuth
  /-- `server.streamFile` of a file -/
  | stream (path : Str)
  | sse (e : SseEff)
  /-- a notification sent by the meter module (never an `Out.sse`) -/
  | out (o : Out)
  /-- `ESP.restart()` -/
  | restart
  /-- `blink.once_ms(500, ESP.restart)` update.cpp:88-90 -/
  | restartSoon
  /-- `ESP.eraseConfig()`: the SDK forgets its Wi-Fi settings -/
  | eraseSdk
  /-- `Update.begin(size, U_FS or U_FLASH)` -/
  | updBegin (size : Nat) (fs : Bool)
  /-- `Update.write` -/
  | updWrite (data : Str)
  /-- `Update.end(force)` -/
  | updEnd (force : Bool)
deriving DecidableEq

/-- The state of the device. -/
structure Device where
  nv : Nv
  timers : Timers
  tic : Tic
  sse : Sse
  /-- `sys_update_is_ok` update.cpp:18 -/
  updOk : Bool

/-! ## Access -/

/-- `AccessType` webserver.h:6-11 -/
inductive Access
  | none | restricted | full
deriving DecidableEq, Repr

/-- `webserver_get_auth` webserver.cpp:28-41 -/
def getAuth (c : Config) (r : Req) : Res (Access × List Eff) :=
  if c.username[0] ≠ 0 then do
    let u ← c.username.cstr
    let p ← c.password.cstr
    if r.creds u p then pure (if r.forwarded then .restricted else .full, [])
    else pure (.none, [.needAuth])
  else pure (.full, [])

/-- `webserver_access_full` webserver.cpp:44-60 -/
def accessFull (c : Config) (r : Req) : Res (Bool × List Eff) := do
  let (a, e) ← getAuth c r
  match a with
  | .full => pure (true, e)
  | .restricted => pure (false, e ++ [.send 403 (bs "failed")])
  | .none => pure (false, e)

/-- `webserver_access_ok` webserver.cpp:63-67 -/
def accessOk (c : Config) (r : Req) : Res (Bool × List Eff) := do
  let (a, e) ← getAuth c r
  pure (a != .none, e)

/-! ## Handlers -/

/-- `server_send_json` webserver.cpp:69-92 -/
def sendJson (d : Device) (r : Req) (get : Bool → Res Str) : Res (Device × List Eff) := do
  let (a, e) ← getAuth d.nv.config r
  if a = .none then pure (d, e)
  else do
    let s ← get (a = .restricted)
    pure (d, e ++ [.send 200 (if s = [] then bs "{}" else s)])

/-- The loop webserver.cpp:121-124; the index is a `uint8_t`, the number of arguments an `int`. -/
def notFoundLoop (args : Args) : Nat → UInt8 → Str → Res Str
  | 0, _, _ => .error .diverge
  | f + 1, i, msg =>
    match args[i.toNat]? with
    | some (n, v) => notFoundLoop args f (i + 1) (msg ++ (bs " " ++ n ++ bs ": " ++ v ++ bs "\n"))
    | none => .ok msg

/-- `webserver_handle_notfound` webserver.cpp:94-128.  The loop goes round at most 256 times unless
it goes on for ever. -/
def notFound (w : World) (d : Device) (r : Req) : Res (List Eff) := do
  let u ← d.nv.config.username.cstr
  let p ← d.nv.config.password.cstr
  let value ← (if r.creds u p then
      match r.uri with
      | [] => .error .outOfBounds
      | _ :: label => ticGetValue w d.tic.tinfo (cstrOf label)
    else pure none : Res (Option Str))
  match value with
  | some v => pure [.send 200 v]
  | none => do
    let msg := bs "Not Found\n\n" ++ bs "URI: " ++ r.uri ++ bs "\nMethod: " ++
      (if r.method = .get then bs "GET" else bs "POST") ++ bs "\nArguments: " ++
      decText r.args.length ++ bs "\n"
    let msg ← notFoundLoop r.args 257 0 msg
    pure [.send 404 msg]

/-- `webserver_handle_read` webserver.cpp:249-280; `none`: no such file. -/
def handleRead (e : Env) (path : Str) : Option (List Eff) :=
  if path.getLast? = some 47 then none
  else if e.fileExists (path ++ bs ".gz") then some [.stream (path ++ bs ".gz")]
  else if e.fileExists path then some [.stream path]
  else none

/-- The answer of `/` when there is no page: webserver.cpp:206-207 and its text webserver.cpp:21 -/
def noPage : List Eff :=
  [.header (bs "Location:") (bs "/update"),
   .send 304 (bs "<!DOCTYPE HTML PUBLIC<title>update</title><a href=\"/update\">update</a>")]

/-- The handler of `/` webserver.cpp:185-209 -/
def handleRoot (d : Device) (e : Env) (r : Req) : Res (List Eff) := do
  let (a, ef) ← getAuth d.nv.config r
  match a with
  | .none => pure ef
  | .restricted =>
    match handleRead e (bs "/index.restrict.html") with
    | some x => pure (ef ++ x)
    | none => pure (ef ++ noPage)
  | .full =>
    match handleRead e (bs "/index.html") with
    | some x => pure (ef ++ x)
    | none => pure (ef ++ noPage)

/-- What `webserver_setup` webserver.cpp:130-241 and `sys_update_register` update.cpp:60-175 attach
to a URI. -/
inductive Route
  | sse | cpuload | configForm | json | tinfo | emoncms | system | config | spiffs | wifiscan
  | factoryReset | reset | heartbeat | updatePage | updatePost | root | version
  | static (path : Str)
  | notFound
deriving DecidableEq, Repr

/-- The handlers are tried in the order of registration; a static handler that finds no file leaves
the request to the not-found handler. -/
def route (cpuload : Bool) (static : Str → Option Str) (m : Method) (u : Str) : Route :=
  if u = bs "/sse/json" ∨ u = bs "/tic" then .sse
  else if cpuload ∧ u = bs "/cpuload" then .cpuload
  else if u = bs "/config_form.json" then .configForm
  else if u = bs "/json" then .json
  else if u = bs "/tinfo.json" then .tinfo
  else if u = bs "/emoncms.json" then .emoncms
  else if u = bs "/system.json" then .system
  else if u = bs "/config.json" then .config
  else if u = bs "/spiffs.json" then .spiffs
  else if u = bs "/wifiscan.json" then .wifiscan
  else if u = bs "/factory_reset" then .factoryReset
  else if u = bs "/reset" then .reset
  else if u = bs "/hb.htm" ∧ m = .get then .heartbeat
  else if u = bs "/update" ∧ m = .get then .updatePage
  else if u = bs "/update" ∧ m = .post then .updatePost
  else if u = bs "/" then .root
  else if u = bs "/version" then .version
  else if m = .get then
    match static u with
    | some p => .static p
    | none => .notFound
  else .notFound

/-- `update_html` update.cpp:21-32 -/
def updateHtml : Str :=
  bs "<!DOCTYPE html>\n" ++
  bs "<html>\n" ++
  bs "<head>\n" ++
  bs "<title>Upload firmware or filesystem</title>\n" ++
  bs "<style>body { font-family: sans-serif; color: #444; background-color: #ddd; }</style>\n" ++
  bs "</head>\n" ++
  bs "<body>\n" ++
  bs "<p>Select a new file to upload to the ESP8266</p>\n" ++
  bs "<form method=\"POST\" enctype=\"multipart/form-data\">\n" ++
  bs "<input type=\"file\" name=\"data\">\n" ++
  bs "<input class=\"button\" type=\"submit\" value=\"Upload\">\n" ++
  bs "</form></body></html>"

/-- The handler of a request. -/
def Device.handle (b : Build) (d : Device) (e : Env) (r : Req) : Res (Device × List Eff) := do
  match route b.cpuload e.static r.method r.uri with
  | .sse => -- sse.h:77-85
    let (ok, ef) ← accessOk d.nv.config r
    if ok then
      match d.sse.accept e.up with
      | some (s, x) => pure ({ d with sse := s }, ef ++ x.map .sse)
      | none => pure (d, ef ++ [.send 503 (bs "Service Unavailable (too many clients)")])
    else pure (d, ef)
  | .cpuload => -- webserver.cpp:137-144
    let (ok, ef) ← accessOk d.nv.config r
    pure (d, if ok then ef ++ [.send 200 e.cpuText] else ef)
  | .configForm => -- webserver.cpp:147-153
    let (a, ef) ← getAuth d.nv.config r
    if a = .none then pure (d, ef)
    else do
      let (nv, code) ← d.nv.handleForm r.args (a = .restricted) e.commit
      let msg := if code = 200 then bs "OK" else if code = 412 then bs "Unable to save configuration"
        else bs "Missing Form Field"
      pure ({ d with nv := nv, timers := ticMakeTimers nv.config }, ef ++ [.send code msg])
  | .json => sendJson d r fun _ => ticJsonDict b.world d.tic.tinfo none
  | .tinfo => sendJson d r fun _ => ticJsonArray b.world d.tic.tinfo
  | .emoncms => sendJson d r fun _ => ticEmoncmsData d.tic.tinfo.fr []
  | .system => sendJson d r fun restricted => sysInfoJson e.sys d.nv.config d.sse restricted
  | .config => sendJson d r fun restricted => d.nv.config.getJson restricted
  | .spiffs => sendJson d r fun restricted => fsJson e.files e.sys.fsTotal e.sys.fsUsed restricted
  | .wifiscan => sendJson d r fun restricted => pure (wifiScanJson e.scan restricted)
  | .factoryReset => -- webserver.cpp:162-167, sys.cpp:382-392
    let (ok, ef) ← accessFull d.nv.config r
    if ok then do
      let nv ← d.nv.configReset b.world.chipId e.commit
      pure ({ d with nv := nv }, ef ++ [.eraseSdk, .send 200 (bs "Reset"), .restart])
    else pure (d, ef)
  | .reset => -- webserver.cpp:168-173, sys.cpp:395-403
    let (ok, ef) ← accessOk d.nv.config r
    pure (d, if ok then ef ++ [.send 200 (bs "Restart"), .restart] else ef)
  | .heartbeat => pure (d, [.send 200 (bs "OK")]) -- webserver.cpp:176-180
  | .updatePage => -- update.cpp:63-71
    let (ok, ef) ← accessFull d.nv.config r
    pure (d, if ok then ef ++ [.send 200 (updateHtml)] else ef)
  | .updatePost => -- update.cpp:79-98
    let (ok, ef) ← accessFull d.nv.config r
    pure (d, if ok && d.updOk then ef ++ [.restartSoon] else ef)
  | .root => do pure (d, ← handleRoot d e r)
  | .version => pure (d, [.stream (bs "/version")]) -- webserver.cpp:211-216
  | .static p => pure (d, [.stream p])
  | .notFound => do pure (d, ← notFound b.world d r)

/-! ## Firmware upload -/

/-- A call of the upload handler, with the answers of the `Update` object: `endOk` is the result of
`Update.end` if it is called. -/
inductive UploadEv
  | start (filename : Str) (contentLength : Nat) (beginOk endOk : Bool)
  | write (buf : Str) (ok endOk : Bool)
  | fin (endOk : Bool)
  | abort (endOk : Bool)
deriving DecidableEq, Repr

/-- `String::indexOf(pat) != -1` -/
def contains (pat : Str) : Str → Bool
  | [] => pat.isEmpty
  | b :: r => pat.isPrefixOf (b :: r) || contains pat r

/-- `sys_update_finish` update.cpp:35-57 -/
def Device.updFinish (d : Device) (force endOk : Bool) : Device × List Eff :=
  ({ d with tic := { d.tic with pause := false }, updOk := endOk },
    [.updEnd force, .send 200 (if endOk then bs "OK" else bs "FAIL")])

/-- The upload handler of `POST /update` update.cpp:102-174. -/
def Device.upload (b : Build) (d : Device) : UploadEv → Device × List Eff
  | .start filename len beginOk endOk =>
    let d := { d with updOk := false }
    let fs := contains (bs "fs.bin") filename
    let size := if fs then b.fsSize else len
    if beginOk then ({ d with tic := { d.tic with pause := true } }, [.updBegin size fs])
    else
      let (d, e) := d.updFinish false endOk
      (d, .updBegin size fs :: e)
  | .write buf ok endOk =>
    if ok then (d, [.updWrite buf])
    else
      let (d, e) := d.updFinish false endOk
      (d, .updWrite buf :: e)
  | .fin endOk => d.updFinish true endOk
  | .abort endOk => d.updFinish false endOk

/-! ## Main loop -/

/-- Hands the notifications of a frame to the outside: an event-stream event goes to the clients
(tic.cpp:122-127). -/
def deliver (conn : Nat → Bool) : Sse → List Out → Sse × List Eff
  | s, [] => (s, [])
  | s, .sse data :: r =>
    let (s, e) := s.handle conn (some data)
    let (s, f) := deliver conn s r
    (s, e.map .sse ++ f)
  | s, o :: r =>
    let (s, f) := deliver conn s r
    (s, .out o :: f)

/-- A meter byte: `tic_decode` called from `loop` main.cpp:81-110. -/
def Device.byte (b : Build) (d : Device) (now : TimeVal) (k : Tick) (conn : Nat → Bool) (x : Byte) :
    Res (Device × List Eff) := do
  let k := { k with clients := !d.sse.clients.isEmpty }
  let (tic, out) ← d.tic.decode b.world d.nv.config d.timers now k x
  let (sse, e) := deliver conn d.sse out
  pure ({ d with tic := tic, sse := sse }, e)

/-- `setup` main.cpp:20-79 with the flash it finds; `mem` is what the decoder's array holds. -/
def Device.boot (b : Build) (flash : Arr 1024) (mem : Vector (Option Byte) MAX_FRAME_SIZE) (sdkSsid sdkPsk : Str)
    (k1 k2 k3 : Commit) : Res Device := do
  let nv ← Nv.configSetup flash b.world.chipId k1 k2
  let nv ← nv.wifiSetup sdkSsid sdkPsk k3
  pure { nv := nv, timers := ticMakeTimers nv.config, tic := Tic.init mem.toList, sse := Sse.init,
         updOk := false }

/-- What can happen to a device.  Within one turn of `loop` the web server comes first (one call of
a handler at most), then the event-stream clients, then one meter byte; any order is allowed
here. -/
inductive Event
  /-- reset or power-up; something else may have changed the flash before -/
  | boot (flash : Option (Arr 1024)) (mem : Vector (Option Byte) MAX_FRAME_SIZE) (sdkSsid sdkPsk : Str) (k1 k2 k3 : Commit)
  | byte (now : TimeVal) (k : Tick) (conn : Nat → Bool) (x : Byte)
  /-- `sse_clients.handle_clients()` in `webserver_loop` webserver.cpp:243-247 -/
  | poll (conn : Nat → Bool)
  /-- a piece of the file posted by a request to `/update` -/
  | upload (r : Req) (u : UploadEv)
  | handle (r : Req) (e : Env)
  /-- `sse <text>` on the serial line, cli.cpp:62-66 -/
  | cliSse (text : Str) (conn : Nat → Bool)
  /-- `set timers` on the serial line, cli.cpp:99-102 -/
  | cliTimers
  /-- `set wifi`, `set ap` on the serial line, cli.cpp:104-119; then the device restarts -/
  | cliWifi (ssid psk : Str) (k : Commit)
  | cliAp (host psk : Str) (k : Commit)
  /-- `esp reset` on the serial line, cli.cpp:180-204; then the device restarts -/
  | cliReset (k : Commit)

/-- One event. -/
def Device.step (b : Build) (d : Device) : Event → Res (Device × List Eff)
  | .boot flash mem ssid psk k1 k2 k3 => do
    let d ← Device.boot b (flash.getD d.nv.ee.flash) mem ssid psk k1 k2 k3
    pure (d, [])
  | .byte now k conn x => d.byte b now k conn x
  | .poll conn =>
    let (s, e) := d.sse.handle conn none
    pure ({ d with sse := s }, e.map .sse)
  | .upload _ u => pure (d.upload b u)
  | .handle r e => d.handle b e r
  | .cliSse text conn =>
    let (s, e) := d.sse.handle conn (some text)
    pure ({ d with sse := s }, e.map .sse)
  | .cliTimers => pure ({ d with timers := ticMakeTimers d.nv.config }, [])
  | .cliWifi ssid psk k => do pure ({ d with nv := ← d.nv.cliWifi ssid psk k }, [.restart])
  | .cliAp host psk k => do pure ({ d with nv := ← d.nv.cliAp host psk k }, [.restart])
  | .cliReset k => pure ({ d with nv := d.nv.espReset k }, [.eraseSdk, .restart])

/-- A sequence of events: the state reached and the effects of each event. -/
def Device.run (b : Build) : Device → List Event → Res (Device × List (List Eff))
  | d, [] => pure (d, [])
  | d, ev :: r => do
    let (d, e) ← d.step b ev
    let (d, es) ← d.run b r
    pure (d, e :: es)

end Wifinfo
