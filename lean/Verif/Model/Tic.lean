import Verif.Model.Teleinfo
import Verif.Model.Json

/-!
# Model of `src/tic.cpp`

Frame reception, notifications (HTTP, Jeedom, emoncms, SSE), JSON of the frame.

External parts are arguments: `World.iso` is `localtime`+`strftime` (teleinfo.h:331-337),
`World.chipId` is `ESP.getChipId()`, the expiry of the timers and the number of event-stream
clients are given at each frame.  `http_request` (httpreq.cpp:11-36) is an output: its arguments are
recorded, the answer is ignored by the code.  Serial prints and the LED are left out.
-/

namespace Wifinfo
open Spec

/-- Facts about the outside that do not change during a run. -/
structure World where
  /-- `%Y-%m-%dT%H:%M:%S%z` of a time -/
  iso : Nat → Str
  chipId : UInt32

/-- The argument of `http_notif` tic.cpp:18-23 -/
inductive Notif
  | maj | ptec | haut | bas | adps | norm
deriving DecidableEq, Repr

/-- `HTTP_NOTIF_TYPE_...` tic.cpp:18-23 -/
def Notif.text : Notif → Str
  | .maj => bs "MAJ" | .ptec => bs "PTEC" | .haut => bs "HAUT"
  | .bas => bs "BAS" | .adps => bs "ADPS" | .norm => bs "NORM"

/-- Arguments of `http_request` httpreq.cpp:11 -/
structure Request where
  host : Str
  port : UInt16
  url : Str
  data : Option Str
deriving DecidableEq, Repr

/-- What leaves the device.  The kind of notification is recorded beside the request. -/
inductive Out
  | http (n : Notif) (r : Request)
  | jeedom (r : Request)
  | emoncms (r : Request)
  | sse (data : Str)
deriving DecidableEq, Repr

/-- A `polledTimeout::periodicMs` as programmed by `tic_make_timers`: whether it fires at a given
poll is left open when it is periodic. -/
inductive Timer
  | never | always | every (ms : UInt32)
deriving DecidableEq, Repr

/-- `operator bool` of a timer; `fired` is the clock's answer for a periodic timer. -/
def Timer.poll (t : Timer) (fired : Bool) : Bool :=
  match t with
  | .never => false
  | .always => true
  | .every _ => fired

/-- The timers tic.cpp:37-40 -/
structure Timers where
  http : Timer
  jeedom : Timer
  emoncms : Timer
  sse : Timer
deriving DecidableEq, Repr

/-- Initial values tic.cpp:37-40 -/
def Timers.init : Timers := ⟨.never, .never, .never, .never⟩

/-- `tic_make_timers` tic.cpp:131-180 -/
def ticMakeTimers (c : Config) : Timers :=
  { http := if c.httpreq.freq = 0 ∨ c.httpreq.host[0] = 0 ∨ c.httpreq.port = 0 then .never
      else .every (c.httpreq.freq * 1000)
    jeedom := if c.jeedom.freq = 0 ∨ c.jeedom.host[0] = 0 ∨ c.jeedom.port = 0 then .never
      else .every (c.jeedom.freq * 1000)
    emoncms := if c.emoncms.freq = 0 ∨ c.emoncms.host[0] = 0 ∨ c.emoncms.port = 0 then .never
      else .every (c.emoncms.freq * 1000)
    sse := if c.sseFreq = 0 then .always else .every (c.sseFreq.toUInt32 * 1000) }

/-! ## JSON of the frame -/

/-- `const char *state = nullptr; while (tinfo.get_value_next(label, value, &state)) body`
(tic.cpp:201-204, 233-241, 474-489, 504-632). -/
def Frame.eachF {σ : Type} (t : Frame) (body : σ → Nat → Nat → Res σ) : Nat → Option Nat → σ → Res σ
  | 0, _, _ => .error .diverge
  | f + 1, st, s => do
    match ← t.getValueNext st with
    | none => pure s
    | some (l, v, st) =>
      let s ← body s l v
      t.eachF body f (some st) s

/-- The same from the beginning. -/
def Frame.each {σ : Type} (t : Frame) (s : σ) (body : σ → Nat → Nat → Res σ) : Res σ :=
  t.eachF body (MAX_FRAME_SIZE + 1) none s

/-- `%03d` of a number below 1000 -/
def dec3 (n : Nat) : Str :=
  [UInt8.ofNat (48 + n / 100 % 10), UInt8.ofNat (48 + n / 10 % 10), UInt8.ofNat (48 + n % 10)]

/-- `get_seconds` teleinfo.h:339-344 (`tv_usec < 1000000`) -/
def Frame.seconds (t : Frame) : Str := decText t.ts.sec ++ bs "." ++ dec3 (t.ts.usec / 1000)

/-- `tic_get_json_array` tic.cpp:182-207 -/
def ticJsonArray (w : World) (t : Teleinfo) : Res Str :=
  if t.fr.isEmpty then pure (bs "[]") else do
    let s := Jt.text Jt.open (bs "timestamp") (w.iso t.fr.ts.sec)
    let watt ← t.watt
    let s := Jt.num s (bs "watt") watt.toNat
    let s ← t.fr.each s fun s label value => do
      let l ← t.fr.mem.cstr label
      let v ← t.fr.mem.cstr value
      pure (Jt.text s l v)
    Jt.finalize s

/-- `tic_get_json_dict_notif` tic.cpp:209-244 -/
def ticJsonDict (w : World) (t : Teleinfo) (notif : Option Str) : Res Str :=
  if t.fr.isEmpty then pure (bs "{}") else do
    let s := Jb.text Jb.open (bs "timestamp") (w.iso t.fr.ts.sec)
    let s := Jb.text s (bs "seconds") t.fr.seconds
    let s := match notif with
      | some n => Jb.text s (bs "notif") n
      | none => s
    let s ← t.fr.each s fun s label value => do
      let (isNumber, value) ← getInteger t.fr.mem value
      let l ← t.fr.mem.cstr label
      let v ← t.fr.mem.cstr value
      pure (if isNumber then Jb.raw s l v else Jb.text s l v)
    Jb.finalize s

/-- `tic_get_value` tic.cpp:252-272 -/
def ticGetValue (w : World) (t : Teleinfo) (label : Str) : Res (Option Str) :=
  if label = bs "watt" then do
    let x ← t.watt
    pure (some (decText x.toNat))
  else if label = bs "seconds" then pure (some t.fr.seconds)
  else if label = bs "timestamp" then pure (some (w.iso t.fr.ts.sec))
  else t.fr.getValue label true

/-! ## URL template -/

/-- ASCII lower case. -/
def toLower (b : Byte) : Byte := if 65 ≤ b ∧ b ≤ 90 then b + 32 else b

/-- `strcasecmp_P(a, b) == 0` -/
def caseEq (a b : Str) : Bool := a.map toLower == b.map toLower

/-- `http_add_value_ex` tic.cpp:274-306: what is appended to the URI. -/
def httpAddValueEx (w : World) (t : Teleinfo) (label notif : Str) : Res Str :=
  if caseEq label (bs "type") then pure notif
  else if caseEq label (bs "notif") then pure notif
  else if caseEq label (bs "date") then pure (w.iso t.fr.ts.sec)
  else if caseEq label (bs "timestamp") then pure (decText t.fr.ts.sec)
  else if caseEq label (bs "seconds") then pure t.fr.seconds
  else if caseEq label (bs "chipid") then pure (bs "0x" ++ hex06 w.chipId)
  else do
    let v ← t.fr.getValue label true
    pure (v.getD [])

/-- Reading `a[i]` of an array member. -/
def Arr.rd {n} (a : Arr n) (i : Nat) : Res Byte :=
  if h : i < n then .ok a[i] else .error .outOfBounds

/-- `isalpha` on the C locale -/
def isAlpha (b : Byte) : Bool := (65 ≤ b && b ≤ 90) || (97 ≤ b && b ≤ 122)

/-- The loop tic.cpp:322-325: `n` is the room left in `label` (15 at first); returns `p` and the
label. -/
def readTilde {k} (url : Arr k) : Nat → Nat → Res (Nat × Str)
  | 0, p => do
    let _ ← url.rd p
    pure (p, [])
  | n + 1, p => do
    let b ← url.rd p
    if b = 0 ∨ b = 0x7E then pure (p, [])
    else do
      let (q, l) ← readTilde url n (p + 1)
      pure (q, b :: l)

/-- The loop tic.cpp:347-350. -/
def readDollar {k} (url : Arr k) : Nat → Nat → Res (Nat × Str)
  | 0, p => do
    let _ ← url.rd p
    pure (p, [])
  | n + 1, p => do
    let b ← url.rd p
    if isAlpha b ∨ b = 0x5F then do
      let (q, l) ← readDollar url n (p + 1)
      pure (q, b :: l)
    else pure (p, [])

/-- The loop of `http_notif` tic.cpp:316-361; `val` is `http_add_value_ex`.  In the `$` case the
code steps back one character before the `++p` of the `for`. -/
def expandF {k} (url : Arr k) (val : Str → Res Str) : Nat → Nat → Str → Res Str
  | 0, _, _ => .error .diverge
  | f + 1, p, uri => do
    let b ← url.rd p
    if b = 0 then pure uri
    else if b = 0x7E then do
      let (p, label) ← readTilde url 15 (p + 1)
      if label = [] then expandF url val f (p + 1) (uri ++ bs "~")
      else do
        let v ← val label
        expandF url val f (p + 1) (uri ++ v)
    else if b = 0x24 then do
      let p := p + 1
      let c ← url.rd p
      if c = 0x24 then expandF url val f (p + 1) (uri ++ bs "$")
      else do
        let (p, label) ← readDollar url 15 p
        let v ← val label
        expandF url val f p (uri ++ v)
    else expandF url val f (p + 1) (uri ++ [b])

/-- Expansion of the whole template. -/
def expandUrl (w : World) (c : Config) (t : Teleinfo) (notif : Str) : Res Str :=
  expandF c.httpreq.url (fun l => httpAddValueEx w t l notif) 152 0 []

/-- `http_notif` tic.cpp:308-378 -/
def httpNotif (w : World) (c : Config) (t : Teleinfo) (n : Notif) : Res Out := do
  let uri ← expandUrl w c t n.text
  let host ← c.httpreq.host.cstr
  if c.httpreq.usePost then do
    let data ← ticJsonDict w t (some n.text)
    pure (.http n { host := host, port := c.httpreq.port, url := uri, data := some data })
  else pure (.http n { host := host, port := c.httpreq.port, url := uri, data := none })

/-! ## Notifications -/

/-- The static variables tic.cpp:32-35 -/
structure NotifState where
  periode : Arr 8
  initPeriode : Bool
  /-- `seuil_en_cours == HAUT` -/
  haut : Bool
  adps : Bool
deriving DecidableEq

/-- Initial values tic.cpp:32-35 -/
def NotifState.init : NotifState :=
  { periode := Vector.replicate 8 0, initPeriode := true, haut := false, adps := false }

/-- `strncmp(a, b, 8) != 0` where `a` is the array `periode_en_cours` and `b` a C string: compares
up to a NUL or 8 characters. -/
def periodeDiffers (a : Arr 8) (b : Str) : Bool :=
  (cstrOf a.toList) != (b.take 8)

/-- `http_notif_periode_en_cours` tic.cpp:380-402: new state and whether to notify. -/
def periodeStep (s : NotifState) (t : Frame) : Res (NotifState × Option Notif) := do
  match ← t.getValue (bs "PTEC") with
  | none => pure (s, none)
  | some ptec =>
    if periodeDiffers s.periode ptec then do
      let p ← strncpyS s.periode ptec 7
      if s.initPeriode then pure ({ s with periode := p, initPeriode := false }, none)
      else pure ({ s with periode := p }, some .ptec)
    else pure (s, none)

/-- `http_notif_adps` tic.cpp:404-426 -/
def adpsStep (s : NotifState) (t : Frame) : Res (NotifState × Option Notif) := do
  match ← t.getValue (bs "ADPS") with
  | none => if s.adps then pure ({ s with adps := false }, some .norm) else pure (s, none)
  | some _ => if !s.adps then pure ({ s with adps := true }, some .adps) else pure (s, none)

/-- `strtol(s, nullptr, 10)`: blanks, sign, digits; saturates at the limits of a 32-bit `long`. -/
def strtol (s : Str) : Int :=
  let s := s.dropWhile (fun b => b = 32 || (9 ≤ b && b ≤ 13))
  let (neg, s) := match s with
    | [] => (false, [])
    | b :: r => if b = 45 then (true, r) else if b = 43 then (false, r) else (false, b :: r)
  let n : Int := decVal (s.takeWhile isDigit)
  let n := if neg then -n else n
  if n > 2147483647 then 2147483647 else if n < -2147483648 then -2147483648 else n

/-- `http_notif_seuils` tic.cpp:428-452 -/
def seuilsStep (c : Config) (s : NotifState) (t : Frame) : Res (NotifState × Option Notif) := do
  match ← t.getValue (bs "PAPP") with
  | none => pure (s, none)
  | some v =>
    let papp := strtol v
    if papp = 0 then pure (s, none)
    else if papp ≥ c.httpreq.seuilHaut.toNat ∧ s.haut = false then
      pure ({ s with haut := true }, some .haut)
    else if papp ≤ c.httpreq.seuilBas.toNat ∧ s.haut = true then
      pure ({ s with haut := false }, some .bas)
    else pure (s, none)

/-- Sends the notification decided by one of the three functions above. -/
def sendIf (w : World) (c : Config) (t : Teleinfo) : Option Notif → Res (List Out)
  | none => pure []
  | some n => do
    let o ← httpNotif w c t n
    pure [o]

/-- `jeedom_notif` tic.cpp:455-492 -/
def jeedomNotif (c : Config) (t : Teleinfo) : Res (List Out) :=
  if c.jeedom.host[0] = 0 then pure [] else do
    let url ← (if c.jeedom.url[0] ≠ 0 then c.jeedom.url.cstr else pure (bs "/") : Res Str)
    let key ← c.jeedom.apikey.cstr
    let url := url ++ bs "?" ++ bs "api=" ++ key
    let url ← t.fr.each url fun url label value => do
      let l ← t.fr.mem.cstr label
      let v ← (if l = bs "ADCO" ∧ c.jeedom.adco[0] ≠ 0 then c.jeedom.adco.cstr
        else t.fr.mem.cstr value : Res Str)
      pure (url ++ bs "&" ++ l ++ bs "=" ++ v)
    let host ← c.jeedom.host.cstr
    pure [.jeedom { host := host, port := c.jeedom.port, url := url, data := none }]

/-- `*p == a && *(p + 1) == b && ...` with short-circuit. -/
def startsWith (m : Mem) : Nat → Str → Res Bool
  | _, [] => pure true
  | p, x :: r => do
    let b ← m.rd p
    if b = x then startsWith m (p + 1) r else pure false

/-- The code chosen for `OPTARIF` tic.cpp:534-553 -/
def optarifCode (m : Mem) (p : Nat) : Res Str := do
  if ← startsWith m p (bs "BAS") then pure (bs "1")
  else if ← startsWith m p (bs "HC") then pure (bs "2")
  else if ← startsWith m p (bs "EJP") then pure (bs "3")
  else if ← startsWith m p (bs "BBR") then pure (bs "4")
  else pure (bs "0")

/-- The code chosen for `PTEC` tic.cpp:578-625 -/
def ptecCode (v : Str) : Str :=
  if v = bs "TH" then bs "1" else if v = bs "HC" then bs "2" else if v = bs "HP" then bs "3"
  else if v = bs "HN" then bs "4" else if v = bs "PM" then bs "5" else if v = bs "HCJB" then bs "6"
  else if v = bs "HCJW" then bs "7" else if v = bs "HCJR" then bs "8"
  else if v = bs "HPJB" then bs "9" else if v = bs "HPJW" then bs "10"
  else if v = bs "HPJR" then bs "11" else bs "0"

/-- `tic_emoncms_data` tic.cpp:495-635 -/
def ticEmoncmsData (t : Frame) (url : Str) : Res Str := do
  let (_, url) ← t.each (true, url ++ bs "{") fun (first, url) label value => do
    let url := if first then url else url ++ bs ","
    let l ← t.mem.cstr label
    let url := url ++ l ++ bs ":"
    if l = bs "OPTARIF" then do
      let c ← optarifCode t.mem value
      pure (false, url ++ c)
    else if l = bs "HHPHC" then do
      let b ← t.mem.rd value
      pure (false, url ++ decText b.toNat)
    else if l = bs "PTEC" then do
      let v ← t.mem.cstr value
      pure (false, url ++ ptecCode v)
    else do
      let (_, value) ← getInteger t.mem value
      let v ← t.mem.cstr value
      pure (false, url ++ v)
  pure (url ++ bs "}")

/-- `emoncms_notif` tic.cpp:638-668 -/
def emoncmsNotif (c : Config) (t : Teleinfo) : Res (List Out) :=
  if c.emoncms.host[0] = 0 then pure [] else do
    let url ← (if c.emoncms.url[0] ≠ 0 then c.emoncms.url.cstr else pure (bs "/") : Res Str)
    let url := url ++ bs "?"
    let url := if c.emoncms.node > 0 then url ++ bs "node=" ++ decText c.emoncms.node.toNat ++ bs "&"
      else url
    let key ← c.emoncms.apikey.cstr
    let url := url ++ bs "apikey=" ++ key ++ bs "&json="
    let url ← ticEmoncmsData t.fr url
    let host ← c.emoncms.host.cstr
    pure [.emoncms { host := host, port := c.emoncms.port, url := url, data := none }]

/-- What the outside says when a frame arrives: expiry of the periodic timers, whether there is an
event-stream client (`sse_clients.count() != 0`). -/
structure Tick where
  http : Bool
  jeedom : Bool
  emoncms : Bool
  sse : Bool
  clients : Bool
deriving DecidableEq, Repr

/-- The HTTP part of `tic_notifs` tic.cpp:90-112. -/
def httpNotifs (w : World) (c : Config) (tm : Timers) (k : Tick) (t : Teleinfo) (s : NotifState) :
    Res (NotifState × List Out) :=
  if c.httpreq.host[0] ≠ 0 then do
    let (s, n1) ← (if c.httpreq.triggerPtec then periodeStep s t.fr else pure (s, none) :
      Res (NotifState × Option Notif))
    let o1 ← sendIf w c t n1
    let (s, n2) ← (if c.httpreq.triggerSeuils then seuilsStep c s t.fr else pure (s, none) :
      Res (NotifState × Option Notif))
    let o2 ← sendIf w c t n2
    let (s, n3) ← (if c.httpreq.triggerAdps then adpsStep s t.fr else pure (s, none) :
      Res (NotifState × Option Notif))
    let o3 ← sendIf w c t n3
    let o4 ← sendIf w c t (if tm.http.poll k.http then some .maj else none)
    pure (s, o1 ++ o2 ++ o3 ++ o4)
  else pure (s, [])

/-- `tic_notifs` tic.cpp:88-129 -/
def ticNotifs (w : World) (c : Config) (tm : Timers) (k : Tick) (t : Teleinfo) (s : NotifState) :
    Res (NotifState × List Out) := do
  let (s, o1) ← httpNotifs w c tm k t s
  let o2 ← (if tm.jeedom.poll k.jeedom then jeedomNotif c t else pure [] : Res (List Out))
  let o3 ← (if tm.emoncms.poll k.emoncms then emoncmsNotif c t else pure [] : Res (List Out))
  let o4 ← (if tm.sse.poll k.sse ∧ k.clients = true then do
      let data ← ticJsonDict w t none
      pure [.sse data]
    else pure [] : Res (List Out))
  pure (s, o1 ++ o2 ++ o3 ++ o4)

/-- The state of the module: `tinfo`, `tinfo_decoder`, `tinfo_pause`, static variables
(tic.cpp:33-44). -/
structure Tic where
  tinfo : Teleinfo
  dec : Dec
  pause : Bool
  ns : NotifState

/-- After static initialisation; the decoder's array has any content. -/
def Tic.init (mem : Mem) : Tic :=
  { tinfo := Teleinfo.init, dec := Dec.init mem, pause := false, ns := NotifState.init }

/-- `tic_decode` tic.cpp:54-85; `now` is the clock, `k` what the outside says if this byte ends a
frame. -/
def Tic.decode (w : World) (c : Config) (tm : Timers) (x : Tic) (now : TimeVal) (k : Tick) (b : Byte) :
    Res (Tic × List Out) :=
  if x.pause then pure (x, []) else do
    let d ← x.dec.put now b
    if d.ready then do
      let t ← x.tinfo.copyFrom d.fr
      let (ns, out) ← ticNotifs w c tm k t x.ns
      pure ({ x with dec := d, tinfo := t, ns := ns }, out)
    else pure ({ x with dec := d }, [])

end Wifinfo
