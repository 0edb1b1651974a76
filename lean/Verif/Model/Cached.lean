import Verif.Model.Static

/-!
# What a browser keeps: the `Cache-Control` headers of `src/webserver.cpp` and `src/sse.h`

The headers are those of the code; the browser is an assumption (RFC 9111): an answer with `max-age=N` is kept and shown again, without
asking the device, to whoever goes to the same address in the next `N` seconds; an answer without (the device gives no date and no
validator) or with `no-cache` is not.  A browser may forget what it has kept; "reload" asks the device in any case.  Times are seconds.
-/

namespace Wifinfo

/-- The header `Cache-Control` of an answer -/
def cacheHeader (b : Build) (e : Env) (r : Req) (l : List Eff) : Option Str :=
  match route b.cpuload e.static r.method r.uri with
  | .root => if l.any (fun x => match x with | .stream _ => true | _ => false) then some (bs "max-age=86400") else none -- webserver.cpp:272
  | .version => some (bs "max-age=86400") -- webserver.cpp:213
  | .static _ => some (bs "max-age=86400") -- webserver.cpp:227-230
  | .notFound => -- webserver.cpp:106
    match l with
    | [.send 200 _] => some (bs "no-cache, no-store, must-revalidate")
    | _ => none
  | .sse => -- sse.h:33
    match l with
    | [.sse (.opened _ true)] => some (bs "no-cache")
    | _ => none
  | _ => none

/-- For how long an answer is kept (RFC 9111, 5.2.2.1) -/
def lifetime : Option Str → Nat
  | none => 0
  | some h =>
    if (bs "max-age=").isPrefixOf h then (h.drop 8).foldl (fun n c => 10 * n + (c.toNat - 48)) 0 else 0

/-- The device at one moment: `read` gives the contents of a file -/
structure Moment where
  d : Device
  e : Env
  read : Str → Str

/-- What the device answers: the effects, and the contents of the files that are sent -/
def Moment.answer (b : Build) (m : Moment) (r : Req) : Res (List Eff × List Str) × Nat :=
  match m.d.handle b m.e r with
  | .ok (_, l) => (.ok (l, l.filterMap fun x => match x with | .stream p => some (m.read p) | _ => none), lifetime (cacheHeader b m.e r l))
  | .error f => (.error f, 0)

/-- What is done with a browser -/
inductive CacheEvent
  /-- somebody, a page or a script goes to the address -/
  | visit (t : Nat) (uri : Str)
  | reload (t : Nat) (uri : Str)
  | forget (t : Nat) (uri : Str)

def CacheEvent.time : CacheEvent → Nat
  | .visit t _ => t
  | .reload t _ => t
  | .forget t _ => t

/-- What a browser has kept: when it was received, the answer and for how long it may be shown -/
def WebCache (α : Type) : Type := Str → Option (Nat × α × Nat)

/-- Nothing is kept -/
def WebCache.empty {α : Type} : WebCache α := fun _ => none

/-- What is shown, of which address, when -/
structure Shown (α : Type) where
  time : Nat
  uri : Str
  what : α

/-- The device is asked -/
def WebCache.fetch {α : Type} (net : Nat → Str → α × Nat) (s : WebCache α) (t : Nat) (u : Str) : WebCache α × List (Shown α) :=
  let a := net t u
  (fun v => if v = u then if 0 < a.2 then some (t, a.1, a.2) else none else s v, [⟨t, u, a.1⟩])

/-- One event; `net t u` is what the device would answer at `t` for the address `u`, with the lifetime of the answer -/
def WebCache.step {α : Type} (net : Nat → Str → α × Nat) (s : WebCache α) : CacheEvent → WebCache α × List (Shown α)
  | .visit t u =>
    match s u with
    | some (t0, a, life) => if t < t0 + life then (s, [⟨t, u, a⟩]) else s.fetch net t u
    | none => s.fetch net t u
  | .reload t u => s.fetch net t u
  | .forget _ u => (fun v => if v = u then none else s v, [])

/-- Any use of a browser -/
def WebCache.run {α : Type} (net : Nat → Str → α × Nat) (s : WebCache α) : List CacheEvent → WebCache α × List (Shown α)
  | [] => (s, [])
  | e :: r =>
    let (s, l) := s.step net e
    let (s, l') := s.run net r
    (s, l ++ l')

end Wifinfo
