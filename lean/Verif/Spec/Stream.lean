import Verif.Model.Device

/-!
# What a bystander sees of the event-stream clients

Only the vocabulary of the effects and events is shared with the model.
-/

namespace Wifinfo.Spec
open Wifinfo

/-- The clients a bystander knows: those connected, in order of arrival, and all those ever seen. -/
structure Seen where
  live : List Nat
  all : List Nat
deriving DecidableEq, Repr

/-- Nobody yet. -/
def Seen.none : Seen := { live := [], all := [] }

/-- What the bystander notes; `none` when something forbidden happens: a client accepted although
there are already two, or under the name of another one, something sent to or closed on somebody who
is not a connected client. -/
def Seen.note (s : Seen) : SseEff → Option Seen
  | .opened id _ =>
    if id ∈ s.all ∨ 2 ≤ s.live.length then Option.none
    else some { live := s.live ++ [id], all := id :: s.all }
  | .event id _ => if id ∈ s.live then some s else Option.none
  | .closed id => if id ∈ s.live then some { s with live := s.live.erase id } else Option.none

/-- A sequence of observations. -/
def Seen.notes (s : Seen) : List SseEff → Option Seen
  | [] => some s
  | e :: r => (s.note e).bind fun s => s.notes r

/-- The part of the effects about event-stream clients. -/
def sseEffs (l : List Eff) : List SseEff := l.filterMap fun
  | .sse e => some e
  | _ => Option.none

/-- A whole run, a boot making everybody leave. -/
def Seen.follow (s : Seen) : List (Event × List Eff) → Option Seen
  | [] => some s
  | (.boot .., _) :: r => Seen.none.follow r
  | (_, l) :: r => (s.notes (sseEffs l)).bind fun s => s.follow r

/-- The events received by a client. -/
def received (id : Nat) (l : List SseEff) : List Str := l.filterMap fun
  | .event i d => if i = id then some d else Option.none
  | _ => Option.none

/-- How many times a client is closed. -/
def timesClosed (id : Nat) (l : List SseEff) : Nat := l.countP fun
  | .closed i => i = id
  | _ => false

/-- Nothing happens to the connection of this client: no restart, and it answers each time it is
asked. -/
def stays (id : Nat) : Event → Bool
  | .boot .. => false
  | .byte _ _ conn _ => conn id
  | .poll conn => conn id
  | .cliSse _ conn => conn id
  | _ => true

/-! ## What the device hears of the meter -/

/-- Is the upload under way after this step? -/
def uploading (now : Bool) : UploadEv → Bool
  | .start _ _ ok _ => ok
  | .write _ ok _ => now && ok
  | .fin _ => false
  | .abort _ => false

/-- What reaches the decoder: `up` tells if an upload is under way, `h` what has been heard since
the last boot. -/
def hears (up : Bool) (h : List (TimeVal × Byte)) : List Event → Bool × List (TimeVal × Byte)
  | [] => (up, h)
  | .boot .. :: r => hears false [] r
  | .upload _ u :: r => hears (uploading up u) h r
  | .byte now _ _ x :: r => hears up (if up then h else h ++ [(now, x)]) r
  | _ :: r => hears up h r

end Wifinfo.Spec
