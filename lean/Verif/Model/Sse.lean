import Verif.Model.Base

/-!
# Model of `src/sse.h`

The list of event-stream clients.  A client is named by the rank of the `new SseClient` that made
it.  `WiFiClient::connected()` is an argument, what is written to or done with the connection is
an effect.
-/

namespace Wifinfo

/-- What happens on the connections of the event-stream clients. -/
inductive SseEff
  /-- constructor sse.h:19-37; the response header is sent if the connection is still there -/
  | opened (id : Nat) (header : Bool)
  /-- `send_event` sse.h:53-60 -/
  | event (id : Nat) (data : Str)
  /-- destructor sse.h:39-46 -/
  | closed (id : Nat)
deriving DecidableEq, Repr

/-- `SseClients` sse.h:72-74 and the number of clients created so far. -/
structure Sse where
  clients : List Nat
  next : Nat
deriving DecidableEq, Repr

/-- After static initialisation. -/
def Sse.init : Sse := { clients := [], next := 0 }

/-- `handle_sse_data` sse.h:87-102; `up` tells if the connection is still there when the constructor
tests it.  `none`: refused with a 503. -/
def Sse.accept (s : Sse) (up : Bool) : Option (Sse × List SseEff) :=
  if s.clients.length < 2 then
    some ({ clients := s.clients ++ [s.next], next := s.next + 1 },
      [.opened s.next up])
  else none

/-- The loop of `handle_clients` sse.h:127-151 over the clients from the iterator to the end. -/
def sseLoop (conn : Nat → Bool) (data : Option Str) : List Nat → List Nat × List SseEff
  | [] => ([], [])
  | c :: r =>
    if conn c then
      let (l, e) := sseLoop conn data r
      (c :: l, (match data with | some d => [.event c d] | none => []) ++ e)
    else
      let (l, e) := sseLoop conn data r
      (l, .closed c :: e)

/-- `handle_clients` sse.h:119-152 -/
def Sse.handle (s : Sse) (conn : Nat → Bool) (data : Option Str) : Sse × List SseEff :=
  let (l, e) := sseLoop conn data s.clients
  ({ s with clients := l }, e)

/-! ## What goes on the wire -/

/-- `print` of a string and of the end of line (`Print::println` of the Arduino core: CR LF). -/
def println (s : Str) : Str := s ++ [13, 10]

/-- The answer made by the constructor sse.h:29-34. -/
def sseHeader : Str :=
  println (bs "HTTP/1.1 200 OK") ++ println (bs "Content-Type: text/event-stream;charset=UTF-8") ++
  println (bs "Connection: close") ++ println (bs "Access-Control-Allow-Origin: *") ++
  println (bs "Cache-Control: no-cache") ++ println []

/-- `send_event` sse.h:53-60 -/
def sendEvent (data : Str) : Str := bs "data: " ++ data ++ bs "\r\n\r\n"

/-- What is written on the connection. -/
def SseEff.bytes : SseEff → Str
  | .opened _ up => if up then sseHeader else []
  | .event _ data => sendEvent data
  | .closed _ => []

/-- Whose connection it is. -/
def SseEff.id : SseEff → Nat
  | .opened i _ => i
  | .event i _ => i
  | .closed i => i

end Wifinfo
