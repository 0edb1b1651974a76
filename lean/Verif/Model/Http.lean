import Verif.Model.Tic

/-!
# The bytes of a request: `http_request`, `src/httpreq.cpp`

`HTTPClient` belongs to the ESP8266 core; what it writes (`sendHeader`, `sendRequest`) is an assumption: the request line with
the URI as it is given, `Host` with the port unless it is 80 or 443, the headers of the library (`User-Agent`,
`Accept-Encoding`, `Connection`), then those added by the program, an empty line and the payload.  The connection itself and the
answer are left out.
-/

namespace Wifinfo
open Spec

/-- A header line. -/
def headerLine (h : Str × Str) : Str := h.1 ++ bs ": " ++ h.2 ++ bs "\r\n"

/-- The host, with the port if it is not that of the protocol. -/
def hostField (host : Str) (port : Nat) : Str :=
  if port = 80 ∨ port = 443 then host else host ++ bs ":" ++ decText port

/-- `http_request` httpreq.cpp:11-34: what the server receives; `lib` are the headers of the library. -/
def httpBytes (lib : List (Str × Str)) (r : Request) : Str :=
  let uri := if r.url = [] then bs "/" else r.url
  let head (method : Str) : Str :=
    method ++ bs " " ++ uri ++ bs " HTTP/1.1\r\n" ++ headerLine (bs "Host", hostField r.host r.port.toNat) ++ lib.flatMap headerLine
  match r.data with
  | some data =>
    head (bs "POST") ++ headerLine (bs "Content-Type", bs "application/json") ++
      headerLine (bs "Content-Length", decText data.length) ++ bs "\r\n" ++ data
  | none => head (bs "GET") ++ bs "\r\n"

end Wifinfo
