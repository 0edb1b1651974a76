import Verif.Spec.Number
import Verif.Spec.Json

/-!
# What a web server understands of the bytes it receives

The request line and the headers of HTTP/1.1 (RFC 7230) and the arguments of a query
(`application/x-www-form-urlencoded`, as PHP reads them).
-/

namespace Wifinfo.Spec
open Wifinfo

/-- The lines up to the first empty one, and the rest; `cur` is the beginning of the current line. -/
def headLines : Str → Str → Option (List Str × Str)
  | _, [] => none
  | cur, 13 :: 10 :: r =>
    if cur = [] then some ([], r) else (headLines [] r).map fun p => (cur :: p.1, p.2)
  | cur, b :: r => headLines (cur ++ [b]) r

/-- The parts between the bytes `b`. -/
def parts (b : Byte) : Str → List Str
  | [] => [[]]
  | x :: s => if x = b then [] :: parts b s
    else match parts b s with
      | p :: l => (x :: p) :: l
      | [] => [[x]]

/-- What is before the first byte `b` and what is after it, if there is one. -/
def cutAt (b : Byte) : Str → Str × Option Str
  | [] => ([], none)
  | x :: s => if x = b then ([], some s) else (x :: (cutAt b s).1, (cutAt b s).2)

/-- Spaces and tabs around a text are removed. -/
def trimmed (s : Str) : Str :=
  ((s.dropWhile fun b => b = 32 ∨ b = 9).reverse.dropWhile fun b => b = 32 ∨ b = 9).reverse

/-- A header line. -/
def headerOf (line : Str) : Option (Str × Str) :=
  match cutAt 58 line with
  | (name, some v) => if name = [] ∨ 32 ∈ name ∨ 9 ∈ name then none else some (name, trimmed v)
  | _ => none

/-- A request as a server sees it. -/
structure HttpSeen where
  method : Str
  target : Str
  headers : List (Str × Str)
  body : Str
deriving DecidableEq, Repr

/-- The value of a header, by its exact name. -/
def HttpSeen.header (r : HttpSeen) (name : Str) : Option Str := (r.headers.find? fun p => p.1 = name).map (·.2)

/-- The length announced for the body. -/
def bodyLength (hs : List (Str × Str)) : Nat :=
  match hs.find? fun p => p.1 = bs "Content-Length" with
  | some p => decVal p.2
  | none => 0

/-- One request, and what follows it: `none` when it is refused (400) or not complete. -/
def readRequest (s : Str) : Option (HttpSeen × Str) :=
  match headLines [] s with
  | some (first :: lines, rest) =>
    match parts 32 first, lines.mapM headerOf with
    | [method, target, version], some hs =>
      if method ≠ [] ∧ target ≠ [] ∧ version = bs "HTTP/1.1" ∧ bodyLength hs ≤ rest.length then
        some (⟨method, target, hs, rest.take (bodyLength hs)⟩, rest.drop (bodyLength hs))
      else none
    | _, _ => none
  | _ => none

/-- The byte given by two hexadecimal digits. -/
def hexByte : Str → Option Byte
  | x :: y :: _ => match hexVal x, hexVal y with
    | some x, some y => some (UInt8.ofNat (16 * x + y))
    | _, _ => none
  | _ => none

/-- `+` is a space, `%xx` a byte; the first `k` bytes are digits that have been read. -/
def formFrom : Nat → Str → Str
  | _, [] => []
  | k + 1, _ :: s => formFrom k s
  | 0, b :: s =>
    if b = 43 then 32 :: formFrom 0 s
    else match if b = 37 then hexByte s else none with
      | some x => x :: formFrom 2 s
      | none => b :: formFrom 0 s

/-- The text of a piece of a query. -/
def formText (s : Str) : Str := formFrom 0 s

/-- The arguments of a query. -/
def queryArgs (q : Str) : List (Str × Str) :=
  ((parts 38 q).filter fun p => p ≠ []).map fun p =>
    (formText (cutAt 61 p).1, formText ((cutAt 61 p).2.getD []))

/-- The path of a request. -/
def HttpSeen.path (r : HttpSeen) : Str := (cutAt 63 (cutAt 35 r.target).1).1

/-- The arguments of a request. -/
def HttpSeen.args (r : HttpSeen) : List (Str × Str) :=
  match (cutAt 63 (cutAt 35 r.target).1).2 with
  | some q => queryArgs q
  | none => []

/-- The host and the port that a field `Host` names, for a connection without encryption. -/
def authority (s : Str) : Option (Str × Nat) :=
  match cutAt 58 s with
  | (h, none) => some (h, 80)
  | (h, some p) => if p ≠ [] ∧ numeral p = true then some (h, decVal p) else none

/-- The field names this host and this port; the port 443 is left out, as that of an encrypted connection. -/
def NamesHost (field host : Str) (port : Nat) : Prop :=
  (58 : Byte) ∉ host → if port = 443 then field = host else authority field = some (host, port)

/-- The server gets exactly one request, with this content. -/
def Gets (bytes method host path : Str) (args : List (Str × Str)) (body : Str) : Prop :=
  ∃ q, readRequest bytes = some (q, []) ∧ q.method = method ∧ q.header (bs "Host") = some host ∧ q.path = path ∧
    q.args = args ∧ q.body = body

/-- What emoncms reads in its argument `json`: labels and values. -/
def emonRead (s : Str) : List (Str × Str) :=
  ((parts 44 (s.filter fun b => b ≠ 123 ∧ b ≠ 125)).filter fun p => p ≠ []).map fun p =>
    ((cutAt 58 p).1, (cutAt 58 p).2.getD [])

end Wifinfo.Spec
