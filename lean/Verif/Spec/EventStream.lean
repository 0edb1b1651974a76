import Verif.Model.Base

/-!
# How a browser reads an event stream

The HTTP answer and the event stream interpretation of the HTML standard (9.2.6, "Interpreting an event stream"), on
bytes: the decoding of UTF-8 that comes before is left out (it makes no line ending and no colon appear or disappear),
except for the byte order mark.  Independent of the model.
-/

namespace Wifinfo.Spec
open Wifinfo

/-- Lines of a text, each ended by CR LF, LF or CR; `cur` is the line under way.  A last line without end is dropped. -/
def esLines (cur : Str) : Str → List Str
  | [] => []
  | 13 :: 10 :: r => cur :: esLines [] r
  | b :: r => if b = 13 ∨ b = 10 then cur :: esLines [] r else esLines (cur ++ [b]) r

/-- An event given to the page. -/
structure EsEvent where
  type : Str
  data : Str
deriving DecidableEq, Repr

/-- The buffers of the standard: data and event type. -/
structure EsBuf where
  data : Str
  type : Str
deriving DecidableEq, Repr

/-- Field name and value of a line that is not a comment: up to the first colon, and after it without one leading
space; the whole line and nothing if there is no colon. -/
def esField : Str → Str × Str
  | [] => ([], [])
  | b :: r =>
    if b = 58 then ([], if r.head? = some 32 then r.tail else r)
    else (b :: (esField r).1, (esField r).2)

/-- One line. -/
def esLine (s : EsBuf) (line : Str) : EsBuf × List EsEvent :=
  if line = [] then
    (⟨[], []⟩, if s.data = [] then [] else
      [⟨if s.type = [] then bs "message" else s.type,
        if s.data.getLast? = some 10 then s.data.dropLast else s.data⟩])
  else if line.head? = some 58 then (s, [])
  else
    let (name, value) := esField line
    if name = bs "data" then ({ s with data := s.data ++ value ++ [10] }, [])
    else if name = bs "event" then ({ s with type := value }, [])
    else (s, [])

/-- The events of a list of lines. -/
def esEvents (s : EsBuf) : List Str → List EsEvent
  | [] => []
  | l :: r => (esLine s l).2 ++ esEvents (esLine s l).1 r

/-- The events of a stream. -/
def esParse (body : Str) : List EsEvent :=
  esEvents ⟨[], []⟩ (esLines [] (if body.take 3 = [0xEF, 0xBB, 0xBF] then body.drop 3 else body))

/-! ## The answer -/

/-- Lines ended by CR LF up to an empty one, and what follows it. -/
def httpHead (cur : Str) : Str → Option (List Str × Str)
  | [] => none
  | 13 :: 10 :: r => if cur = [] then some ([], r) else (httpHead [] r).map fun p => (cur :: p.1, p.2)
  | b :: r => httpHead (cur ++ [b]) r

/-- ASCII lower case. -/
def asciiLower (b : Byte) : Byte := if 65 ≤ b ∧ b ≤ 90 then b + 32 else b

/-- Value of a header, without the blanks around it. -/
def httpHeader (name : Str) (lines : List Str) : Option Str :=
  lines.findSome? fun l =>
    if (l.takeWhile (· != 58)).map asciiLower = name ∧ l.contains 58 then
      some ((((l.dropWhile (· != 58)).tail.dropWhile (· == 32)).reverse.dropWhile (· == 32)).reverse)
    else none

/-- The type of the answer, without its parameters, is that of an event stream. -/
def isEventStream (lines : List Str) : Bool :=
  match httpHeader (bs "content-type") lines with
  | some v => decide ((v.takeWhile (· != 59)).map asciiLower = bs "text/event-stream")
  | none => false

/-- What a page which has opened an event stream gets from the bytes of the connection: nothing at all if the answer is
not complete, not a success or not an event stream. -/
def esAnswer (bytes : Str) : Option (List EsEvent) :=
  match httpHead [] bytes with
  | none => none
  | some (status :: lines, body) =>
    if status.take 13 = bs "HTTP/1.1 200 " ∧ isEventStream lines = true then some (esParse body) else none
  | some ([], _) => none

end Wifinfo.Spec
