import Verif.Model.Base

/-!
# What a browser sees in a piece of HTML

The tokens of the HTML standard, as far as needed: characters, character references, tags.  The list of the named references is
not needed: a `&` that may begin one is kept apart.  Comments are taken for tags, and what follows `<script>` for ordinary text.
-/

namespace Wifinfo.Spec

/-- A piece of a page. -/
inductive HtmlTok
  /-- a character that is shown -/
  | char (b : Byte)
  /-- the `&` of what may be a character reference -/
  | ref
  /-- a tag, without `<` and `>` -/
  | tag (raw : Str)
deriving DecidableEq, Repr

def isLetter (b : Byte) : Bool := 65 ≤ b && b ≤ 90 || 97 ≤ b && b ≤ 122

def isBlank (b : Byte) : Bool := b = 32 || b = 9 || b = 10 || b = 12

/-- `<` followed by this is markup: a letter, `/`, `!` or `?`. -/
def opensTag : Option Byte → Bool
  | some b => isLetter b || b = 47 || b = 33 || b = 63
  | none => false

/-- `&` followed by this may be a reference: a letter, a digit or `#`. -/
def startsRef : Option Byte → Bool
  | some b => isLetter b || 48 ≤ b && b ≤ 57 || b = 35
  | none => false

/-- Where the browser is: in a text, or in a tag (what was read of it, reversed, and the quotation mark if it is inside the value
of an attribute). -/
inductive HtmlAt
  | text
  | tag (acc : Str) (quote : Option Byte)

/-- A quotation mark begins the value of an attribute after `=` only. -/
def quoteAfter (acc : Str) (b : Byte) : Option Byte :=
  if (b = 34 || b = 39) && (acc.dropWhile isBlank).head? = some 61 then some b else none

/-- The tokens of a piece of HTML; an unfinished tag at its end is dropped. -/
def htmlTokens : HtmlAt → Str → List HtmlTok
  | .text, [] => []
  | .tag _ _, [] => []
  | .text, b :: r =>
    if b = 60 && opensTag r.head? then htmlTokens (.tag [] none) r
    else if b = 38 && startsRef r.head? then .ref :: htmlTokens .text r
    else .char b :: htmlTokens .text r
  | .tag acc none, b :: r =>
    if b = 62 then .tag acc.reverse :: htmlTokens .text r else htmlTokens (.tag (b :: acc) (quoteAfter acc b)) r
  | .tag acc (some q), b :: r => htmlTokens (.tag (b :: acc) (if b = q then none else some q)) r

/-- The name of a tag, with its `/` if it is an end tag. -/
def tagName (raw : Str) : Str :=
  match raw with
  | [] => []
  | b :: r => b :: r.takeWhile fun c => !isBlank c && c != 47

/-- Is it the tag of this name? (The page writes its own tags in lower case.) -/
def HtmlTok.isTag (t : HtmlTok) (name : Str) : Bool :=
  match t with
  | .tag raw => tagName raw = name
  | _ => false

/-- The rows of a table and their cells, read from the end. -/
structure TableView where
  rows : List (List (List HtmlTok))
  cells : List (List HtmlTok)
  cell : List HtmlTok

def tableStep (t : HtmlTok) (v : TableView) : TableView :=
  if t.isTag (bs "/tr") then { v with cells := [] }
  else if t.isTag (bs "tr") then { v with rows := v.cells :: v.rows }
  else if t.isTag (bs "/td") then { v with cell := [] }
  else if t.isTag (bs "td") then { v with cells := v.cell :: v.cells }
  else { v with cell := t :: v.cell }

/-- The cells of the rows that a browser shows for the body of a table. -/
def tableRows (page : Str) : List (List (List HtmlTok)) := ((htmlTokens .text page).foldr tableStep ⟨[], [], []⟩).rows

/-- The text that is shown for these tokens. -/
def visibleText (l : List HtmlTok) : Str :=
  l.filterMap fun
    | .char b => some b
    | _ => none

/-- A text as it is. -/
def asText (t : Str) : List HtmlTok := t.map .char

end Wifinfo.Spec
