import Verif.Model.Backup
import Verif.Model.Sys

/-!
# `json.dumps` of Python

The encoder of `json/encoder.py`, for values as those of `Spec/Json.lean` (texts are in UTF-8, members are in the order of the dictionary).
-/

namespace Wifinfo
open Spec

/-- The arguments `indent` and `separators`: what is between two items, what is after a name, and the line break with its indentation (by
level). -/
structure PyStyle where
  item : Str
  colon : Str
  line : Nat → Str

/-- `separators=(",", ":")` simutic.py:244 -/
def tightStyle : PyStyle := ⟨bs ",", bs ":", fun _ => []⟩

/-- `indent=4` simutic.py:267 -/
def indentStyle : PyStyle := ⟨bs ",", bs ": ", fun k => 10 :: List.replicate (4 * k) 32⟩

/-- `flask.jsonify` srv.py:99, 135, 144, 169 in debug mode (srv.py:200): `indent=2, separators=(", ", ": ")`. -/
def jsonifyStyle : PyStyle := ⟨bs ", ", bs ": ", fun k => 10 :: List.replicate (2 * k) 32⟩

/-- A text (`py_encode_basestring_ascii`). -/
def pyString (s : Str) : Str := 34 :: ((pyDecode s).getD []).flatMap dumpChar ++ [34]

mutual
/-- A value at a level (`_iterencode`). -/
def pyDump (st : PyStyle) (k : Nat) : JVal → Str
  | .null => bs "null"
  | .bool b => if b then bs "true" else bs "false"
  | .int n => decInt n
  | .dec t => t
  | .str s => pyString s
  | .arr l => 91 :: pyElems st (k + 1) l
  | .obj l => 123 :: pyMembers st (k + 1) l

/-- The items of a list at a level, and its end (`_iterencode_list`). -/
def pyElems (st : PyStyle) (k : Nat) : List JVal → Str
  | [] => [93]
  | [v] => st.line k ++ pyDump st k v ++ st.line (k - 1) ++ [93]
  | v :: l => st.line k ++ pyDump st k v ++ st.item ++ pyElems st k l

/-- The members of a dictionary at a level, and its end (`_iterencode_dict`). -/
def pyMembers (st : PyStyle) (k : Nat) : List (Str × JVal) → Str
  | [] => [125]
  | [(n, v)] => st.line k ++ pyString n ++ st.colon ++ pyDump st k v ++ st.line (k - 1) ++ [125]
  | (n, v) :: l => st.line k ++ pyString n ++ st.colon ++ pyDump st k v ++ st.item ++ pyMembers st k l
end

/-- `json.dumps(v)` -/
def pyDumps (st : PyStyle) (v : JVal) : Str := pyDump st 0 v

end Wifinfo
