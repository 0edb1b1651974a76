import Verif.Model.Base

/-!
# The pages for restricted clients, `make_restrict` of `prep_data_folder.py`

Texts are in UTF-8; the markers are ASCII, so that looking for them in the bytes or in the characters is the
same.
-/

namespace Wifinfo

/-- The marker of the pages to restrict prep_data_folder.py:56 -/
def markPage : Str := bs "<!--MAKE_RESTRICT-->"

/-- The opening marker prep_data_folder.py:59 -/
def markOn : Str := bs "<!--RESTRICT_ON-->"

/-- The closing marker prep_data_folder.py:59 -/
def markOff : Str := bs "<!--RESTRICT_OFF-->"

/-- `in` for texts -/
def hasText (m : Str) : Str → Bool
  | [] => m.isEmpty
  | b :: r => m.isPrefixOf (b :: r) || hasText m r

/-- `(.*?)` then the closing marker: what follows the first closing marker. -/
def afterOff : Str → Option Str
  | [] => none
  | b :: r => if markOff.isPrefixOf (b :: r) then some ((b :: r).drop markOff.length) else afterOff r

/-- `re.sub` prep_data_folder.py:59: from left to right, each match is dropped and the search goes on behind it.
The first argument bounds the number of steps (the length of the text is enough). -/
def subRestrict : Nat → Str → Str
  | 0, t => t
  | _ + 1, [] => []
  | n + 1, b :: r =>
    if markOn.isPrefixOf (b :: r) then
      match afterOff ((b :: r).drop markOn.length) with
      | some rest => subRestrict n rest
      | none => b :: subRestrict n r
    else b :: subRestrict n r

/-- `make_restrict` prep_data_folder.py:53-59: the restricted page, if there is one.  What is done of it
afterwards (`html-minifier`, `gzip`) is not modelled. -/
def makeRestrict (html : Str) : Option Str :=
  if hasText markPage html = false then none
  else some (subRestrict html.length html)

end Wifinfo
