import Verif.Model.Base

/-!
# The serial line shared by the meter and the console

A relation between what comes on the line, what is for the decoder and the command lines; it does not
use the model.
-/

namespace Wifinfo.Spec
open Wifinfo

/-- A byte that calls the console: TAB, ESC, back-quote. -/
def Calls (b : Byte) : Prop := b = 0x09 ∨ b = 0x1B ∨ b = 0x60

instance : DecidablePred Calls := fun _ => inferInstanceAs (Decidable (_ ∨ _))

/-- An end of line: LF or CR. -/
def Eol (b : Byte) : Prop := b = 0x0A ∨ b = 0x0D

instance : DecidablePred Eol := fun _ => inferInstanceAs (Decidable (_ ∨ _))

/-- What is typed, without the bytes that call the console again. -/
def typed (s : Str) : Str := s.filter fun b => !decide (Calls b)

/-- A command line that is not finished. -/
def Open (t : Str) : Prop := (∀ b ∈ t, ¬ Eol b) ∧ t.length < 128

/-- A finished command line: the last byte ends the line, or is the 128th. -/
def Closed (t : Str) : Prop := ∃ u e, t = u ++ [e] ∧ Open u ∧ (Eol e ∨ t.length = 128)

/-- `Line s d p`: of the bytes `s` received while no command is being typed, the decoder gets `d` and
the command lines are `p`. -/
inductive Line : Str → Str → List Str → Prop
  /-- nobody calls the console: all is for the decoder -/
  | data (a : Str) (h : ∀ b ∈ a, ¬ Calls b) : Line a a []
  /-- the console is called and the command line is not finished -/
  | typing (a : Str) (m : Byte) (c : Str) (h : ∀ b ∈ a, ¬ Calls b) (hm : Calls m) (hc : Open (typed c)) :
    Line (a ++ m :: c) a []
  /-- the console is called, a command line is typed, then the line is the meter's again -/
  | command (a : Str) (m : Byte) (c : Str) (e : Byte) (r d : Str) (p : List Str) (h : ∀ b ∈ a, ¬ Calls b)
    (hm : Calls m) (he : ¬ Calls e) (hc : Closed (typed c ++ [e])) (hr : Line r d p) :
    Line (a ++ m :: c ++ e :: r) (a ++ d) ((typed c ++ [e]) :: p)

end Wifinfo.Spec
