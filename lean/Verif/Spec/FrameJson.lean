import Verif.Spec.Frame
import Verif.Spec.Json

/-!
# What a client should read in the JSON of a frame
-/

namespace Wifinfo.Spec
open Wifinfo

/-- Value of a group: a number if it is made of digits. -/
def groupJson (v : Str) : JVal := if numeral v then .int (decVal v) else .str v

/-- `seconds.milliseconds` of a time. -/
def IsSeconds (t : Str) (sec usec : Nat) : Prop :=
  ∃ a b, t = a ++ 46 :: b ∧ a ≠ [] ∧ numeral a = true ∧ decVal a = sec ∧
    b.length = 3 ∧ numeral b = true ∧ decVal b = usec / 1000

/-- The dictionary of a frame. -/
def frameDict (iso seconds : Str) (notif : Option Str) (ps : List (Str × Str)) : JVal :=
  .obj ([(bs "timestamp", .str iso), (bs "seconds", .str seconds)] ++
    (match notif with | some n => [(bs "notif", .str n)] | none => []) ++
    ps.map fun p => (p.1, groupJson p.2))

/-- An element of the array of a frame. -/
def naVa (n : Str) (v : JVal) : JVal := .obj [(bs "na", .str n), (bs "va", v)]

/-- The array of a frame. -/
def frameArray (iso : Str) (watt : Nat) (ps : List (Str × Str)) : JVal :=
  .arr ([naVa (bs "timestamp") (.str iso), naVa (bs "watt") (.int watt)] ++
    ps.map fun p => naVa p.1 (.str p.2))

end Wifinfo.Spec
