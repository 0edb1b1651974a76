import Verif.Spec.Frame
import Verif.Spec.Number

/-!
# What Jeedom and emoncms should receive for a frame
-/

namespace Wifinfo.Spec
open Wifinfo

/-- URL of the Jeedom request: path, key, one parameter per group; the meter number is replaced by
the configured identifier if there is one. -/
def jeedomUrl (path key adco : Str) (ps : List (Str × Str)) : Str :=
  (if path = [] then bs "/" else path) ++ bs "?api=" ++ key ++
    ps.flatMap fun p => bs "&" ++ p.1 ++ bs "=" ++
      (if p.1 = bs "ADCO" ∧ adco ≠ [] then adco else p.2)

/-- Numeric codes of the tariff options: by beginning of the value. -/
def optarifTable : List (Str × Nat) :=
  [(bs "BAS", 1), (bs "HC", 2), (bs "EJP", 3), (bs "BBR", 4)]

/-- Numeric codes of the tariff periods. -/
def ptecTable : List (Str × Nat) :=
  [(bs "TH", 1), (bs "HC", 2), (bs "HP", 3), (bs "HN", 4), (bs "PM", 5), (bs "HCJB", 6),
   (bs "HCJW", 7), (bs "HCJR", 8), (bs "HPJB", 9), (bs "HPJW", 10), (bs "HPJR", 11)]

/-- What stands for a value. -/
def emonValue (label v : Str) : Str :=
  if label = bs "OPTARIF" then
    decText (match optarifTable.find? fun p => p.1.isPrefixOf v with | some p => p.2 | none => 0)
  else if label = bs "HHPHC" then decText (match v with | b :: _ => b.toNat | [] => 0)
  else if label = bs "PTEC" then
    decText (match ptecTable.find? fun p => p.1 == v with | some p => p.2 | none => 0)
  else normNum v

/-- The `json` parameter. -/
def emonData (ps : List (Str × Str)) : Str :=
  bs "{" ++ (bs ",").intercalate (ps.map fun p => p.1 ++ bs ":" ++ emonValue p.1 p.2) ++ bs "}"

/-- URL of the emoncms request. -/
def emonUrl (path key : Str) (node : Nat) (ps : List (Str × Str)) : Str :=
  (if path = [] then bs "/" else path) ++ bs "?" ++
    (if node = 0 then [] else bs "node=" ++ decText node ++ bs "&") ++
    bs "apikey=" ++ key ++ bs "&json=" ++ emonData ps

end Wifinfo.Spec
