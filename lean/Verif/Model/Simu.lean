import Verif.Spec.Number
import Verif.Spec.Json
import Verif.Model.Base

/-!
# The meter simulator, `tools/simutic.py`
-/

namespace Wifinfo
open Spec

/-- `group` simutic.py:13-24.  The characters of the label and of the value are those of ASCII (the frame is
encoded in ASCII at the end, line 221). -/
def simuGroup (label value : Str) : Str :=
  let cksum := (label.map UInt8.toNat).sum
  let cksum := cksum + 32
  let cksum := cksum + (value.map UInt8.toNat).sum
  let cksum := (cksum &&& 63) + 32
  [10] ++ label ++ [32] ++ value ++ [32] ++ [UInt8.ofNat cksum] ++ [13]

/-- `f"{n:0wd}"` -/
def zeroPad (w n : Nat) : Str := List.replicate (w - (decText n).length) 48 ++ decText n

/-- What `SimuTic` shows when a frame is built: `hchc`, `hchp` are the rounded indexes, `iinst` and `papp` the
rounded results of the draw (lines 86-114, 123-128, 137-142); floating-point numbers, the clock and the random numbers
are left out. -/
structure SimuTic where
  /-- `_adco` -/
  adco : Str
  isousc : Nat
  hchc : Nat
  hchp : Nat
  heuresCreuses : Bool
  iinst : Nat
  papp : Nat
  adps : Nat

/-- The setter of `adco` simutic.py:71-77 -/
def SimuTic.setAdco (s : SimuTic) (value : Str) : SimuTic :=
  let value := value.take 12
  { s with adco := List.replicate (12 - value.length) 48 ++ value }

/-- The setter of `adps` simutic.py:174-184, for a number -/
def SimuTic.setAdps (s : SimuTic) (value : Nat) : SimuTic :=
  if ¬ (s.isousc ≤ value ∧ value ≤ 999) then { s with adps := 0 } else { s with adps := value }

/-- `bascule` simutic.py:43-55 for `T` and `A` (`P` changes the draw of `papp`) -/
def SimuTic.bascule (s : SimuTic) (quoi : Byte) : SimuTic :=
  if quoi = 84 then { s with heuresCreuses := !s.heuresCreuses }
  else if quoi = 65 then
    if s.adps ≠ 0 then s.setAdps 0 else s.setAdps (s.isousc + 1)
  else s

/-- `ptec_raw` simutic.py:144-159 -/
def SimuTic.ptecRaw (s : SimuTic) : Str :=
  ((if s.heuresCreuses then bs "HC" else bs "HP") ++ bs "....").take 4

/-- `trame` simutic.py:200-221 -/
def SimuTic.trame (s : SimuTic) : Str :=
  [2] ++ simuGroup (bs "ADCO") s.adco ++ simuGroup (bs "OPTARIF") (bs "HC..") ++
    simuGroup (bs "ISOUSC") (zeroPad 2 s.isousc) ++ simuGroup (bs "HCHC") (zeroPad 9 s.hchc) ++
    simuGroup (bs "HCHP") (zeroPad 9 s.hchp) ++ simuGroup (bs "PTEC") s.ptecRaw ++
    simuGroup (bs "IINST") (zeroPad 3 s.iinst) ++ simuGroup (bs "IMAX") (bs "042") ++
    simuGroup (bs "PAPP") (zeroPad 5 s.papp) ++
    (if s.adps ≠ 0 then simuGroup (bs "ADPS") (zeroPad 3 s.adps) else []) ++
    simuGroup (bs "HHPHC") (bs "D") ++ simuGroup (bs "MOTDETAT") (bs "000000") ++ [3]

/-- `json_dict` simutic.py:223-244.  The result is the value that `json.dumps` writes; `date` is the current
time. -/
def SimuTic.jsonDict (s : SimuTic) (date : Str) : JVal :=
  .obj ([(bs "timestamp", .str date), (bs "ADCO", .str s.adco), (bs "OPTARIF", .str (bs "HC")),
    (bs "ISOUSC", .int s.isousc), (bs "HCHC", .int s.hchc), (bs "HCHP", .int s.hchp),
    (bs "PTEC", .str (if s.heuresCreuses then bs "HC" else bs "HP")), (bs "IINST", .int s.iinst),
    (bs "IMAX", .int 42), (bs "PAPP", .int s.papp), (bs "HHPHC", .str (bs "D")), (bs "MOTDETAT", .int 0)] ++
    (if s.adps ≠ 0 then [(bs "ADPS", .int s.adps)] else []))

/-- `json_array` simutic.py:246-267, likewise -/
def SimuTic.jsonArray (s : SimuTic) (date : Str) : JVal :=
  let e (na va : Str) : JVal := .obj [(bs "na", .str na), (bs "va", .str va)]
  .arr ([e (bs "timestamp") date, e (bs "ADCO") s.adco, e (bs "OPTARIF") (bs "HC.."),
    e (bs "ISOUSC") (zeroPad 2 s.isousc), e (bs "HCHC") (zeroPad 9 s.hchc), e (bs "HCHP") (zeroPad 9 s.hchp),
    e (bs "PTEC") s.ptecRaw, e (bs "IINST") (zeroPad 3 s.iinst), e (bs "IMAX") (bs "042"),
    e (bs "PAPP") (zeroPad 5 s.papp), e (bs "HHPHC") (bs "D"), e (bs "MOTDETAT") (bs "000000")] ++
    (if s.adps ≠ 0 then [e (bs "ADPS") (zeroPad 3 s.adps)] else []))

end Wifinfo
