import Verif.Model.Tic
import Verif.Props.Push

/-!
# The unit tests of the project, replayed on the model: `test/test_teleinfo.cpp`

These are no proofs of properties: they check that the model gives what the project's own tests expect of the program.  Each test
is cited; what a test asserts is asserted here, on the same bytes.
-/

namespace Wifinfo.Tests
open Wifinfo Spec

/-- `A` and then the bytes: a line of the frames of the tests, `\n…\r`. -/
def line (s : Str) : Str := 10 :: s ++ [13]

/-- `trame_teleinfo` test/mock.cpp:17-30 -/
def trame : Str :=
  2 :: line (bs "ADCO 111111111111 #") ++ line (bs "OPTARIF HC.. <") ++ line (bs "ISOUSC 30 9") ++ line (bs "HCHC 052890470 )") ++
    line (bs "HCHP 049126843 8") ++ line (bs "PTEC HP..  ") ++ line (bs "IINST 008 _") ++ line (bs "IMAX 042 E") ++
    line (bs "PAPP 01890 3") ++ line (bs "HHPHC D /") ++ line (bs "MOTDETAT 000000 B") ++ [3]

/-- `test_trame_ko` test_teleinfo.cpp:14-27 -/
def trameKo : Str :=
  2 :: line (bs "ADCO 111111111111 A") ++ line (bs "OPTARIF HC.. <") ++ line (bs "ISOUSC 30 9") ++ line (bs "HCHC 052890470 )") ++
    line (bs "HCHP 049126843 8") ++ line (bs "PTEC HP..  ") ++ line (bs "IINST 008 _") ++ line (bs "IMAX 042 E") ++
    line (bs "PAPP 01890 3") ++ line (bs "HHPHC D /") ++ line (bs "MOTDETAT 000000 B") ++ [3]

/-- `test_trame_partielle_debut` test_teleinfo.cpp:29-34 -/
def tramePartielleDebut : Str :=
  2 :: line (bs "ADCO 111111111111 #") ++ line (bs "OPTARIF HC.. <") ++ line (bs "ISOUSC 30 9") ++ 10 :: bs "HCHC 052890"

/-- `test_trame_partielle_fin` test_teleinfo.cpp:36-42 -/
def tramePartielleFin : Str :=
  bs "ST 008 _" ++ 13 :: line (bs "IMAX 042 E") ++ line (bs "PAPP 01890 3") ++ line (bs "HHPHC D /") ++
    line (bs "MOTDETAT 000000 B") ++ [3]

/-- `test_trame_incomplete` test_teleinfo.cpp:44-56 -/
def trameIncomplete : Str :=
  2 :: line (bs "ADCO 111111111111 A") ++ line (bs "OPTARIF HC.. <") ++ line (bs "ISOUSC 30 9") ++ line (bs "HCHC 052890470 )") ++
    line (bs "HCHP 049126843 8") ++ 10 :: bs "PTEC HP.. " ++ 10 :: bs " E" ++ 13 :: line (bs "PAPP 01890 3") ++ line (bs "HHPHC D /") ++
    line (bs "MOTDETAT 000000 B") ++ [3]

/-- `test_trame_mauvais_groupe` test_teleinfo.cpp:58-71 -/
def trameMauvaisGroupe : Str :=
  2 :: line (bs "ADCO 111111111111 A") ++ line (bs "OPTARIF HC.. <") ++ line (bs "ISOUSC 30 9") ++ line (bs "H") ++
    line (bs "HCHP 049126843 8") ++ line (bs "PTEC HP..  ") ++ line (bs "IINST 008 _") ++ line (bs "IMAX 042 E") ++
    line (bs "PAPP 01890 3") ++ line (bs "HHPHC D /") ++ line (bs "MOTDETAT 000000 B") ++ [3]

/-- `test_trame_trop_longue` test_teleinfo.cpp:73-99 -/
def trameTropLongue : Str :=
  2 :: line (bs "ADCO 111111111111 A") ++ line (bs "OPTARIF HC.. <") ++ line (bs "ISOUSC 30 9") ++
    (List.replicate 9 (line (bs "HCHC 052890470 )") ++ line (bs "HCHP 049126843 8"))).flatten ++ 10 :: bs "PTEC HP.. " ++
    10 :: bs " E" ++ 13 :: line (bs "PAPP 01890 3") ++ line (bs "HHPHC D /") ++ line (bs "MOTDETAT 000000 B") ++ [3]

/-- `test_trame_groupe_trop_long` test_teleinfo.cpp:101-117 -/
def trameGroupeTropLong : Str :=
  2 :: line (bs "ADCO 111111111111 A") ++ line (bs "OPTARIF HC.. <") ++ line (bs "ISOUSC 30 9") ++ 10 :: bs "HCHC " ++
    List.replicate 498 65 ++ 10 :: bs "PTEC HP.. " ++
    10 :: bs " E" ++ 13 :: line (bs "PAPP 01890 3") ++ line (bs "HHPHC D /") ++ line (bs "MOTDETAT 000000 B") ++ [3]

/-- `mock_gettimeofday` test/mock_time.cpp:12-17 -/
def mockNow : TimeVal := ⟨1951835, 0⟩

/-- `mock_strftime` test/mock_time.cpp:33-48 and the chip of test/mock_support.cpp -/
def mockWorld : World := { iso := fun _ => bs "1969-07-21T02:56:00Z", chipId := 0x12AB }

/-- A decoder of which the memory is not initialised. -/
def fresh : Dec := Dec.init (List.replicate MAX_FRAME_SIZE none)

/-- `for (auto c : s) tinfo_decode.put(c);` -/
def feed (d : Dec) (s : Str) : Res Dec := d.puts (s.map fun b => (mockNow, b))

/-- `tinfo.copy_from(tinfo_decode)` of a new object -/
def copied (s : Str) : Res Teleinfo := do Teleinfo.init.copyFrom (← feed fresh s).fr

/-- `decode_ok` test_teleinfo.cpp:119-156: ready, and the values. -/
example : (do let d ← feed fresh trame; pure (d.ready, d.fr.isEmpty)) = .ok (true, false) := by decide +kernel
example : (do
    let d ← feed fresh trame
    [bs "ADCO", bs "OPTARIF", bs "ISOUSC", bs "HCHC", bs "HCHP", bs "PTEC", bs "IINST", bs "IMAX", bs "PAPP", bs "HHPHC",
      bs "MOTDETAT", bs "unknown"].mapM fun l => d.fr.getValue l) =
    .ok [some (bs "111111111111"), some (bs "HC"), some (bs "30"), some (bs "052890470"), some (bs "049126843"), some (bs "HP"),
      some (bs "008"), some (bs "042"), some (bs "01890"), some (bs "D"), some (bs "000000"), none] := by decide +kernel
example : (do let d ← feed fresh trame; pure (mockWorld.iso d.fr.ts.sec, d.fr.ts.sec)) = .ok (bs "1969-07-21T02:56:00Z", 1951835) := by
  decide +kernel

/-- `decode_int` test_teleinfo.cpp:158-173: whether it is an integer, and where the value starts then. -/
example : getInteger ((bs "000123" ++ [0]).map some) 0 = .ok (true, 3) := by decide +kernel
example : getInteger ((bs "000" ++ [0]).map some) 0 = .ok (true, 2) := by decide +kernel
example : getInteger ((bs "000123a" ++ [0]).map some) 0 = .ok (false, 0) := by decide +kernel

/-- `decode_ko_getters` test_teleinfo.cpp:175-204 -/
example : (do let d ← feed fresh trameKo; pure d.ready) = .ok false := by decide +kernel
example : (do
    let t ← copied trameKo
    let v ← t.fr.getValue (bs "ADCO")
    let n ← t.fr.getValueNext none
    let (_, raw) ← t.fr.ascii (List.replicate MAX_FRAME_SIZE none) MAX_FRAME_SIZE
    pure (t.fr.isEmpty, v, n.isNone, raw.head?)) = .ok (true, none, true, some (some 0)) := by decide +kernel

/-- `decode_ko` test_teleinfo.cpp:206-288: `ready` after each of the frames. -/
example : (do
    let d ← feed fresh trameKo
    let d1 ← feed d tramePartielleDebut
    let d2 ← feed d1 trame
    let d3 ← feed d2 tramePartielleFin
    let d4 ← feed d3 trame
    let d5 ← feed d4 trameIncomplete
    let d6 ← feed d5 trameTropLongue
    let d7 ← feed d6 ((List.range 128).map UInt8.ofNat)
    let d8 ← feed d7 trameMauvaisGroupe
    let d9 ← feed d8 trameGroupeTropLong
    let d10 ← feed d9 trame
    pure ([d, d1, d2, d3, d4, d5, d6, d7, d8, d9, d10].map Dec.ready, d1.fr.isEmpty)) =
    .ok ([false, false, true, false, true, false, false, false, false, false, true], true) := by decide +kernel

/-- `copy` test_teleinfo.cpp:290-322 -/
example : (do
    let t ← copied trame
    let l ← [bs "ADCO", bs "OPTARIF", bs "ISOUSC", bs "HCHC", bs "HCHP", bs "PTEC", bs "IINST", bs "IMAX", bs "PAPP", bs "HHPHC",
      bs "MOTDETAT"].mapM fun l => t.fr.getValue l
    pure (l, t.fr.isEmpty, t.fr.ts.sec)) =
    .ok ([some (bs "111111111111"), some (bs "HC"), some (bs "30"), some (bs "052890470"), some (bs "049126843"), some (bs "HP"),
      some (bs "008"), some (bs "042"), some (bs "01890"), some (bs "D"), some (bs "000000")], false, 1951835) := by decide +kernel

/-- `ascii` test_teleinfo.cpp:324-341 -/
example : (do let t ← copied trame; let (n, _) ← t.fr.ascii (List.replicate MAX_FRAME_SIZE none) MAX_FRAME_SIZE; pure (n != 0)) =
    .ok true := by decide +kernel

/-- `iterate` test_teleinfo.cpp:343-381: 11 values, among them these. -/
example : (do let t ← copied trame; let l ← t.fr.iter; pure (l.length, l.lookup (bs "PAPP"), l.lookup (bs "OPTARIF"), l.lookup (bs "PTEC"))) =
    .ok (11, some (bs "01890"), some (bs "HC"), some (bs "HP")) := by decide +kernel

end Wifinfo.Tests
