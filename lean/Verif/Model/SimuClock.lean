import Verif.Model.Simu

/-!
# The counters of the meter simulator, `tools/simutic.py`

`Model/Simu.lean` builds the frame from the values shown; here these values are computed, from the clock, the sine and the random draws.
The results of `time.monotonic()`, `math.sin` and `random.uniform` are arguments.  Every floating-point operation is the exact one followed
by `fl`.
-/

namespace Wifinfo

/-- `round(x)` of Python: the nearest integer, the even one of two. -/
def pyRound (x : Rat) : Int :=
  let f := x.floor
  let d := x - f
  if d < 1 / 2 then f else if 1 / 2 < d then f + 1 else if f % 2 = 0 then f else f + 1

/-- The attributes simutic.py:32-41.  `_adps`, `_isousc`, `_pseuil` are integers; indexes, `_iinst` and `intervalle` are numbers. -/
structure SimuMeter where
  intervalle : Rat
  heuresCreuses : Bool
  hchc : Rat
  hchp : Rat
  iinst : Rat
  isousc : Nat
  adps : Nat
  adco : List UInt8
  pseuil : Int

/-- `__init__` simutic.py:32-41 -/
def SimuMeter.init : SimuMeter :=
  { intervalle := 0, heuresCreuses := false, hchc := 52000000, hchp := 49000000, iinst := 0, isousc := 30, adps := 0,
    adco := bs "012345678123", pseuil := 0 }

/-- `papp` simutic.py:108-114; `c` is the draw of line 113. -/
def SimuMeter.papp (fl : Rat → Rat) (s : SimuMeter) (c : Rat) : Int := pyRound (fl (fl (s.iinst * 230) * c)) + s.pseuil

/-- `iinst` simutic.py:86-99: the attributes after it (the result, line 99, is `round(self._iinst)`); `now` is the time, `sin` the
sine of line 92, `c` the draw of `self.papp` in line 93. -/
def SimuMeter.read (fl : Rat → Rat) (s : SimuMeter) (now sin c : Rat) : SimuMeter :=
  let s1 := { s with iinst := fl (20 * if sin < 0 then -sin else sin) }
  let delta := fl (fl (fl (now - s1.intervalle) * s1.papp fl c) / 3600)
  let s2 := { s1 with intervalle := now }
  if s2.heuresCreuses then { s2 with hchc := fl (s2.hchc + delta) } else { s2 with hchp := fl (s2.hchp + delta) }

/-- What a frame (`trame`, simutic.py:200-221) or an answer (`json_dict`, `json_array`) shows after `iinst`; `c` is the draw of its own use
of `papp`. -/
def SimuMeter.shown (fl : Rat → Rat) (s : SimuMeter) (c : Rat) : SimuTic :=
  { adco := s.adco, isousc := s.isousc, hchc := (pyRound s.hchc).toNat, hchp := (pyRound s.hchp).toNat,
    heuresCreuses := s.heuresCreuses, iinst := (pyRound s.iinst).toNat, papp := (s.papp fl c).toNat, adps := s.adps }

/-- The setter of `adps` simutic.py:174-184, for a number. -/
def SimuMeter.setAdps (s : SimuMeter) (value : Nat) : SimuMeter :=
  if ¬ (s.isousc ≤ value ∧ value ≤ 999) then { s with adps := 0 } else { s with adps := value }

/-- `bascule` simutic.py:43-55 -/
def SimuMeter.bascule (s : SimuMeter) (quoi : UInt8) : SimuMeter :=
  if quoi = 84 then { s with heuresCreuses := !s.heuresCreuses }
  else if quoi = 65 then
    if s.adps ≠ 0 then s.setAdps 0 else s.setAdps (s.isousc + 1)
  else if quoi = 80 then { s with pseuil := 4000 - s.pseuil }
  else s

/-- What can happen to the simulator: a frame or an answer is built, or a key is pressed (cli.py:380-391, srv.py:64-69). -/
inductive SimuUse
  | frame (now sin c1 c2 : Rat)
  | key (quoi : UInt8)

/-- One use: the attributes after it, and what is shown. -/
def SimuMeter.use (fl : Rat → Rat) (s : SimuMeter) : SimuUse → SimuMeter × List SimuTic
  | .frame now sin c1 c2 => let s := s.read fl now sin c1; (s, [s.shown fl c2])
  | .key q => (s.bascule q, [])

/-- Uses in sequence: the attributes after them, and what was shown. -/
def SimuMeter.uses (fl : Rat → Rat) (s : SimuMeter) : List SimuUse → SimuMeter × List SimuTic
  | [] => (s, [])
  | u :: r => let (s, l) := s.use fl u; let (s, m) := s.uses fl r; (s, l ++ m)

end Wifinfo
