import Verif.Spec.Binary
import Verif.Model.SimuClock
import Verif.Props.Simu
import Verif.Props.Size

/-!
# C124: the simulated meter counts
-/

namespace Wifinfo
open Spec

/-! ## Rounding -/

theorem pyRound_near (x : Rat) : 2 * (pyRound x : Rat) ≤ 2 * x + 1 ∧ 2 * x ≤ 2 * (pyRound x : Rat) + 1 := by
  have f1 : (x.floor : Rat) ≤ x := Rat.floor_le x
  have f2 : x - 1 < (x.floor : Rat) := Rat.lt_floor
  unfold pyRound
  simp only
  split
  · grind
  · split
    · simp only [Rat.intCast_add, Rat.intCast_one]; grind
    · split
      · grind
      · simp only [Rat.intCast_add, Rat.intCast_one]; grind

theorem pyRound_int (n : Int) : pyRound n = n := by
  unfold pyRound
  simp only [Rat.floor_intCast]
  rw [if_pos (by grind)]

theorem pyRound_mono {x y : Rat} (h : x ≤ y) : pyRound x ≤ pyRound y := by
  have hf : x.floor ≤ y.floor := Rat.floor_monotone h
  rcases Int.lt_or_eq_of_le hf with h1 | h1
  · have hx : pyRound x ≤ x.floor + 1 := by unfold pyRound; simp only; (repeat' split) <;> omega
    have hy : y.floor ≤ pyRound y := by unfold pyRound; simp only; (repeat' split) <;> omega
    omega
  · unfold pyRound
    simp only [← h1]
    by_cases a : x - x.floor < 1 / 2
    · rw [if_pos a]; (repeat' split) <;> omega
    · have b : ¬ y - x.floor < 1 / 2 := by grind
      rw [if_neg a, if_neg b]
      by_cases c : 1 / 2 < x - x.floor
      · have d : 1 / 2 < y - x.floor := by grind
        rw [if_pos c, if_pos d]; omega
      · rw [if_neg c]; split <;> split <;> omega

theorem pyRound_le {x : Rat} {n : Int} (h : x ≤ n) : pyRound x ≤ n := by
  have := pyRound_mono h
  rwa [pyRound_int] at this

theorem pyRound_ge {x : Rat} {n : Int} (h : (n : Rat) ≤ x) : n ≤ pyRound x := by
  have := pyRound_mono h
  rwa [pyRound_int] at this

/-! ## One frame -/

theorem mulr {a b c : Rat} (h : a ≤ b) (hc : 0 ≤ c) : a * c ≤ b * c := Rat.mul_le_mul_of_nonneg_right h hc

namespace Spec

/-- The size of the sine. -/
def size (x : Rat) : Rat := if x < 0 then -x else x

/-- What is so at any time. -/
structure SimuMeter.Sane (fl : Rat → Rat) (s : SimuMeter) : Prop where
  time : 0 ≤ s.intervalle
  hc : fl s.hchc = s.hchc
  hp : fl s.hchp = s.hchp
  hc0 : 52000000 ≤ s.hchc
  hp0 : 49000000 ≤ s.hchp
  hc1 : s.hchc ≤ 52000000 + 53 / 10 * s.intervalle
  hp1 : s.hchp ≤ 49000000 + 53 / 10 * s.intervalle
  adco : s.adco = bs "012345678123"
  isousc : s.isousc = 30
  adps : s.adps = 0 ∨ s.adps = 31
  pseuil : s.pseuil = 0 ∨ s.pseuil = 4000

end Spec

theorem size_draw {last now sin c1 c2 : Rat} (h : Draw last now sin c1 c2) : 0 ≤ size sin ∧ size sin ≤ 1 := by
  have h1 := h.low
  have h2 := h.high
  unfold size
  split <;> grind

/-- The intensity. -/
theorem amps {fl} (hf : Binary64 fl) {a : Rat} (h0 : 0 ≤ a) (h1 : a ≤ 1) :
    0 ≤ fl (20 * a) ∧ fl (20 * a) ≤ 20 ∧ fl (20 * a) - 20 * a ≤ 1 / 1000000 ∧ 20 * a - fl (20 * a) ≤ 1 / 1000000 := by
  have e0 := hf.exact 0 (by decide)
  have e1 := hf.exact 20 (by decide)
  have m0 := hf.mono 0 (20 * a) (by grind)
  have m1 := hf.mono (20 * a) 20 (by grind)
  have u := hf.up (20 * a) (by grind)
  have d := hf.down (20 * a) (by grind)
  refine ⟨by grind, by grind, by grind, by grind⟩

/-- The power before rounding. -/
theorem watts {fl} (hf : Binary64 fl) {i c : Rat} (h0 : 0 ≤ i) (h1 : i ≤ 20) (c0 : 4 / 5 ≤ c) (c1 : c ≤ 6 / 5) :
    0 ≤ fl (fl (i * 230) * c) ∧ fl (fl (i * 230) * c) ≤ 5520 ∧
    fl (fl (i * 230) * c) - i * 230 * c ≤ 1 / 1000000 ∧ i * 230 * c - fl (fl (i * 230) * c) ≤ 1 / 1000000 := by
  have e0 := hf.exact 0 (by decide)
  have e1 := hf.exact 4600 (by decide)
  have e2 := hf.exact 5520 (by decide)
  have m0 := hf.mono 0 (i * 230) (by grind)
  have m1 := hf.mono (i * 230) 4600 (by grind)
  have u := hf.up (i * 230) (by grind)
  have d := hf.down (i * 230) (by grind)
  have y0 : 0 ≤ fl (i * 230) := by grind
  have y1 : fl (i * 230) ≤ 4600 := by grind
  have p0 : 0 ≤ fl (i * 230) * c := Rat.mul_nonneg y0 (by grind)
  have p1 : fl (i * 230) * c ≤ 4600 * c := mulr y1 (by grind)
  have p2 : fl (i * 230) * c ≤ (i * 230 + 4601 / 9007199254740992) * c := mulr (by grind) (by grind)
  have p3 : (i * 230 - 4601 / 9007199254740992) * c ≤ fl (i * 230) * c := mulr (by grind) (by grind)
  have p4 : fl (i * 230) * c ≤ 5520 := by grind
  have n0 := hf.mono 0 (fl (i * 230) * c) p0
  have n1 := hf.mono (fl (i * 230) * c) 5520 p4
  have v := hf.up _ p0
  have w := hf.down _ p0
  generalize fl (fl (i * 230) * c) = z at *
  generalize fl (i * 230) * c = y at *
  refine ⟨by grind, by grind, by grind, by grind⟩

/-- The energy. -/
theorem energy {fl} (hf : Binary64 fl) {t p : Rat} (ht : t = 0 ∨ 1 / 1000000000000 ≤ t) (hp : p = 0 ∨ 1 ≤ p) (p1 : p ≤ 9520) :
    0 ≤ fl (fl (fl t * p) / 3600) ∧ fl (fl (fl t * p) / 3600) ≤ 53 / 20 * t ∧
    (t ≤ 178000000 → fl (fl (fl t * p) / 3600) - t * p / 3600 ≤ 1 / 2000000 ∧
      t * p / 3600 - fl (fl (fl t * p) / 3600) ≤ 1 / 2000000) := by
  have e0 : fl 0 = 0 := hf.exact 0 (by decide)
  rcases ht with rfl | ht
  · simp only [e0, Rat.zero_mul, show (0 : Rat) / 3600 = 0 by grind]
    grind
  rcases hp with rfl | hp
  · simp only [Rat.mul_zero, e0, show (0 : Rat) / 3600 = 0 by grind]
    grind
  have u1 := hf.up t (by grind)
  have d1 := hf.down t (by grind)
  have r1 := hf.rel t (by grind)
  have y1 : fl t * p ≤ t * p + t * p / 9007199254740992 := by
    have : fl t * p ≤ (t + t / 9007199254740992) * p := mulr (by grind) (by grind)
    grind
  have y2 : t * p - (t * p + p) / 9007199254740992 ≤ fl t * p := by
    have : (t - (t + 1) / 9007199254740992) * p ≤ fl t * p := mulr (by grind) (by grind)
    grind
  have y3 : t * p ≤ 9520 * t := by
    have := mulr p1 (show 0 ≤ t by grind)
    grind
  have y4 : 1 / 10000000000000 ≤ fl t := by grind
  have y5 : fl t * 1 ≤ fl t * p := by
    have := mulr hp (show 0 ≤ fl t by grind)
    grind
  generalize fl t * p = y at *
  have u2 := hf.up y (by grind)
  have d2 := hf.down y (by grind)
  have r2 := hf.rel y (by grind)
  have z1 : 1 / 100000000000000 ≤ fl y := by grind
  generalize fl y = z at *
  have u3 := hf.up (z / 3600) (by grind)
  have d3 := hf.down (z / 3600) (by grind)
  have r3 := hf.rel (z / 3600) (by grind)
  have m3 := hf.mono 0 (z / 3600) (by grind)
  generalize fl (z / 3600) = w at *
  generalize t * p = q at *
  refine ⟨by grind, by grind, fun h => ⟨by grind, by grind⟩⟩

/-- Adding to an index. -/
theorem added {fl} (hf : Binary64 fl) {x d : Rat} (hx : fl x = x) (h0 : 0 ≤ x) (hd : 0 ≤ d) :
    x ≤ fl (x + d) ∧ fl (x + d) ≤ x + 2 * d ∧ fl (fl (x + d)) = fl (x + d) ∧
    9007199254740992 * (fl (x + d) - (x + d)) ≤ x + d + 1 ∧ 9007199254740992 * (x + d - fl (x + d)) ≤ x + d + 1 := by
  have m := hf.mono x (x + d) (by grind)
  have n := hf.near (x + d) x hx (by grind)
  exact ⟨by grind, by grind, hf.idem _, hf.up _ (by grind), hf.down _ (by grind)⟩

/-- The power, an integer. -/
theorem power {fl} (hf : Binary64 fl) {s : SimuMeter} (hs : SimuMeter.Sane fl s) {a c : Rat} (h0 : 0 ≤ a) (h1 : a ≤ 1) (c0 : 4 / 5 ≤ c)
    (c1 : c ≤ 6 / 5) (hi : s.iinst = fl (20 * a)) :
    0 ≤ s.papp fl c ∧ s.papp fl c ≤ 9520 ∧ (s.papp fl c : Rat) - (4600 * a * c + s.pseuil) ≤ 1 ∧
      4600 * a * c + s.pseuil - (s.papp fl c : Rat) ≤ 1 := by
  obtain ⟨i0, i1, i2, i3⟩ := amps hf h0 h1
  rw [← hi] at i0 i1 i2 i3
  obtain ⟨w0, w1, w2, w3⟩ := watts hf i0 i1 c0 c1
  have r0 := pyRound_ge (n := 0) w0
  have r1 := pyRound_le (n := 5520) w1
  obtain ⟨n1, n2⟩ := pyRound_near (fl (fl (s.iinst * 230) * c))
  have k1 : s.iinst * 230 * c ≤ (20 * a + 1 / 1000000) * 230 * c := mulr (by grind) (by grind)
  have k2 : (20 * a - 1 / 1000000) * 230 * c ≤ s.iinst * 230 * c := mulr (by grind) (by grind)
  have hp := hs.pseuil
  unfold SimuMeter.papp
  generalize fl (fl (s.iinst * 230) * c) = z at *
  refine ⟨by omega, by omega, ?_, ?_⟩
  · rw [Rat.intCast_add]; grind
  · rw [Rat.intCast_add]; grind

/-- The index of the tariff period. -/
def SimuMeter.running (s : SimuMeter) : Rat := if s.heuresCreuses then s.hchc else s.hchp

/-- What a reading does. -/
theorem reading {fl} (hf : Binary64 fl) {s : SimuMeter} (hs : SimuMeter.Sane fl s) {now sin c1 c2 : Rat}
    (h : Draw s.intervalle now sin c1 c2) :
    SimuMeter.Sane fl (s.read fl now sin c1) ∧ (s.read fl now sin c1).intervalle = now ∧
    (s.read fl now sin c1).iinst = fl (20 * size sin) ∧ (s.read fl now sin c1).heuresCreuses = s.heuresCreuses ∧
    (s.read fl now sin c1).pseuil = s.pseuil ∧
    s.hchc ≤ (s.read fl now sin c1).hchc ∧ s.hchp ≤ (s.read fl now sin c1).hchp ∧
    (s.heuresCreuses = true → (s.read fl now sin c1).hchp = s.hchp) ∧
    (s.heuresCreuses = false → (s.read fl now sin c1).hchc = s.hchc) ∧
    (now ≤ 178000000 → ∃ p : Rat, p - (4600 * size sin * c1 + s.pseuil) ≤ 1 ∧ 4600 * size sin * c1 + s.pseuil - p ≤ 1 ∧
      (s.read fl now sin c1).running - (s.running + (now - s.intervalle) * p / 3600) ≤ 1 / 1000000 ∧
      s.running + (now - s.intervalle) * p / 3600 - (s.read fl now sin c1).running ≤ 1 / 1000000) := by
  obtain ⟨a0, a1⟩ := size_draw h
  have hs1 : SimuMeter.Sane fl { s with iinst := fl (20 * size sin) } := ⟨hs.1, hs.2, hs.3, hs.4, hs.5, hs.6, hs.7, hs.8, hs.9, hs.10, hs.11⟩
  obtain ⟨p0, p1, p2, p3⟩ := power hf hs1 a0 a1 h.phi1.1 h.phi1.2 rfl
  simp only at p2 p3
  generalize hP : SimuMeter.papp fl { s with iinst := fl (20 * size sin) } c1 = P at *
  have ht : now - s.intervalle = 0 ∨ 1 / 1000000000000 ≤ now - s.intervalle := by
    rcases h.clock with h | h
    · left; grind
    · right; grind
  have hp' : (P : Rat) = 0 ∨ 1 ≤ (P : Rat) := by
    rcases Int.lt_or_eq_of_le p0 with h | h
    · right; exact Rat.intCast_le_intCast.2 (show (1 : Int) ≤ P by omega)
    · left; rw [← h]; rfl
  have hp1 : (P : Rat) ≤ 9520 := Rat.intCast_le_intCast.2 p1
  obtain ⟨d0, d1, d2⟩ := energy hf ht hp' hp1
  have e : s.read fl now sin c1 = if s.heuresCreuses then
      ({ s with iinst := fl (20 * size sin), intervalle := now, hchc := fl (s.hchc + fl (fl (fl (now - s.intervalle) * P) / 3600)) } : SimuMeter)
    else { s with iinst := fl (20 * size sin), intervalle := now, hchp := fl (s.hchp + fl (fl (fl (now - s.intervalle) * P) / 3600)) } := by
    rw [← hP]; rfl
  generalize fl (fl (fl (now - s.intervalle) * P) / 3600) = d at *
  have time : s.intervalle ≤ now := by rcases ht with h | h <;> grind
  have t0 := hs.time
  cases hc : s.heuresCreuses with
  | true =>
    rw [hc, if_pos rfl] at e
    have x0 := hs.hc0
    have x1 := hs.hc1
    have y1 := hs.hp1
    obtain ⟨g1, g2, g3, g4, g5⟩ := added hf hs.hc (by grind) d0
    rw [e]
    refine ⟨⟨by grind, g3, hs.hp, by grind, hs.hp0, ?_, ?_, hs.adco, hs.isousc, hs.adps, hs.pseuil⟩, rfl, rfl, rfl, rfl, g1, Rat.le_refl,
      fun _ => rfl, nofun, fun hn => ⟨P, p2, p3, ?_, ?_⟩⟩
    · show fl (s.hchc + d) ≤ 52000000 + 53 / 10 * now; grind
    · show s.hchp ≤ 49000000 + 53 / 10 * now; grind
    · obtain ⟨d3, d4⟩ := d2 (by grind)
      simp only [SimuMeter.running, hc, if_true]
      grind
    · obtain ⟨d3, d4⟩ := d2 (by grind)
      simp only [SimuMeter.running, hc, if_true]
      grind
  | false =>
    rw [hc, if_neg (by decide)] at e
    have x0 := hs.hp0
    have x1 := hs.hp1
    have y1 := hs.hc1
    obtain ⟨g1, g2, g3, g4, g5⟩ := added hf hs.hp (by grind) d0
    rw [e]
    refine ⟨⟨by grind, hs.hc, g3, hs.hc0, by grind, ?_, ?_, hs.adco, hs.isousc, hs.adps, hs.pseuil⟩, rfl, rfl, rfl, rfl, Rat.le_refl, g1,
      nofun, fun _ => rfl, fun hn => ⟨P, p2, p3, ?_, ?_⟩⟩
    · show s.hchc ≤ 52000000 + 53 / 10 * now; grind
    · show fl (s.hchp + d) ≤ 49000000 + 53 / 10 * now; grind
    · obtain ⟨d3, d4⟩ := d2 (by grind)
      simp only [SimuMeter.running, hc, Bool.false_eq_true, if_false]
      grind
    · obtain ⟨d3, d4⟩ := d2 (by grind)
      simp only [SimuMeter.running, hc, Bool.false_eq_true, if_false]
      grind

theorem sane_init {fl} (hf : Binary64 fl) : SimuMeter.Sane fl .init := by
  have e1 : fl 52000000 = 52000000 := hf.exact 52000000 (by decide)
  have e2 : fl 49000000 = 49000000 := hf.exact 49000000 (by decide)
  refine ⟨Rat.le_refl, e1, e2, Rat.le_refl, Rat.le_refl, ?_, ?_, rfl, rfl, .inl rfl, .inl rfl⟩ <;> simp only [SimuMeter.init] <;> grind

theorem key_sane {fl} {s : SimuMeter} (hs : SimuMeter.Sane fl s) (q : UInt8) :
    SimuMeter.Sane fl (s.bascule q) ∧ (s.bascule q).intervalle = s.intervalle ∧ (s.bascule q).hchc = s.hchc ∧ (s.bascule q).hchp = s.hchp := by
  have key : ∀ n, n = 0 ∨ n = 31 → SimuMeter.Sane fl (s.setAdps n) ∧ (s.setAdps n).intervalle = s.intervalle ∧
      (s.setAdps n).hchc = s.hchc ∧ (s.setAdps n).hchp = s.hchp := by
    intro n hn
    unfold SimuMeter.setAdps
    split
    · exact ⟨{ hs with adps := .inl rfl }, rfl, rfl, rfl⟩
    · exact ⟨{ hs with adps := hn }, rfl, rfl, rfl⟩
  unfold SimuMeter.bascule
  split
  · exact ⟨{ hs with }, rfl, rfl, rfl⟩
  split
  · split
    · exact key 0 (.inl rfl)
    · exact key _ (.inr (by rw [hs.isousc]))
  split
  · refine ⟨{ hs with pseuil := ?_ }, rfl, rfl, rfl⟩
    rcases hs.pseuil with h | h
    · right; simp only [h]; decide
    · left; simp only [h]; decide
  · exact ⟨hs, rfl, rfl, rfl⟩

/-- What is shown in a sane state. -/
theorem shown_meter {fl} (hf : Binary64 fl) {s : SimuMeter} (hs : SimuMeter.Sane fl s) {a c : Rat} (h0 : 0 ≤ a) (h1 : a ≤ 1) (c0 : 4 / 5 ≤ c)
    (c1 : c ≤ 6 / 5) (hi : s.iinst = fl (20 * a)) (ht : s.intervalle ≤ 178000000) : Meterlike (s.shown fl c) := by
  obtain ⟨p0, p1, -⟩ := power hf hs h0 h1 c0 c1 hi
  obtain ⟨i0, i1, -⟩ := amps hf h0 h1
  rw [← hi] at i0 i1
  have x1 := hs.hc1
  have y1 := hs.hp1
  have a1 := pyRound_le (x := s.hchc) (n := 999999999) (by
    show s.hchc ≤ (999999999 : Rat); grind)
  have a2 := pyRound_le (x := s.hchp) (n := 999999999) (by
    show s.hchp ≤ (999999999 : Rat); grind)
  have a3 := pyRound_le (n := 20) i1
  refine ⟨?_, ?_, ?_, ?_, ?_, ?_, ?_, ?_, ?_⟩ <;> simp only [SimuMeter.shown]
  · rw [hs.adco]; rfl
  · rw [hs.adco]; decide
  · rw [hs.adco]; decide
  · rw [hs.isousc]; decide
  · omega
  · omega
  · omega
  · omega
  · rcases hs.adps with h | h <;> omega

/-! ## Uses in sequence -/

namespace Spec

/-- The clock, the sine and the draws are as they can be, from the time `last` to a time below `limit`. -/
def DrawsFrom (limit : Rat) : Rat → List SimuUse → Prop
  | _, [] => True
  | last, .frame now sin c1 c2 :: r => Draw last now sin c1 c2 ∧ now ≤ limit ∧ DrawsFrom limit now r
  | last, .key _ :: r => DrawsFrom limit last r

/-- The later of two frames has indexes at least as high. -/
def Later (a b : SimuTic) : Prop := a.hchc ≤ b.hchc ∧ a.hchp ≤ b.hchp

end Spec

theorem uses_all {fl} (hf : Binary64 fl) {limit : Rat} (hl : limit ≤ 178000000) (us : List SimuUse) :
    ∀ s, SimuMeter.Sane fl s → DrawsFrom limit s.intervalle us →
      SimuMeter.Sane fl (s.uses fl us).1 ∧
      (∀ t ∈ (s.uses fl us).2, Meterlike t ∧ (pyRound s.hchc).toNat ≤ t.hchc ∧ (pyRound s.hchp).toNat ≤ t.hchp) ∧
      (s.uses fl us).2.Pairwise Later := by
  induction us with
  | nil => intro s hs _; exact ⟨hs, nofun, .nil⟩
  | cons u r ih =>
    intro s hs h
    cases u with
    | key q =>
      obtain ⟨k1, k2, k3, k4⟩ := key_sane hs q
      have := ih (s.bascule q) k1 (by rw [k2]; exact h)
      rw [k3, k4] at this
      exact this
    | frame now sin c1 c2 =>
      obtain ⟨hd, hn, hr⟩ := h
      obtain ⟨g1, g2, g3, -, -, g4, g5, -⟩ := reading hf hs hd
      obtain ⟨a0, a1⟩ := size_draw hd
      obtain ⟨i1, i2, i3⟩ := ih _ g1 (by rw [g2]; exact hr)
      have hm := shown_meter hf g1 a0 a1 hd.phi2.1 hd.phi2.2 g3 (by rw [g2]; grind)
      have m1 := pyRound_mono g4
      have m2 := pyRound_mono g5
      refine ⟨i1, ?_, ?_⟩
      · intro t ht
        rcases List.mem_cons.1 ht with rfl | ht
        · exact ⟨hm, by simp only [SimuMeter.shown]; omega, by simp only [SimuMeter.shown]; omega⟩
        · obtain ⟨j1, j2, j3⟩ := i2 t ht
          exact ⟨j1, by omega, by omega⟩
      · refine List.pairwise_cons.2 ⟨fun t ht => ?_, i3⟩
        obtain ⟨-, j2, j3⟩ := i2 t ht
        exact ⟨j2, j3⟩

/-- **C124**, over time: whatever the draws and the keys pressed, during more than five years of the clock, every frame has values of the sizes of
those of a meter, and no index ever goes down from a frame to a later one. -/
theorem c124_meter {fl} (hf : Binary64 fl) (us : List SimuUse) (h : DrawsFrom 178000000 0 us) :
    (∀ t ∈ (SimuMeter.init.uses fl us).2, Meterlike t) ∧ (SimuMeter.init.uses fl us).2.Pairwise Later := by
  obtain ⟨-, h1, h2⟩ := uses_all hf Rat.le_refl us .init (sane_init hf) h
  exact ⟨fun t ht => (h1 t ht).1, h2⟩

/-- **C124** with C77: a device that receives one of these frames after anything else publishes its values. -/
theorem c124_published {fl} (hf : Binary64 fl) (us : List SimuUse) (h : DrawsFrom 178000000 0 us) {t : SimuTic}
    (ht : t ∈ (SimuMeter.init.uses fl us).2) (mem : Mem) (hm : mem.length = 350) (pre frame : List (TimeVal × Byte))
    (hw : bytesOf frame = t.trame) :
    ∃ d ps, (Dec.init mem).puts (pre ++ frame) = .ok d ∧ d.ready = true ∧ d.fr.iter = .ok ps ∧
      ps.map Prod.fst = (simulated t).map Prod.fst ∧ ∀ p ∈ ps.zip (simulated t), p.2.2.Shown p.1.2 :=
  c77_simulated mem hm pre frame t ((c124_meter hf us h).1 t ht) hw

/-- **C124 (partial)**, one frame, after any uses: the index of the other tariff does not move, that of the running one grows by the energy of the
time since the last frame, at a power that the clock and a draw give (230 V × 20 A × |sin| × cos φ, and 4000 W more when the key `P` says so), to
within a millionth of Wh; the frame shows the intensity and a power made in the same way.

Partial: the power that is shown is of another draw than the one that is counted (`c124_refuted_power`), and the first frame counts the time since the
start of the machine (`c124_refuted_first`). -/
theorem c124_energy_partial {fl} (hf : Binary64 fl) (us : List SimuUse) (h : DrawsFrom 178000000 0 us) {now sin c1 c2 : Rat} {s s' : SimuMeter}
    (hs : (SimuMeter.init.uses fl us).1 = s) (hd : Draw s.intervalle now sin c1 c2) (hn : now ≤ 178000000) (hu : s.read fl now sin c1 = s') :
    s'.intervalle = now ∧ s'.heuresCreuses = s.heuresCreuses ∧
    (s.heuresCreuses = true → s'.hchp = s.hchp) ∧ (s.heuresCreuses = false → s'.hchc = s.hchc) ∧
    (∃ p : Rat, p - (4600 * size sin * c1 + s.pseuil) ≤ 1 ∧ 4600 * size sin * c1 + s.pseuil - p ≤ 1 ∧
      s'.running - (s.running + (now - s.intervalle) * p / 3600) ≤ 1 / 1000000 ∧
      s.running + (now - s.intervalle) * p / 3600 - s'.running ≤ 1 / 1000000) ∧
    (((s'.shown fl c2).iinst : Rat) - 20 * size sin ≤ 1 ∧ 20 * size sin - (s'.shown fl c2).iinst ≤ 1) ∧
    (((s'.shown fl c2).papp : Rat) - (4600 * size sin * c2 + s.pseuil) ≤ 1 ∧ 4600 * size sin * c2 + s.pseuil - (s'.shown fl c2).papp ≤ 1) := by
  obtain ⟨k1, -⟩ := uses_all hf Rat.le_refl us .init (sane_init hf) h
  rw [hs] at k1
  obtain ⟨g1, g2, g3, g4, g5, -, -, g8, g9, g10⟩ := reading hf k1 hd
  rw [hu] at g1 g2 g3 g4 g5 g8 g9 g10
  obtain ⟨a0, a1⟩ := size_draw hd
  obtain ⟨p0, p1, p2, p3⟩ := power hf g1 a0 a1 hd.phi2.1 hd.phi2.2 g3
  obtain ⟨i0, i1, i2, i3⟩ := amps hf a0 a1
  rw [← g3] at i0 i1 i2 i3
  have r0 := pyRound_ge (n := 0) i0
  obtain ⟨n1, n2⟩ := pyRound_near s'.iinst
  rw [g5] at p2 p3
  have e1 : (((s'.shown fl c2).papp : Nat) : Rat) = ((s'.papp fl c2 : Int) : Rat) := by
    have : (((s'.papp fl c2).toNat : Int) : Rat) = ((s'.papp fl c2 : Int) : Rat) := by rw [Int.toNat_of_nonneg p0]
    exact this
  have e2 : (((s'.shown fl c2).iinst : Nat) : Rat) = ((pyRound s'.iinst : Int) : Rat) := by
    have : (((pyRound s'.iinst).toNat : Int) : Rat) = ((pyRound s'.iinst : Int) : Rat) := by rw [Int.toNat_of_nonneg r0]
    exact this
  rw [e1, e2]
  exact ⟨g2, g4, g8, g9, g10 hn, ⟨by grind, by grind⟩, p2, p3⟩

/-! ## Cases -/

theorem pyRound_nat (n : Nat) : pyRound (n : Rat) = n := pyRound_int n

/-- A frame at full intensity, `h` hours after the time zero, where `p` W are counted. -/
theorem full_read {fl} (hf : Binary64 fl) {s : SimuMeter} {t h : Nat} (ht : s.intervalle = t) (hc : s.heuresCreuses = false) (hq : s.pseuil = 0)
    {n : Nat} (hn : s.hchp = n) (hh : h ≤ 1000) (hb : n ≤ 100000000) :
    s.read fl (t + 3600 * h : Nat) 1 1 = { s with iinst := 20, intervalle := (t + 3600 * h : Nat), hchp := (n + 4600 * h : Nat) } := by
  have ex : ∀ k : Nat, k ≤ 9007199254740992 → ∀ x : Rat, x = k → fl x = k := fun k hk x hx => by rw [hx]; exact hf.exact k hk
  have e1 : fl (20 * if (1 : Rat) < 0 then -1 else 1) = 20 := by
    rw [if_neg (by grind)]
    exact ex 20 (by decide) _ (by grind)
  have e2 : SimuMeter.papp fl { s with iinst := 20 } 1 = 4600 := by
    simp only [SimuMeter.papp, hq]
    rw [ex 4600 (by decide) (20 * 230) (by grind), ex 4600 (by decide) ((4600 : Nat) * 1) (by grind), pyRound_nat]
    rfl
  have c1 : ((t + 3600 * h : Nat) : Rat) = t + 3600 * h := by
    rw [Rat.natCast_add, Rat.natCast_mul]; rfl
  have c2 : ((3600 * h : Nat) : Rat) = 3600 * h := by rw [Rat.natCast_mul]; rfl
  have c3 : ((3600 * h * 4600 : Nat) : Rat) = 3600 * h * 4600 := by rw [Rat.natCast_mul, Rat.natCast_mul]; rfl
  have c4 : ((h * 4600 : Nat) : Rat) = h * 4600 := by rw [Rat.natCast_mul]; rfl
  have c5 : ((n + 4600 * h : Nat) : Rat) = n + 4600 * h := by rw [Rat.natCast_add, Rat.natCast_mul]; rfl
  have e3 : fl (((t + 3600 * h : Nat) : Rat) - t) = (3600 * h : Nat) := ex _ (by omega) _ (by grind)
  have e4 : fl (((3600 * h : Nat) : Rat) * ((4600 : Int) : Rat)) = (3600 * h * 4600 : Nat) := ex _ (by omega) _ (by
    rw [show ((4600 : Int) : Rat) = 4600 from rfl]; grind)
  have e5 : fl (((3600 * h * 4600 : Nat) : Rat) / 3600) = (h * 4600 : Nat) := ex _ (by omega) _ (by grind)
  have e6 : fl ((n : Rat) + (h * 4600 : Nat)) = (n + 4600 * h : Nat) := ex _ (by omega) _ (by grind)
  unfold SimuMeter.read
  simp only [e1, e2]
  simp only [ht, hc, hn, e3, e4, e5, e6, Bool.false_eq_true, if_false]

/-- A simulator at full intensity at the time zero. -/
def atFull : SimuMeter := { SimuMeter.init with iinst := 20, intervalle := (0 : Nat), hchp := (49000000 : Nat) }

/-- The same after an hour. -/
def afterHour : SimuMeter := { SimuMeter.init with iinst := 20, intervalle := (3600 : Nat), hchp := (49004600 : Nat) }

/-- **C124** as stated is false: during the hour between two frames 4600 Wh are counted, the power shown is 4025 W. -/
theorem c124_refuted_power {fl} (hf : Binary64 fl) : ∃ us a b, DrawsFrom 178000000 0 us ∧ (SimuMeter.init.uses fl us).2 = [a, b] ∧
    b.hchp - a.hchp = 4600 ∧ a.papp = 4025 ∧ b.papp = 4025 ∧
    us = [.frame (0 : Nat) 1 1 (7 / 8), .frame (3600 : Nat) 1 1 (7 / 8)] := by
  have r1 : SimuMeter.init.read fl (0 : Nat) 1 1 = atFull :=
    full_read hf (s := .init) (t := 0) (h := 0) rfl rfl rfl (n := 49000000) rfl (by decide) (by decide)
  have r2 : atFull.read fl (3600 : Nat) 1 1 = afterHour :=
    full_read hf (s := atFull) (t := 0) (h := 1) rfl rfl rfl (n := 49000000) rfl (by decide) (by decide)
  have pw : ∀ s : SimuMeter, s.iinst = 20 → s.pseuil = 0 → s.papp fl (7 / 8) = 4025 := by
    intro s h1 h2
    simp only [SimuMeter.papp, h1, h2]
    have e1 : fl (20 * 230) = 4600 := by
      rw [show (20 : Rat) * 230 = 4600 by grind]
      exact hf.exact 4600 (by decide)
    have e2 : fl (4600 * (7 / 8)) = 4025 := by
      rw [show (4600 : Rat) * (7 / 8) = 4025 by grind]
      exact hf.exact 4025 (by decide)
    rw [e1, e2, show (4025 : Rat) = ((4025 : Nat) : Rat) from rfl, pyRound_nat]
    rfl
  refine ⟨_, atFull.shown fl (7 / 8), afterHour.shown fl (7 / 8), ?_, ?_, ?_, ?_, ?_, rfl⟩
  rotate_left
  · simp only [SimuMeter.uses, SimuMeter.use, r1, r2]
    rfl
  · simp only [SimuMeter.shown, atFull, afterHour]
    rw [pyRound_nat, pyRound_nat]
    rfl
  · simp only [SimuMeter.shown]
    rw [pw _ rfl rfl]; rfl
  · simp only [SimuMeter.shown]
    rw [pw _ rfl rfl]; rfl
  · refine ⟨⟨.inl rfl, ?_, ?_, ?_, ?_⟩, ?_, ⟨.inr ?_, ?_, ?_, ?_, ?_⟩, ?_, trivial⟩ <;> grind

/-- **C124** as stated is false: the first frame of a simulator that has just been started on a machine that has been on for `h` hours counts the
consumption of these hours. -/
theorem c124_refuted_first {fl} (hf : Binary64 fl) (h : Nat) (hh : h ≤ 1000) : ∃ a,
    (SimuMeter.init.uses fl [.frame (3600 * h : Nat) 1 1 1]).2 = [a] ∧ a.hchp = 49000000 + 4600 * h := by
  have r1 := full_read hf (s := .init) (t := 0) (h := h) rfl rfl rfl (n := 49000000) rfl hh (by decide)
  rw [show (0 + 3600 * h : Nat) = 3600 * h by omega] at r1
  refine ⟨_, by simp only [SimuMeter.uses, SimuMeter.use]; rw [r1]; rfl, ?_⟩
  simp only [SimuMeter.shown]
  rw [pyRound_nat]
  rfl

/-- Keys are pressed between the frames. -/
example : DrawsFrom 178000000 0 [.frame 5 (1 / 2) (9 / 10) 1, .key 84, .key 80, .frame (13 / 2) (-1 / 3) 1 (11 / 10), .key 65,
    .frame (13 / 2) 0 1 1] := by
  refine ⟨⟨.inr ?_, ?_, ?_, ?_, ?_⟩, ?_, ⟨.inr ?_, ?_, ?_, ?_, ?_⟩, ?_, ⟨.inl rfl, ?_, ?_, ?_, ?_⟩, ?_, trivial⟩ <;> grind

/-- Exact numbers meet the conditions. -/
example : Binary64 fun x => x :=
  { up := fun x h => by grind, down := fun x h => by grind, mono := fun _ _ h => h, exact := fun _ _ => rfl, idem := fun _ => rfl,
    near := fun x z _ h => by grind, rel := fun x h => by grind }

end Wifinfo
