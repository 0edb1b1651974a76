import Verif.Props.Queries

/-!
# C14–C16: samples and power estimate
-/

namespace Wifinfo
open Spec

/-! ## C16 -/

/-- The samples a history of frames should leave, latest first: one per frame, time in
milliseconds and energy counted from the first frame's reference, modulo 2^32. -/
def expectedSamples (l : List (TimeVal × List RawGroup)) : List Conso := (sampleHist (contents l)).2

/-- **C16**: after any history of frames, walking back in the ring from the write position gives
the last min(n,48) samples, latest first; the other slots are zero. -/
theorem c16_ring {t : Teleinfo} {l} (h : TinfoReach t l) :
    t.consos.length = 48 ∧ t.iConsos = l.length % 48 ∧
      (expectedSamples l).length = l.length ∧
      ∀ k, k < 48 → t.consos[(t.iConsos + 47 - k) % 48]? =
        some ((expectedSamples l).getD k ⟨0, 0⟩) := by
  obtain ⟨i1, -, -, -⟩ := reach_inv h
  refine ⟨i1.len, ?_, ?_, i1.slot⟩
  · induction h with
    | init => rfl
    | copy hr hm hd he hc ih =>
      obtain ⟨j1, j2, j3, _⟩ := reach_inv hr
      have ih := ih j1
      obtain ⟨a, b, c⟩ := decoder_has hm hd he
      obtain ⟨t'', e1, -, -, -, e5⟩ := copyFrom_spec j1 j3 a b
      rw [hc] at e1
      cases e1
      have := copyFrom_index hc a b
      rw [this, ih, List.length_cons]
      omega
  · clear i1 h
    unfold expectedSamples
    induction l with
    | nil => rfl
    | cons x l ih => simp only [contents, List.map_cons, sampleHist, List.length_cons] at ih ⊢; rw [ih]

/-! ## C14 -/

theorem goBack_recent (now periode : UInt32) (l : List Conso) : ∀ cur,
    goBack now periode cur l = cur ∨ now - (goBack now periode cur l).dateMs ≤ periode := by
  induction l with
  | nil => intro cur; exact Or.inl rfl
  | cons s l ih =>
    intro cur
    simp only [goBack]
    split
    · exact Or.inl rfl
    · rename_i hc
      rcases ih s with h | h
      · right; rw [h]
        have : ¬ (now - s.dateMs > periode) := fun h => hc (Or.inr h)
        exact UInt32.not_lt.1 this
      · exact Or.inr h

theorem wattOf_ok (periode : UInt32) (hp : periode.toNat ≤ 2147483) (hist : List Conso) :
    ∃ w, wattOf periode hist = .ok w := by
  unfold wattOf
  simp only
  generalize hist.getD 0 ⟨0, 0⟩ = a
  rcases goBack_recent a.dateMs (periode * 1000) ((hist.drop 1).take 47) a with h | h
  · rw [h, if_pos rfl]; exact ⟨_, rfl⟩
  · generalize goBack a.dateMs (periode * 1000) a ((hist.drop 1).take 47) = p at *
    by_cases he : a.dateMs = p.dateMs
    · rw [if_pos he]; exact ⟨_, rfl⟩
    · rw [if_neg he]
      have h1 : (a.dateMs - p.dateMs).toNat ≤ 2147483000 := by
        have := UInt32.le_iff_toNat_le.1 h
        rw [UInt32.toNat_mul] at this
        have e : UInt32.toNat 1000 = 1000 := rfl
        rw [e] at this
        have := Nat.mod_le (periode.toNat * 1000) (2 ^ 32)
        omega
      have h2 : ¬ (a.dateMs - p.dateMs ≥ 0x80000000) := by
        intro hc
        have := UInt32.le_iff_toNat_le.1 hc
        have e : UInt32.toNat 0x80000000 = 2147483648 := rfl
        omega
      have h3 : a.dateMs - p.dateMs ≠ 0 := by
        intro hc
        apply he
        have := congrArg (· + p.dateMs) hc
        simpa using this
      rw [if_neg h2, if_neg h3]
      exact ⟨_, rfl⟩

/-- **C14**: whatever the history of frames and clock readings, the estimate over the default
period (60 s), and over any period up to 24 days, is computed without division by zero, without
access outside the ring and terminates. -/
theorem c14_watt_total {t : Teleinfo} {l} (h : TinfoReach t l) (periode : UInt32)
    (hp : periode.toNat ≤ 2147483) : ∃ w, t.watt periode = .ok w := by
  rw [watt_spec (reach_inv h).1]
  exact wattOf_ok periode hp _

theorem c14_watt_default {t : Teleinfo} {l} (h : TinfoReach t l) : ∃ w, t.watt = .ok w :=
  c14_watt_total h 60 (by decide)

/-- The hypothesis on the period is needed: with a period of 4294967 s and two samples
2^32 - 1000000 ms apart the correction term makes the divisor zero. -/
theorem c14_long_period_divides_by_zero :
    wattOf 4294967 [⟨4293967296, 5⟩, ⟨0, 1⟩] = .error .divByZero := by decide

/-! ## C15 -/

/-- Energy index of a frame: HCHP + HCHC, absent or non numeric values counting for zero. -/
def indexOf (content : Str) : Nat :=
  let n (label : Str) := match lookup label (pairs content) with
    | none => 0
    | some v => if numeral v then decVal v else 0
  n (bs "HCHP") + n (bs "HCHC")

/-- The measurement a frame carries. -/
def measure (p : TimeVal × List RawGroup) : Measure :=
  { ms := 1000 * p.1.sec + p.1.usec / 1000, wh := indexOf (storedAll p.2) }

/-- A plausible history (latest first): the energy never goes back and its index fits the type, the first frame was not
received at second 1 of the epoch.  The clock may be set at any time, forwards or backwards, as long as this does not
bring a frame that is not of the last `period` seconds within them modulo 2^32 ms (49.7 days). -/
structure Plausible (period : Nat) (l : List (TimeVal × List RawGroup)) : Prop where
  mono : l.Pairwise fun a b => (measure b).wh ≤ (measure a).wh
  index : ∀ p ∈ l, (measure p).wh < 2 ^ 32 - 1
  first : ∀ p, l.getLast? = some p → p.1.sec % 2 ^ 32 ≠ 1
  clock : ∀ a ∈ l.head?, ∀ b ∈ l.take 48, ((measure a).ms - (measure b).ms : Int) % 2 ^ 32 ≤ period * 1000 →
    (measure b).ms ≤ (measure a).ms ∧ (measure a).ms ≤ (measure b).ms + period * 1000

theorem intOf_eq (o : Option Str) : intOf 0 o = UInt32.ofNat (match o with
    | none => 0
    | some v => if numeral v then decVal v else 0) := by
  cases o with
  | none => rfl
  | some v => simp only [intOf]; split <;> rfl

theorem frameWh_eq (c : Str) : frameWh c = UInt32.ofNat (indexOf c) := by
  unfold frameWh indexOf
  rw [intOf_eq, intOf_eq, ← UInt32.ofNat_add]

/-- Samples of a plausible history relative to the reference of its first frame. -/
theorem sampleHist_eq : ∀ (l : List (TimeVal × List RawGroup)) (p0 : TimeVal × List RawGroup),
    l.getLast? = some p0 → p0.1.sec % 2 ^ 32 ≠ 1 →
    let b : Conso := ⟨UInt32.ofNat p0.1.sec - 1, UInt32.ofNat (measure p0).wh - 1⟩
    (sampleHist (contents l)).1 = b ∧
    (sampleHist (contents l)).2 = l.map fun p =>
      ⟨UInt32.ofNat (measure p).ms - b.dateMs * 1000, UInt32.ofNat (measure p).wh - b.wattHeure⟩ := by
  intro l
  have hms : ∀ (p : TimeVal × List RawGroup) (b : UInt32),
      (UInt32.ofNat p.1.sec - b) * 1000 + UInt32.ofNat (p.1.usec / 1000) =
        UInt32.ofNat (measure p).ms - b * 1000 := by
    intro p b
    have : UInt32.ofNat (measure p).ms = UInt32.ofNat p.1.sec * 1000 + UInt32.ofNat (p.1.usec / 1000) := by
      simp only [measure, UInt32.ofNat_add, UInt32.ofNat_mul]
      rw [UInt32.mul_comm]; rfl
    rw [this, UInt32.sub_mul]
    simp only [UInt32.sub_eq_add_neg]
    rw [UInt32.add_assoc, UInt32.add_assoc, UInt32.add_comm (-(b * 1000))]
  induction l with
  | nil => intro p0 h; simp at h
  | cons x l ih =>
    intro p0 hlast hne b
    cases l with
    | nil =>
      simp at hlast
      subst hlast
      have : (sampleHist (contents [x])).1 = b ∧ (sampleHist (contents [x])).2 =
          [⟨(UInt32.ofNat x.1.sec - b.dateMs) * 1000 + UInt32.ofNat (x.1.usec / 1000),
            frameWh (storedAll x.2) - b.wattHeure⟩] := by
        simp only [contents, List.map_cons, List.map_nil, sampleHist, nextSample]
        simp [b, frameWh_eq, measure]
      refine ⟨this.1, ?_⟩
      rw [this.2, hms, frameWh_eq]
      rfl
    | cons y l =>
      have hlast' : (y :: l).getLast? = some p0 := by simpa using hlast
      obtain ⟨e1, e2⟩ := ih p0 hlast' hne
      have hb0 : b.dateMs ≠ 0 := by
        intro h0
        have h1 : UInt32.ofNat p0.1.sec = 1 := by
          have := congrArg (· + (1 : UInt32)) h0
          simpa [b] using this
        have := congrArg UInt32.toNat h1
        rw [UInt32.toNat_ofNat'] at this
        exact hne this
      have step : sampleHist (contents (x :: y :: l)) =
          ((nextSample (sampleHist (contents (y :: l))).1 x.1 (frameWh (storedAll x.2))).1,
           (nextSample (sampleHist (contents (y :: l))).1 x.1 (frameWh (storedAll x.2))).2 ::
             (sampleHist (contents (y :: l))).2) := rfl
      rw [step, e1, e2]
      simp only [nextSample]
      rw [if_neg hb0]
      refine ⟨rfl, ?_⟩
      rw [List.map_cons, hms, frameWh_eq]
      rfl

theorem ofNat_sub_mod (a b : Nat) (c : UInt32) :
    ((UInt32.ofNat a - c) - (UInt32.ofNat b - c)).toNat = (((a : Int) - b) % 2 ^ 32).toNat := by
  have e : (UInt32.ofNat a - c) - (UInt32.ofNat b - c) = UInt32.ofNat a - UInt32.ofNat b := by
    simp only [UInt32.sub_eq_add_neg, UInt32.neg_add, UInt32.neg_neg]
    rw [UInt32.add_assoc, UInt32.add_comm (-UInt32.ofNat b), ← UInt32.add_assoc (-c),
      UInt32.add_comm (-c) c, ← UInt32.sub_eq_add_neg c, UInt32.sub_self, UInt32.zero_add]
  rw [e, UInt32.toNat_sub, UInt32.toNat_ofNat', UInt32.toNat_ofNat']
  omega

theorem ofNat_sub_toNat {a b : Nat} (h : b ≤ a) (hd : a - b < 2 ^ 32) (c : UInt32) :
    ((UInt32.ofNat a - c) - (UInt32.ofNat b - c)).toNat = a - b := by
  rw [ofNat_sub_mod]
  omega

/-- The average with the product taken in 32 bits. -/
def wrappedPower (period : Nat) (l : List Measure) : Nat :=
  match powerSpan period l with
  | none => 0
  | some (a, o) => if a.ms = o.ms then 0 else 3600000 * (a.wh - o.wh) % 2 ^ 32 / (a.ms - o.ms)

/-- **C15, exactly**: on a plausible history, the estimate is the slope between the latest measurement and the oldest one
of the unbroken run within the period, among the last 48, with the product modulo 2^32; so it is right if and only if the
two have the same date or the energy difference is at most 1193 Wh (72 kW over a minute). -/
theorem c15_exact {t : Teleinfo} {l} (h : TinfoReach t l) (periode : UInt32) (hp : Plausible periode.toNat l)
    (hper : periode.toNat ≤ 2147483) :
    ∃ w, t.watt periode = .ok w ∧ w.toNat = wrappedPower periode.toNat (l.map measure) ∧
      ∀ a o, powerSpan periode.toNat (l.map measure) = some (a, o) →
        (w.toNat = averagePower periode.toNat (l.map measure) ↔ a.ms = o.ms ∨ a.wh - o.wh ≤ 1193) := by
  rw [watt_spec (reach_inv h).1]
  cases l with
  | nil => exact ⟨0, by simp [sampleHist, contents, wattOf, goBack], rfl, by intro a o h; simp [powerSpan] at h⟩
  | cons a l =>
    have hlast : ∃ p0, (a :: l).getLast? = some p0 := ⟨_, List.getLast?_eq_some_getLast (by simp)⟩
    obtain ⟨p0, hlast⟩ := hlast
    have hp0 : p0 ∈ a :: l := List.mem_of_getLast? hlast
    obtain ⟨-, e2⟩ := sampleHist_eq (a :: l) p0 hlast (hp.first p0 hlast)
    rw [e2]
    generalize hb : (⟨UInt32.ofNat p0.1.sec - 1, UInt32.ofNat (measure p0).wh - 1⟩ : Conso) = b
    let f : TimeVal × List RawGroup → Conso := fun p =>
      ⟨UInt32.ofNat (measure p).ms - b.dateMs * 1000, UInt32.ofNat (measure p).wh - b.wattHeure⟩
    have hge : ∀ p ∈ a :: l, (measure p0).wh ≤ (measure p).wh := by
      intro p hpm
      rcases List.eq_nil_or_concat (a :: l) with h0 | ⟨l', x, hx⟩
      · simp at h0
      · rw [hx] at hlast hpm
        have hxp : x = p0 := by simpa using hlast
        subst hxp
        simp at hpm
        rcases hpm with hpm | rfl
        · have := hp.mono
          rw [hx, List.concat_eq_append, List.pairwise_append] at this
          exact this.2.2 p hpm x (by simp)
        · exact Nat.le_refl _
    have hnz : ∀ p ∈ a :: l, (f p).wattHeure ≠ 0 := by
      intro p hpm h0
      have h1 := hge p hpm
      have h2 := hp.index p hpm
      have h3 : UInt32.ofNat (measure p).wh = UInt32.ofNat (measure p0).wh - 1 := by
        have := congrArg (· + b.wattHeure) h0
        simp only [f, UInt32.sub_add_cancel, UInt32.zero_add] at this
        rw [this, ← hb]
      have h4 := congrArg UInt32.toNat h3
      rw [UInt32.toNat_sub, UInt32.toNat_ofNat', UInt32.toNat_ofNat'] at h4
      have e1 : UInt32.toNat 1 = 1 := rfl
      rw [e1] at h4
      omega
    have hper1000 : (periode * 1000).toNat = periode.toNat * 1000 := by
      rw [UInt32.toNat_mul]
      have e : UInt32.toNat 1000 = 1000 := rfl
      rw [e]; omega
    have hmono : ∀ p ∈ l, (measure p).wh ≤ (measure a).wh := by
      intro p hpm
      exact (List.pairwise_cons.1 hp.mono).1 p hpm
    -- going back
    have hgo : ∀ (r : List (TimeVal × List RawGroup)) (cur : TimeVal × List RawGroup),
        (∀ p ∈ r, p ∈ l ∧ p ∈ (a :: l).take 48) →
        ∃ o, goBack (f a).dateMs (periode * 1000) (f cur) (r.map f) = f o ∧
          oldest (measure a).ms (periode.toNat * 1000) (measure cur) (r.map measure) = measure o ∧
          (o = cur ∨ o ∈ r ∧ (measure o).ms ≤ (measure a).ms ∧ (measure a).ms ≤ (measure o).ms + periode.toNat * 1000) := by
      intro r
      induction r with
      | nil => intro cur _; exact ⟨cur, rfl, rfl, Or.inl rfl⟩
      | cons s r ih =>
        intro cur hr
        obtain ⟨hs1, hs2⟩ := hr s (by simp)
        have hd : ((f a).dateMs - (f s).dateMs).toNat = (((measure a).ms - (measure s).ms : Int) % 2 ^ 32).toNat :=
          ofNat_sub_mod _ _ _
        have hcl := hp.clock a (by simp) s hs2
        have hcond : ((f s).wattHeure = 0 ∨ (f a).dateMs - (f s).dateMs > periode * 1000) ↔
            ¬ ((measure s).ms ≤ (measure a).ms ∧ (measure a).ms ≤ (measure s).ms + periode.toNat * 1000) := by
          have := hnz s (by simp [hs1])
          simp only [this, false_or, GT.gt, UInt32.lt_iff_toNat_lt, hd, hper1000]
          omega
        simp only [List.map_cons, goBack, oldest]
        by_cases hc : (measure s).ms ≤ (measure a).ms ∧ (measure a).ms ≤ (measure s).ms + periode.toNat * 1000
        · rw [if_neg (fun h => (hcond.1 h) hc), if_pos hc]
          obtain ⟨o, o1, o2, o3⟩ := ih s (fun p hpm => hr p (by simp [hpm]))
          refine ⟨o, o1, o2, Or.inr ?_⟩
          rcases o3 with rfl | o3
          · exact ⟨by simp, hc⟩
          · exact ⟨by simp [o3.1], o3.2⟩
        · rw [if_pos (hcond.2 hc), if_neg hc]
          exact ⟨cur, rfl, rfl, Or.inl rfl⟩
    obtain ⟨o, o1, o2, o3⟩ := hgo (l.take 47) a (fun p hpm =>
      ⟨List.mem_of_mem_take hpm, by simp [hpm]⟩)
    have hoL : o ∈ (a :: l).take 48 := by
      rcases o3 with rfl | o3
      · simp
      · simp [o3.1]
    have hom : (measure o).ms ≤ (measure a).ms ∧ (measure o).wh ≤ (measure a).wh := by
      rcases o3 with rfl | o3
      · exact ⟨Nat.le_refl _, Nat.le_refl _⟩
      · exact ⟨o3.2.1, hmono o (List.mem_of_mem_take o3.1)⟩
    have hspan : (measure a).ms - (measure o).ms < 2 ^ 32 := by
      rcases o3 with rfl | o3
      · omega
      · omega
    have hia := hp.index a (by simp)
    have hd : ((f a).dateMs - (f o).dateMs).toNat = (measure a).ms - (measure o).ms :=
      ofNat_sub_toNat hom.1 hspan _
    have hwd : ((f a).wattHeure - (f o).wattHeure).toNat = (measure a).wh - (measure o).wh :=
      ofNat_sub_toNat hom.2 (by omega) _
    have hwatt : wattOf periode ((a :: l).map f) = (
        if (f a).dateMs = (f o).dateMs then .ok 0
        else
          let t := (f a).dateMs - (f o).dateMs
          let t := if t ≥ 0x80000000 then t + 1000000 else t
          if t = 0 then .error .divByZero
          else .ok ((3600000 * ((f a).wattHeure - (f o).wattHeure)) / t)) := by
      unfold wattOf
      have : ((List.map f (a :: l)).drop 1).take 47 = (l.take 47).map f := by simp [List.map_take]
      rw [this]
      simp only [List.map_cons, List.getD_cons_zero, o1]
    obtain ⟨w, hwok⟩ := wattOf_ok periode hper ((a :: l).map f)
    refine ⟨w, hwok, ?_⟩
    rw [hwatt] at hwok
    simp only [List.map_cons, averagePower, wrappedPower, powerSpan]
    rw [← List.map_take, o2]
    suffices hs : w.toNat = (if (measure a).ms = (measure o).ms then 0
        else 3600000 * ((measure a).wh - (measure o).wh) % 2 ^ 32 / ((measure a).ms - (measure o).ms)) ∧
        ((measure a).ms ≠ (measure o).ms → (measure a).ms - (measure o).ms ≤ 2147483000) by
      refine ⟨hs.1, ?_⟩
      intro a' o' e
      obtain ⟨rfl, rfl⟩ := Prod.mk.inj (Option.some.inj e)
      rw [hs.1]
      by_cases hm : (measure a).ms = (measure o).ms
      · simp [hm]
      · rw [if_neg hm, if_neg hm]
        have hle := hs.2 hm
        simp only [hm, false_or]
        constructor
        · intro e
          have hd0 : 0 < (measure a).ms - (measure o).ms := by omega
          generalize (measure a).ms - (measure o).ms = dd at *
          generalize (measure a).wh - (measure o).wh = ww at *
          apply Classical.byContradiction
          intro hw
          have h1 : 3600000 * ww % 2 ^ 32 + dd ≤ 3600000 * ww := by omega
          have h2 := Nat.div_le_div_right (c := dd) h1
          rw [Nat.add_div_right _ hd0] at h2
          omega
        · intro hw
          rw [Nat.mod_eq_of_lt (by omega)]
    have hrec := goBack_recent (f a).dateMs (periode * 1000) ((l.take 47).map f) (f a)
    rw [o1] at hrec
    by_cases he : (f a).dateMs = (f o).dateMs
    · rw [if_pos he] at hwok
      cases hwok
      have : (measure a).ms = (measure o).ms := by
        rw [he, UInt32.sub_self] at hd
        have e0 : UInt32.toNat 0 = 0 := rfl
        rw [e0] at hd
        omega
      rw [if_pos this]
      exact ⟨rfl, fun h => absurd this h⟩
    · rw [if_neg he] at hwok
      have hne : (measure a).ms ≠ (measure o).ms := by
        intro hc
        apply he
        simp only [f, hc]
      rw [if_neg hne]
      rcases hrec with hrec | hrec
      · exact absurd (by rw [hrec]) he
      have hle := UInt32.le_iff_toNat_le.1 hrec
      rw [hd, hper1000] at hle
      have h2 : ¬ ((f a).dateMs - (f o).dateMs ≥ 0x80000000) := by
        intro hc
        have := UInt32.le_iff_toNat_le.1 hc
        have e : UInt32.toNat 0x80000000 = 2147483648 := rfl
        omega
      simp only [if_neg h2] at hwok
      have h3 : ¬ ((f a).dateMs - (f o).dateMs = 0) := by
        intro hc
        rw [hc] at hd
        have e0 : UInt32.toNat 0 = 0 := rfl
        rw [e0] at hd
        omega
      rw [if_neg h3] at hwok
      cases hwok
      rw [UInt32.toNat_div, hd, UInt32.toNat_mul, hwd]
      exact ⟨rfl, fun _ => by omega⟩

/-- **C15 (partial)**: on a plausible history, the estimate is the slope between the latest
measurement and the oldest one of the unbroken run within the period, among the last 48, provided
the energy difference is at most 1193 Wh (72 kW over a minute).  Missing: above 1193 Wh the 32-bit
product overflows (`c15_refuted`). -/
theorem c15_slope_partial {t : Teleinfo} {l} (h : TinfoReach t l) (periode : UInt32) (hp : Plausible periode.toNat l)
    (hper : periode.toNat ≤ 2147483)
    (hwh : ∀ a ∈ l.head?, ∀ b ∈ l.take 48, (measure a).wh - (measure b).wh ≤ 1193) :
    ∃ w, t.watt periode = .ok w ∧ w.toNat = averagePower periode.toNat (l.map measure) := by
  obtain ⟨w, h1, h2, h3⟩ := c15_exact h periode hp hper
  refine ⟨w, h1, ?_⟩
  cases l with
  | nil => exact h2
  | cons a l =>
    refine (h3 _ _ rfl).2 (Or.inr ?_)
    have hmem : ∀ (now per : Nat) (r : List (TimeVal × List RawGroup)) (cur : TimeVal × List RawGroup),
        ∃ o, oldest now per (measure cur) (r.map measure) = measure o ∧ (o = cur ∨ o ∈ r) := by
      intro now per r
      induction r with
      | nil => exact fun cur => ⟨cur, rfl, Or.inl rfl⟩
      | cons s r ih =>
        intro cur
        simp only [List.map_cons, oldest]
        split
        · obtain ⟨o, o1, o2⟩ := ih s
          refine ⟨o, o1, Or.inr ?_⟩
          rcases o2 with rfl | o2
          · simp
          · simp [o2]
        · exact ⟨cur, rfl, Or.inl rfl⟩
    obtain ⟨o, o1, o2⟩ := hmem (measure a).ms (periode.toNat * 1000) (l.take 47) a
    rw [← List.map_take, o1]
    exact hwh a (by simp) o (by
      rcases o2 with rfl | o2
      · simp
      · simp [o2])

/-- Every valid frame can be received next, at any time. -/
theorem reach_next {t : Teleinfo} {l} (h : TinfoReach t l) (ts : TimeVal) {gs : List RawGroup}
    (hv : ValidFrame gs) : ∃ t', TinfoReach t' ((ts, gs) :: l) := by
  have hm : (List.replicate 350 none : Mem).length = 350 := List.length_replicate
  let hist : List (TimeVal × Byte) := (frameWire gs).map fun b => (ts, b)
  have he : EndsWithFrame hist ts gs :=
    ⟨[], (frameWire gs).tail.map fun b => (ts, b), by simp [hist, frameWire],
      by simp [bytesOf, frameWire, Function.comp_def], hv⟩
  obtain ⟨d, hd, _⟩ := run_of_init hm hist
  obtain ⟨t', h1, _⟩ := reach_copy h (.decoder hm hd he)
  exact ⟨t', .copy h hm hd he h1⟩

/-- A one-group frame carrying the HCHP index. -/
def hchpFrame (v : String) : List RawGroup := [(⟨bs "HCHP", bs v, 32⟩ : MeterGroup).raw]

theorem hchpFrame_valid (v : String) (hv : ∀ b ∈ bs v, printable b = true)
    (hl : (bs v).length ≤ 100) : ValidFrame (hchpFrame v) :=
  meter_valid (gs := [⟨bs "HCHP", bs v, 32⟩]) (by simp)
    (by intro g hg; simp at hg; subst hg; exact ⟨Or.inl rfl,
      show ∀ b ∈ bs "HCHP", printable b = true ∧ b ≠ 32 by decide, hv,
      show bs "HCHP" ≠ [] by decide⟩)
    (by
      have : (bs "HCHP").length = 4 := by decide
      simp only [meterFits, this]
      exact ⟨by omega, trivial⟩)

/-- Two frames received 60 s apart, 1194 Wh apart. -/
def overflowHistory : List (TimeVal × List RawGroup) :=
  [(⟨160, 0⟩, hchpFrame "000001194"), (⟨100, 0⟩, hchpFrame "000000000")]

/-- Two frames received 30 s apart, 25 Wh apart. -/
def normalHistory : List (TimeVal × List RawGroup) :=
  [(⟨130, 500000⟩, hchpFrame "012345703"), (⟨100, 0⟩, hchpFrame "012345678")]

/-- Frames received before and after the clock was set from its value at boot (13 November 2017, timesync.cpp:35,148) to that
of a time server, 8 years later. -/
def setHistory : List (TimeVal × List RawGroup) :=
  [(⟨1763000030, 500000⟩, hchpFrame "012345703"), (⟨1763000000, 0⟩, hchpFrame "012345678"),
   (⟨1510592829, 0⟩, hchpFrame "012345678"), (⟨1510592827, 0⟩, hchpFrame "012345678")]

/-- The hypotheses of `c15_slope_partial` hold of `normalHistory` and of `setHistory`; the estimate is 2950 W. -/
example : (∃ t, TinfoReach t normalHistory) ∧ Plausible 60 normalHistory ∧
    (∀ a ∈ normalHistory.head?, ∀ b ∈ normalHistory.take 48,
      (measure a).wh - (measure b).wh ≤ 1193) ∧
    averagePower 60 (normalHistory.map measure) = 2950 ∧
    (∃ t, TinfoReach t setHistory) ∧ Plausible 60 setHistory ∧ averagePower 60 (setHistory.map measure) = 2950 := by
  refine ⟨?_, ⟨by decide +kernel, by decide +kernel, ?_, by decide +kernel⟩, by decide +kernel,
    by decide +kernel, ?_, ⟨by decide +kernel, by decide +kernel, ?_, by decide +kernel⟩, by decide +kernel⟩
  · obtain ⟨t1, h1⟩ := reach_next .init ⟨100, 0⟩
      (hchpFrame_valid "012345678" (by decide) (by decide))
    exact reach_next h1 ⟨130, 500000⟩ (hchpFrame_valid "012345703" (by decide) (by decide))
  · intro p hp
    simp [normalHistory] at hp
    subst hp; decide
  · have v1 := hchpFrame_valid "012345678" (by decide) (by decide)
    obtain ⟨t1, h1⟩ := reach_next .init ⟨1510592827, 0⟩ v1
    obtain ⟨t2, h2⟩ := reach_next h1 ⟨1510592829, 0⟩ v1
    obtain ⟨t3, h3⟩ := reach_next h2 ⟨1763000000, 0⟩ v1
    exact reach_next h3 ⟨1763000030, 500000⟩ (hchpFrame_valid "012345703" (by decide) (by decide))
  · intro p hp
    simp [setHistory] at hp
    subst hp; decide

/-- **C15 refuted** as stated: on a plausible history with a difference of 1194 Wh in a minute
(71640 W), the estimate is 57 W. -/
theorem c15_refuted : ∃ t l, TinfoReach t l ∧ Plausible 60 l ∧ t.watt = .ok 57 ∧
    averagePower 60 (l.map measure) = 71640 := by
  obtain ⟨t1, h1⟩ := reach_next .init ⟨100, 0⟩
    (hchpFrame_valid "000000000" (by decide) (by decide))
  obtain ⟨t2, h2⟩ := reach_next h1 ⟨160, 0⟩
    (hchpFrame_valid "000001194" (by decide) (by decide))
  refine ⟨t2, overflowHistory, h2, ⟨by decide +kernel, by decide +kernel, ?_, by decide +kernel⟩,
    ?_, by decide +kernel⟩
  · intro p hp
    simp [overflowHistory] at hp
    subst hp; decide
  · rw [watt_spec (reach_inv h2).1]
    decide +kernel

/-- Two frames 12 Wh apart; between them the clock was set forwards by nearly 50 days. -/
def jumpHistory : List (TimeVal × List RawGroup) :=
  [(⟨1514887800, 0⟩, hchpFrame "000000112"), (⟨1510592830, 0⟩, hchpFrame "000000100")]

/-- **C15 refuted** when the clock is set by a little more than a multiple of 2^32 ms: the frame of before counts as one of
the last minute, and 15976 W are estimated where there is nothing to estimate from. -/
theorem c15_refuted_clock : ∃ t l, TinfoReach t l ∧ l = jumpHistory ∧ t.watt = .ok 15976 ∧
    averagePower 60 (l.map measure) = 0 := by
  obtain ⟨t1, h1⟩ := reach_next .init ⟨1510592830, 0⟩
    (hchpFrame_valid "000000100" (by decide) (by decide))
  obtain ⟨t2, h2⟩ := reach_next h1 ⟨1514887800, 0⟩
    (hchpFrame_valid "000000112" (by decide) (by decide))
  refine ⟨t2, jumpHistory, h2, rfl, ?_, by decide +kernel⟩
  rw [watt_spec (reach_inv h2).1]
  decide +kernel

end Wifinfo
