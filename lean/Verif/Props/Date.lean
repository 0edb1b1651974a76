import Verif.Model.Date
import Verif.Spec.Calendar

/-!
# C111: the date of a frame is the instant it arrived, in the legal time of France
-/

namespace Wifinfo
open Spec

/-! ## The calendar -/

/-- The days before March of the year `y`, from March of the year 0. -/
def marchDays (y : Nat) : Nat := 365 * y + y / 4 - y / 100 + y / 400

theorem leap_iff (y : Nat) : leapYear y = true ↔ y % 4 = 0 ∧ (y % 100 ≠ 0 ∨ y % 400 = 0) := by
  simp [leapYear]

theorem march_succ (y : Nat) : marchDays (y + 1) = marchDays y + 365 + if leapYear (y + 1) then 1 else 0 := by
  have h1 := leap_iff (y + 1)
  have h4 : (y + 1) / 4 = y / 4 + if (y + 1) % 4 = 0 then 1 else 0 := by split <;> omega
  have h100 : (y + 1) / 100 = y / 100 + if (y + 1) % 100 = 0 then 1 else 0 := by split <;> omega
  have h400 : (y + 1) / 400 = y / 400 + if (y + 1) % 400 = 0 then 1 else 0 := by split <;> omega
  have g1 : (y + 1) % 400 = 0 → (y + 1) % 100 = 0 := by omega
  have g2 : (y + 1) % 100 = 0 → (y + 1) % 4 = 0 := by omega
  have g3 : y / 100 ≤ y / 4 := by omega
  unfold marchDays
  rw [h4, h100, h400]
  by_cases c4 : (y + 1) % 4 = 0
  · by_cases c100 : (y + 1) % 100 = 0
    · by_cases c400 : (y + 1) % 400 = 0
      · rw [h1.2 ⟨c4, .inr c400⟩]; simp only [c4, c100, c400, if_true]; omega
      · have : leapYear (y + 1) = false := by
          rw [← Bool.not_eq_true, h1]; rintro ⟨-, h | h⟩
          · exact h c100
          · exact c400 h
        rw [this]; simp only [c4, c100, c400, if_true, if_false, Bool.false_eq_true]; omega
    · have c400 : ¬ (y + 1) % 400 = 0 := fun h => c100 (g1 h)
      rw [h1.2 ⟨c4, .inl c100⟩]; simp only [c4, c100, c400, if_true, if_false]; omega
  · have c100 : ¬ (y + 1) % 100 = 0 := fun h => c4 (g2 h)
    have c400 : ¬ (y + 1) % 400 = 0 := fun h => c100 (g1 h)
    have : leapYear (y + 1) = false := by
      rw [← Bool.not_eq_true, h1]; exact fun h => c4 h.1
    rw [this]; simp only [c4, c100, c400, if_false, Bool.false_eq_true]; omega

theorem march_start (k : Nat) : yearStart k + 59 + (if leapYear (1970 + k) then 1 else 0) + 719468 = marchDays (1970 + k) := by
  induction k with
  | zero => decide
  | succ k ih =>
    rw [show 1970 + (k + 1) = (1970 + k) + 1 from rfl, march_succ, ← ih]
    simp only [yearStart, yearDays]
    cases leapYear (1970 + k) <;> simp only [Bool.false_eq_true, if_true, if_false] <;> omega

theorem year_start (k : Nat) : yearStart (k + 1) + 719468 = marchDays (1970 + k) + 306 := by
  have := march_start k
  simp only [yearStart, yearDays]
  cases hl : leapYear (1970 + k) <;> simp only [hl, Bool.false_eq_true, if_false, if_true] at this ⊢ <;> omega

/-- The days of an era of 400 years: the year, and the day of this year, which begins in March. -/
theorem era_day (e : Nat) (he : e < 146097) : ∃ c q z yd, e = 36524 * c + 1461 * q + 365 * z + yd ∧ c ≤ 3 ∧ q ≤ 24 ∧ z ≤ 3 ∧
    (yd ≤ 364 ∨ yd = 365 ∧ z = 3 ∧ (q ≤ 23 ∨ c = 3)) ∧
    (e - e / 1460 + e / 36524 - e / 146096) / 365 = 100 * c + 4 * q + z := by
  have hc : ∃ c r, e = 36524 * c + r ∧ c ≤ 3 ∧ (r < 36524 ∨ c = 3 ∧ r = 36524) := by
    by_cases h : e = 146096
    · exact ⟨3, 36524, by omega, by omega, .inr ⟨rfl, rfl⟩⟩
    · exact ⟨e / 36524, e % 36524, by omega, by omega, by omega⟩
  obtain ⟨c, r, h1, h2, h3⟩ := hc
  have hq : ∃ q s, r = 1461 * q + s ∧ q ≤ 24 ∧ s ≤ 1460 ∧ (s < 1460 ∨ q ≤ 23 ∨ c = 3) := ⟨r / 1461, r % 1461, by omega, by omega, by omega, by omega⟩
  obtain ⟨q, s, h4, h5, h6, h7⟩ := hq
  have hz : ∃ z yd, s = 365 * z + yd ∧ z ≤ 3 ∧ (yd ≤ 364 ∨ yd = 365 ∧ z = 3) := by
    by_cases h : s = 1460
    · exact ⟨3, 365, by omega, by omega, .inr ⟨rfl, rfl⟩⟩
    · exact ⟨s / 365, s % 365, by omega, by omega, by omega⟩
  obtain ⟨z, yd, h8, h9, h10⟩ := hz
  refine ⟨c, q, z, yd, by omega, h2, h5, h9, by omega, ?_⟩
  have g1 : e / 36524 - e / 146096 = c := by
    rcases h3 with h3 | ⟨rfl, rfl⟩
    · have : e / 36524 = c := by omega
      omega
    · rw [h1]
  have g2 : e / 146096 ≤ e / 36524 := by omega
  have g3 : e / 1460 = 25 * c + q + (24 * c + q + 365 * z + yd) / 1460 := by omega
  omega

theorem march_year (era c q z : Nat) (hc : c ≤ 3) (hq : q ≤ 24) (hz : z ≤ 3) :
    marchDays (era * 400 + (100 * c + 4 * q + z)) = 146097 * era + (36524 * c + 1461 * q + 365 * z) := by
  unfold marchDays
  omega

/-- The days from March of the year `y` on, which is after 1969. -/
theorem march_number {y i yd : Nat} (hy : 1970 ≤ y) (hi : i < 10) (h1 : (153 * i + 2) / 5 ≤ yd) (h2 : yd < (153 * (i + 1) + 2) / 5) :
    Day.Exists ⟨y, i + 3, yd - (153 * i + 2) / 5 + 1⟩ ∧
      Day.number ⟨y, i + 3, yd - (153 * i + 2) / 5 + 1⟩ + 719468 = marchDays y + yd := by
  have h := march_start (y - 1970)
  rw [show 1970 + (y - 1970) = y by omega] at h
  unfold Day.Exists Day.number
  simp only
  obtain rfl | rfl | rfl | rfl | rfl | rfl | rfl | rfl | rfl | rfl :
    i = 0 ∨ i = 1 ∨ i = 2 ∨ i = 3 ∨ i = 4 ∨ i = 5 ∨ i = 6 ∨ i = 7 ∨ i = 8 ∨ i = 9 := by omega
  all_goals
    simp [monthStart, monthDays] at *
    cases hl : leapYear y <;> simp [hl] at * <;> omega

/-- January and February of the year after `y`. -/
theorem january_number {y i yd : Nat} (hy : 1969 ≤ y) (hi : i < 2) (h1 : (153 * (i + 10) + 2) / 5 ≤ yd)
    (h2 : i = 0 ∧ yd ≤ 336 ∨ i = 1 ∧ yd ≤ 364 ∨ i = 1 ∧ yd = 365 ∧ leapYear (y + 1) = true) :
    Day.Exists ⟨y + 1, i + 1, yd - (153 * (i + 10) + 2) / 5 + 1⟩ ∧
      Day.number ⟨y + 1, i + 1, yd - (153 * (i + 10) + 2) / 5 + 1⟩ + 719468 = marchDays y + yd := by
  have h : yearStart (y + 1 - 1970) + 719468 = marchDays y + 306 := by
    by_cases h : y = 1969
    · subst h; decide
    · have := year_start (y - 1970)
      rw [show 1970 + (y - 1970) = y by omega, show y - 1970 + 1 = y + 1 - 1970 by omega] at this
      exact this
  unfold Day.Exists Day.number
  simp only
  obtain rfl | rfl : i = 0 ∨ i = 1 := by omega
  all_goals
    simp [monthStart, monthDays] at *
    cases hl : leapYear (y + 1) <;> simp [hl] at * <;> omega

/-- The day that the library computes exists, and is the one. -/
theorem gm_date (days : Nat) : Day.Exists ⟨(gmDate days).1, (gmDate days).2.1, (gmDate days).2.2⟩ ∧
    Day.number ⟨(gmDate days).1, (gmDate days).2.1, (gmDate days).2.2⟩ = days := by
  obtain ⟨c, q, z, yd, h1, hc, hq, hz, hyd, hy⟩ := era_day ((days + 719468) % 146097) (Nat.mod_lt _ (by decide))
  have hm := march_year ((days + 719468) / 146097) c q z hc hq hz
  have hn : days + 719468 = marchDays ((days + 719468) / 146097 * 400 + (100 * c + 4 * q + z)) + yd := by omega
  have hyear : 1969 ≤ (days + 719468) / 146097 * 400 + (100 * c + 4 * q + z) := by omega
  have hsub : (days + 719468) % 146097 - (365 * (100 * c + 4 * q + z) + (100 * c + 4 * q + z) / 4 - (100 * c + 4 * q + z) / 100) = yd := by
    have d1 : (100 * c + 4 * q + z) / 4 = 25 * c + q := by clear hy; omega
    have d2 : (100 * c + 4 * q + z) / 100 = c := by clear hy; omega
    rw [d1, d2]
    clear hy
    omega
  have hg : gmDate days = (let month := (5 * yd + 2) / 153
      let month' := if month < 10 then month + 2 else month - 10
      (100 * c + 4 * q + z + (days + 719468) / 146097 * 400 + (if month' ≤ 1 then 1 else 0), month' + 1,
        yd - (153 * month + 2) / 5 + 1)) := by
    simp only [gmDate, hy, hsub]
  rw [hg]
  generalize hY : (days + 719468) / 146097 * 400 + (100 * c + 4 * q + z) = y at *
  rw [Nat.add_comm (100 * c + 4 * q + z), hY]
  generalize hM : (5 * yd + 2) / 153 = i
  by_cases hi : i < 10
  · have h70 : 1970 ≤ y := by
      unfold marchDays at hn
      omega
    obtain ⟨g1, g2⟩ := march_number (yd := yd) h70 hi (by omega) (by omega)
    simp only [hi, if_true, show ¬ i + 2 ≤ 1 by omega, if_false, Nat.add_zero]
    exact ⟨g1, Nat.add_right_cancel (g2.trans hn.symm)⟩
  · have hi2 : i - 10 < 2 := by clear hy hg hn hm hsub h1; omega
    have hlow : (153 * (i - 10 + 10) + 2) / 5 ≤ yd := by clear hy hg hn hm hsub h1; omega
    have hlast : i - 10 = 0 ∧ yd ≤ 336 ∨ i - 10 = 1 ∧ yd ≤ 364 ∨ i - 10 = 1 ∧ yd = 365 ∧ leapYear (y + 1) = true := by
      rcases hyd with hyd | ⟨rfl, rfl, hyd⟩
      · clear hy hg hn hm hsub h1; omega
      · have : leapYear (y + 1) = true := by
          rw [leap_iff]
          clear hy hg hn hm hsub h1
          omega
        exact .inr (.inr ⟨by clear hy hg hn hm hsub h1; omega, rfl, this⟩)
    obtain ⟨g1, g2⟩ := january_number (y := y) (i := i - 10) (yd := yd) hyear hi2 hlow hlast
    rw [show i - 10 + 10 = i by omega] at g1 g2
    simp only [hi, if_false, show i - 10 ≤ 1 by omega, if_true]
    exact ⟨g1, Nat.add_right_cancel (g2.trans hn.symm)⟩

theorem month_start_le {y m d : Nat} (h : Day.Exists ⟨y, m, d⟩) : monthStart y (m - 1) + (d - 1) < yearDays y := by
  obtain ⟨-, h1, h2, h3, h4⟩ := h
  simp only at h1 h2 h3 h4
  obtain rfl | rfl | rfl | rfl | rfl | rfl | rfl | rfl | rfl | rfl | rfl | rfl :
    m = 1 ∨ m = 2 ∨ m = 3 ∨ m = 4 ∨ m = 5 ∨ m = 6 ∨ m = 7 ∨ m = 8 ∨ m = 9 ∨ m = 10 ∨ m = 11 ∨ m = 12 := by omega
  all_goals
    simp [monthStart, monthDays, yearDays] at *
    cases hl : leapYear y <;> simp [hl] at * <;> omega

theorem year_start_mono {a b : Nat} (h : a ≤ b) : yearStart a ≤ yearStart b := by
  induction h with
  | refl => exact Nat.le_refl _
  | step _ ih => exact Nat.le_trans ih (Nat.le_add_right _ _)

/-- A day is in its year. -/
theorem number_year {x : Day} (h : x.Exists) : yearStart (x.year - 1970) ≤ x.number ∧ x.number < yearStart (x.year - 1970 + 1) := by
  have := month_start_le h
  unfold Day.number
  rw [yearStart, show 1970 + (x.year - 1970) = x.year by have := h.1; omega]
  omega

theorem year_unique {x y : Day} (hx : x.Exists) (hy : y.Exists) {n : Nat} (h1 : x.number ≤ n) (h2 : n ≤ y.number)
    (hxy : x.year = y.year) {z : Day} (hz : z.Exists) (hn : z.number = n) : z.year = x.year := by
  have hx' := number_year hx
  have hy' := number_year hy
  have hz' := number_year hz
  rw [← hxy] at hy'
  have := hx.1
  have := hz.1
  rcases Nat.lt_trichotomy z.year x.year with h | h | h
  · have := year_start_mono (show z.year - 1970 + 1 ≤ x.year - 1970 by omega)
    omega
  · exact h
  · have := year_start_mono (show x.year - 1970 + 1 ≤ z.year - 1970 by omega)
    omega

theorem year_days (k : Nat) : k * 365 + (k + 1) / 4 - (k + 69) / 100 + (k + 369) / 400 = yearStart k := by
  cases k with
  | zero => rfl
  | succ k =>
    have := year_start k
    unfold marchDays at this
    have h1 : (1970 + k) / 4 = 492 + (k + 2) / 4 := by omega
    have h2 : (1970 + k) / 100 = 19 + (k + 70) / 100 := by omega
    have h3 : (1970 + k) / 400 = 4 + (k + 370) / 400 := by omega
    have h4 : (k + 70) / 100 ≤ 365 * (k + 1) := by omega
    rw [h1, h2, h3] at this
    rw [show k + 1 + 1 = k + 2 from rfl, show k + 1 + 69 = k + 70 from rfl, show k + 1 + 369 = k + 370 from rfl]
    omega

theorem isLeap_eq (y : Nat) : isLeap y = leapYear y := by
  rw [Bool.eq_iff_iff, leap_iff]
  simp [isLeap]

theorem march_before {y : Nat} (hy : 1969 ≤ y) : yearStart (y + 1 - 1970) + 719468 = marchDays y + 306 := by
  by_cases h : y = 1969
  · subst h; decide
  · have := year_start (y - 1970)
    rw [show 1970 + (y - 1970) = y by omega, show y - 1970 + 1 = y + 1 - 1970 by omega] at this
    exact this

theorem leap_era (e y : Nat) : leapYear (e * 400 + y) = leapYear y := by
  rw [Bool.eq_iff_iff, leap_iff, leap_iff]
  omega

theorem yday_sum {a b d l x : Nat} (h : a + 59 + l + 719468 = b) (h' : d + 719468 = b + x) : a + (x + 31 + 28 + l) = d := by
  omega

/-- The day of the year. -/
theorem gm_yday (days : Nat) : yearStart ((gmDate days).1 - 1970) + gmYday days = days := by
  obtain ⟨c, q, z, yd, h1, hc, hq, hz, hyd, hy⟩ := era_day ((days + 719468) % 146097) (Nat.mod_lt _ (by decide))
  have hm := march_year ((days + 719468) / 146097) c q z hc hq hz
  have hn : days + 719468 = marchDays ((days + 719468) / 146097 * 400 + (100 * c + 4 * q + z)) + yd := by omega
  have hyear : 1969 ≤ (days + 719468) / 146097 * 400 + (100 * c + 4 * q + z) := by omega
  have hsub : (days + 719468) % 146097 - (365 * (100 * c + 4 * q + z) + (100 * c + 4 * q + z) / 4 - (100 * c + 4 * q + z) / 100) = yd := by
    have d1 : (100 * c + 4 * q + z) / 4 = 25 * c + q := by clear hy; omega
    have d2 : (100 * c + 4 * q + z) / 100 = c := by clear hy; omega
    rw [d1, d2]
    clear hy
    omega
  have hg : (gmDate days).1 = (let month := (5 * yd + 2) / 153
      let month' := if month < 10 then month + 2 else month - 10
      100 * c + 4 * q + z + (days + 719468) / 146097 * 400 + (if month' ≤ 1 then 1 else 0)) := by
    simp only [gmDate, hy, hsub]
  have hd : gmYday days = if 306 ≤ yd then yd - 306 else yd + 31 + 28 + (if leapYear (100 * c + 4 * q + z) then 1 else 0) := by
    simp only [gmYday, hy, hsub, isLeap_eq]
  rw [hg, hd, ← leap_era ((days + 719468) / 146097)]
  generalize hY : (days + 719468) / 146097 * 400 + (100 * c + 4 * q + z) = y at *
  rw [Nat.add_comm (100 * c + 4 * q + z), hY]
  have hb := march_before hyear
  have hst := march_start (y - 1970)
  clear hy hg hd hm hsub h1 hY
  by_cases hi : 306 ≤ yd
  · have h2 : ¬ (5 * yd + 2) / 153 < 10 := by omega
    have h3 : (5 * yd + 2) / 153 - 10 ≤ 1 := by omega
    simp only [hi, h2, h3, if_true, if_false]
    omega
  · have h2 : (5 * yd + 2) / 153 < 10 := by clear hn hb hst; omega
    have h70 : 1970 ≤ y := by
      refine Nat.lt_of_not_le fun h => ?_
      have : y = 1969 := by omega
      subst this
      rw [show marchDays 1969 = 719162 by decide] at hn
      omega
    rw [show 1970 + (y - 1970) = y by omega] at hst
    simp only [hi, h2, if_true, if_false, show ¬ (5 * yd + 2) / 153 + 2 ≤ 1 by clear hn hb hst; omega, Nat.add_zero]
    exact yday_sum hst hn

/-- The day after a day. -/
theorem day_after {y m d : Nat} (h : Day.Exists ⟨y, m, d⟩) :
    (d + 1 ≤ monthDays y m → Day.Exists ⟨y, m, d + 1⟩ ∧ Day.number ⟨y, m, d + 1⟩ = Day.number ⟨y, m, d⟩ + 1) ∧
    (monthDays y m < d + 1 → d = monthDays y m ∧
      (m < 12 → Day.Exists ⟨y, m + 1, 1⟩ ∧ Day.number ⟨y, m + 1, 1⟩ = Day.number ⟨y, m, d⟩ + 1) ∧
      (m = 12 → Day.Exists ⟨y + 1, 1, 1⟩ ∧ Day.number ⟨y + 1, 1, 1⟩ = Day.number ⟨y, m, d⟩ + 1)) := by
  obtain ⟨h0, h1, h2, h3, h4⟩ := h
  simp only at h0 h1 h2 h3 h4
  unfold Day.Exists Day.number
  simp only
  refine ⟨fun h => ⟨⟨h0, h1, h2, by omega, h⟩, by omega⟩, fun h => ⟨by omega, fun hm => ⟨⟨h0, by omega, by omega, by omega, ?_⟩, ?_⟩,
    fun hm => ⟨⟨by omega, by omega, by omega, by omega, by show 1 ≤ 31; decide⟩, ?_⟩⟩⟩
  · unfold monthDays
    split
    · split <;> omega
    · split <;> omega
  · rw [show m + 1 - 1 = m - 1 + 1 by omega, monthStart, show m - 1 + 1 = m by omega]
    omega
  · subst hm
    rw [show y + 1 - 1970 = y - 1970 + 1 by omega, yearStart, show 1970 + (y - 1970) = y by omega]
    simp [monthStart, monthDays, yearDays] at *
    cases hl : leapYear y <;> simp [hl] at * <;> omega

/-- What fields tell: `n` days from 1970-01-01 on, and the time of the day. -/
def Tm.Tells (r : Tm) (u : Nat) : Prop :=
  Day.Exists ⟨r.year, r.mon + 1, r.mday⟩ ∧ r.hour < 24 ∧ r.min < 60 ∧ r.sec < 60 ∧
    86400 * Day.number ⟨r.year, r.mon + 1, r.mday⟩ + 3600 * r.hour + 60 * r.min + r.sec = u ∧
    r.wday = weekday (Day.number ⟨r.year, r.mon + 1, r.mday⟩) ∧
    yearStart (r.year - 1970) + r.yday = Day.number ⟨r.year, r.mon + 1, r.mday⟩

theorem gm_tells (t : Nat) : (gmTm t).Tells t := by
  obtain ⟨hx, hn⟩ := gm_date (t / 86400)
  have hy := gm_yday (t / 86400)
  obtain ⟨y, m, d, hg⟩ : ∃ y m d, gmDate (t / 86400) = (y, m, d) := ⟨_, _, _, rfl⟩
  rw [hg] at hx hn hy
  simp only at hx hn hy
  have hm : m - 1 + 1 = m := by have := hx.2.1; simp only at this; omega
  unfold Tm.Tells gmTm
  simp only [hg, hm, hn]
  refine ⟨hx, by omega, by omega, by omega, by omega, ?_, hy⟩
  unfold weekday
  omega

theorem month_length {y m : Nat} (h : m < 12) : (monthLengths (isLeap y)).getD m 0 = monthDays y (m + 1) := by
  rw [isLeap_eq]
  obtain rfl | rfl | rfl | rfl | rfl | rfl | rfl | rfl | rfl | rfl | rfl | rfl :
    m = 0 ∨ m = 1 ∨ m = 2 ∨ m = 3 ∨ m = 4 ∨ m = 5 ∨ m = 6 ∨ m = 7 ∨ m = 8 ∨ m = 9 ∨ m = 10 ∨ m = 11 := by omega
  all_goals simp [monthLengths, monthDays]

theorem local_tells (t : Nat) : (localTm t).Tells (t + gmtOff t) ∧ (localTm t).isdst = isDst t := by
  have ho : gmtOff t = 7200 ∨ gmtOff t = 3600 := by unfold gmtOff; cases isDst t <;> simp
  obtain ⟨hx, hh, hm, hs, hu, hw, hy⟩ := gm_tells t
  unfold localTm
  generalize gmTm t = r at *
  obtain ⟨sec, min, hour, mday, mon, year, wday, yday, dst⟩ := r
  simp only at hx hh hm hs hu hw hy ⊢
  have hmon : mon < 12 := by have := hx.2.2.1; simp only at this; omega
  have hyr := hx.1
  simp only at hyr
  rw [month_length hmon]
  obtain ⟨a1, a2⟩ := day_after hx
  have hw7 : ∀ n, (if 6 < weekday n + 1 then 0 else weekday n + 1) = weekday (n + 1) := by
    intro n
    unfold weekday
    split <;> omega
  subst hw
  have hh2 : 24 ≤ hour + gmtOff t / 3600 → hour + gmtOff t / 3600 - 24 < 24 := by
    intro h
    clear hu a1 a2
    rcases ho with h | h <;> rw [h] at * <;> omega
  split
  · split
    · rename_i h24 hlen
      obtain ⟨a3, a4, a5⟩ := a2 hlen
      split
      · rename_i h12
        obtain ⟨e, n⟩ := a5 h12
        refine ⟨⟨by simpa [a3] using e, ?_, hm, hs, ?_, ?_, ?_⟩, by dsimp only⟩
        · show hour + gmtOff t / 3600 - 24 < 24
          exact hh2 h24
        · show 86400 * Day.number ⟨year + 1, 0 + 1, mday + 1 - monthDays year (mon + 1)⟩ + 3600 * (hour + gmtOff t / 3600 - 24) + 60 * min + sec = _
          rw [show mday + 1 - monthDays year (mon + 1) = 1 by omega, Nat.zero_add, n]
          omega
        · show (if _ then _ else _) = weekday (Day.number ⟨year + 1, 0 + 1, mday + 1 - monthDays year (mon + 1)⟩)
          rw [show mday + 1 - monthDays year (mon + 1) = 1 by omega, Nat.zero_add, n, hw7]
        · show yearStart (year + 1 - 1970) + 0 = Day.number ⟨year + 1, 0 + 1, mday + 1 - monthDays year (mon + 1)⟩
          rw [show mday + 1 - monthDays year (mon + 1) = 1 by omega]
          simp [Day.number, monthStart]
      · rename_i h12
        obtain ⟨e, n⟩ := a4 (by omega)
        refine ⟨⟨by simpa [a3] using e, ?_, hm, hs, ?_, ?_, ?_⟩, by dsimp only⟩
        · show hour + gmtOff t / 3600 - 24 < 24
          exact hh2 h24
        · show 86400 * Day.number ⟨year, mon + 1 + 1, mday + 1 - monthDays year (mon + 1)⟩ + 3600 * (hour + gmtOff t / 3600 - 24) + 60 * min + sec = _
          rw [show mday + 1 - monthDays year (mon + 1) = 1 by omega, n]
          omega
        · show (if _ then _ else _) = weekday (Day.number ⟨year, mon + 1 + 1, mday + 1 - monthDays year (mon + 1)⟩)
          rw [show mday + 1 - monthDays year (mon + 1) = 1 by omega, n, hw7]
        · show yearStart (year - 1970) + (yday + 1) = Day.number ⟨year, mon + 1 + 1, mday + 1 - monthDays year (mon + 1)⟩
          rw [show mday + 1 - monthDays year (mon + 1) = 1 by omega, n]
          omega
    · rename_i h24 hlen
      obtain ⟨e, n⟩ := a1 (by omega)
      refine ⟨⟨e, ?_, hm, hs, ?_, ?_, ?_⟩, by dsimp only⟩
      · show hour + gmtOff t / 3600 - 24 < 24
        exact hh2 h24
      · show 86400 * Day.number ⟨year, mon + 1, mday + 1⟩ + 3600 * (hour + gmtOff t / 3600 - 24) + 60 * min + sec = _
        rw [n]
        omega
      · show (if _ then _ else _) = weekday (Day.number ⟨year, mon + 1, mday + 1⟩)
        rw [n, hw7]
      · show yearStart (year - 1970) + (yday + 1) = Day.number ⟨year, mon + 1, mday + 1⟩
        rw [n]
        omega
  · rename_i h24
    refine ⟨⟨hx, by show hour + gmtOff t / 3600 < 24; exact Nat.lt_of_not_le h24, hm, hs, ?_, by dsimp only, hy⟩, by dsimp only⟩
    show 86400 * Day.number ⟨year, mon + 1, mday⟩ + 3600 * (hour + gmtOff t / 3600) + 60 * min + sec = _
    omega

theorem rule_last {y m : Nat} (hy : 1970 ≤ y) (hm : m = 3 ∨ m = 10) : LastSunday y m (ruleDay y m) := by
  have hlen : monthDays y m = 31 := by rcases hm with rfl | rfl <;> rfl
  have hday : (monthLengths (isLeap y)).getD (m - 1) 0 = 31 := by rcases hm with rfl | rfl <;> rfl
  have hsum : ((monthLengths (isLeap y)).take (m - 1)).sum = monthStart y (m - 1) := by
    rw [isLeap_eq]
    rcases hm with rfl | rfl <;> simp [monthLengths, monthStart, monthDays] <;> cases leapYear y <;> rfl
  have hr : ∃ k, ruleDay y m = yearStart (y - 1970) + monthStart y (m - 1) + k ∧ k ≤ 30 ∧ 24 ≤ k ∧
      (yearStart (y - 1970) + monthStart y (m - 1) + k + 4) % 7 = 0 := by
    simp only [ruleDay, year_days, hsum, hday]
    generalize yearStart (y - 1970) + monthStart y (m - 1) = n
    refine ⟨_, rfl, ?_⟩
    have : (7 - (4 + n) % 7) % 7 < 7 := by omega
    by_cases h : (7 - (4 + n) % 7) % 7 < 3
    · have hb : backWeeks 31 5 (4 * 7 + (7 - (4 + n) % 7) % 7) = 4 * 7 + (7 - (4 + n) % 7) % 7 := by
        rw [backWeeks, if_neg (by omega)]
      rw [hb]
      omega
    · have hb : backWeeks 31 5 (4 * 7 + (7 - (4 + n) % 7) % 7) = 4 * 7 + (7 - (4 + n) % 7) % 7 - 7 := by
        rw [backWeeks, if_pos (by omega), backWeeks, if_neg (by omega)]
      rw [hb]
      omega
  obtain ⟨k, h1, h2, h3, h4⟩ := hr
  refine ⟨k + 1, ⟨hy, by show 1 ≤ m; omega, by show m ≤ 12; omega, by simp, ?_⟩, ?_, ?_, ?_⟩
  · show k + 1 ≤ monthDays y m
    omega
  · rw [h1]; rfl
  · rw [h1]; exact h4
  · rintro ⟨-, -, -, -, h⟩
    have : k + 1 + 7 ≤ monthDays y m := h
    omega

theorem last_unique {y m a b : Nat} (ha : LastSunday y m a) (hb : LastSunday y m b) : a = b := by
  obtain ⟨d, h1, rfl, h2, h3⟩ := ha
  obtain ⟨d', g1, rfl, g2, g3⟩ := hb
  have e1 : ¬ d + 7 ≤ monthDays y m := fun h => h3 ⟨h1.1, h1.2.1, h1.2.2.1, Nat.le_add_left _ _, h⟩
  have e2 : ¬ d' + 7 ≤ monthDays y m := fun h => g3 ⟨g1.1, g1.2.1, g1.2.2.1, Nat.le_add_left _ _, h⟩
  obtain ⟨-, -, -, h4, h5⟩ := h1
  obtain ⟨-, -, -, g4, g5⟩ := g1
  simp only at h4 h5 g4 g5
  unfold weekday Day.number at *
  simp only at *
  omega

/-- The rule of the library is that of the law. -/
theorem dst_iff (t : Nat) : isDst t = true ↔ SummerTime t := by
  obtain ⟨hx, hn⟩ := gm_date (t / 86400)
  simp only [isDst, Bool.and_eq_true, decide_eq_true_eq]
  constructor
  · rintro ⟨h1, h2⟩
    exact ⟨(gmDate (t / 86400)).1, _, _, rule_last (y := (gmDate (t / 86400)).1) hx.1 (.inl rfl),
      rule_last (y := (gmDate (t / 86400)).1) hx.1 (.inr rfl), by omega, by omega⟩
  · rintro ⟨y, a, b, ha, hb, h1, h2⟩
    have hy : (gmDate (t / 86400)).1 = y := by
      obtain ⟨d, e1, rfl, -⟩ := ha
      obtain ⟨d', e2, rfl, -⟩ := hb
      exact year_unique e1 e2 (n := t / 86400) (by omega) (by omega) rfl hx hn
    rw [hy] at hx ⊢
    rw [← last_unique ha (rule_last hx.1 (.inl rfl)), ← last_unique hb (rule_last hx.1 (.inr rfl))]
    omega

/-! ## The text -/

theorem date_digit {n : Nat} (h : n < 10) : digit (UInt8.ofNat (48 + n)) = true ∧ (UInt8.ofNat (48 + n)).toNat - 48 = n := by
  obtain rfl | rfl | rfl | rfl | rfl | rfl | rfl | rfl | rfl | rfl :
    n = 0 ∨ n = 1 ∨ n = 2 ∨ n = 3 ∨ n = 4 ∨ n = 5 ∨ n = 6 ∨ n = 7 ∨ n = 8 ∨ n = 9 := by omega
  all_goals decide

theorem number_pad2 {s : Str} {i n : Nat} (h : (s.drop i).take 2 = pad2 n) (hn : n < 100) : numberAt s i 2 = some n := by
  have h1 := date_digit (n := n / 10 % 10) (by omega)
  have h2 := date_digit (n := n % 10) (by omega)
  simp only [numberAt, h, pad2, numeral, List.all_cons, List.all_nil, h1.1, h2.1, List.length_cons, List.length_nil, decVal,
    List.foldl_cons, List.foldl_nil, h1.2, h2.2]
  simp
  omega

theorem number_pad4 {s : Str} {i n : Nat} (h : (s.drop i).take 4 = pad2 (n / 100) ++ pad2 n) (hn : n < 10000) :
    numberAt s i 4 = some n := by
  have h1 := date_digit (n := n / 100 / 10 % 10) (by omega)
  have h2 := date_digit (n := n / 100 % 10) (by omega)
  have h3 := date_digit (n := n / 10 % 10) (by omega)
  have h4 := date_digit (n := n % 10) (by omega)
  simp only [numberAt, h, pad2, numeral, List.cons_append, List.nil_append, List.all_cons, List.all_nil, h1.1, h2.1, h3.1, h4.1,
    List.length_cons, List.length_nil, decVal, List.foldl_cons, List.foldl_nil, h1.2, h2.2, h3.2, h4.2]
  simp
  omega

/-- The years of four digits. -/
theorem year_small {x : Day} (hx : x.Exists) (h : x.number < 2932897) : x.year < 10000 := by
  have h1 := number_year hx
  have h70 := hx.1
  have h2 : yearStart 8030 = 2932897 := by rw [← year_days]
  refine Nat.lt_of_not_le fun h3 => ?_
  have := year_start_mono (show 8030 ≤ x.year - 1970 by omega)
  omega

theorem small_day {n a b c t o : Nat} (h : 86400 * n + 3600 * a + 60 * b + c = t + o) (ho : o = 7200 ∨ o = 3600)
    (ht : t + 7200 < 253402300800) : n < 2932897 := by
  omega

theorem month_days_le (y m : Nat) : monthDays y m ≤ 31 := by
  unfold monthDays
  split
  · split <;> omega
  · split <;> omega

/-- How a text of this form is read. -/
theorem reads {y m d h i x a b : Nat} (hd : Day.Exists ⟨y, m, d⟩) (hy : y < 10000) (hh : h < 24) (hi : i < 60) (hx : x < 60)
    (ha : a < 24) (hb : b < 60) {s : Str} (hs : s = pad2 (y / 100) ++ pad2 y ++ [45] ++ pad2 m ++ [45] ++ pad2 d ++ [84] ++
      pad2 h ++ [58] ++ pad2 i ++ [58] ++ pad2 x ++ [43] ++ pad2 a ++ pad2 b) :
    s.length = 24 ∧ readInstant s =
      some (86400 * (Day.number ⟨y, m, d⟩ : Int) + 3600 * h + 60 * i + x - (3600 * a + 60 * b), 3600 * (a : Int) + 60 * b) := by
  have hm : m < 100 := Nat.lt_of_le_of_lt hd.2.2.1 (by decide)
  have hd' : d < 100 := Nat.lt_of_le_of_lt (Nat.le_trans hd.2.2.2.2 (month_days_le _ _)) (by decide)
  have hlen : s.length = 24 := by rw [hs]; simp [pad2]
  have n0 : numberAt s 0 4 = some y := number_pad4 (by rw [hs]; simp [pad2]) hy
  have n5 : numberAt s 5 2 = some m := number_pad2 (by rw [hs]; simp [pad2]) hm
  have n8 : numberAt s 8 2 = some d := number_pad2 (by rw [hs]; simp [pad2]) hd'
  have n11 : numberAt s 11 2 = some h := number_pad2 (by rw [hs]; simp [pad2]) (Nat.lt_trans hh (by decide))
  have n14 : numberAt s 14 2 = some i := number_pad2 (by rw [hs]; simp [pad2]) (Nat.lt_trans hi (by decide))
  have n17 : numberAt s 17 2 = some x := number_pad2 (by rw [hs]; simp [pad2]) (Nat.lt_trans hx (by decide))
  have n20 : numberAt s 20 2 = some a := number_pad2 (by rw [hs]; simp [pad2]) (Nat.lt_trans ha (by decide))
  have n22 : numberAt s 22 2 = some b := number_pad2 (by rw [hs]; simp [pad2]) (Nat.lt_trans hb (by decide))
  have i4 : s[4]? = some 45 := by rw [hs]; simp [pad2]
  have i7 : s[7]? = some 45 := by rw [hs]; simp [pad2]
  have i10 : s[10]? = some 84 := by rw [hs]; simp [pad2]
  have i13 : s[13]? = some 58 := by rw [hs]; simp [pad2]
  have i16 : s[16]? = some 58 := by rw [hs]; simp [pad2]
  have i19 : s[19]? = some 43 := by rw [hs]; simp [pad2]
  refine ⟨hlen, ?_⟩
  simp only [readInstant, hlen, i4, i7, i10, i13, i16, i19, true_and, true_or, if_true, n0, n5, n8, n11, n14, n17, n20, n22,
    Option.bind_eq_bind, Option.bind_some, if_pos (show Day.Exists ⟨y, m, d⟩ ∧ h < 24 ∧ i < 60 ∧ x < 60 ∧ a < 24 ∧ b < 60 from
      ⟨hd, hh, hi, hx, ha, hb⟩)]

/-- **C111.** The date that the device gives for an instant, up to the year 9999, is in the buffer and denotes this instant, with
the difference to UTC of the legal time in France. -/
theorem c111_instant {t : Nat} (ht : t + 7200 < 253402300800) : ∃ (s : Str) (off : Nat), isoDate t = some s ∧
    readInstant s = some ((t : Int), (off : Int)) ∧ (SummerTime t ∧ off = 7200 ∨ ¬ SummerTime t ∧ off = 3600) := by
  have hoff : SummerTime t ∧ gmtOff t = 7200 ∨ ¬ SummerTime t ∧ gmtOff t = 3600 := by
    unfold gmtOff
    rw [← dst_iff]
    cases isDst t <;> simp
  have ho : gmtOff t = 7200 ∨ gmtOff t = 3600 := hoff.imp (·.2) (·.2)
  obtain ⟨r, hr, hl⟩ : ∃ r, localTm t = r ∧ r.Tells (t + gmtOff t) := ⟨_, rfl, (local_tells t).1⟩
  have htext : dateText t = strftimeIso r (gmtOff t) := by rw [dateText, hr]
  unfold Tm.Tells at hl
  obtain ⟨hx, hh, hm, hsec, hu, -, -⟩ := hl
  have hy : r.year < 10000 := year_small (x := ⟨r.year, r.mon + 1, r.mday⟩) hx (small_day hu ho ht)
  rw [strftimeIso, if_pos hy] at htext
  obtain ⟨h1, h2⟩ := reads hx hy hh hm hsec (by omega) (by omega) htext
  refine ⟨dateText t, gmtOff t, by rw [isoDate, if_pos (by rw [h1]; decide)], ?_, hoff⟩
  rw [h2]
  clear htext h1 h2 hoff hx hy ht
  generalize gmtOff t = o at *
  rw [Option.some.injEq, Prod.mk.injEq]
  rcases ho with rfl | rfl <;> constructor <;> omega

/-- The characters of a date. -/
theorem date_text {t : Nat} (ht : t + 7200 < 253402300800) : ∃ p q : Str, isoDate t = some (p ++ 43 :: q) ∧ p.length = 19 ∧
    q.length = 4 ∧ (∀ b ∈ p, digit b = true ∨ b = 45 ∨ b = 84 ∨ b = 58) ∧ ∀ b ∈ q, digit b = true := by
  have ho : gmtOff t = 7200 ∨ gmtOff t = 3600 := by unfold gmtOff; cases isDst t <;> simp
  obtain ⟨r, hr, hl⟩ : ∃ r, localTm t = r ∧ r.Tells (t + gmtOff t) := ⟨_, rfl, (local_tells t).1⟩
  have htext : dateText t = strftimeIso r (gmtOff t) := by rw [dateText, hr]
  unfold Tm.Tells at hl
  obtain ⟨hx, hh, hm, hsec, hu, -, -⟩ := hl
  have hy : r.year < 10000 := year_small (x := ⟨r.year, r.mon + 1, r.mday⟩) hx (small_day hu ho ht)
  rw [strftimeIso, if_pos hy] at htext
  have pd : ∀ n, ∀ b ∈ pad2 n, digit b = true := by
    intro n b hb
    simp only [pad2, List.mem_cons, List.not_mem_nil, or_false] at hb
    rcases hb with rfl | rfl
    · exact (date_digit (by omega)).1
    · exact (date_digit (by omega)).1
  have htext : dateText t = (pad2 (r.year / 100) ++ pad2 r.year ++ [45] ++ pad2 (r.mon + 1) ++ [45] ++ pad2 r.mday ++ [84] ++
      pad2 r.hour ++ [58] ++ pad2 r.min ++ [58] ++ pad2 r.sec) ++ 43 :: (pad2 (gmtOff t / 3600) ++ pad2 (gmtOff t / 60 % 60)) := by
    rw [htext]
    simp only [List.append_assoc, List.cons_append, List.nil_append]
  refine ⟨_, _, by rw [isoDate, if_pos (by rw [htext]; simp [pad2]), htext], by simp [pad2], by simp [pad2], ?_, ?_⟩
  · intro b hb
    simp only [List.mem_append, List.mem_singleton] at hb
    rcases hb with ((((((((((h | h) | h) | h) | h) | h) | h) | h) | h) | h) | h) | h
    all_goals first | exact .inl (pd _ _ h) | (subst h; simp)
  · intro b hb
    rcases List.mem_append.1 hb with h | h <;> exact pd _ _ h

/-! ## Cases -/

/-- The last second of summer time and the first of winter time in 2020: the same hour, told apart by the difference to UTC. -/
example : isoDate 1603587599 = some (bs "2020-10-25T02:59:59+0200") ∧ isoDate 1603587600 = some (bs "2020-10-25T02:00:00+0100") := by
  decide +kernel

/-- The hour that does not exist. -/
example : isoDate 1585443599 = some (bs "2020-03-29T01:59:59+0100") ∧ isoDate 1585443600 = some (bs "2020-03-29T03:00:00+0200") := by
  decide +kernel

/-- A leap day, a year that is not leap, and the example of the documentation (README.md:61). -/
example : isoDate 951782400 = some (bs "2000-02-29T01:00:00+0100") ∧ isoDate 4107538800 = some (bs "2100-03-01T00:00:00+0100") ∧
    isoDate 1580641920 = some (bs "2020-02-02T12:12:00+0100") := by
  decide +kernel

/-- The dates before the time is known. -/
example : isoDate rtcStart = some (bs "2017-11-13T18:07:05+0100") := by decide +kernel

example : SummerTime 1603587599 ∧ ¬ SummerTime 1603587600 ∧ ¬ SummerTime 1585443599 ∧ SummerTime 1585443600 := by
  simp only [← dst_iff]
  decide +kernel

end Wifinfo
