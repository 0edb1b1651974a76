import Verif.Spec.Clock
import Verif.Model.Time
import Verif.Props.DateFrame
import Verif.Props.EventStream
import Verif.Props.Table

/-!
# C113: the clock on the console
-/

namespace Wifinfo
open Spec

/-! ## A line of fields -/

theorem parts_append (b : Byte) : ∀ (x r : Str), parts b (x ++ b :: r) = parts b x ++ parts b r
  | [], r => by simp [parts]
  | a :: x, r => by
    have ih := parts_append b x r
    rw [List.cons_append, parts, parts, ih]
    split
    · rfl
    · cases h : parts b x with
      | nil => exact absurd h (by cases x <;> simp [parts] <;> split <;> first | simp | (split <;> simp))
      | cons p l => rfl

/-- The fields of a line. -/
def fieldText (l : List (Str × Nat)) : Str := (l.map fun p => bs " " ++ p.1 ++ bs "=" ++ decText p.2).flatten

theorem fields_parts : ∀ (l : List (Str × Nat)) (what : Str), (∀ p ∈ l, (32 : Byte) ∉ p.1) →
    parts 32 (what ++ fieldText l) = parts 32 what ++ l.map fun p => p.1 ++ 61 :: decText p.2
  | [], what, _ => by simp [fieldText]
  | p :: l, what, h => by
    have ih := fields_parts l (what ++ bs " " ++ p.1 ++ bs "=" ++ decText p.2) fun q hq => h q (by simp [hq])
    have e : what ++ fieldText (p :: l) = what ++ bs " " ++ p.1 ++ bs "=" ++ decText p.2 ++ fieldText l := by
      simp [fieldText]
    have e2 : what ++ bs " " ++ p.1 ++ bs "=" ++ decText p.2 = what ++ 32 :: (p.1 ++ 61 :: decText p.2) := by
      rw [show bs " " = [32] by decide, show bs "=" = [61] by decide]
      simp
    rw [e, ih, e2, parts_append, parts_nil (s := p.1 ++ 61 :: decText p.2)]
    · simp
    · have h1 := h p (by simp)
      have h2 : (32 : Byte) ∉ decText p.2 := digits_no (by decide)
      simp [h1, h2]

/-- What is read of them. -/
theorem fields_value {l : List (Str × Nat)} (hl : ∀ p ∈ l, (32 : Byte) ∉ p.1 ∧ (61 : Byte) ∉ p.1) {what : Str}
    (hw : (61 : Byte) ∉ what) (word : Str) :
    lineValue (what ++ fieldText l) word = (l.find? fun p => p.1 == word).map (·.2) := by
  have hp : ∀ x ∈ parts 32 what, cutAt 61 x = (x, none) := by
    intro x hx
    refine cutAt_nil fun h => hw ?_
    clear hw
    induction what generalizing x with
    | nil => simp only [parts, List.mem_singleton] at hx; subst hx; simp at h
    | cons a s ih =>
      rw [parts] at hx
      split at hx
      · rcases List.mem_cons.1 hx with rfl | hx
        · simp at h
        · exact List.mem_cons_of_mem _ (ih x hx h)
      · split at hx
        · rename_i p l hpl
          rcases List.mem_cons.1 hx with rfl | hx
          · rcases List.mem_cons.1 h with h | h
            · simp [h]
            · exact List.mem_cons_of_mem _ (ih p (by rw [hpl]; simp) h)
          · exact List.mem_cons_of_mem _ (ih x (by rw [hpl]; simp [hx]) h)
        · simp only [List.mem_singleton] at hx
          subst hx
          simp only [List.mem_singleton] at h
          simp [h]
  unfold lineValue
  rw [fields_parts l what fun p h => (hl p h).1, List.findSome?_append]
  have h0 : (parts 32 what).findSome? (wordValue word) = none := by
    rw [List.findSome?_eq_none_iff]
    intro x hx
    rw [wordValue, hp x hx]
  rw [h0, Option.none_or]
  clear h0 hp hw
  induction l with
  | nil => rfl
  | cons p l ih =>
    have hc : cutAt 61 (p.1 ++ 61 :: decText p.2) = (p.1, some (decText p.2)) := cutAt_cons _ (hl p (by simp)).2
    obtain ⟨d1, d2, d3, -⟩ := decText_spec p.2
    rw [List.map_cons, List.findSome?_cons, wordValue, hc, List.find?_cons]
    by_cases he : p.1 = word
    · rw [show (p.1 == word) = true by simp [he]]
      simp only [he, d1, d2, d3, ne_eq, not_false_eq_true, and_self, if_true]
      rfl
    · rw [show (p.1 == word) = false by simp [he]]
      simp only [he, false_and, if_false]
      exact ih fun q hq => hl q (by simp [hq])

/-- The fields that are printed. -/
def tmFields (r : Tm) : List (Str × Nat) :=
  [(bs "isdst", if r.isdst then 1 else 0), (bs "yday", r.yday), (bs "wday", r.wday), (bs "year", r.year - 1900), (bs "mon", r.mon),
    (bs "mday", r.mday), (bs "hour", r.hour), (bs "min", r.min), (bs "sec", r.sec)]

theorem print_fields (what : Str) (r : Tm) : printTm what r = what ++ fieldText (tmFields r) := by
  simp only [printTm, ptm, fieldText, tmFields, List.map_cons, List.map_nil, List.flatten_cons, List.flatten_nil, List.append_nil,
    List.append_assoc]

theorem print_value {what : Str} (hw : (61 : Byte) ∉ what) (r : Tm) (word : Str) :
    lineValue (printTm what r) word = ((tmFields r).find? fun p => p.1 == word).map (·.2) := by
  rw [print_fields]
  refine fields_value ?_ hw word
  intro p hp
  simp only [tmFields, List.mem_cons, List.not_mem_nil, or_false] at hp
  rcases hp with rfl | rfl | rfl | rfl | rfl | rfl | rfl | rfl | rfl <;> (dsimp only; exact ⟨by decide, by decide⟩)

theorem tells_fields {what : Str} (hw : (61 : Byte) ∉ what) {r : Tm} {u : Nat} (h : r.Tells u) : FieldsTell (printTm what r) u := by
  unfold Tm.Tells at h
  obtain ⟨hx, hh, hm, hs, hu, hwd, hyd⟩ := h
  have h70 := hx.1
  simp only at h70
  refine ⟨⟨r.year, r.mon + 1, r.mday⟩, r.hour, r.min, r.sec, hx, hh, hm, hs, hu, ?_, ?_, ?_, ?_, ?_, ?_, ?_, ?_⟩
  all_goals rw [print_value hw]
  · have : ((tmFields r).find? fun p => p.1 == bs "year") = some (bs "year", r.year - 1900) := rfl
    rw [this]
    simp only [Option.map_some]
    rw [Nat.add_sub_cancel' (Nat.le_trans (by decide) h70)]
  · rfl
  · rfl
  · rfl
  · rfl
  · rfl
  · rw [← hwd]; rfl
  · have : ((tmFields r).find? fun p => p.1 == bs "yday") = some (bs "yday", r.yday) := rfl
    rw [this]
    simp only [Option.map_some]
    rw [← hyd]
    simp [Day.number, monthStart]

/-! ## `ctime` -/

theorem day_text {d : Nat} (h1 : 1 ≤ d) (h2 : d ≤ 31) : List.replicate (3 - (decText d).length) 32 ++ decText d =
    32 :: (if d < 10 then [32, UInt8.ofNat (48 + d)] else pad2 d) := by
  have : ∀ k : Fin 32, 1 ≤ k.val → List.replicate (3 - (decText k.val).length) 32 ++ decText k.val =
      32 :: (if k.val < 10 then [32, UInt8.ofNat (48 + k.val)] else pad2 k.val) := by decide +kernel
  exact this ⟨d, by omega⟩ h1

theorem year_text {y : Nat} (h1 : 1000 ≤ y) (h2 : y < 10000) : decText y = pad2 (y / 100) ++ pad2 y := by
  have e : decText y = decDigits (y - 3 + 1 + 1 + 1 + 1) y := by
    rw [decText, show y - 3 + 1 + 1 + 1 + 1 = y + 1 by omega]
  rw [e, decDigits, if_neg (by omega), decDigits, if_neg (by omega), decDigits, if_neg (by omega), decDigits, if_pos (by omega)]
  simp only [pad2, List.cons_append, List.nil_append]
  rw [show y / 10 / 10 / 10 = y / 100 / 10 % 10 by omega, show y / 10 / 10 % 10 = y / 100 % 10 by omega]

theorem month_name {m : Nat} (h : m < 12) : (monName m).length = 3 ∧ OneLine (monName m) ∧ monthNames.findIdx (· == monName m) = m := by
  have : ∀ k : Fin 12, (monName k.val).length = 3 ∧ OneLine (monName k.val) ∧ monthNames.findIdx (· == monName k.val) = k.val := by
    decide +kernel
  exact this ⟨m, h⟩

theorem day_name (n : Nat) : (dayName (weekday n)).length = 3 ∧ OneLine (dayName (weekday n)) ∧
    dayNames[weekday n]? = some (dayName (weekday n)) := by
  have : ∀ k : Fin 7, (dayName k.val).length = 3 ∧ OneLine (dayName k.val) ∧ dayNames[k.val]? = some (dayName k.val) := by
    decide +kernel
  exact this ⟨weekday n, Nat.mod_lt _ (by decide)⟩

theorem three {s : Str} (h : s.length = 3) : ∃ a b c, s = [a, b, c] := by
  match s, h with
  | [a, b, c], _ => exact ⟨a, b, c, rfl⟩

theorem one_digit {n : Nat} (h : n < 10) : numberAt [UInt8.ofNat (48 + n)] 0 1 = some n := by
  have := date_digit h
  simp only [numberAt, List.drop_zero, List.take_succ_cons, List.take_zero, List.length_cons, List.length_nil, numeral, List.all_cons,
    List.all_nil, this.1, decVal, List.foldl_cons, List.foldl_nil, this.2]
  simp

/-- What is read of it. -/
theorem asctime_reads {r : Tm} {u : Nat} (h : r.Tells u) (hy : r.year < 10000) : ∃ s : Str, asctime r = s ++ [10] ∧ OneLine s ∧
    readCtime s = some u := by
  unfold Tm.Tells at h
  obtain ⟨hx, hh, hm, hs, hu, hwd, -⟩ := h
  have h70 := hx.1
  have hmon := hx.2.2.1
  have hd1 := hx.2.2.2.1
  have hd2 := Nat.le_trans hx.2.2.2.2 (month_days_le _ _)
  simp only at h70 hmon hd1 hd2
  obtain ⟨m1, m2, m3⟩ := month_name (m := r.mon) (by omega)
  obtain ⟨w1, w2, w3⟩ := day_name (Day.number ⟨r.year, r.mon + 1, r.mday⟩)
  rw [← hwd] at w1 w2 w3
  obtain ⟨x, hxd⟩ : ∃ x, x = (if r.mday < 10 then [32, UInt8.ofNat (48 + r.mday)] else pad2 r.mday) := ⟨_, rfl⟩
  have hxl : x.length = 2 := by rw [hxd]; split <;> simp [pad2]
  have hasc : asctime r = (dayName r.wday ++ [32] ++ monName r.mon ++ (32 :: x) ++ [32] ++
      pad2 r.hour ++ [58] ++ pad2 r.min ++ [58] ++ pad2 r.sec ++ [32] ++ (pad2 (r.year / 100) ++ pad2 r.year)) ++ [10] := by
    rw [asctime, day_text hd1 hd2, ← hxd, year_text (Nat.le_trans (by decide) h70) hy,
      show bs " " = [32] by decide, show bs ":" = [58] by decide]
  have pd : ∀ n, ∀ b ∈ pad2 n, digit b = true := by
    intro n b hb
    simp only [pad2, List.mem_cons, List.not_mem_nil, or_false] at hb
    rcases hb with rfl | rfl
    · exact (date_digit (by omega)).1
    · exact (date_digit (by omega)).1
  have hdo : ∀ b : Byte, digit b = true → b ≠ 10 ∧ b ≠ 13 := byte_all (by decide +kernel)
  have hxo : OneLine x := by
    rw [hxd]
    split
    · rename_i h
      intro b hb
      simp only [List.mem_cons, List.not_mem_nil, or_false] at hb
      rcases hb with rfl | rfl
      · decide
      · exact hdo _ (date_digit h).1
    · exact fun b hb => hdo b (pd _ b hb)
  refine ⟨_, hasc, ?_, ?_⟩
  · have ol : ∀ a b : Str, OneLine a → OneLine b → OneLine (a ++ b) := by
      intro a b ha hb c hc
      rcases List.mem_append.1 hc with h | h
      · exact ha c h
      · exact hb c h
    have op : ∀ n, OneLine (pad2 n) := fun n b hb => hdo b (pd n b hb)
    have o32 : OneLine [32] := by decide
    have o58 : OneLine [58] := by decide
    exact ol _ _ (ol _ _ (ol _ _ (ol _ _ (ol _ _ (ol _ _ (ol _ _ (ol _ _ (ol _ _ (ol _ _ (ol _ _ w2 o32) m2) (ol [32] x o32 hxo)) o32)
      (op _)) o58) (op _)) o58) (op _)) o32) (ol _ _ (op _) (op _))
  · clear hasc
    generalize hS : dayName r.wday ++ [32] ++ monName r.mon ++ (32 :: x) ++ [32] ++
      pad2 r.hour ++ [58] ++ pad2 r.min ++ [58] ++ pad2 r.sec ++ [32] ++ (pad2 (r.year / 100) ++ pad2 r.year) = s
    generalize dayName r.wday = dn at *
    generalize hmn : monName r.mon = mn at *
    obtain ⟨a, b, c, rfl⟩ := three w1
    obtain ⟨a', b', c', rfl⟩ := three m1
    have hlen : s.length = 24 := by rw [← hS]; simp [pad2, hxl]
    have i3 : s[3]? = some 32 := by rw [← hS]; simp
    have i7 : s[7]? = some 32 := by rw [← hS]; simp
    obtain ⟨x1, x2, rfl⟩ : ∃ x1 x2, x = [x1, x2] := by
      match x, hxl with
      | [x1, x2], _ => exact ⟨x1, x2, rfl⟩
    have i8 : s[8]? = some x1 := by rw [← hS]; simp
    have i10 : s[10]? = some 32 := by rw [← hS]; simp
    have i13 : s[13]? = some 58 := by rw [← hS]; simp [pad2]
    have i16 : s[16]? = some 58 := by rw [← hS]; simp [pad2]
    have i19 : s[19]? = some 32 := by rw [← hS]; simp [pad2]
    have d4 : (s.drop 4).take 3 = [a', b', c'] := by rw [← hS]; simp
    have d0 : s.take 3 = [a, b, c] := by rw [← hS]; simp
    have n11 : numberAt s 11 2 = some r.hour := number_pad2 (by rw [← hS]; simp [pad2]) (Nat.lt_trans hh (by decide))
    have n14 : numberAt s 14 2 = some r.min := number_pad2 (by rw [← hS]; simp [pad2]) (Nat.lt_trans hm (by decide))
    have n17 : numberAt s 17 2 = some r.sec := number_pad2 (by rw [← hS]; simp [pad2]) (Nat.lt_trans hs (by decide))
    have n20 : numberAt s 20 4 = some r.year := number_pad4 (by rw [← hS]; simp [pad2]) hy
    have nd : (if s[8]? = some 32 then numberAt s 9 1 else numberAt s 8 2) = some r.mday := by
      rw [i8]
      split at hxd
      · rename_i h10
        simp only [List.cons.injEq, and_true] at hxd
        rw [if_pos (by rw [hxd.1])]
        have e : (s.drop 9).take 1 = [UInt8.ofNat (48 + r.mday)] := by rw [← hS, hxd.2]; simp
        have := one_digit h10
        unfold numberAt at this ⊢
        rw [e]
        exact this
      · rename_i h10
        have hx1 : digit x1 = true := pd r.mday x1 (by rw [← hxd]; simp)
        rw [if_neg (by intro h; cases h; exact absurd hx1 (by decide))]
        refine number_pad2 ?_ (by omega)
        rw [← hxd, ← hS]
        simp
    have hfin : (Day.Exists ⟨r.year, r.mon + 1, r.mday⟩ ∧ r.hour < 24 ∧ r.min < 60 ∧ r.sec < 60 ∧
        dayNames[weekday (Day.number ⟨r.year, r.mon + 1, r.mday⟩)]? = some [a, b, c]) := by
      refine ⟨hx, hh, hm, hs, ?_⟩
      rw [← hwd]
      exact w3
    unfold readCtime
    simp only [hlen, i3, i7, i10, i13, i16, i19, true_and, if_true, d4, d0, m3, nd, n11, n14, n17, n20, Option.bind_eq_bind,
      Option.bind_some, if_pos hfin, hu]

theorem ctime_reads {t : Nat} (ht : t + 7200 < 253402300800) : ∃ (s : Str) (off : Nat), ctime t = s ++ [10] ∧ OneLine s ∧
    readCtime s = some (t + off) ∧ Legal t off ∧ gmtOff t = off := by
  have hoff : Legal t (gmtOff t) := by
    unfold Legal gmtOff
    rw [← dst_iff]
    cases isDst t <;> simp
  have ho : gmtOff t = 7200 ∨ gmtOff t = 3600 := hoff.imp (·.2) (·.2)
  obtain ⟨r, hr, hl⟩ : ∃ r, localTm t = r ∧ r.Tells (t + gmtOff t) := ⟨_, rfl, (local_tells t).1⟩
  have hl' := hl
  unfold Tm.Tells at hl'
  obtain ⟨hx, hh, hm, hsec, hu, -, -⟩ := hl'
  have hy : r.year < 10000 := year_small (x := ⟨r.year, r.mon + 1, r.mday⟩) hx (small_day hu ho ht)
  obtain ⟨s, h1, h2, h3⟩ := asctime_reads hl hy
  exact ⟨s, gmtOff t, by rw [ctime, hr, h1], h2, h3, hoff, rfl⟩

/-! ## The command -/

theorem esLines_println {x : Str} (hx : OneLine x) (r : Str) : esLines [] (println x ++ r) = x :: esLines [] r := by
  rw [println, List.append_assoc, esLines_text x hx]
  exact esLines_crlf x r

theorem esLines_lf {x : Str} (hx : OneLine x) (r : Str) : esLines [] (x ++ [10] ++ r) = x :: esLines [] r := by
  rw [List.append_assoc, esLines_text x hx]
  show esLines ([] ++ x) (10 :: r) = _
  rw [esLines, if_pos (.inr rfl)]
  · rfl
  · intro _ h
    cases h

theorem one_append {a b : Str} (ha : OneLine a) (hb : OneLine b) : OneLine (a ++ b) := by
  intro c hc
  rcases List.mem_append.1 hc with h | h
  · exact ha c h
  · exact hb c h

theorem dec_line (n : Nat) : OneLine (decText n) :=
  fun b hb => (byte_all (P := fun b => digit b = true → b ≠ 10 ∧ b ≠ 13) (by decide +kernel)) b (decText_bytes n b hb)

theorem field_line : ∀ (l : List (Str × Nat)), (∀ p ∈ l, OneLine p.1) → OneLine (fieldText l)
  | [], _ => by simp [fieldText, OneLine]
  | p :: l, h => by
    have ih := field_line l fun q hq => h q (by simp [hq])
    have e : fieldText (p :: l) = (bs " " ++ p.1 ++ bs "=" ++ decText p.2) ++ fieldText l := by simp [fieldText]
    rw [e]
    exact one_append (one_append (one_append (one_append (by decide) (h p (by simp))) (by decide)) (dec_line _)) ih

theorem print_line {what : Str} (hw : OneLine what) (r : Tm) : OneLine (printTm what r) := by
  rw [print_fields]
  refine one_append hw (field_line _ fun p hp => ?_)
  simp only [tmFields, List.mem_cons, List.not_mem_nil, or_false] at hp
  rcases hp with rfl | rfl | rfl | rfl | rfl | rfl | rfl | rfl | rfl <;> (dsimp only; decide)

/-- `n` in decimal. -/
def Decimal (s : Str) (n : Nat) : Prop := s ≠ [] ∧ numeral s = true ∧ Canonical s ∧ decVal s = n

theorem dec_decimal {n : Nat} (h : n < 2 ^ 32) : Decimal (decText (n % 2 ^ 32)) n := by
  rw [Nat.mod_eq_of_lt h]
  obtain ⟨h1, h2, h3, h4⟩ := decText_spec n
  exact ⟨h1, h2, h4, h3⟩

/-- **C113.** What the command `time` prints for every instant of the clock: the lines in this order; the fields of the local time
denote this instant in the legal time of France, with the right day of the week and of the year, and tell whether this is summer
time; those of the universal time denote it in UTC; the date in words denotes it in legal time, with the right name of the day;
the counters are the numbers of the clocks.  The names and addresses of the time servers come after all this. -/
theorem c113_command {k : ClockReadings} (hn : k.now + 7200 < 2 ^ 32) (hms : k.ms < 2 ^ 32) (hus : k.us < 2 ^ 32) (htv : k.tv.1 < 2 ^ 32)
    (htu : k.tv.2 < 2 ^ 32) (servers : List SntpServer) : ∃ (l g c ms us s u t : Str) (off : Nat) (rest : List Str),
      esLines [] (timeShow k servers) = [] :: (bs "localtime:" ++ l) :: (bs "gmtime:   " ++ g) :: (bs "millis:    " ++ ms) ::
        (bs "micros:    " ++ us) :: (bs "gtod:      " ++ s ++ bs "s / " ++ u ++ bs "us") :: (bs "time:      " ++ t) ::
        bs "timezone:  CET-1CEST,M3.5.0,M10.5.0/3" :: (bs "ctime:     " ++ c) :: rest ∧
      FieldsTell (bs "localtime:" ++ l) (k.now + off) ∧ Legal k.now off ∧
      lineValue (bs "localtime:" ++ l) (bs "isdst") = some (if off = 7200 then 1 else 0) ∧
      FieldsTell (bs "gmtime:   " ++ g) k.now ∧ lineValue (bs "gmtime:   " ++ g) (bs "isdst") = some 0 ∧
      readCtime c = some (k.now + off) ∧ Decimal ms k.ms ∧ Decimal us k.us ∧ Decimal s k.tv.1 ∧ Decimal u k.tv.2 ∧
      Decimal t k.now := by
  obtain ⟨c, off, c1, c2, c3, c4, c5⟩ := ctime_reads (t := k.now) (Nat.lt_trans hn (by decide))
  have hnow : k.now < 2 ^ 32 := Nat.lt_of_le_of_lt (Nat.le_add_right _ _) hn
  have p1 : ∀ (what : Str) r, printTm what r = what ++ printTm [] r := fun what r => by
    rw [print_fields, print_fields]; rfl
  obtain ⟨lt, hlt⟩ : ∃ r, localTm k.now = r := ⟨_, rfl⟩
  obtain ⟨gt, hgt⟩ : ∃ r, gmTm k.now = r := ⟨_, rfl⟩
  have hl := local_tells k.now
  have hg := gm_tells k.now
  have hd0 : gt.isdst = false := by rw [← hgt]; unfold gmTm; dsimp only
  rw [hlt, c5] at hl
  rw [hgt] at hg
  refine ⟨printTm [] lt, printTm [] gt, c, decText (k.ms % 2 ^ 32), decText (k.us % 2 ^ 32), decText (k.tv.1 % 2 ^ 32),
    decText (k.tv.2 % 2 ^ 32), decText (k.now % 2 ^ 32), off, esLines [] ((servers.map SntpServer.line).flatten ++ println []), ?_,
    ?_, c4, ?_, ?_, ?_, c3, dec_decimal hms, dec_decimal hus, dec_decimal htv, dec_decimal htu, dec_decimal hnow⟩
  · rw [timeShow, hlt, hgt, c1]
    simp only [List.append_assoc]
    rw [esLines_println (by decide), esLines_println (print_line (by decide) _), esLines_println (print_line (by decide) _),
      esLines_println (one_append (by decide) (dec_line _)), esLines_println (one_append (by decide) (dec_line _)),
      esLines_println (one_append (by decide) (one_append (dec_line _) (one_append (by decide) (one_append (dec_line _) (by decide))))),
      esLines_println (one_append (by decide) (dec_line _))]
    have e1 : ∀ r, esLines [] (bs "timezone:  " ++ (parisZone ++ ([10] ++ r))) = (bs "timezone:  " ++ parisZone) :: esLines [] r := by
      intro r
      have := esLines_lf (x := bs "timezone:  " ++ parisZone) (by decide) r
      simpa only [List.append_assoc] using this
    have e2 : ∀ r, esLines [] (bs "ctime:     " ++ (c ++ ([10] ++ r))) = (bs "ctime:     " ++ c) :: esLines [] r := by
      intro r
      have := esLines_lf (x := bs "ctime:     " ++ c) (one_append (by decide) c2) r
      simpa only [List.append_assoc] using this
    rw [e1, e2, p1 (bs "localtime:"), p1 (bs "gmtime:   ")]
    rfl
  · rw [← p1]
    exact tells_fields (by decide) hl.1
  · rw [← p1, print_value (by decide)]
    show some (if lt.isdst = true then 1 else 0) = _
    rw [hl.2, ← c5, gmtOff]
    cases isDst k.now <;> rfl
  · rw [← p1]
    exact tells_fields (by decide) hg
  · rw [← p1, print_value (by decide)]
    show some (if gt.isdst = true then 1 else 0) = _
    rw [hd0]
    rfl

/-- **C113**, when a time server has been heard. -/
theorem c113_heard {t : Nat} (ht : t + 7200 < 2 ^ 32) : ∃ (c : Str) (off : Nat),
    esLines [] (timeIsSet t) = [bs "SNTP updated, time: " ++ c] ∧ readCtime c = some (t + off) ∧ Legal t off := by
  obtain ⟨c, off, c1, c2, c3, c4, -⟩ := ctime_reads (t := t) (Nat.lt_trans ht (by decide))
  refine ⟨c, off, ?_, c3, c4⟩
  have := esLines_lf (x := bs "SNTP updated, time: " ++ c) (one_append (by decide) c2) []
  rw [timeIsSet, c1, ← List.append_assoc, ← List.append_nil (bs "SNTP updated, time: " ++ c ++ [10]), this]
  rfl

/-! ## Cases -/

/-- The new year, and the clock before the time is known. -/
example : timeIsSet 1609455600 = bs "SNTP updated, time: Fri Jan  1 00:00:00 2021\n" ∧
    timeIsSet rtcStart = bs "SNTP updated, time: Mon Nov 13 18:07:05 2017\n" := by decide +kernel

example : printTm (bs "localtime:") (localTm 1609455600) =
    bs "localtime: isdst=0 yday=0 wday=5 year=121 mon=0 mday=1 hour=0 min=0 sec=0" ∧
    printTm (bs "gmtime:   ") (gmTm 1609455600) =
    bs "gmtime:    isdst=0 yday=365 wday=4 year=120 mon=11 mday=31 hour=23 min=0 sec=0" := by decide +kernel

end Wifinfo
