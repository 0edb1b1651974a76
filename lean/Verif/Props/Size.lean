import Verif.Model.Size
import Verif.Spec.Size
import Verif.Proofs.Json

/-!
# C112: the sizes of the system page are true to the nearest hundredth of their unit
-/

namespace Wifinfo
open Spec

variable {fl : Rat → Rat}

theorem fl_pos (R : Rounding fl) {x : Rat} (h : 0 ≤ x) : 0 ≤ fl x := by
  have := R.mono 0 x h
  have h0 := R.exact 0 (by decide)
  have e : ((0 : Nat) : Rat) = 0 := rfl
  rw [e] at h0
  rwa [h0] at this

theorem fl_le (R : Rounding fl) {x : Rat} {n : Nat} (hn : n ≤ 9007199254740992) (h : x ≤ n) : fl x ≤ n := by
  have := R.mono x n h
  rwa [R.exact n hn] at this

theorem fl_ge (R : Rounding fl) {x : Rat} {n : Nat} (hn : n ≤ 9007199254740992) (h : (n : Rat) ≤ x) : (n : Rat) ≤ fl x := by
  have := R.mono n x h
  rwa [R.exact n hn] at this

/-- One turn of the loop of the digits. -/
theorem dto_step (R : Rounding fl) {n : Rat} (h0 : 0 ≤ n) (h10 : n ≤ 10) :
    ∃ d n', dtoDigit n = d ∧ fl (fl (n - d) * 10) = n' ∧ d ≤ 9 ∧ 0 ≤ n' ∧ n' ≤ 10 ∧ (1 ≤ n → 1 ≤ d) ∧
      9007199254740992 * (n' - 10 * n + 10 * d) ≤ 31 ∧ 9007199254740992 * (10 * n - 10 * d - n') ≤ 31 := by
  have f1 : (n.floor : Rat) ≤ n := Rat.floor_le n
  have f2 : n - 1 < (n.floor : Rat) := Rat.lt_floor
  have fp : 0 ≤ n.floor := Rat.le_floor_iff.2 (by simpa using h0)
  obtain ⟨k, hk⟩ := Int.eq_ofNat_of_zero_le fp
  rw [hk] at f1 f2
  have ek : ((Int.ofNat k : Int) : Rat) = (k : Rat) := rfl
  have f1' : (k : Rat) ≤ n := by rw [← ek]; exact f1
  have f2' : n - 1 < (k : Rat) := by rw [← ek]; exact f2
  have hd : dtoDigit n = min k 9 := by unfold dtoDigit; rw [hk]; rfl
  have hb : 0 ≤ n - (min k 9 : Nat) ∧ n - (min k 9 : Nat) ≤ 1 := by
    by_cases hk9 : k ≤ 9
    · rw [Nat.min_eq_left hk9]; constructor <;> grind
    · have : (10 : Rat) ≤ k := by exact_mod_cast (show 10 ≤ k by omega)
      rw [Nat.min_eq_right (by omega)]
      constructor <;> (norm_cast; grind)
  have hd9 : min k 9 ≤ 9 := Nat.min_le_right _ _
  have hd1 : 1 ≤ n → 1 ≤ min k 9 := by
    intro h1
    have : (0 : Rat) < k := by grind
    have : 0 < k := by exact_mod_cast this
    omega
  generalize min k 9 = d at *
  have hg0 := fl_pos R hb.1
  have hg1 : fl (n - d) ≤ 1 := by
    have := fl_le R (n := 1) (by decide) (x := n - d) (by simpa using hb.2)
    simpa using this
  have u1 := R.up (n - d) hb.1
  have w1 := R.down (n - d) hb.1
  have p2 : 0 ≤ fl (n - d) * 10 := by grind
  have u2 := R.up _ p2
  have w2 := R.down _ p2
  have q0 := fl_pos R p2
  have q1 : fl (fl (n - d) * 10) ≤ 10 := by
    have := fl_le R (n := 10) (by decide) (x := fl (n - d) * 10) (by
      have : ((10 : Nat) : Rat) = 10 := rfl
      grind)
    simpa using this
  refine ⟨d, _, hd, rfl, ?_, q0, q1, hd1, ?_, ?_⟩
  · exact hd9
  · grind
  · grind

/-- The power of ten that is found. -/
theorem dto_scale (R : Rounding fl) {x : Rat} (h : x < 10000) :
    (dtoScale fl x 20 1 1 = (1, 1) ∧ x < 10) ∨ (dtoScale fl x 20 1 1 = (10, 2) ∧ 10 ≤ x ∧ x < 100) ∨
      (dtoScale fl x 20 1 1 = (100, 3) ∧ 100 ≤ x ∧ x < 1000) ∨ (dtoScale fl x 20 1 1 = (1000, 4) ∧ 1000 ≤ x) := by
  have e1 : fl (10 * 1) = 10 := by have := R.exact 10 (by decide); simpa using this
  have e2 : fl (10 * 10) = 100 := by
    have := R.exact 100 (by decide)
    rw [show (10 * 10 : Rat) = ((100 : Nat) : Rat) by grind, this]; rfl
  have e3 : fl (10 * 100) = 1000 := by
    have := R.exact 1000 (by decide)
    rw [show (10 * 100 : Rat) = ((1000 : Nat) : Rat) by grind, this]; rfl
  have e4 : fl (10 * 1000) = 10000 := by
    have := R.exact 10000 (by decide)
    rw [show (10 * 1000 : Rat) = ((10000 : Nat) : Rat) by grind, this]; rfl
  by_cases h1 : 10 ≤ x
  · by_cases h2 : 100 ≤ x
    · by_cases h3 : 1000 ≤ x
      · refine .inr (.inr (.inr ⟨?_, h3⟩))
        rw [dtoScale, e1, if_pos h1, dtoScale, e2, if_pos h2, dtoScale, e3, if_pos h3, dtoScale, e4, if_neg (by grind)]
      · refine .inr (.inr (.inl ⟨?_, h2, by grind⟩))
        rw [dtoScale, e1, if_pos h1, dtoScale, e2, if_pos h2, dtoScale, e3, if_neg h3]
    · refine .inr (.inl ⟨?_, h1, by grind⟩)
      rw [dtoScale, e1, if_pos h1, dtoScale, e2, if_neg h2]
  · refine .inl ⟨?_, by grind⟩
    rw [dtoScale, e1, if_neg h1]

/-- The digits of a text. -/
def digitText (ds : List Nat) : Str := ds.map fun d => UInt8.ofNat (48 + d)

theorem size_digit {d : Nat} (h : d ≤ 9) : digit (UInt8.ofNat (48 + d)) = true ∧ (UInt8.ofNat (48 + d)).toNat - 48 = d := by
  obtain rfl | rfl | rfl | rfl | rfl | rfl | rfl | rfl | rfl | rfl :
    d = 0 ∨ d = 1 ∨ d = 2 ∨ d = 3 ∨ d = 4 ∨ d = 5 ∨ d = 6 ∨ d = 7 ∨ d = 8 ∨ d = 9 := by omega
  all_goals decide

theorem digitText_num {ds : List Nat} (h : ∀ d ∈ ds, d ≤ 9) : numeral (digitText ds) = true := by
  unfold numeral digitText
  rw [List.all_map, List.all_eq_true]
  intro d hd
  exact (size_digit (h d hd)).1

theorem digitText_val {ds : List Nat} (h : ∀ d ∈ ds, d ≤ 9) : decVal (digitText ds) = ds.foldl (fun a d => 10 * a + d) 0 := by
  unfold decVal digitText
  rw [List.foldl_map]
  generalize 0 = a
  induction ds generalizing a with
  | nil => rfl
  | cons d ds ih =>
    rw [List.foldl_cons, List.foldl_cons, (size_digit (h d (by simp))).2, ih (fun x hx => h x (by simp [hx]))]

theorem digitText_canonical {d : Nat} {ds : List Nat} (h : d ≤ 9) (h1 : 1 ≤ d) : Canonical (digitText (d :: ds)) := by
  intro r hr
  have := (size_digit h).2
  injection hr with e _
  rw [show UInt8.ofNat (48 + d) = 48 from e] at this
  have : (48 : Byte).toNat - 48 = 0 := by decide
  omega

theorem digitText_append (a b : List Nat) : digitText (a ++ b) = digitText a ++ digitText b := List.map_append ..

theorem dto_first (R : Rounding fl) {q : Rat} (h1 : 1 ≤ q) (h2 : q ≤ 10) : 1 ≤ q ∧ q ≤ 10 ∧ 1 ≤ fl q ∧ fl q ≤ 10 ∧
    9007199254740992 * (fl q - q) ≤ 11 ∧ 9007199254740992 * (q - fl q) ≤ 11 := by
  have u := R.up q (by grind)
  have d := R.down q (by grind)
  have a := fl_ge R (n := 1) (by decide) (x := q) (by simpa using h1)
  have b := fl_le R (n := 10) (by decide) (x := q) (by have : ((10 : Nat) : Rat) = 10 := rfl; grind)
  refine ⟨h1, h2, by simpa using a, by simpa using b, by grind, by grind⟩

/-- The text of a number with a dot before the last two digits. -/
structure Decimals (s : Str) (a c : Str) : Prop where
  text : s = a ++ 46 :: c
  some : a ≠ []
  int : numeral a = true
  lead : Canonical a
  two : c.length = 2
  dec : numeral c = true

theorem dto_text (R : Rounding fl) {x : Rat} (h1 : 1 ≤ x) (h2 : x ≤ 1024) : ∃ a c, Decimals (dtostrf fl x) a c ∧
    1000000000 * ((decVal (a ++ c) : Nat) - 100 * x - 1 / 2) ≤ (1 : Rat) ∧
    1000000000 * (100 * x - 1 / 2 - (decVal (a ++ c) : Nat)) ≤ (1 : Rat) := by
  have hr : dtoRounding fl = fl (1 / 200) := by
    unfold dtoRounding
    have e1 := R.exact 20 (by decide)
    have e2 := R.exact 200 (by decide)
    rw [show (2 * 10 : Rat) = ((20 : Nat) : Rat) by grind, e1, show (((20 : Nat) : Rat) * 10) = ((200 : Nat) : Rat) by grind, e2]
    rfl
  have r0 : (0 : Rat) ≤ 1 / 200 := by grind
  have ru := R.up _ r0
  have rd := R.down _ r0
  have rp := fl_pos R r0
  generalize hrr : fl (1 / 200) = r at *
  have xr : 0 ≤ x + r := by grind
  have nu := R.up _ xr
  have nd := R.down _ xr
  have n1 : 1 ≤ fl (x + r) := by
    have := fl_ge R (n := 1) (by decide) (x := x + r) (by have : ((1 : Nat) : Rat) = 1 := rfl; grind)
    simpa using this
  generalize hN : fl (x + r) = N at *
  have scale := dto_scale R (x := N) (by grind)
  unfold dtostrf
  rw [hr, hN]
  dsimp only
  rcases scale with ⟨he, hb⟩ | ⟨he, hb, hb'⟩ | ⟨he, hb, hb'⟩ | ⟨he, hb⟩
  · rw [he]
    dsimp only
    have hq : 1 * (N / 1) = N := by grind
    generalize N / 1 = q at *
    obtain ⟨q1, q10, m1, m10, nu', nd'⟩ := dto_first R (q := q) (by grind) (by grind)
    generalize fl q = n0 at *
    obtain ⟨d0, n1, hd0, hn0, d09, z0, t0, l0, u0, w0⟩ := dto_step R (n := n0) (by grind) (by grind)
    obtain ⟨d1, n2, hd1, hn1, d19, z1, t1, l1, u1, w1⟩ := dto_step R (n := n1) (by grind) (by grind)
    obtain ⟨d2, n3, hd2, hn2, d29, z2, t2, l2, u2, w2⟩ := dto_step R (n := n2) (by grind) (by grind)
    refine ⟨digitText [d0], digitText [d1, d2], ⟨?_, by simp [digitText], digitText_num ?_, digitText_canonical d09 (l0 m1), rfl, digitText_num ?_⟩, ?_⟩
    · simp only [dtoDigits, hd0, hn0, hd1, hn1, hd2, digitText, List.map_cons, List.map_nil]
      rfl
    · simp only [List.mem_cons, List.not_mem_nil, or_false]; intro d hd; omega
    · simp only [List.mem_cons, List.not_mem_nil, or_false]; intro d hd; omega
    · rw [← digitText_append, digitText_val (by simp only [List.cons_append, List.nil_append, List.mem_cons, List.not_mem_nil, or_false]; intro d hd; omega)]
      simp only [List.cons_append, List.nil_append, List.foldl_cons, List.foldl_nil]
      push_cast
      constructor <;> grind
  · rw [he]
    dsimp only
    have hq : 10 * (N / 10) = N := by grind
    generalize N / 10 = q at *
    obtain ⟨q1, q10, m1, m10, nu', nd'⟩ := dto_first R (q := q) (by grind) (by grind)
    generalize fl q = n0 at *
    obtain ⟨d0, n1, hd0, hn0, d09, z0, t0, l0, u0, w0⟩ := dto_step R (n := n0) (by grind) (by grind)
    obtain ⟨d1, n2, hd1, hn1, d19, z1, t1, l1, u1, w1⟩ := dto_step R (n := n1) (by grind) (by grind)
    obtain ⟨d2, n3, hd2, hn2, d29, z2, t2, l2, u2, w2⟩ := dto_step R (n := n2) (by grind) (by grind)
    obtain ⟨d3, n4, hd3, hn3, d39, z3, t3, l3, u3, w3⟩ := dto_step R (n := n3) (by grind) (by grind)
    refine ⟨digitText [d0, d1], digitText [d2, d3], ⟨?_, by simp [digitText], digitText_num ?_, digitText_canonical d09 (l0 m1), rfl, digitText_num ?_⟩, ?_⟩
    · simp only [dtoDigits, hd0, hn0, hd1, hn1, hd2, hn2, hd3, digitText, List.map_cons, List.map_nil]
      rfl
    · simp only [List.mem_cons, List.not_mem_nil, or_false]; intro d hd; omega
    · simp only [List.mem_cons, List.not_mem_nil, or_false]; intro d hd; omega
    · rw [← digitText_append, digitText_val (by simp only [List.cons_append, List.nil_append, List.mem_cons, List.not_mem_nil, or_false]; intro d hd; omega)]
      simp only [List.cons_append, List.nil_append, List.foldl_cons, List.foldl_nil]
      push_cast
      constructor <;> grind
  · rw [he]
    dsimp only
    have hq : 100 * (N / 100) = N := by grind
    generalize N / 100 = q at *
    obtain ⟨q1, q10, m1, m10, nu', nd'⟩ := dto_first R (q := q) (by grind) (by grind)
    generalize fl q = n0 at *
    obtain ⟨d0, n1, hd0, hn0, d09, z0, t0, l0, u0, w0⟩ := dto_step R (n := n0) (by grind) (by grind)
    obtain ⟨d1, n2, hd1, hn1, d19, z1, t1, l1, u1, w1⟩ := dto_step R (n := n1) (by grind) (by grind)
    obtain ⟨d2, n3, hd2, hn2, d29, z2, t2, l2, u2, w2⟩ := dto_step R (n := n2) (by grind) (by grind)
    obtain ⟨d3, n4, hd3, hn3, d39, z3, t3, l3, u3, w3⟩ := dto_step R (n := n3) (by grind) (by grind)
    obtain ⟨d4, n5, hd4, hn4, d49, z4, t4, l4, u4, w4⟩ := dto_step R (n := n4) (by grind) (by grind)
    refine ⟨digitText [d0, d1, d2], digitText [d3, d4], ⟨?_, by simp [digitText], digitText_num ?_, digitText_canonical d09 (l0 m1), rfl, digitText_num ?_⟩, ?_⟩
    · simp only [dtoDigits, hd0, hn0, hd1, hn1, hd2, hn2, hd3, hn3, hd4, digitText, List.map_cons, List.map_nil]
      rfl
    · simp only [List.mem_cons, List.not_mem_nil, or_false]; intro d hd; omega
    · simp only [List.mem_cons, List.not_mem_nil, or_false]; intro d hd; omega
    · rw [← digitText_append, digitText_val (by simp only [List.cons_append, List.nil_append, List.mem_cons, List.not_mem_nil, or_false]; intro d hd; omega)]
      simp only [List.cons_append, List.nil_append, List.foldl_cons, List.foldl_nil]
      push_cast
      constructor <;> grind
  · rw [he]
    dsimp only
    have hq : 1000 * (N / 1000) = N := by grind
    generalize N / 1000 = q at *
    obtain ⟨q1, q10, m1, m10, nu', nd'⟩ := dto_first R (q := q) (by grind) (by grind)
    generalize fl q = n0 at *
    obtain ⟨d0, n1, hd0, hn0, d09, z0, t0, l0, u0, w0⟩ := dto_step R (n := n0) (by grind) (by grind)
    obtain ⟨d1, n2, hd1, hn1, d19, z1, t1, l1, u1, w1⟩ := dto_step R (n := n1) (by grind) (by grind)
    obtain ⟨d2, n3, hd2, hn2, d29, z2, t2, l2, u2, w2⟩ := dto_step R (n := n2) (by grind) (by grind)
    obtain ⟨d3, n4, hd3, hn3, d39, z3, t3, l3, u3, w3⟩ := dto_step R (n := n3) (by grind) (by grind)
    obtain ⟨d4, n5, hd4, hn4, d49, z4, t4, l4, u4, w4⟩ := dto_step R (n := n4) (by grind) (by grind)
    obtain ⟨d5, n6, hd5, hn5, d59, z5, t5, l5, u5, w5⟩ := dto_step R (n := n5) (by grind) (by grind)
    refine ⟨digitText [d0, d1, d2, d3], digitText [d4, d5], ⟨?_, by simp [digitText], digitText_num ?_, digitText_canonical d09 (l0 m1), rfl, digitText_num ?_⟩, ?_⟩
    · simp only [dtoDigits, hd0, hn0, hd1, hn1, hd2, hn2, hd3, hn3, hd4, hn4, hd5, digitText, List.map_cons, List.map_nil]
      rfl
    · simp only [List.mem_cons, List.not_mem_nil, or_false]; intro d hd; omega
    · simp only [List.mem_cons, List.not_mem_nil, or_false]; intro d hd; omega
    · rw [← digitText_append, digitText_val (by simp only [List.cons_append, List.nil_append, List.mem_cons, List.not_mem_nil, or_false]; intro d hd; omega)]
      simp only [List.cons_append, List.nil_append, List.foldl_cons, List.foldl_nil]
      push_cast
      constructor <;> grind

/-! From a number with an error to the nearest one -/

theorem near_kb {V b : Nat} {x : Rat} (hb : b < 4294967296)
    (h1 : 1000000000 * ((V : Rat) - 100 * x - 1 / 2) ≤ 1) (h2 : 1000000000 * (100 * x - 1 / 2 - (V : Rat)) ≤ 1)
    (h3 : 2000000000000 * (1024 * x - (b : Rat)) ≤ 1024) (h4 : 2000000000000 * ((b : Rat) - 1024 * x) ≤ 1024) :
    2 * 1024 * V ≤ 200 * b + 1024 ∧ 200 * b ≤ 2 * 1024 * V + 1024 := by
  constructor
  · refine Nat.le_of_not_lt fun h => ?_
    have : 200 * b + 1024 + 8 ≤ 2 * 1024 * V := by omega
    have c : ((200 * b + 1024 + 8 : Nat) : Rat) ≤ ((2 * 1024 * V : Nat) : Rat) := by exact_mod_cast this
    push_cast at c
    grind
  · refine Nat.le_of_not_lt fun h => ?_
    have : 2 * 1024 * V + 1024 + 8 ≤ 200 * b := by omega
    have c : ((2 * 1024 * V + 1024 + 8 : Nat) : Rat) ≤ ((200 * b : Nat) : Rat) := by exact_mod_cast this
    push_cast at c
    grind

theorem near_mb {V b : Nat} {x : Rat} (hb : b < 4294967296)
    (h1 : 1000000000 * ((V : Rat) - 100 * x - 1 / 2) ≤ 1) (h2 : 1000000000 * (100 * x - 1 / 2 - (V : Rat)) ≤ 1)
    (h3 : 2000000000000 * (1048576 * x - (b : Rat)) ≤ 1048576) (h4 : 2000000000000 * ((b : Rat) - 1048576 * x) ≤ 1048576) :
    2 * 1048576 * V ≤ 200 * b + 1048576 ∧ 200 * b ≤ 2 * 1048576 * V + 1048576 := by
  constructor
  · refine Nat.le_of_not_lt fun h => ?_
    have : 200 * b + 1048576 + 8 ≤ 2 * 1048576 * V := by omega
    have c : ((200 * b + 1048576 + 8 : Nat) : Rat) ≤ ((2 * 1048576 * V : Nat) : Rat) := by exact_mod_cast this
    push_cast at c
    grind
  · refine Nat.le_of_not_lt fun h => ?_
    have : 2 * 1048576 * V + 1048576 + 8 ≤ 200 * b := by omega
    have c : ((2 * 1048576 * V + 1048576 + 8 : Nat) : Rat) ≤ ((200 * b : Nat) : Rat) := by exact_mod_cast this
    push_cast at c
    grind

theorem near_gb {V b : Nat} {x : Rat} (hb : b < 4294967296)
    (h1 : 1000000000 * ((V : Rat) - 100 * x - 1 / 2) ≤ 1) (h2 : 1000000000 * (100 * x - 1 / 2 - (V : Rat)) ≤ 1)
    (h3 : 2000000000000 * (1073741824 * x - (b : Rat)) ≤ 1073741824) (h4 : 2000000000000 * ((b : Rat) - 1073741824 * x) ≤ 1073741824) :
    2 * 1073741824 * V ≤ 200 * b + 1073741824 ∧ 200 * b ≤ 2 * 1073741824 * V + 1073741824 := by
  constructor
  · refine Nat.le_of_not_lt fun h => ?_
    have : 200 * b + 1073741824 + 8 ≤ 2 * 1073741824 * V := by omega
    have c : ((200 * b + 1073741824 + 8 : Nat) : Rat) ≤ ((2 * 1073741824 * V : Nat) : Rat) := by exact_mod_cast this
    push_cast at c
    grind
  · refine Nat.le_of_not_lt fun h => ?_
    have : 2 * 1073741824 * V + 1073741824 + 8 ≤ 200 * b := by omega
    have c : ((2 * 1073741824 * V + 1073741824 + 8 : Nat) : Rat) ≤ ((200 * b : Nat) : Rat) := by exact_mod_cast this
    push_cast at c
    grind

theorem fl_div (R : Rounding fl) {y : Rat} (h1 : 1 ≤ y) (h2 : y ≤ 4194304) : 1 ≤ fl y ∧ fl y ≤ 4194304 ∧
    9007199254740992 * (fl y - y) ≤ y + 1 ∧ 9007199254740992 * (y - fl y) ≤ y + 1 := by
  have a := fl_ge R (n := 1) (by decide) (x := y) (by simpa using h1)
  have b := fl_le R (n := 4194304) (by decide) (x := y) (by have : ((4194304 : Nat) : Rat) = 4194304 := rfl; grind)
  exact ⟨by simpa using a, by simpa using b, R.up y (by grind), R.down y (by grind)⟩

/-- **C112.** The text of every size is the size, to the nearest hundredth of its unit, whatever the rounding of the operations. -/
theorem c112_size (R : Rounding fl) {bytes : Nat} (h : bytes < 4294967296) : ShowsSize (sysFormatSize fl bytes) bytes := by
  unfold ShowsSize sysFormatSize
  by_cases h1 : bytes < 1024
  · rw [if_pos h1, if_pos h1]
    obtain ⟨a1, a2, a3, a4⟩ := decText_spec bytes
    exact ⟨_, by rw [show bs " byte" = 32 :: bs "byte" by decide], a1, a2, a4, a3⟩
  rw [if_neg h1, if_neg h1]
  have hb : (bytes : Rat) < 4294967296 := by exact_mod_cast h
  have hb1 : (1024 : Rat) ≤ bytes := by exact_mod_cast (show 1024 ≤ bytes by omega)
  have e1 : 1024 * ((bytes : Rat) / 1024) = bytes := by grind
  generalize (bytes : Rat) / 1024 = y1 at *
  have k1 := fl_div R (y := y1) (by grind) (by grind)
  have cap : ∀ y : Rat, y ≤ 1024 → fl y ≤ 1024 := fun y hy => by
    have := fl_le R (n := 1024) (by decide) (x := y) (by have : ((1024 : Nat) : Rat) = 1024 := rfl; grind)
    simpa using this
  by_cases h2 : bytes < 1024 * 1024
  · rw [if_pos h2, if_pos h2]
    have hb2 : (bytes : Rat) < 1048576 := by exact_mod_cast h2
    have := cap y1 (by grind)
    obtain ⟨a, c, d, v1, v2⟩ := dto_text R k1.1 this
    have := near_kb h v1 v2 (by grind) (by grind)
    exact ⟨a, c, by rw [d.text, show bs " kB" = 32 :: bs "kB" by decide], d.some, d.int, d.lead, d.two, d.dec, this⟩
  rw [if_neg h2, if_neg h2]
  have hb2 : (1048576 : Rat) ≤ bytes := by exact_mod_cast (show 1048576 ≤ bytes by omega)
  have e2 : 1024 * (fl y1 / 1024) = fl y1 := by grind
  have g1 : 1024 ≤ fl y1 := by
    have := fl_ge R (n := 1024) (by decide) (x := y1) (by have : ((1024 : Nat) : Rat) = 1024 := rfl; grind)
    simpa using this
  generalize fl y1 / 1024 = y2 at *
  have k2 := fl_div R (y := y2) (by grind) (by grind)
  by_cases h3 : bytes < 1024 * 1024 * 1024
  · rw [if_pos h3, if_pos h3]
    have hb3 : (bytes : Rat) < 1073741824 := by exact_mod_cast h3
    have g2 : fl y1 ≤ 1048576 := by
      have := fl_le R (n := 1048576) (by decide) (x := y1) (by have : ((1048576 : Nat) : Rat) = 1048576 := rfl; grind)
      simpa using this
    have := cap y2 (by grind)
    obtain ⟨a, c, d, v1, v2⟩ := dto_text R k2.1 this
    have := near_mb h v1 v2 (by grind) (by grind)
    exact ⟨a, c, by rw [d.text, show bs " MB" = 32 :: bs "MB" by decide], d.some, d.int, d.lead, d.two, d.dec, this⟩
  rw [if_neg h3, if_neg h3]
  have hb3 : (1073741824 : Rat) ≤ bytes := by exact_mod_cast (show 1073741824 ≤ bytes by omega)
  have e3 : 1024 * (fl y2 / 1024) = fl y2 := by grind
  have g2 : 1048576 ≤ fl y1 := by
    have := fl_ge R (n := 1048576) (by decide) (x := y1) (by have : ((1048576 : Nat) : Rat) = 1048576 := rfl; grind)
    simpa using this
  have g3 : 1024 ≤ fl y2 := by
    have := fl_ge R (n := 1024) (by decide) (x := y2) (by have : ((1024 : Nat) : Rat) = 1024 := rfl; grind)
    simpa using this
  generalize fl y2 / 1024 = y3 at *
  have k3 := fl_div R (y := y3) (by grind) (by grind)
  have := cap y3 (by grind)
  obtain ⟨a, c, d, v1, v2⟩ := dto_text R k3.1 this
  have := near_gb h v1 v2 (by grind) (by grind)
  exact ⟨a, c, by rw [d.text, show bs " GB" = 32 :: bs "GB" by decide], d.some, d.int, d.lead, d.two, d.dec, this⟩

/-- Exact operations are a rounding. -/
theorem rounding_id : Rounding id :=
  ⟨fun x h => by simp only [id]; grind, fun x h => by simp only [id]; grind, fun x y h => h, fun n _ => rfl⟩

/-- So is the greatest multiple of 2^-53. -/
theorem rounding_floor : Rounding fun x => (x * 9007199254740992).floor / 9007199254740992 := by
  refine ⟨fun x h => ?_, fun x h => ?_, fun x y h => ?_, fun n _ => ?_⟩
  · have := Rat.floor_le (x * 9007199254740992)
    grind
  · have : x * 9007199254740992 - 1 < ((x * 9007199254740992).floor : Rat) := Rat.lt_floor
    grind
  · have : ((x * 9007199254740992).floor : Rat) ≤ ((y * 9007199254740992).floor : Rat) := by
      have : (x * 9007199254740992).floor ≤ (y * 9007199254740992).floor := by
        rw [Rat.le_floor_iff]
        have := Rat.floor_le (x * 9007199254740992)
        grind
      exact_mod_cast this
    grind
  · have : ((n : Rat) * 9007199254740992).floor = (n * 9007199254740992 : Int) := by
      have e : (n : Rat) * 9007199254740992 = ((n * 9007199254740992 : Int) : Rat) := by push_cast; rfl
      rw [e, Rat.floor_intCast]
    rw [this]
    push_cast
    grind

example : sysFormatSize id 4194304 = bs "4.00 MB" ∧ sysFormatSize id 1023 = bs "1023 byte" ∧
    sysFormatSize id 414177 = bs "404.47 kB" ∧ sysFormatSize id 1048575 = bs "1024.00 kB" := by
  decide +kernel

end Wifinfo
