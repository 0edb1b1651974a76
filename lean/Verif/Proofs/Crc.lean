import Verif.Model.Config
import Verif.Spec.Bits

/-!
# Algebra of the configuration checksum
-/

namespace Wifinfo

/-- Eight rounds. -/
def crc8 (c : UInt16) : UInt16 :=
  crcBit (crcBit (crcBit (crcBit (crcBit (crcBit (crcBit (crcBit c)))))))

theorem crc16Update_eq (c : UInt16) (a : Byte) : crc16Update c a = crc8 (c ^^^ a.toUInt16) := rfl

theorem odd_iff (c : UInt16) : c &&& 1 ≠ 0 ↔ c.toNat % 2 = 1 := by
  have h : (c &&& 1).toNat = c.toNat % 2 := by
    rw [UInt16.toNat_and, show UInt16.toNat 1 = 1 from rfl, Nat.and_one_is_mod]
  constructor
  · intro h1
    have : (c &&& 1).toNat ≠ 0 := fun h0 => h1 (UInt16.toNat_inj.1 h0)
    omega
  · intro h1 h0
    rw [h0] at h
    have e0 : UInt16.toNat 0 = 0 := rfl
    omega

theorem crcBit_xor (a b : UInt16) : crcBit (a ^^^ b) = crcBit a ^^^ crcBit b := by
  have hx : (a ^^^ b) &&& 1 ≠ 0 ↔ ¬(a &&& 1 ≠ 0 ↔ b &&& 1 ≠ 0) := by
    rw [odd_iff, odd_iff, odd_iff, UInt16.toNat_xor, Nat.xor_mod_two_eq_one]
  unfold crcBit
  rw [UInt16.shiftRight_xor]
  by_cases ha : a &&& 1 ≠ 0 <;> by_cases hb : b &&& 1 ≠ 0
  · rw [if_neg (by rw [hx]; simp [ha, hb]), if_pos ha, if_pos hb]
    rw [UInt16.xor_assoc (a >>> 1), UInt16.xor_comm 0xA001, UInt16.xor_assoc (b >>> 1),
      UInt16.xor_self, UInt16.xor_zero]
  · rw [if_pos (by rw [hx]; simp [ha, hb]), if_pos ha, if_neg hb]
    rw [UInt16.xor_assoc, UInt16.xor_assoc, UInt16.xor_comm (b >>> 1)]
  · rw [if_pos (by rw [hx]; simp [ha, hb]), if_neg ha, if_pos hb, UInt16.xor_assoc]
  · rw [if_neg (by rw [hx]; simp [ha, hb]), if_neg ha, if_neg hb]

theorem crcBit_toNat (c : UInt16) : (crcBit c).toNat =
    if c.toNat % 2 = 1 then c.toNat / 2 ^^^ 0xA001 else c.toNat / 2 := by
  have hs : (c >>> 1).toNat = c.toNat / 2 := by
    rw [UInt16.toNat_shiftRight, show UInt16.toNat 1 % 16 = 1 from rfl]; rfl
  unfold crcBit
  by_cases h : c &&& 1 ≠ 0
  · rw [if_pos h, if_pos ((odd_iff c).1 h), UInt16.toNat_xor, hs]; rfl
  · rw [if_neg h, if_neg (fun h' => h ((odd_iff c).2 h')), hs]

theorem crcBit_eq_zero {c : UInt16} (h : crcBit c = 0) : c = 0 := by
  have h1 := congrArg UInt16.toNat h
  rw [crcBit_toNat, show UInt16.toNat 0 = 0 from rfl] at h1
  have hlt := UInt16.toNat_lt c
  by_cases ho : c.toNat % 2 = 1
  · rw [if_pos ho] at h1
    have h2 : c.toNat / 2 = 0xA001 := by
      have := congrArg (· ^^^ 0xA001) h1
      simpa [Nat.xor_assoc] using this
    omega
  · rw [if_neg ho] at h1
    apply UInt16.toNat_inj.1
    show c.toNat = 0
    omega

theorem crc8_xor (a b : UInt16) : crc8 (a ^^^ b) = crc8 a ^^^ crc8 b := by
  simp only [crc8, crcBit_xor]

theorem crc8_eq_zero {c : UInt16} (h : crc8 c = 0) : c = 0 :=
  crcBit_eq_zero (crcBit_eq_zero (crcBit_eq_zero (crcBit_eq_zero (crcBit_eq_zero (crcBit_eq_zero
    (crcBit_eq_zero (crcBit_eq_zero h)))))))

theorem crc8_zero : crc8 0 = 0 := by decide

/-- Contribution of an error pattern. -/
def errCrc (c : UInt16) (e : Str) : UInt16 := e.foldl crc16Update c

/-- Bytewise difference. -/
def xorStr (x y : Str) : Str := List.zipWith (· ^^^ ·) x y

theorem crc_diff (x : Str) : ∀ (y : Str) (c d : UInt16), x.length = y.length →
    x.foldl crc16Update c ^^^ y.foldl crc16Update d = errCrc (c ^^^ d) (xorStr x y) := by
  induction x with
  | nil =>
    intro y c d h
    cases y with
    | nil => rfl
    | cons b y => simp at h
  | cons a x ih =>
    intro y c d h
    cases y with
    | nil => simp at h
    | cons b y =>
      have hl : x.length = y.length := by simpa using h
      simp only [List.foldl_cons, ih y _ _ hl]
      have e : crc16Update c a ^^^ crc16Update d b = crc16Update (c ^^^ d) (a ^^^ b) := by
        simp only [crc16Update_eq, ← crc8_xor, UInt8.toUInt16_xor]
        congr 1
        rw [UInt16.xor_assoc, UInt16.xor_assoc, ← UInt16.xor_assoc a.toUInt16,
          UInt16.xor_comm a.toUInt16, UInt16.xor_assoc d]
      rw [e]
      rfl

/-- Two inputs of the same length have the same checksum exactly when their difference has a null
contribution. -/
theorem crcOf_eq_iff {x y : Str} (h : x.length = y.length) :
    crcOf x = crcOf y ↔ errCrc 0 (xorStr x y) = 0 := by
  have := crc_diff x y 0xFFFF 0xFFFF h
  rw [UInt16.xor_self] at this
  rw [← this]
  exact UInt16.xor_eq_zero_iff.symm

theorem toUInt16_toNat (a : Byte) : a.toUInt16.toNat = a.toNat := UInt8.toNat_toUInt16 a

/-! ## Residue -/

theorem crcBit_even {c : UInt16} {m : Nat} (h : c.toNat = 2 * m) : (crcBit c).toNat = m := by
  rw [crcBit_toNat, if_neg (by omega)]; omega

theorem crc8_low_zero {c : UInt16} {m : Nat} (h : c.toNat = 256 * m) : (crc8 c).toNat = m := by
  unfold crc8
  have h1 := crcBit_even (c := c) (m := 128 * m) (by omega)
  have h2 := crcBit_even (m := 64 * m) (by rw [h1]; omega)
  have h3 := crcBit_even (m := 32 * m) (by rw [h2]; omega)
  have h4 := crcBit_even (m := 16 * m) (by rw [h3]; omega)
  have h5 := crcBit_even (m := 8 * m) (by rw [h4]; omega)
  have h6 := crcBit_even (m := 4 * m) (by rw [h5]; omega)
  have h7 := crcBit_even (m := 2 * m) (by rw [h6]; omega)
  exact crcBit_even (m := m) (by rw [h7])

theorem xor_low (n : Nat) : n ^^^ (n % 256) = 256 * (n / 256) := by
  apply Nat.eq_of_testBit_eq
  intro i
  have e : n % 256 = n % 2 ^ 8 := rfl
  have e2 : 256 * (n / 256) = 2 ^ 8 * (n / 2 ^ 8) := rfl
  rw [Nat.testBit_xor, e, Nat.testBit_mod_two_pow, e2, Nat.testBit_two_pow_mul, Nat.testBit_div_two_pow]
  by_cases hi : i < 8
  · have : ¬ 8 ≤ i := by omega
    simp [hi, this]
  · have : 8 ≤ i := by omega
    simp [hi, this]

/-- Appending its own checksum, low byte first, gives a null checksum. -/
theorem crc_residue (x : Str) : crcOf (x ++ u16le (crcOf x)) = 0 := by
  unfold crcOf
  rw [List.foldl_append]
  generalize x.foldl crc16Update 0xFFFF = c
  have hc := UInt16.toNat_lt c
  simp only [u16le, List.foldl_cons, List.foldl_nil]
  have h1 : (crc16Update c (UInt8.ofNat (c.toNat % 256))).toNat = c.toNat / 256 := by
    rw [crc16Update_eq]
    apply crc8_low_zero
    rw [UInt16.toNat_xor, toUInt16_toNat, UInt8.toNat_ofNat']
    rw [Nat.mod_mod]
    exact xor_low _
  have h2 : crc16Update c (UInt8.ofNat (c.toNat % 256)) = (UInt8.ofNat (c.toNat / 256)).toUInt16 := by
    apply UInt16.toNat_inj.1
    rw [h1, toUInt16_toNat, UInt8.toNat_ofNat']
    omega
  rw [h2, crc16Update_eq, UInt16.xor_self, crc8_zero]

/-! ## Parity -/

/-- Parity of the number of bits set among the `k` lowest. -/
def parBits (n : Nat) : Nat → Bool
  | 0 => false
  | k + 1 => n.testBit k ^^ parBits n k

/-- Parity of the number of bits of a 16-bit word. -/
def par16 (n : Nat) : Bool := parBits n 16

theorem xor4 (a b c d : Bool) : ((a ^^ b) ^^ (c ^^ d)) = ((a ^^ c) ^^ (b ^^ d)) := by
  revert a b c d; decide

theorem parBits_xor (a b : Nat) (k : Nat) : parBits (a ^^^ b) k = (parBits a k ^^ parBits b k) := by
  induction k with
  | zero => rfl
  | succ k ih => simp only [parBits, Nat.testBit_xor, ih]; rw [xor4]

theorem par16_xor (a b : Nat) : par16 (a ^^^ b) = (par16 a ^^ par16 b) := parBits_xor a b 16

theorem parBits_div (n k : Nat) : parBits (n / 2) k = (parBits n (k + 1) ^^ n.testBit 0) := by
  induction k with
  | zero => simp [parBits]
  | succ k ih =>
    rw [parBits, ih, Nat.testBit_div_two, parBits, parBits, ← Bool.xor_assoc]
    rfl

theorem par16_crcBit (c : UInt16) : par16 (crcBit c).toNat = par16 c.toNat := by
  have h16 : c.toNat.testBit 16 = false := Nat.testBit_lt_two_pow (UInt16.toNat_lt c)
  have hd : par16 (c.toNat / 2) = (par16 c.toNat ^^ c.toNat.testBit 0) := by
    unfold par16
    rw [parBits_div, parBits, h16, Bool.false_xor]
  rw [crcBit_toNat]
  have h0 : c.toNat.testBit 0 = decide (c.toNat % 2 = 1) := Nat.testBit_zero _
  split
  · rename_i h
    rw [par16_xor, hd, h0]
    have : par16 0xA001 = true := by decide
    simp [this, h]
  · rename_i h
    rw [hd, h0]
    simp [h]

/-! ## Iterated rounds -/

/-- `n` rounds. -/
def crcIter : Nat → UInt16 → UInt16
  | 0, c => c
  | n + 1, c => crcIter n (crcBit c)

theorem crcIter_add (m n : Nat) : ∀ c, crcIter (m + n) c = crcIter n (crcIter m c) := by
  induction m with
  | zero => intro c; rw [Nat.zero_add]; rfl
  | succ m ih => intro c; rw [Nat.succ_add]; exact ih _

theorem crcIter_xor (n : Nat) : ∀ a b, crcIter n (a ^^^ b) = crcIter n a ^^^ crcIter n b := by
  induction n with
  | zero => intros; rfl
  | succ n ih => intro a b; simp only [crcIter, crcBit_xor, ih]

theorem crcIter_eq_zero (n : Nat) : ∀ {c}, crcIter n c = 0 → c = 0 := by
  induction n with
  | zero => intro c h; exact h
  | succ n ih => intro c h; exact crcBit_eq_zero (ih h)

theorem crc8_iter (c : UInt16) : crc8 c = crcIter 8 c := rfl

/-- The first `n` iterates of `c` all differ from 1. -/
def noOne : Nat → UInt16 → Bool
  | 0, _ => true
  | n + 1, c => c != 1 && noOne n (crcBit c)

theorem noOne_spec (n : Nat) : ∀ c, noOne n c = true → ∀ k, k < n → crcIter k c ≠ 1 := by
  induction n with
  | zero => intro c _ k hk; omega
  | succ n ih =>
    intro c h k hk
    simp only [noOne, Bool.and_eq_true, bne_iff_ne] at h
    cases k with
    | zero => exact h.1
    | succ k => exact ih _ h.2 k (by omega)

theorem noOne_8191 : noOne 8191 (crcBit 1) = true := by decide +kernel

theorem crcIter_one_ne {k : Nat} (h1 : 1 ≤ k) (h2 : k ≤ 8191) : crcIter k 1 ≠ 1 := by
  cases k with
  | zero => omega
  | succ k => exact noOne_spec 8191 _ noOne_8191 k (by omega)

/-! ## Bit-serial view -/

open Spec

/-- Value of bits, least significant first. -/
def bitsVal : List Bool → Nat
  | [] => 0
  | b :: r => b.toNat + 2 * bitsVal r

/-- The checksum fed bit by bit. -/
def feed (c : UInt16) (bits : List Bool) : UInt16 :=
  bits.foldl (fun c b => crcBit (c ^^^ UInt16.ofNat b.toNat)) c

theorem bitsVal_lt (l : List Bool) : bitsVal l < 2 ^ l.length := by
  induction l with
  | nil => decide
  | cons b r ih =>
    simp only [bitsVal, List.length_cons, Nat.pow_succ]
    have := Bool.toNat_lt b
    omega

theorem xor_even_bit (b m : Nat) (hb : b < 2) : b + 2 * m = b ^^^ (2 * m) := by
  apply Nat.eq_of_testBit_eq
  intro i
  rw [Nat.testBit_xor]
  cases i with
  | zero =>
    simp only [Nat.testBit_zero]
    rw [show (b + 2 * m) % 2 = b by omega, show (2 * m) % 2 = 0 by omega,
      show b % 2 = b by omega]
    simp
  | succ i =>
    simp only [Nat.testBit_succ]
    rw [show (b + 2 * m) / 2 = m by omega, show (2 * m) / 2 = m by omega, show b / 2 = 0 by omega,
      Nat.zero_testBit, Bool.false_xor]

theorem feed_eq (l : List Bool) : ∀ c : UInt16, l.length ≤ 16 →
    feed c l = crcIter l.length (c ^^^ UInt16.ofNat (bitsVal l)) := by
  induction l with
  | nil => intro c _; simp [feed, crcIter, bitsVal]
  | cons b r ih =>
    intro c h
    simp only [List.length_cons] at h
    show feed (crcBit (c ^^^ UInt16.ofNat b.toNat)) r = crcIter r.length (crcBit _)
    rw [ih _ (by omega)]
    congr 1
    have hlt := bitsVal_lt r
    have hle : 2 ^ r.length ≤ 2 ^ 15 := Nat.pow_le_pow_right (by decide) (by omega)
    have hb := Bool.toNat_lt b
    have e : UInt16.ofNat (bitsVal (b :: r)) = UInt16.ofNat b.toNat ^^^ UInt16.ofNat (2 * bitsVal r) := by
      apply UInt16.toNat_inj.1
      rw [UInt16.toNat_xor, UInt16.toNat_ofNat', UInt16.toNat_ofNat', UInt16.toNat_ofNat',
        Nat.mod_eq_of_lt (by simp only [bitsVal]; omega), Nat.mod_eq_of_lt (by omega),
        Nat.mod_eq_of_lt (by omega)]
      exact xor_even_bit _ _ hb
    have e2 : crcBit (UInt16.ofNat (2 * bitsVal r)) = UInt16.ofNat (bitsVal r) := by
      apply UInt16.toNat_inj.1
      rw [crcBit_even (m := bitsVal r) (by rw [UInt16.toNat_ofNat', Nat.mod_eq_of_lt (by omega)]),
        UInt16.toNat_ofNat', Nat.mod_eq_of_lt (by omega)]
    rw [e, ← UInt16.xor_assoc, crcBit_xor (c ^^^ _), e2]

/-- The bits of a byte. -/
def byteBits (a : Byte) : List Bool := (List.range 8).map a.toNat.testBit

theorem byteBits_val (a : Byte) : UInt16.ofNat (bitsVal (byteBits a)) = a.toUInt16 := by
  have h : ∀ a : Fin 256, bitsVal (byteBits (UInt8.ofNat a.val)) = a.val := by decide +kernel
  have h1 := h ⟨a.toNat, UInt8.toNat_lt a⟩
  have e : UInt8.ofNat a.toNat = a := by
    apply UInt8.toNat_inj.1
    rw [UInt8.toNat_ofNat']; exact Nat.mod_eq_of_lt (UInt8.toNat_lt a)
  simp only [e] at h1
  rw [h1]
  apply UInt16.toNat_inj.1
  rw [UInt16.toNat_ofNat', toUInt16_toNat]
  exact Nat.mod_eq_of_lt (Nat.lt_trans (UInt8.toNat_lt a) (by decide))

theorem feed_byte (c : UInt16) (a : Byte) : feed c (byteBits a) = crc16Update c a := by
  rw [feed_eq _ _ (by simp [byteBits]), byteBits_val, crc16Update_eq]
  rfl

theorem feed_append (c : UInt16) (a b : List Bool) : feed c (a ++ b) = feed (feed c a) b := by
  simp [feed]

theorem errCrc_feed (e : Str) : ∀ c, errCrc c e = feed c (e.flatMap byteBits) := by
  induction e with
  | nil => intro c; rfl
  | cons a e ih =>
    intro c
    rw [List.flatMap_cons, feed_append, feed_byte]
    exact ih _

/-- The difference of two byte strings, bit by bit. -/
def errBits (x y : Str) : List Bool :=
  (List.range (8 * x.length)).map fun p => bitAt x p != bitAt y p

theorem errBits_eq (x : Str) : ∀ y : Str, x.length = y.length →
    (xorStr x y).flatMap byteBits = errBits x y := by
  induction x with
  | nil => intro y _; rfl
  | cons a x ih =>
    intro y h
    cases y with
    | nil => simp at h
    | cons b y =>
      simp only [List.length_cons, Nat.add_right_cancel_iff] at h
      show byteBits (a ^^^ b) ++ (xorStr x y).flatMap byteBits = _
      rw [ih y h]
      unfold errBits
      rw [List.length_cons, show 8 * (x.length + 1) = 8 + 8 * x.length by omega, List.range_add,
        List.map_append, List.map_map]
      congr 1
      · apply List.map_congr_left
        intro i hi
        have hi : i < 8 := by simpa using hi
        simp only [bitAt, Nat.div_eq_of_lt hi, Nat.mod_eq_of_lt hi, List.getD_cons_zero]
        rw [UInt8.toNat_xor, Nat.testBit_xor]
      · apply List.map_congr_left
        intro i _
        simp only [Function.comp, bitAt]
        rw [show (8 + i) / 8 = i / 8 + 1 by omega, show (8 + i) % 8 = i % 8 by omega,
          List.getD_cons_succ, List.getD_cons_succ]

theorem crcOf_eq_iff_bits {x y : Str} (h : x.length = y.length) :
    crcOf x = crcOf y ↔ feed 0 (errBits x y) = 0 := by
  rw [crcOf_eq_iff h, errCrc_feed, errBits_eq x y h]

theorem flips_count (x y : Str) : (flips x y).length = (errBits x y).countP id := by
  unfold flips errBits
  rw [List.countP_map, List.countP_eq_length_filter]
  rfl

theorem mem_flips {x y : Str} {p : Nat} : p ∈ flips x y ↔ (errBits x y)[p]? = some true := by
  unfold flips errBits
  rw [List.mem_filter, List.mem_range, List.getElem?_map]
  by_cases h : p < 8 * x.length
  · rw [List.getElem?_range h]
    simp only [Option.map_some, Option.some.injEq]
    exact ⟨fun h => h.2, fun h2 => ⟨h, h2⟩⟩
  · rw [List.getElem?_eq_none (by simpa using h)]
    simp only [Option.map_none, reduceCtorEq, iff_false]
    exact fun h2 => h h2.1

theorem feed_false (n : Nat) : ∀ c, feed c (List.replicate n false) = crcIter n c := by
  induction n with
  | zero => intro c; rfl
  | succ n ih =>
    intro c
    rw [List.replicate_succ]
    show feed (crcBit (c ^^^ UInt16.ofNat false.toNat)) _ = _
    rw [ih, show UInt16.ofNat false.toNat = 0 from rfl, UInt16.xor_zero]
    rfl

theorem crcIter_zero (n : Nat) : crcIter n 0 = 0 := by
  induction n with
  | zero => rfl
  | succ n ih => exact ih

theorem feed_inj0 (l : List Bool) : ∀ {c}, l.countP id = 0 → feed c l = 0 → c = 0 := by
  intro c h h2
  have e : l = List.replicate l.length false := by
    rw [List.eq_replicate_iff]
    refine ⟨rfl, ?_⟩
    intro b hb
    have := List.countP_eq_zero.1 h b hb
    simpa using this
  rw [e, feed_false] at h2
  exact crcIter_eq_zero _ h2

theorem feed_zero {l : List Bool} (h : l.countP id = 0) : feed 0 l = 0 := by
  have e : l = List.replicate l.length false := by
    rw [List.eq_replicate_iff]
    refine ⟨rfl, ?_⟩
    intro b hb
    have := List.countP_eq_zero.1 h b hb
    simpa using this
  rw [e, feed_false, crcIter_zero]

theorem bitsVal_zero (l : List Bool) (h : bitsVal l = 0) : l.countP id = 0 := by
  induction l with
  | nil => rfl
  | cons b r ih =>
    simp only [bitsVal] at h
    have h1 : b.toNat = 0 := by omega
    have h2 : b = false := by cases b <;> simp_all
    subst h2
    simp [ih (by omega)]

/-- A difference confined to 16 consecutive bits is never null. -/
theorem feed_burst {a w b : List Bool} (ha : a.countP id = 0) (hb : b.countP id = 0)
    (hw : w.length ≤ 16) (h : feed 0 (a ++ (w ++ b)) = 0) : w.countP id = 0 := by
  rw [feed_append, feed_zero ha, feed_append] at h
  have h1 := feed_inj0 b hb h
  rw [feed_eq _ _ hw, UInt16.zero_xor] at h1
  have h2 := congrArg UInt16.toNat (crcIter_eq_zero _ h1)
  have hlt := bitsVal_lt w
  have hle : 2 ^ w.length ≤ 2 ^ 16 := Nat.pow_le_pow_right (by decide) hw
  rw [UInt16.toNat_ofNat', Nat.mod_eq_of_lt (by omega)] at h2
  exact bitsVal_zero w h2

/-- The first set bit. -/
theorem split_first (l : List Bool) {n : Nat} (h : l.countP id = n + 1) :
    ∃ p r, l = List.replicate p false ++ true :: r ∧ r.countP id = n := by
  induction l with
  | nil => simp at h
  | cons b l ih =>
    cases b with
    | true => exact ⟨0, l, rfl, by simpa using h⟩
    | false =>
      obtain ⟨p, r, h1, h2⟩ := ih (by simpa using h)
      exact ⟨p + 1, r, by rw [h1, List.replicate_succ]; rfl, h2⟩

/-- Two flipped bits are never null, up to 8192 bits. -/
theorem feed_two {l : List Bool} (hl : l.length ≤ 8192) (h : l.countP id = 2) : feed 0 l ≠ 0 := by
  obtain ⟨p, r, h1, h2⟩ := split_first l h
  obtain ⟨m, t, h3, h4⟩ := split_first r h2
  subst h3 h1
  intro h5
  simp only [List.length_append, List.length_replicate, List.length_cons] at hl
  rw [feed_append, feed_zero (by simp)] at h5
  have h6 : feed (feed 0 (true :: List.replicate m false)) (true :: t) = 0 := by
    rw [← feed_append]; exact h5
  have h7 : crcBit (feed 0 (true :: List.replicate m false) ^^^ UInt16.ofNat true.toNat) = 0 :=
    feed_inj0 t h4 h6
  have h8 := UInt16.xor_eq_zero_iff.1 (crcBit_eq_zero h7)
  have h9 : feed 0 (true :: List.replicate m false) = crcIter (m + 1) 1 := by
    show feed (crcBit (0 ^^^ UInt16.ofNat true.toNat)) _ = _
    rw [feed_false]; rfl
  rw [h9] at h8
  exact crcIter_one_ne (by omega) (by omega) h8

theorem par16_feed (l : List Bool) : ∀ c : UInt16,
    par16 (feed c l).toNat = (par16 c.toNat ^^ (l.countP id % 2 == 1)) := by
  induction l with
  | nil => intro c; simp [feed]
  | cons b l ih =>
    intro c
    show par16 (feed (crcBit (c ^^^ UInt16.ofNat b.toNat)) l).toNat = _
    rw [ih, par16_crcBit, UInt16.toNat_xor, par16_xor]
    cases b with
    | false =>
      rw [show par16 (UInt16.ofNat false.toNat).toNat = false by decide, Bool.xor_false]
      simp
    | true =>
      rw [show par16 (UInt16.ofNat true.toNat).toNat = true by decide]
      simp only [List.countP_cons, id, if_true]
      rcases Nat.mod_two_eq_zero_or_one (List.countP id l) with h | h
      · rw [h, show (List.countP id l + 1) % 2 = 1 by omega]
        cases par16 c.toNat <;> rfl
      · rw [h, show (List.countP id l + 1) % 2 = 0 by omega]
        cases par16 c.toNat <;> rfl

/-- An odd number of flipped bits is never null. -/
theorem feed_odd {l : List Bool} (h : l.countP id % 2 = 1) : feed 0 l ≠ 0 := by
  intro h2
  have := par16_feed l 0
  rw [h2, h] at this
  revert this; decide

/-- A flipped bit is in a byte that differs. -/
theorem flip_byte {n : Nat} {f g : Arr n} {q : Nat} (h : q ∈ flips f.toList g.toList) :
    ∃ h1 : q / 8 < n, f[q / 8] ≠ g[q / 8] := by
  unfold flips at h
  rw [List.mem_filter, List.mem_range] at h
  obtain ⟨h1, h2⟩ := h
  have h3 : q / 8 < n := by
    rw [Vector.length_toList] at h1; omega
  refine ⟨h3, ?_⟩
  intro e
  simp only [bitAt, List.getD_eq_getElem?_getD] at h2
  rw [List.getElem?_eq_getElem (by simpa using h3), List.getElem?_eq_getElem (by simpa using h3)] at h2
  simp [e] at h2

theorem toList_eq_of_no_flip {n : Nat} {f g : Arr n} (_ : f.toList.length = g.toList.length)
    (h : (errBits f.toList g.toList).countP id = 0) : f = g := by
  have hb : ∀ p, p < 8 * n → bitAt f.toList p = bitAt g.toList p := by
    intro p hp
    have := List.countP_eq_zero.1 h (bitAt f.toList p != bitAt g.toList p) (by
      unfold errBits
      exact List.mem_map_of_mem (List.mem_range.2 (by simpa using hp)))
    simpa using this
  apply Vector.ext
  intro i hi
  apply UInt8.toNat_inj.1
  apply Nat.eq_of_testBit_eq
  intro j
  by_cases hj : j < 8
  · have := hb (8 * i + j) (by omega)
    simp only [bitAt, List.getD_eq_getElem?_getD] at this
    rw [show (8 * i + j) / 8 = i by omega, show (8 * i + j) % 8 = j by omega,
      List.getElem?_eq_getElem (by simpa using hi), List.getElem?_eq_getElem (by simpa using hi)] at this
    simpa using this
  · rw [Nat.testBit_lt_two_pow (Nat.lt_of_lt_of_le (UInt8.toNat_lt f[i]) (Nat.pow_le_pow_right (by decide) (by omega))),
      Nat.testBit_lt_two_pow (Nat.lt_of_lt_of_le (UInt8.toNat_lt g[i]) (Nat.pow_le_pow_right (by decide) (by omega)))]

end Wifinfo
