import Verif.Model.Erfs
import Verif.Model.Mkerfs

/-!
# What the image builder writes
-/

namespace Wifinfo
open Spec

/-- The next multiple of four. -/
theorem align32_eq (n : Nat) : align32 n = (n + 3) / 4 * 4 := by
  unfold align32
  have h1 : n &&& 3 = n % 4 := Nat.and_two_pow_sub_one_eq_mod n 2
  have h2 : n ||| 3 = n / 4 * 4 + 3 := by
    have e : n = 2 ^ 2 * (n / 4) + n % 4 := by omega
    have r : n % 4 < 2 ^ 2 := by omega
    have k : ∀ r, r < 4 → r ||| 3 = 3 := by decide
    conv => lhs; rw [e, Nat.two_pow_add_eq_or_of_lt r, Nat.or_assoc, k _ (by omega),
      ← Nat.two_pow_add_eq_or_of_lt (by omega)]
    omega
  rw [h1, h2]; split <;> omega

theorem pyAlign_eq (n : Nat) : pyAlign n = (n + 3) / 4 * 4 := align32_eq n

/-! ## Bytes of integers -/

def le16 (n : Nat) : Str := [UInt8.ofNat n, UInt8.ofNat (n / 256)]

def le32 (n : Nat) : Str :=
  [UInt8.ofNat n, UInt8.ofNat (n / 256), UInt8.ofNat (n / 65536), UInt8.ofNat (n / 16777216)]

theorem pack_H (n : Nat) : pack [(.H, .int n)] = if n < 65536 then some (le16 n) else none := by
  by_cases h : n < 65536 <;> simp [pack, packItem, h, le16]

/-- The bytes of a record. -/
def recBytes (a b c d : Nat) : Str := le32 a ++ (le32 b ++ (le32 c ++ le32 d))

theorem pack_IIII (a b c d : Nat) (r : Str) :
    pack [(.I, .int a), (.I, .int b), (.I, .int c), (.I, .int d)] = some r ↔
      a < 4294967296 ∧ b < 4294967296 ∧ c < 4294967296 ∧ d < 4294967296 ∧ r = recBytes a b c d := by
  by_cases ha : a < 4294967296 <;> by_cases hb : b < 4294967296 <;> by_cases hc : c < 4294967296 <;>
    by_cases hd : d < 4294967296 <;> simp [pack, packItem, ha, hb, hc, hd, recBytes, le32, eq_comm]

theorem rd16_le16 (n : Nat) (t : Str) (h : n < 65536) : rd16 (le16 n ++ t) 0 = n := by
  simp only [rd16, le16, List.cons_append, List.getD_cons_zero, List.getD_cons_succ, UInt8.toNat_ofNat']
  omega

theorem rd32_le32 (n : Nat) (h : n < 4294967296) (t : Str) : rd32 (le32 n ++ t) 0 = n := by
  simp only [rd32, rd16, le32, List.cons_append, List.getD_cons_zero, List.getD_cons_succ,
    UInt8.toNat_ofNat']
  omega

theorem rd16_append (p x : Str) (o : Nat) : rd16 (p ++ x) (p.length + o) = rd16 x o := by
  simp only [rd16, Nat.add_assoc, List.getD_eq_getElem?_getD]
  rw [List.getElem?_append_right (by omega), List.getElem?_append_right (by omega)]
  simp

theorem rd32_append (p x : Str) (o : Nat) : rd32 (p ++ x) (p.length + o) = rd32 x o := by
  simp only [rd32, Nat.add_assoc, rd16_append]

theorem ofBytes_rec (a b c d : Nat) (ha : a < 4294967296) (hb : b < 4294967296) (hc : c < 4294967296)
    (hd : d < 4294967296) : Fat.ofBytes (recBytes a b c d) = ⟨a, b, c, d⟩ := by
  unfold Fat.ofBytes recBytes
  have e4 : ∀ n, (le32 n).length = 4 := fun _ => rfl
  have h1 := rd32_append (le32 a) (le32 b ++ (le32 c ++ le32 d)) 0
  have h2 := rd32_append (le32 a ++ le32 b) (le32 c ++ le32 d) 0
  have h3 := rd32_append (le32 a ++ (le32 b ++ le32 c)) (le32 d ++ []) 0
  simp only [List.append_nil, List.length_append, e4, Nat.add_zero, List.append_assoc] at h1 h2 h3
  rw [rd32_le32 a ha]
  rw [rd32_le32 b hb] at h1
  rw [rd32_le32 c hc] at h2
  have h4 := rd32_le32 d hd []
  rw [List.append_nil] at h4
  rw [h4] at h3
  rw [h1]
  simp only [Nat.reduceAdd] at h2 h3
  rw [h2, h3]

/-! ## The parts of the image -/

/-- Room taken by the names. -/
def namesLen (l : List Src) : Nat := (l.map fun f => pyAlign (f.name.length + 1)).sum

/-- Room taken by the contents. -/
def datasLen (l : List Src) : Nat := (l.map fun f => pyAlign f.data.length).sum

/-- Where the records begin. -/
def fatOff (n : Nat) : Nat := 8 + pyAlign (2 * n)

/-- Where the names begin. -/
def namesOff (n : Nat) : Nat := fatOff n + 16 * n

theorem namesLen_append (a b : List Src) : namesLen (a ++ b) = namesLen a + namesLen b := by
  simp [namesLen]

theorem datasLen_append (a b : List Src) : datasLen (a ++ b) = datasLen a + datasLen b := by
  simp [datasLen]

theorem pyNames_append (a b : List Src) : pyNames (a ++ b) = pyNames a ++ pyNames b := by
  simp [pyNames]

theorem pyDatas_append (a b : List Src) : pyDatas (a ++ b) = pyDatas a ++ pyDatas b := by
  simp [pyDatas]

theorem pyNames_length (l : List Src) : (pyNames l).length = namesLen l := by
  induction l with
  | nil => rfl
  | cons f r ih =>
    have : pyNames (f :: r) = (f.name ++ zeros (pyAlign (f.name.length + 1) - f.name.length)) ++ pyNames r := rfl
    rw [this, List.length_append, ih]
    simp only [List.length_append, zeros, List.length_replicate, namesLen, List.map_cons, List.sum_cons]
    have := pyAlign_eq (f.name.length + 1)
    omega

theorem pyDatas_length (l : List Src) : (pyDatas l).length = datasLen l := by
  induction l with
  | nil => rfl
  | cons f r ih =>
    have : pyDatas (f :: r) = (f.data ++ zeros (pyAlign f.data.length - f.data.length)) ++ pyDatas r := rfl
    rw [this, List.length_append, ih]
    simp only [List.length_append, zeros, List.length_replicate, datasLen, List.map_cons, List.sum_cons]
    have := pyAlign_eq f.data.length
    omega

/-- The hash the builder stores is the one the reader computes. -/
theorem pyHash_eq (name : Str) : pyHash name &&& 0xFFFF = nameHash name := by
  have h1 : ∀ n, n &&& 0xFFFF = n % 65536 := fun n => Nat.and_two_pow_sub_one_eq_mod n 16
  rw [h1]
  have key : ∀ (l : Str) (a b : Nat), a % 65536 = b →
      (l.foldl (fun h c => (h + c.toNat) * 2) a) % 65536 =
        l.foldl (fun h b => (h + b.toNat) % 65536 * 2 % 65536) b := by
    intro l
    induction l with
    | nil => intro a b h; exact h
    | cons x r ih => intro a b h; exact ih _ _ (by dsimp only; omega)
  exact key name 0 0 rfl

theorem nameHash_lt (name : Str) : nameHash name < 65536 := by
  rw [← pyHash_eq, show (0xFFFF : Nat) = 2 ^ 16 - 1 from rfl, Nat.and_two_pow_sub_one_eq_mod]; omega

theorem pyHashes_eq (l : List Src) : pyHashes l = some (l.flatMap fun f => le16 (nameHash f.name)) := by
  induction l with
  | nil => rfl
  | cons f r ih =>
    simp only [pyHashes, pyHash_eq, pack_H, nameHash_lt, if_true, ih]
    rfl

/-- The record of a file that comes after `pre`. -/
def recOf (n0 d0 : Nat) (pre : List Src) (f : Src) : Fat :=
  ⟨n0 + namesLen pre, d0 + datasLen pre, f.data.length, f.mtime.toNat⟩

theorem pyFat_cons (f : Src) (r : List Src) (a b : Nat) (x : Str) : pyFat (f :: r) a b = some x ↔
    0 ≤ f.mtime ∧ f.mtime < 4294967296 ∧ a < 4294967296 ∧ b < 4294967296 ∧ f.data.length < 4294967296 ∧
    ∃ y, pyFat r (a + pyAlign (f.name.length + 1)) (b + pyAlign f.data.length) = some y ∧
      x = recBytes a b f.data.length f.mtime.toNat ++ y := by
  rw [pyFat]
  by_cases hm : f.mtime < 0
  · simp only [hm, if_true]
    constructor
    · intro h; cases h
    · intro h; omega
  · simp only [hm, if_false, bind, Option.bind_eq_some_iff, pack_IIII, Option.some.injEq]
    constructor
    · rintro ⟨u, ⟨h1, h2, h3, h4, rfl⟩, y, hy, rfl⟩
      exact ⟨by omega, by omega, h1, h2, h3, y, hy, rfl⟩
    · rintro ⟨h0, h4, h1, h2, h3, y, hy, rfl⟩
      exact ⟨_, ⟨h1, h2, h3, by omega, rfl⟩, y, hy, rfl⟩

theorem pyFat_length (l : List Src) : ∀ a b x, pyFat l a b = some x → x.length = 16 * l.length := by
  induction l with
  | nil => intro a b x h; cases h; rfl
  | cons f r ih =>
    intro a b x h
    obtain ⟨-, -, -, -, -, y, hy, rfl⟩ := (pyFat_cons ..).1 h
    rw [List.length_append, ih _ _ _ hy]
    simp [recBytes, le32]; omega

/-- The record of a file among the others. -/
theorem pyFat_split (pre : List Src) (f : Src) (post : List Src) : ∀ a b x,
    pyFat (pre ++ f :: post) a b = some x → ∃ u v, x = u ++ (recBytes (a + namesLen pre) (b + datasLen pre)
      f.data.length f.mtime.toNat ++ v) ∧ u.length = 16 * pre.length ∧
      0 ≤ f.mtime ∧ f.mtime < 4294967296 ∧ a + namesLen pre < 4294967296 ∧ b + datasLen pre < 4294967296 ∧
      f.data.length < 4294967296 := by
  induction pre with
  | nil =>
    intro a b x h
    obtain ⟨h0, h1, h2, h3, h4, y, hy, rfl⟩ := (pyFat_cons ..).1 h
    exact ⟨[], y, rfl, rfl, h0, h1, h2, h3, h4⟩
  | cons g r ih =>
    intro a b x h
    obtain ⟨-, -, -, -, -, y, hy, rfl⟩ := (pyFat_cons ..).1 h
    obtain ⟨u, v, rfl, hl, h0, h1, h2, h3, h4⟩ := ih _ _ _ hy
    have e1 : a + namesLen (g :: r) = a + pyAlign (g.name.length + 1) + namesLen r := by
      simp [namesLen]; omega
    have e2 : b + datasLen (g :: r) = b + pyAlign g.data.length + datasLen r := by
      simp [datasLen]; omega
    refine ⟨recBytes a b g.data.length g.mtime.toNat ++ u, v, by rw [e1, e2, List.append_assoc], ?_, h0, h1,
      by rw [e1]; exact h2, by rw [e2]; exact h3, h4⟩
    rw [List.length_append, hl]; simp [recBytes, le32]; omega

/-- When the records can be written. -/
theorem pyFat_isSome (l : List Src) : ∀ a b, a + namesLen l < 4294967296 → b + datasLen l < 4294967296 →
    (∀ f ∈ l, 0 ≤ f.mtime ∧ f.mtime < 4294967296) → ∃ x, pyFat l a b = some x := by
  induction l with
  | nil => intro a b _ _ _; exact ⟨[], rfl⟩
  | cons f r ih =>
    intro a b h1 h2 h3
    have e1 : a + namesLen (f :: r) = a + pyAlign (f.name.length + 1) + namesLen r := by
      simp [namesLen]; omega
    have e2 : b + datasLen (f :: r) = b + pyAlign f.data.length + datasLen r := by
      simp [datasLen]; omega
    have := pyAlign_eq f.data.length
    obtain ⟨y, hy⟩ := ih _ _ (e1 ▸ h1) (e2 ▸ h2) fun g hg => h3 g (List.mem_cons_of_mem _ hg)
    obtain ⟨m1, m2⟩ := h3 f (List.mem_cons_self ..)
    exact ⟨_, (pyFat_cons ..).2 ⟨m1, m2, by omega, by omega, by omega, y, hy, rfl⟩⟩

theorem pyFat_times (l : List Src) : ∀ a b x, pyFat l a b = some x →
    ∀ f ∈ l, 0 ≤ f.mtime ∧ f.mtime < 4294967296 := by
  intro a b x h f hf
  obtain ⟨p, q, rfl⟩ := List.append_of_mem hf
  obtain ⟨-, -, -, -, h0, h1, -⟩ := pyFat_split p f q a b x h
  exact ⟨h0, h1⟩

/-- The bytes written. -/
theorem pyWrite_eq (l : List Src) (b : Str) : pyWrite l = some b ↔ l.length < 65536 ∧
    ∃ x, pyFat l (namesOff l.length) (namesOff l.length + namesLen l) = some x ∧
      b = (bs "ERFS" ++ [3, 2] ++ le16 l.length) ++ ((l.flatMap fun f => le16 (nameHash f.name)) ++
        (zeros (pyAlign (2 * l.length) - 2 * l.length) ++ (x ++ (pyNames l ++ pyDatas l)))) := by
  have pad : (if l.length &&& 1 ≠ 0 then pack [(.H, .int 0)] else some []) =
      some (zeros (pyAlign (2 * l.length) - 2 * l.length)) := by
    have h1 : l.length &&& 1 = l.length % 2 := Nat.and_two_pow_sub_one_eq_mod _ 1
    rw [h1, pyAlign_eq]
    by_cases h : l.length % 2 = 0
    · rw [if_neg (by omega), show (2 * l.length + 3) / 4 * 4 - 2 * l.length = 0 by omega]; rfl
    · rw [if_pos h, show (2 * l.length + 3) / 4 * 4 - 2 * l.length = 2 by omega]; rfl
  unfold pyWrite
  rw [pyHashes_eq, pad, pack_H]
  simp only [bind, Option.bind_eq_some_iff, Option.some.injEq]
  constructor
  · rintro ⟨n, hn, -, rfl, -, rfl, x, hx, rfl⟩
    split at hn
    · next h => cases hn; exact ⟨h, x, hx, by simp only [List.append_assoc]⟩
    · cases hn
  · rintro ⟨h, x, hx, rfl⟩
    exact ⟨_, by rw [if_pos h], _, rfl, _, rfl, x, hx, by simp only [List.append_assoc]⟩

theorem flatMap_hash_length (l : List Src) :
    (l.flatMap fun f => le16 (nameHash f.name)).length = 2 * l.length := by
  induction l with
  | nil => rfl
  | cons f r ih => rw [List.flatMap_cons, List.length_append, ih]; simp [le16]; omega

theorem pyWrite_length (l : List Src) (b : Str) (h : pyWrite l = some b) :
    b.length = namesOff l.length + namesLen l + datasLen l := by
  obtain ⟨-, x, hx, rfl⟩ := (pyWrite_eq ..).1 h
  have e : (bs "ERFS").length = 4 := by decide
  have e2 : ∀ n, (le16 n).length = 2 := fun _ => rfl
  simp only [List.length_append, e, flatMap_hash_length, zeros, List.length_replicate, pyFat_length _ _ _ _ hx,
    pyNames_length, pyDatas_length, e2, List.length_cons, List.length_nil, namesOff, fatOff]
  have := pyAlign_eq (2 * l.length)
  omega

theorem totalSize_eq (l : List Src) : totalSize l = namesOff l.length + namesLen l + datasLen l := by
  have key : ∀ (l : List Src) (t : Nat),
      l.foldl (fun t f => t + (2 + 16 + pyAlign (f.name.length + 1) + pyAlign f.data.length)) t =
        t + 18 * l.length + namesLen l + datasLen l := by
    intro l
    induction l with
    | nil => intro t; simp [namesLen, datasLen]
    | cons f r ih =>
      intro t
      rw [List.foldl_cons, ih]
      simp [namesLen, datasLen]; omega
  have m1 : namesLen l % 4 = 0 := by
    induction l with
    | nil => rfl
    | cons f r ih =>
      have : namesLen (f :: r) = pyAlign (f.name.length + 1) + namesLen r := by simp [namesLen]
      rw [this, pyAlign_eq]; omega
  have m2 : datasLen l % 4 = 0 := by
    induction l with
    | nil => rfl
    | cons f r ih =>
      have : datasLen (f :: r) = pyAlign f.data.length + datasLen r := by simp [datasLen]
      have m3 : namesLen r % 4 = 0 := by
        have : namesLen (f :: r) = pyAlign (f.name.length + 1) + namesLen r := by simp [namesLen]
        rw [this, pyAlign_eq] at m1; omega
      rw [this, pyAlign_eq]; have := ih m3; omega
  unfold totalSize
  rw [key, pyAlign_eq, namesOff, fatOff, pyAlign_eq]
  omega

/-- What the builder gives. -/
theorem create_image (l : List Src) (size o w : Nat) (img : Str) : create l size = .image o w img ↔
    totalSize l ≤ size ∧ o = totalSize l ∧ w = totalSize l ∧
      ∃ b, pyWrite l = some b ∧ img = b ++ zeros (size - totalSize l) := by
  unfold create
  by_cases h : totalSize l > size
  · simp only [h, if_true]; constructor
    · intro h; cases h
    · intro h; omega
  · simp only [h, if_false]
    cases hb : pyWrite l with
    | none => simp
    | some b =>
      have hl : b.length = totalSize l := by rw [totalSize_eq, pyWrite_length l b hb]
      simp only [Built.image.injEq, Option.some.injEq, truncate, hl]
      rw [List.take_of_length_le (by omega)]
      constructor
      · rintro ⟨rfl, rfl, rfl⟩; exact ⟨by omega, rfl, rfl, b, rfl, rfl⟩
      · rintro ⟨-, rfl, rfl, b', rfl, rfl⟩; exact ⟨rfl, rfl, rfl⟩

end Wifinfo
