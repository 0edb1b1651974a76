import Verif.Props.Erfs

/-!
# The extraction tool (C69)
-/

namespace Wifinfo
open Spec

theorem le4 (a b c d : Byte) : le [a, b, c, d] = rd32 [a, b, c, d] 0 := by
  simp only [le, rd32, rd16, List.getD_cons_zero, List.getD_cons_succ]; omega

theorem unpack_fat (b : Str) (h : b.length = 16) : unpackFrom [.I, .I, .I, .I] b =
    some [.int (Fat.ofBytes b).namePtr, .int (Fat.ofBytes b).dataPtr, .int (Fat.ofBytes b).len,
      .int (Fat.ofBytes b).time] := by
  match b, h with
  | [b0, b1, b2, b3, b4, b5, b6, b7, b8, b9, b10, b11, b12, b13, b14, b15], _ =>
    simp only [unpackFrom, List.length_cons, List.length_nil, Nat.reduceAdd, Nat.reduceLeDiff, if_true,
      List.drop_succ_cons, List.drop_zero, List.take_succ_cons, List.take_zero, Option.map_some, le4]
    rfl

variable {l : List Src} {size : Nat} {img : Str}

theorem records_ok (h : IsImage l size img) (hs : size < 4294967296) (rest : List Src) : ∀ pre, l = pre ++ rest →
    ∃ rs, pyRecords img rest.length (fatOff l.length + 16 * pre.length) = some rs ∧
      rs.length = rest.length ∧ ∀ a f b, rest = a ++ f :: b → rs[a.length]? = some
        ((fatOf l (pre ++ a) f).namePtr, (fatOf l (pre ++ a) f).dataPtr, (fatOf l (pre ++ a) f).len) := by
  have hl := h.length
  induction rest with
  | nil => intro pre _; exact ⟨[], rfl, rfl, fun a f b e => by simp at e⟩
  | cons f r ih =>
    intro pre e
    obtain ⟨b, hb, hb', -⟩ := h.fat hs e
    have hin : fatOff l.length + 16 * pre.length + 16 ≤ img.length := by
      have e3 : l.length = pre.length + (r.length + 1) := by rw [e]; simp
      have h0 := totalSize_eq l
      have h1 := h.1
      rw [namesOff] at h0
      omega
    rw [halRead_in _ _ _ hin (by omega)] at hb
    have hb := Option.some.inj (Except.ok.inj hb)
    obtain ⟨rs, h1, h2, h3⟩ := ih (pre ++ [f]) (by rw [e]; simp)
    refine ⟨((fatOf l pre f).namePtr, (fatOf l pre f).dataPtr, (fatOf l pre f).len) :: rs, ?_, by simp [h2], ?_⟩
    · rw [List.length_cons, pyRecords, unpack_fat _ (by rw [List.length_take, List.length_drop]; omega), hb, hb']
      have : fatOff l.length + 16 * (pre ++ [f]).length = fatOff l.length + 16 * pre.length + 16 := by
        rw [List.length_append, List.length_singleton]; omega
      rw [this] at h1
      simp only [bind, Option.bind_some, h1]
    · intro a g b' e'
      cases a with
      | nil => simp at e'; obtain ⟨rfl, rfl⟩ := e'; simp
      | cons x a =>
        simp at e'
        obtain ⟨rfl, rfl⟩ := e'
        have := h3 a g b' rfl
        simpa using this

/-- The name as the tool writes it. -/
theorem getString_eq {ptr : Nat} {x t : Str} (h : img.drop ptr = x ++ 0 :: t) (hx : NulFree x) :
    getString img ptr = x.flatMap pyChr := by
  rw [getString, h]
  congr 1
  have : ∀ x : Str, NulFree x → (x ++ 0 :: t).takeWhile (fun b => decide (b ≠ 0)) = x := by
    intro x
    induction x with
    | nil => intro _; simp
    | cons y r ih =>
      intro hy
      have hy0 : y ≠ 0 := hy y (List.mem_cons_self ..)
      rw [List.cons_append, List.takeWhile_cons, if_pos (by simp [hy0]), ih fun b hb => hy b (List.mem_cons_of_mem _ hb)]
  exact this x hx

theorem files_ok' (h : IsImage l size img) (hl : FileSet l) (rest : List Src) : ∀ pre rs, l = pre ++ rest →
    rs.length = rest.length → (∀ a f b, rest = a ++ f :: b → rs[a.length]? = some
        ((fatOf l (pre ++ a) f).namePtr, (fatOf l (pre ++ a) f).dataPtr, (fatOf l (pre ++ a) f).len)) →
    pyFiles img rs = some (rest.map fun f => (f.name.flatMap pyChr, f.data)) := by
  induction rest with
  | nil =>
    intro pre rs _ hr _
    cases rs with
    | nil => rfl
    | cons x r => simp at hr
  | cons f r ih =>
    intro pre rs e hr hg
    cases rs with
    | nil => simp at hr
    | cons x rs =>
      have hx := hg [] f r rfl
      simp only [List.length_nil, List.getElem?_cons_zero, List.append_nil, Option.some.injEq] at hx
      subst hx
      have := ih (pre ++ [f]) rs (by rw [e]; simp) (by simpa using hr) fun a g b e' => by
        have := hg (f :: a) g b (by rw [e']; rfl)
        simpa using this
      have hf : f ∈ l := by rw [e]; simp
      obtain ⟨t, ht⟩ := h.name e
      obtain ⟨t2, ht2⟩ := h.data e
      rw [pyFiles, getString_eq ht (hl.text f hf), this, ht2]
      have hlen : (fatOf l pre f).len = f.data.length := rfl
      rw [hlen, List.take_left]
      have hne := hl.nonempty f hf
      cases hn : f.name with
      | nil => exact absurd hn hne
      | cons y nm =>
        have hy : y ≠ 0 := hl.text f hf y (by rw [hn]; exact List.mem_cons_self ..)
        have : img[(fatOf l pre f).namePtr]? = some y := by
          have : (img.drop (fatOf l pre f).namePtr)[0]? = some y := by rw [ht, hn]; rfl
          rwa [List.getElem?_drop, Nat.add_zero] at this
        rw [this]
        simp only [bind, Option.bind_some, if_neg hy, List.map_cons, hn]

namespace Spec

/-- How the tool shows a byte of a name: a control byte as its number between angle brackets, any other byte as
the character of that number, in UTF-8. -/
def shownByte (b : Byte) : Str :=
  if b.toNat < 32 then bs "<" ++ (Nat.toDigits 10 b.toNat).map (fun c => UInt8.ofNat c.toNat) ++ bs ">"
  else String.utf8EncodeChar (Char.ofNat b.toNat)

end Spec

theorem pyChr_shown (b : Byte) : pyChr b = shownByte b := by
  have : ∀ n : Fin 256, pyChr (UInt8.ofNat n) = shownByte (UInt8.ofNat n) := by decide +kernel
  have h := this ⟨b.toNat, b.toNat_lt⟩
  rwa [show UInt8.ofNat b.toNat = b from UInt8.ofNat_toNat] at h

theorem shown_kept (b : Byte) : (32 ≤ b ∧ b < 128 → shownByte b = [b]) ∧
    1 ≤ (shownByte b).length ∧ ((shownByte b).length = 1 → 32 ≤ b ∧ b < 128) := by
  have : ∀ n : Fin 256, (32 ≤ UInt8.ofNat n ∧ UInt8.ofNat n < 128 → shownByte (UInt8.ofNat n) = [UInt8.ofNat n]) ∧
      1 ≤ (shownByte (UInt8.ofNat n)).length ∧
      ((shownByte (UInt8.ofNat n)).length = 1 → 32 ≤ UInt8.ofNat n ∧ UInt8.ofNat n < 128) := by decide +kernel
  have h := this ⟨b.toNat, b.toNat_lt⟩
  rwa [show UInt8.ofNat b.toNat = b from UInt8.ofNat_toNat] at h

theorem shown_length (x : Str) : x.length ≤ (x.flatMap shownByte).length := by
  induction x with
  | nil => simp
  | cons y r ih =>
    have := (shown_kept y).2.1
    simp only [List.flatMap_cons, List.length_append, List.length_cons]; omega

theorem shown_same (x : Str) : x.flatMap shownByte = x ↔ ∀ b ∈ x, 32 ≤ b ∧ b < 128 := by
  constructor
  · intro h
    induction x with
    | nil => intro b hb; cases hb
    | cons y r ih =>
      obtain ⟨k1, k2, k3⟩ := shown_kept y
      have hl : ((y :: r).flatMap shownByte).length = (y :: r).length := by rw [h]
      have := shown_length r
      simp only [List.flatMap_cons, List.length_append, List.length_cons] at hl
      have hy := k3 (by omega)
      rw [List.flatMap_cons, k1 hy] at h
      have hr : r.flatMap shownByte = r := by simpa using h
      intro b hb
      rcases List.mem_cons.1 hb with rfl | hb
      · exact hy
      · exact ih hr b hb
  · intro h
    induction x with
    | nil => rfl
    | cons y r ih =>
      rw [List.flatMap_cons, (shown_kept y).1 (h y (List.mem_cons_self ..)),
        ih fun b hb => h b (List.mem_cons_of_mem _ hb)]
      rfl

/-- C69, for all names: the contents are exact, and each name is the one stored with the bytes below 32 written
between angle brackets and the bytes above 127 taken for Latin-1. -/
theorem c69_contents (l : List Src) (size o w : Nat) (img : Str) (h : create l size = .image o w img)
    (hs : size < 4294967296) (hl : FileSet l) :
    extract img = some (l.map fun f => (f.name.flatMap shownByte, f.data)) := by
  rw [← (funext pyChr_shown : pyChr = shownByte)]
  obtain ⟨hi, -⟩ := image_is h
  have hlen := hi.length
  have hc := hi.count
  obtain ⟨rs, h1, h2, h3⟩ := records_ok hi hs l [] rfl
  have hf := files_ok' hi hl l [] rs rfl h2 h3
  have ht : img.take 8 = bs "ERFS" ++ [3, 2] ++ le16 l.length := by
    obtain ⟨-, b, hb, z, -, rfl⟩ := hi
    obtain ⟨-, x, hx, rfl⟩ := (pyWrite_eq ..).1 hb
    have e8 : (bs "ERFS" ++ [3, 2] ++ le16 l.length).length = 8 := by
      have : (bs "ERFS").length = 4 := by decide
      simp [this, le16]
    rw [List.append_assoc, ← e8, List.take_left]
  have e : bs "ERFS" = [0x45, 0x52, 0x46, 0x53] := by decide
  have hh : unpackFrom [.s 4, .B, .B, .H] (img.take 8) =
      some [.bytes (bs "ERFS"), .int 3, .int 2, .int l.length] := by
    rw [ht, e]
    simp only [le16, List.cons_append, List.nil_append, unpackFrom, List.length_cons, List.length_nil, Nat.reduceAdd,
      Nat.reduceLeDiff, if_true, List.drop_succ_cons, List.drop_zero, List.take_succ_cons, List.take_zero,
      Option.map_some, le, UInt8.toNat_ofNat']
    have : l.length % 2 ^ 8 + 256 * (l.length / 256 % 2 ^ 8 + 256 * 0) = l.length := by omega
    rw [this]
    rfl
  have ho : pyAlign (8 + 2 * l.length) = fatOff l.length + 16 * ([] : List Src).length := by
    rw [fatOff, pyAlign_eq, pyAlign_eq, List.length_nil]; omega
  rw [extract, hh]
  simp only [bind, Option.bind_some, ne_eq, not_true_eq_false, if_false]
  rw [ho, h1]
  exact hf

/-- **C69.**  Extracting an image gives back every file, with its name and content.

Partial: the names are printable ASCII (`c69_refuted`). -/
theorem c69_extract_partial (l : List Src) (size o w : Nat) (img : Str) (h : create l size = .image o w img)
    (hs : size < 4294967296) (hl : FileSet l) (hascii : ∀ f ∈ l, ∀ b ∈ f.name, 32 ≤ b ∧ b < 128) :
    extract img = some (l.map fun f => (f.name, f.data)) := by
  rw [c69_contents l size o w img h hs hl]
  congr 1
  apply List.map_congr_left
  intro f hf
  rw [(shown_same f.name).2 (hascii f hf)]

/-- C69, exactly: the files come back with their names if and only if the names are printable ASCII. -/
theorem c69_exact (l : List Src) (size o w : Nat) (img : Str) (h : create l size = .image o w img)
    (hs : size < 4294967296) (hl : FileSet l) :
    extract img = some (l.map fun f => (f.name, f.data)) ↔ ∀ f ∈ l, ∀ b ∈ f.name, 32 ≤ b ∧ b < 128 := by
  constructor
  · intro he f hf
    rw [c69_contents l size o w img h hs hl] at he
    exact (shown_same f.name).1 (congrArg Prod.fst (List.map_inj_left.1 (Option.some.inj he) f hf))
  · exact c69_extract_partial l size o w img h hs hl

example : shownByte 9 = bs "<9>" ∧ shownByte 27 = bs "<27>" ∧ shownByte 65 = bs "A" ∧
    shownByte 0xE9 = [0xC3, 0xA9] := by decide +kernel

example : (∀ f ∈ threeFiles, ∀ b ∈ f.name, 32 ≤ b ∧ b < 128) ∧
    extract threeImage = some [(bs "index.htm", bs "<html></html>"), (bs "ac", [1, 2, 3]), (bs "ba", [])] := by
  decide +kernel

/-- C69 fails for a name with a letter outside ASCII (é, two bytes): it comes back as four bytes. -/
theorem c69_refuted : ∃ img, create [⟨[0xC3, 0xA9], [1], 0⟩] 200 = .image 36 36 img ∧
    extract img = some [([0xC3, 0x83, 0xC2, 0xA9], [1])] :=
  ⟨truncate ((pyWrite [⟨[0xC3, 0xA9], [1], 0⟩]).getD []) 200, by decide +kernel, by decide +kernel⟩

end Wifinfo
