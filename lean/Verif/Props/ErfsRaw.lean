import Verif.Props.Erfs

/-!
# The file system on any flash content, and the extraction tool (C67–C69)
-/

namespace Wifinfo
open Spec

/-! ## Mounting -/

/-- **C67.**  Whatever the partition holds, mounting it is safe; it succeeds exactly if the partition begins
with the signature and version of the format; when it fails, no file opens, the listing is empty, and the
usage shown is the one of an empty file system. -/
theorem c67_mount (img : Str) (hs : img.length < 4294967296) : ∃ ok fs, Erfs.begin img = .ok (ok, fs) ∧
    (ok = true ↔ 8 ≤ img.length ∧ img.take 6 = bs "ERFS" ++ [3, 2]) ∧
    (ok = false → (∀ path, fs.open path = .ok none) ∧ (∃ d, fs.openDir (bs "/") = some d ∧
      Dir.list 1 d = .ok ([], d)) ∧ fs.info = .ok (img.length, 8)) := by
  have empty : (∀ path, Erfs.open ⟨img, 0⟩ path = .ok none) ∧ (∃ d, Erfs.openDir ⟨img, 0⟩ (bs "/") = some d ∧
      Dir.list 1 d = .ok ([], d)) ∧ Erfs.info ⟨img, 0⟩ = .ok (img.length, 8) :=
    ⟨fun path => rfl, ⟨⟨⟨img, 0⟩, 0, ⟨0, 0, 0, 0⟩, List.replicate 64 0⟩, by simp [Erfs.openDir], rfl⟩, rfl⟩
  by_cases h8 : 8 ≤ img.length
  · obtain ⟨a, b, c, d, e, f, g, h, t, rfl⟩ : ∃ a b c d e f g h t, img = a :: b :: c :: d :: e :: f :: g :: h :: t := by
      match img, h8 with
      | a :: b :: c :: d :: e :: f :: g :: h :: t, _ => exact ⟨a, b, c, d, e, f, g, h, t, rfl⟩
    have hr := halRead_in (a :: b :: c :: d :: e :: f :: g :: h :: t) 0 8 (by omega) hs
    rw [List.drop_zero] at hr
    have ht : (a :: b :: c :: d :: e :: f :: g :: h :: t).take 8 = [a, b, c, d, e, f, g, h] := rfl
    rw [ht] at hr
    have hsig : (bs "ERFS" ++ [3, 2] : Str) = [0x45, 0x52, 0x46, 0x53, 3, 2] := by decide
    have hmag : rd32 [a, b, c, d, e, f, g, h] 0 = 0x53465245 ↔ a = 0x45 ∧ b = 0x52 ∧ c = 0x46 ∧ d = 0x53 := by
      have ha := a.toNat_lt; have hb := b.toNat_lt; have hc := c.toNat_lt; have hd := d.toNat_lt
      simp only [rd32, rd16, List.getD_cons_zero, List.getD_cons_succ, ← UInt8.toNat_inj]
      simp only [show (0x45 : UInt8).toNat = 0x45 from rfl, show (0x52 : UInt8).toNat = 0x52 from rfl,
        show (0x46 : UInt8).toNat = 0x46 from rfl, show (0x53 : UInt8).toNat = 0x53 from rfl]
      constructor <;> intro _ <;> omega
    have hb : Erfs.begin (a :: b :: c :: d :: e :: f :: g :: h :: t) =
        if rd32 [a, b, c, d, e, f, g, h] 0 ≠ 0x53465245 ∨ e ≠ 3 ∨ f ≠ 2 then
          .ok (false, ⟨a :: b :: c :: d :: e :: f :: g :: h :: t, 0⟩)
        else .ok (true, ⟨a :: b :: c :: d :: e :: f :: g :: h :: t, rd16 [a, b, c, d, e, f, g, h] 6⟩) := by
      rw [Erfs.begin, hr]; rfl
    rw [hb, hsig]
    by_cases hc : rd32 [a, b, c, d, e, f, g, h] 0 ≠ 0x53465245 ∨ e ≠ 3 ∨ f ≠ 2
    · rw [if_pos hc]
      refine ⟨false, _, rfl, ?_, fun _ => empty⟩
      simp only [Bool.false_eq_true, false_iff, not_and]
      intro _ heq
      simp only [List.take_succ_cons, List.take_zero, List.cons.injEq, and_true] at heq
      obtain ⟨h1, h2, h3, h4, h5, h6⟩ := heq
      rw [ne_eq, hmag] at hc
      rcases hc with hc | hc | hc
      · exact hc ⟨h1, h2, h3, h4⟩
      · exact hc h5
      · exact hc h6
    · rw [if_neg hc]
      refine ⟨true, _, rfl, ?_, fun h => by cases h⟩
      simp only [true_iff]
      refine ⟨h8, ?_⟩
      simp only [ne_eq, hmag, not_or, Decidable.not_not] at hc
      obtain ⟨⟨rfl, rfl, rfl, rfl⟩, rfl, rfl⟩ := hc
      rfl
  · refine ⟨false, ⟨img, 0⟩, ?_, ?_, fun _ => empty⟩
    · rw [Erfs.begin, halRead_out _ _ _ (by omega) (by omega)]; rfl
    · simp only [Bool.false_eq_true, false_iff]; omega

/-- An erased partition, and one with the older version 3.1. -/
example : Erfs.begin (List.replicate 100 255) = .ok (false, ⟨List.replicate 100 255, 0⟩) ∧
    Erfs.begin (bs "ERFS" ++ [3, 1, 0, 0]) = .ok (false, ⟨bs "ERFS" ++ [3, 1, 0, 0], 0⟩) ∧
    Erfs.begin (bs "ERFS" ++ [3, 2, 4, 1]) = .ok (true, ⟨bs "ERFS" ++ [3, 2, 4, 1], 260⟩) := by
  refine ⟨?_, ?_, ?_⟩ <;> rfl

deriving instance DecidableEq for Erfs

/-! ## Any content -/

/-- The tables fit in the partition and the addresses of the records do not wrap. -/
def Sane (fs : Erfs) : Prop :=
  fs.fatAddr + 16 * fs.num ≤ fs.img.length ∧ ∀ i < fs.num,
    (Fat.ofBytes ((fs.img.drop (fs.fatAddr + 16 * i)).take 16)).namePtr + 63 < 4294967296 ∧
    (Fat.ofBytes ((fs.img.drop (fs.fatAddr + 16 * i)).take 16)).dataPtr +
      (Fat.ofBytes ((fs.img.drop (fs.fatAddr + 16 * i)).take 16)).len < 4294967296

theorem strncmpEq_ok : ∀ (n : Nat) (a b : Str), n ≤ a.length → (0 : Byte) ∈ b → ∃ r, strncmpEq n a b = .ok r := by
  intro n
  induction n with
  | zero => intro a b _ _; exact ⟨true, by rw [strncmpEq]⟩
  | succ n ih =>
    intro a b ha hb
    match a, b, ha, hb with
    | x :: a, y :: b, ha, hb =>
      rw [strncmpEq]
      by_cases h : x = y
      · by_cases h0 : x = 0
        · exact ⟨true, by rw [if_neg (fun hn => hn h), if_pos h0]⟩
        · have : (0 : Byte) ∈ b := by
            rcases List.mem_cons.1 hb with hb | hb
            · exact absurd (h.trans hb.symm) h0
            · exact hb
          obtain ⟨r, hr⟩ := ih a b (by simp at ha; omega) this
          exact ⟨r, by rw [if_neg (fun hn => hn h), if_neg h0, hr]⟩
      · exact ⟨false, by simp [h]⟩

/-- A read of at most `n` bytes into an array never faults when the address does not wrap. -/
theorem halRead_safe (img : Str) (a n : Nat) (h : a + n < 4294967296) (hs : img.length < 4294967296) :
    halRead img a n = .ok none ∨ (halRead img a n = .ok (some ((img.drop a).take n)) ∧ a + n ≤ img.length) := by
  by_cases hi : a + n ≤ img.length
  · exact .inr ⟨halRead_in _ _ _ hi hs, hi⟩
  · exact .inl (halRead_out _ _ _ (by omega) h)

theorem name_safe (img : Str) (a : Nat) (h : a + 63 < 4294967296) (hs : img.length < 4294967296) (name : Str)
    (hn : name.length = 64) : ∃ m, halInto img a 63 name (copyTo name) = .ok m ∧ m.length = 64 := by
  rcases halRead_safe img a 63 h hs with hr | ⟨hr, hi⟩
  · exact ⟨name, halInto_none hr _ _, hn⟩
  · have hl : ((img.drop a).take 63).length = 63 := by rw [List.length_take, List.length_drop]; omega
    refine ⟨_, by rw [halInto_some hr, copyTo_ok (by omega)], ?_⟩
    rw [List.length_append, List.length_drop]; omega

theorem fatAddr_eq (fs : Erfs) : fs.fatAddr = 8 + (2 * fs.num + 3) / 4 * 4 := by
  rw [Erfs.fatAddr, align32_eq]

theorem scan_safe (fs : Erfs) (h : Sane fs) (hs : fs.img.length < 4294967296) (path : Str) : ∀ (k i : Nat) (s : Scan),
    i + k = fs.num → (i % 8 ≠ 0 → ∃ c, s.cache = some c) → s.name.length = 64 →
    ∃ r, fs.scan path k i s = .ok r ∧ ∀ f n, r = some (f, n) → f.dataPtr + f.len < 4294967296 := by
  have hf := fatAddr_eq fs
  obtain ⟨h1, h2⟩ := h
  intro k
  induction k with
  | zero => intro i s _ _ _; exact ⟨none, by rw [Erfs.scan], fun _ _ h => by cases h⟩
  | succ k ih =>
    intro i s hk hc hn
    have hcache : ∃ c, (if i % 8 = 0 then halInto fs.img (8 + i * 2) 16 s.cache (fun b => .ok (some b))
        else .ok s.cache) = .ok (some c) := by
      by_cases h8 : i % 8 = 0
      · rw [if_pos h8, halInto_some (halRead_in _ _ _ (by omega) hs)]; exact ⟨_, rfl⟩
      · rw [if_neg h8]; obtain ⟨c, hc⟩ := hc h8; exact ⟨c, by rw [hc]⟩
    obtain ⟨c, hc'⟩ := hcache
    rw [Erfs.scan, hc']
    simp only [ok_bind]
    obtain ⟨g1, g2⟩ := h2 i (by omega)
    split
    · rw [halInto_some (halRead_in _ _ _ (by omega) hs)]
      simp only [ok_bind]
      obtain ⟨m, hm, hm2⟩ := name_safe fs.img _ g1 hs s.name hn
      rw [hm]
      simp only [ok_bind]
      obtain ⟨r, hr⟩ := strncmpEq_ok 64 m (path ++ [0]) (by omega) (by simp)
      rw [hr]
      simp only [ok_bind]
      cases r with
      | true =>
        refine ⟨_, rfl, ?_⟩
        intro f n e
        obtain ⟨rfl, rfl⟩ := Prod.mk.inj (Option.some.inj e)
        exact g2
      | false => exact ih (i + 1) _ (by omega) (fun _ => ⟨c, rfl⟩) hm2
    · exact ih (i + 1) _ (by omega) (fun _ => ⟨c, rfl⟩) hn

theorem readLoop_safe (img : Str) (hs : img.length < 4294967296) : ∀ (k addr remain : Nat) (buf32 out : Str),
    remain < k → addr + remain < 4294967296 → buf32.length = 260 →
    ∃ b o, readLoop img k addr remain buf32 out = .ok (b, o) ∧ b.length = 260 ∧ o.length = out.length + remain := by
  intro k
  induction k with
  | zero => intro addr remain buf32 out h; omega
  | succ k ih =>
    intro addr remain buf32 out hk ha hb
    rw [readLoop]
    by_cases h0 : remain = 0
    · subst h0; rw [if_pos rfl]; exact ⟨buf32, out, rfl, hb, rfl⟩
    · rw [if_neg h0]
      have hal := align32_eq addr
      generalize hA : 4 - (align32 addr - addr) = A
      have hA1 : A ≤ 4 := by omega
      generalize hC : (if remain > 256 then 256 else remain) = C
      have hC1 : C ≤ 256 ∧ 0 < C ∧ C ≤ remain := by subst hC; split <;> omega
      dsimp only
      have hB : ∃ B, halInto img addr C buf32 (fun b => if A + b.length ≤ buf32.length then
          .ok (buf32.take A ++ b ++ buf32.drop (A + b.length)) else .error .outOfBounds) = .ok B ∧ B.length = 260 := by
        rcases halRead_safe img addr C (by omega) hs with hr | ⟨hr, hi⟩
        · exact ⟨buf32, halInto_none hr _ _, hb⟩
        · have hl : ((img.drop addr).take C).length = C := by rw [List.length_take, List.length_drop]; omega
          refine ⟨_, by rw [halInto_some hr, hl, if_pos (by omega)], ?_⟩
          simp only [List.length_append, hl, List.length_take, List.length_drop]; omega
      obtain ⟨B, hB, hBl⟩ := hB
      rw [hB]
      simp only [ok_bind]
      have hadd : add32 addr C = addr + C := Nat.mod_eq_of_lt (by omega)
      rw [if_pos (by omega), hadd]
      obtain ⟨b, o, h1, h2, h3⟩ := ih (addr + C) (remain - C) B (out ++ (B.drop A).take C) (by omega) (by omega) hBl
      refine ⟨b, o, h1, h2, ?_⟩
      rw [h3, List.length_append, List.length_take, List.length_drop]; omega

/-- A file whose content does not wrap can be read and moved in any way. -/
theorem run_safe (fs : Erfs) (fat : Fat) (name : Str) (hs : fs.img.length < 2147483648)
    (hf : fat.dataPtr + fat.len < 4294967296) (hlen : fat.len < 2147483648) (ops : List FileOp) : ∀ (pos : Nat) (buf32 : Str),
    pos ≤ fat.len → buf32.length = 260 → (∀ o ∈ ops, o.Valid) →
    ∃ rs, File.run ⟨fs, fat, name, pos⟩ buf32 ops = .ok rs ∧ ∀ r ∈ rs, r.2 ≤ fat.len := by
  induction ops with
  | nil => intro pos buf32 _ _ _; exact ⟨[], rfl, fun r h => by cases h⟩
  | cons o r ih =>
    intro pos buf32 hp h4 hv
    have hv1 := hv o (List.mem_cons_self ..)
    have hv2 : ∀ o ∈ r, o.Valid := fun x hx => hv x (List.mem_cons_of_mem _ hx)
    cases o with
    | read a buf size =>
      obtain ⟨v1, v2⟩ : size ≤ buf.length ∧ buf.length < 2147483648 := hv1
      have hread : ∃ b32 b k, File.read ⟨fs, fat, name, pos⟩ buf32 a buf size =
          .ok (⟨fs, fat, name, pos + k⟩, b32, b, k) ∧ b32.length = 260 ∧ pos + k ≤ fat.len := by
        rw [File.read]
        by_cases h0 : size = 0
        · rw [if_pos h0]; exact ⟨buf32, buf, 0, rfl, h4, hp⟩
        · rw [if_neg h0]
          dsimp only
          have e1 : add32 pos size = pos + size := Nat.mod_eq_of_lt (by omega)
          have e2 : add32 fat.dataPtr pos = fat.dataPtr + pos := Nat.mod_eq_of_lt (by omega)
          rw [e1, e2]
          generalize hK : (if pos + size > fat.len then (fat.len + 4294967296 - pos) % 4294967296 else size) = K
          have hK1 : pos + K ≤ fat.len ∧ K ≤ size := by subst hK; split <;> omega
          have e3 : add32 pos K = pos + K := Nat.mod_eq_of_lt (by omega)
          rw [e3]
          by_cases ha : (fat.dataPtr + pos) % 4 = a % 4
          · rw [if_pos ha]
            have : ∃ b, halInto fs.img (fat.dataPtr + pos) K buf (copyTo buf) = .ok b := by
              rcases halRead_safe fs.img (fat.dataPtr + pos) K (by omega) (by omega) with hr | ⟨hr, hi⟩
              · exact ⟨buf, halInto_none hr _ _⟩
              · exact ⟨_, by rw [halInto_some hr, copyTo_ok (by rw [List.length_take]; omega)]⟩
            obtain ⟨b, hb⟩ := this
            rw [hb]
            exact ⟨buf32, b, K, rfl, h4, hK1.1⟩
          · rw [if_neg ha]
            obtain ⟨b32, o, r1, r2, r3⟩ := readLoop_safe fs.img (by omega) (K + 1) (fat.dataPtr + pos) K buf32 []
              (by omega) (by omega) h4
            rw [r1]
            simp only [ok_bind]
            rw [copyTo_ok (by rw [r3]; simp; omega)]
            exact ⟨b32, _, K, rfl, r2, hK1.1⟩
      obtain ⟨b32, b, k, h1, h2, h3⟩ := hread
      rw [File.run, h1]
      simp only [ok_bind]
      obtain ⟨rs, g1, g2⟩ := ih (pos + k) b32 h3 h2 hv2
      rw [g1]
      refine ⟨_, rfl, fun x hx => ?_⟩
      rcases List.mem_cons.1 hx with rfl | hx
      · exact h3
      · exact g2 x hx
    | seek o w =>
      have hseek : ∃ b p, File.seek ⟨fs, fat, name, pos⟩ o.toNat w = (b, ⟨fs, fat, name, p⟩) ∧ p ≤ fat.len := by
        cases w with
        | start =>
          simp only [File.seek]
          by_cases h : o.toNat < fat.len
          · rw [if_pos h]; exact ⟨_, _, rfl, by omega⟩
          · rw [if_neg h]; exact ⟨_, _, rfl, hp⟩
        | here =>
          simp only [File.seek]
          by_cases h : add32 o.toNat pos < fat.len
          · rw [if_pos h]
            have : add32 pos o.toNat = add32 o.toNat pos := by simp only [add32, Nat.add_comm]
            exact ⟨_, _, rfl, by omega⟩
          · rw [if_neg h]; exact ⟨_, _, rfl, hp⟩
        | finish =>
          simp only [File.seek]
          by_cases h : o.toNat ≤ fat.len
          · rw [if_pos h]; exact ⟨_, _, rfl, by omega⟩
          · rw [if_neg h]; exact ⟨_, _, rfl, hp⟩
      obtain ⟨b, p, h1, h2⟩ := hseek
      rw [File.run, h1]
      dsimp only
      obtain ⟨rs, g1, g2⟩ := ih p buf32 h2 h4 hv2
      rw [g1]
      refine ⟨_, rfl, fun x hx => ?_⟩
      rcases List.mem_cons.1 hx with rfl | hx
      · exact h2
      · exact g2 x hx

theorem list_safe (fs : Erfs) (h : Sane fs) (hs : fs.img.length < 4294967296) : ∀ (k : Nat) (d : Dir),
    d.fs = fs → fs.num < d.index + k → d.index ≤ fs.num → d.name.length = 64 → ∃ es d', Dir.list k d = .ok (es, d') ∧
      es.length = fs.num - d.index := by
  obtain ⟨h1, h2⟩ := h
  intro k
  induction k with
  | zero => intro d hd hk hi _; omega
  | succ k ih =>
    intro d hd hk hi hn
    rw [Dir.list, Dir.next, hd]
    by_cases hlt : d.index < fs.num
    · rw [if_pos hlt]
      obtain ⟨g1, -⟩ := h2 d.index hlt
      rw [halInto_some (halRead_in _ _ _ (by omega) hs)]
      simp only [ok_bind]
      obtain ⟨m, hm, hm2⟩ := name_safe fs.img _ g1 hs d.name hn
      rw [hm]
      simp only [ok_bind, pure_ok, if_true]
      obtain ⟨es, d', e1, e2⟩ := ih { d with
        index := d.index + 1,
        fat := Fat.ofBytes ((fs.img.drop (fs.fatAddr + 16 * d.index)).take 16),
        name := m } hd (by simp only; omega) (by simp only; omega) hm2
      rw [hd] at e1
      rw [e1]
      exact ⟨_, _, rfl, by simp only [List.length_cons, e2]; omega⟩
    · rw [if_neg hlt]
      exact ⟨[], d, rfl, by simp; omega⟩

/-- **C68.**  Whatever the partition holds, opening any path, any use of an open file, listing and asking for
the usage read only the partition and initialised memory.

Partial: the tables announced by the header fit in the partition, and the addresses and lengths of the records
do not wrap on 32 bits (`c68_refuted_count`, `c68_refuted_name`); a corrupted length is below 2 GiB. -/
theorem c68_safe_partial (img : Str) (hs : img.length < 2147483648) (fs : Erfs)
    (hm : Erfs.begin img = .ok (true, fs)) (h : Sane fs) :
    (∀ path, ∃ r, fs.open path = .ok r ∧ ∀ f, r = some f → f.fat.len < 2147483648 →
      ∀ buf32, buf32.length = 260 → ∀ ops, (∀ o ∈ ops, FileOp.Valid o) →
        ∃ rs, f.run buf32 ops = .ok rs ∧ ∀ r ∈ rs, r.2 ≤ f.fat.len) ∧
    (∃ d es d', fs.openDir (bs "/") = some d ∧ Dir.list (fs.num + 1) d = .ok (es, d') ∧ es.length = fs.num) ∧
    ∃ used, fs.info = .ok (img.length, used) := by
  have himg : fs.img = img := by
    rw [Erfs.begin] at hm
    cases hr : halRead img 0 8 with
    | error e => rw [hr] at hm; cases hm
    | ok r =>
      rw [hr] at hm
      simp only [ok_bind] at hm
      cases r with
      | none => cases hm
      | some b =>
        simp only [pure_ok] at hm
        split at hm
        · cases hm
        · rw [← (Prod.mk.inj (Except.ok.inj hm)).2]
  rw [← himg] at hs
  refine ⟨fun path => ?_, ?_, ?_⟩
  · rw [open_eq]
    obtain ⟨r, h1, h2⟩ := scan_safe fs h (by omega) (skipSlash path) fs.num 0 ⟨none, none, List.replicate 64 0⟩
      (by omega) (fun h => absurd rfl h) (by simp)
    rw [h1]
    cases r with
    | none => exact ⟨none, rfl, fun f h => by cases h⟩
    | some x =>
      obtain ⟨fat, n⟩ := x
      refine ⟨_, rfl, fun f e hl buf32 h4 ops hv => ?_⟩
      have e := Option.some.inj e
      subst e
      exact run_safe fs fat n (by omega) (h2 fat n rfl) hl ops 0 buf32 (Nat.zero_le _) h4 hv
  · obtain ⟨es, d', e1, e2⟩ := list_safe fs h (by omega) (fs.num + 1) ⟨fs, 0, ⟨0, 0, 0, 0⟩, List.replicate 64 0⟩ rfl
      (by simp only; omega) (by simp only; omega) (by simp)
    exact ⟨_, es, d', by simp [Erfs.openDir], e1, by simpa using e2⟩
  · rw [Erfs.info]
    by_cases h0 : fs.num > 0
    · rw [if_pos h0, halInto_some (halRead_in _ _ _ (by have := h.1; omega) (by omega)), himg]
      exact ⟨_, rfl⟩
    · rw [if_neg h0, himg]; exact ⟨_, rfl⟩

/-- The image of the three files with its contents overwritten still is sane. -/
example : Sane ⟨threeImage.take 84 ++ List.replicate 216 255, 3⟩ := by
  refine ⟨by decide +kernel, ?_⟩
  decide +kernel

/-- A partition whose header announces three files and whose tables do not fit. -/
def badCount : Str := bs "ERFS" ++ [3, 2, 3, 0] ++ le16 0 ++ le16 194 ++ List.replicate 20 0

/-- C68 fails if the number of files is wrong: the record of a file is read after the end of the partition, and
the record that is used is not initialised. -/
theorem c68_refuted_count : Erfs.begin badCount = .ok (true, ⟨badCount, 3⟩) ∧
    (Erfs.open ⟨badCount, 3⟩ (bs "a")).map Option.isSome = .error .uninit ∧
    Erfs.info ⟨badCount, 3⟩ = .error .uninit := by decide +kernel

/-- A partition with a record whose name is at 2³² - 1. -/
def badName : Str :=
  bs "ERFS" ++ [3, 2, 1, 0] ++ le16 194 ++ le16 0 ++ recBytes 4294967295 0 0 0 ++ List.replicate 100 0

/-- C68 fails if the address of a name is close to 2³²: the check of the bounds wraps. -/
theorem c68_refuted_name : Erfs.begin badName = .ok (true, ⟨badName, 1⟩) ∧
    (Erfs.open ⟨badName, 1⟩ (bs "a")).map Option.isSome = .error .outOfBounds := by decide +kernel

end Wifinfo
