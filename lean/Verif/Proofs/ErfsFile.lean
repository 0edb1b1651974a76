import Verif.Proofs.Erfs

/-!
# Reading, seeking and listing
-/

namespace Wifinfo
open Spec

/-- One turn of the copy loop puts the right bytes in the caller's buffer. -/
theorem readLoop_ok (img : Str) (hs : img.length < 4294967296) : ∀ (k addr remain : Nat) (buf32 out : Str),
    remain < k → addr + remain ≤ img.length → buf32.length = 260 →
    ∃ b, readLoop img k addr remain buf32 out = .ok (b, out ++ (img.drop addr).take remain) ∧ b.length = 260 := by
  intro k
  induction k with
  | zero => intro addr remain buf32 out h; omega
  | succ k ih =>
    intro addr remain buf32 out hk ha hb
    rw [readLoop]
    by_cases h0 : remain = 0
    · subst h0; rw [if_pos rfl]; exact ⟨buf32, by simp, hb⟩
    · rw [if_neg h0]
      have hal := align32_eq addr
      generalize hA : 4 - (align32 addr - addr) = A
      have hA1 : A ≤ 4 := by omega
      generalize hC : (if remain > 256 then 256 else remain) = C
      have hC1 : C ≤ 256 ∧ 0 < C ∧ C ≤ remain := by subst hC; split <;> omega
      have hl : ((img.drop addr).take C).length = C := by
        rw [List.length_take, List.length_drop]; omega
      dsimp only
      rw [halInto_some (halRead_in img addr C (by omega) hs), hl, if_pos (by omega)]
      simp only [ok_bind]
      generalize hB : buf32.take A ++ (img.drop addr).take C ++ buf32.drop (A + C) = B
      have hBl : B.length = 260 := by
        subst hB
        simp only [List.length_append, hl, List.length_take, List.length_drop]; omega
      have hBd : (B.drop A).take C = (img.drop addr).take C := by
        subst hB
        have e : (buf32.take A).length = A := by rw [List.length_take]; omega
        rw [List.append_assoc, List.drop_append_of_le_length (by omega),
          List.drop_of_length_le (by omega), List.nil_append,
          List.take_append_of_le_length (by omega), List.take_of_length_le (by omega)]
      rw [if_pos (by omega), hBd]
      have hadd : add32 addr C = addr + C := Nat.mod_eq_of_lt (by omega)
      rw [hadd]
      obtain ⟨b, h1, h2⟩ := ih (addr + C) (remain - C) B (out ++ (img.drop addr).take C) (by omega) (by omega) hBl
      refine ⟨b, ?_, h2⟩
      rw [h1, List.append_assoc, ← List.drop_drop, ← List.take_add, show C + (remain - C) = remain by omega]

theorem copyTo_ok {dst src : Str} (h : src.length ≤ dst.length) :
    copyTo dst src = .ok (src ++ dst.drop src.length) := by rw [copyTo, if_pos h]

/-- One read. -/
theorem read_ok (f : File) (content t : Str) (buf32 : Str) (a : Nat) (buf : Str) (size : Nat)
    (hd : f.fs.img.drop f.fat.dataPtr = content ++ t) (hl : f.fat.len = content.length)
    (hp : f.pos ≤ content.length) (h1 : f.fs.img.length < 2147483648)
    (hb : f.fat.dataPtr + content.length ≤ f.fs.img.length) (h2 : size ≤ buf.length)
    (h3 : buf.length < 2147483648) (h4 : buf32.length = 260) :
    ∃ b32, f.read buf32 a buf size = .ok ({ f with pos := f.pos + ((content.drop f.pos).take size).length }, b32,
      (content.drop f.pos).take size ++ buf.drop ((content.drop f.pos).take size).length,
      ((content.drop f.pos).take size).length) ∧ b32.length = 260 := by
  rw [File.read]
  by_cases h0 : size = 0
  · subst h0; rw [if_pos rfl]; exact ⟨buf32, by simp [pure_ok], h4⟩
  · rw [if_neg h0]
    have e1 : add32 f.pos size = f.pos + size := Nat.mod_eq_of_lt (by omega)
    have e2 : add32 f.fat.dataPtr f.pos = f.fat.dataPtr + f.pos := Nat.mod_eq_of_lt (by omega)
    have e3 : (if add32 f.pos size > f.fat.len then (f.fat.len + 4294967296 - f.pos) % 4294967296 else size) =
        ((content.drop f.pos).take size).length := by
      rw [e1, hl, List.length_take, List.length_drop]; split <;> omega
    dsimp only
    rw [e3, e2]
    have e4 : (f.fs.img.drop (f.fat.dataPtr + f.pos)).take ((content.drop f.pos).take size).length =
        (content.drop f.pos).take size := by
      rw [← List.drop_drop, hd, List.drop_append_of_le_length hp, List.length_take, List.length_drop,
        List.take_append_of_le_length (by rw [List.length_drop]; omega)]
      by_cases hq : size ≤ content.length - f.pos
      · rw [Nat.min_eq_left hq]
      · rw [Nat.min_eq_right (by omega), List.take_of_length_le (by rw [List.length_drop]; omega),
          List.take_of_length_le (by rw [List.length_drop]; omega)]
    have e5 : ((content.drop f.pos).take size).length ≤ content.length - f.pos := by
      rw [List.length_take, List.length_drop]; omega
    have e6 : ((content.drop f.pos).take size).length ≤ size := by rw [List.length_take]; omega
    generalize hg : (content.drop f.pos).take size = g at e4 e5 e6
    have e7 : add32 f.pos g.length = f.pos + g.length := Nat.mod_eq_of_lt (by omega)
    by_cases ha : (f.fat.dataPtr + f.pos) % 4 = a % 4
    · rw [if_pos ha, halInto_some (halRead_in _ _ _ (by omega) (by omega)), e4, copyTo_ok (by omega), e7]
      exact ⟨buf32, rfl, h4⟩
    · rw [if_neg ha]
      obtain ⟨b, r1, r2⟩ := readLoop_ok f.fs.img (by omega) (g.length + 1) (f.fat.dataPtr + f.pos) g.length buf32 []
        (by omega) (by omega) h4
      rw [r1, e4, List.nil_append, e7]
      simp only [ok_bind]
      rw [copyTo_ok (by omega)]
      exact ⟨b, rfl, r2⟩

/-- One seek. -/
theorem seek_ok (f : File) (content : Str) (o : UInt32) (w : Whence) (hl : f.fat.len = content.length)
    (hp : f.pos ≤ content.length) (hs : content.length < 2147483648) :
    f.seek o.toNat w = (inside content (aim content f.pos o w) w,
      { f with pos := (if inside content (aim content f.pos o w) w then (aim content f.pos o w).toNat
        else f.pos) }) := by
  have ho := o.toNat_lt
  have yes : ∀ n : Nat, inside content (aim content f.pos o w) w = true → (aim content f.pos o w).toNat = n →
      ((true, { f with pos := n }) : Bool × File) = (inside content (aim content f.pos o w) w,
        { f with pos := (if inside content (aim content f.pos o w) w then (aim content f.pos o w).toNat
          else f.pos) }) := by
    intro n h1 h2; rw [h1, if_pos rfl, h2]
  have no : inside content (aim content f.pos o w) w ≠ true →
      ((false, f) : Bool × File) = (inside content (aim content f.pos o w) w,
        { f with pos := (if inside content (aim content f.pos o w) w then (aim content f.pos o w).toNat
          else f.pos) }) := by
    intro h1; rw [if_neg h1, Bool.eq_false_iff.2 h1]
  cases w with
  | start =>
    simp only [File.seek, hl]
    by_cases h : o.toNat < content.length
    · rw [if_pos h]
      exact yes _ (decide_eq_true (by simp only [aim]; omega)) (by simp only [aim]; omega)
    · rw [if_neg h]
      exact no fun hi => absurd (of_decide_eq_true hi) (by simp only [aim]; omega)
  | here =>
    simp only [File.seek, hl, add32]
    have hsg : signed o = if o.toNat < 2147483648 then (o.toNat : Int) else (o.toNat : Int) - 4294967296 := rfl
    by_cases h : (o.toNat + f.pos) % 4294967296 < content.length
    · rw [if_pos h]
      refine yes _ (decide_eq_true ?_) ?_
      · simp only [aim, hsg]; split <;> omega
      · simp only [aim, hsg]; split <;> omega
    · rw [if_neg h]
      refine no fun hi => absurd (of_decide_eq_true hi) ?_
      simp only [aim, hsg]; split <;> omega
  | finish =>
    simp only [File.seek, hl]
    by_cases h : o.toNat ≤ content.length
    · rw [if_pos h]
      exact yes _ (decide_eq_true (by simp only [aim]; omega)) (by simp only [aim]; omega)
    · rw [if_neg h]
      exact no fun hi => absurd (of_decide_eq_true hi) (by simp only [aim]; omega)

/-- The position stays in the file. -/
theorem fileStep_pos (content : Str) (pos : Nat) (o : FileOp) (h : pos ≤ content.length) :
    (fileStep content pos o).2 ≤ content.length := by
  cases o with
  | read a b n =>
    simp only [fileStep, List.length_take, List.length_drop]; omega
  | seek o w =>
    simp only [fileStep]
    by_cases hi : inside content (aim content pos o w) w = true
    · rw [if_pos hi]
      cases w <;> simp [inside] at hi <;> dsimp only <;> omega
    · rw [if_neg hi]; exact h

/-- Any sequence of operations. -/
theorem run_ok (fs : Erfs) (fat : Fat) (name content t : Str) (hd : fs.img.drop fat.dataPtr = content ++ t)
    (hl : fat.len = content.length) (h1 : fs.img.length < 2147483648)
    (hb : fat.dataPtr + content.length ≤ fs.img.length) (ops : List FileOp) :
    ∀ (pos : Nat) (buf32 : Str), pos ≤ content.length → buf32.length = 260 → (∀ o ∈ ops, o.Valid) →
      File.run ⟨fs, fat, name, pos⟩ buf32 ops = .ok (fileRun content pos ops) := by
  induction ops with
  | nil => intro pos buf32 _ _ _; rfl
  | cons o r ih =>
    intro pos buf32 hp h4 hv
    have hv1 := hv o (List.mem_cons_self ..)
    have hv2 : ∀ o ∈ r, o.Valid := fun x hx => hv x (List.mem_cons_of_mem _ hx)
    have hp' := fileStep_pos content pos o hp
    cases o with
    | read a buf size =>
      obtain ⟨b, r1, r2⟩ := read_ok ⟨fs, fat, name, pos⟩ content t buf32 a buf size hd hl hp h1 hb hv1.1 hv1.2 h4
      rw [File.run, r1]
      simp only [ok_bind]
      rw [ih (pos + ((content.drop pos).take size).length) b hp' r2 hv2]
      rfl
    | seek o w =>
      rw [File.run, seek_ok ⟨fs, fat, name, pos⟩ content o w hl hp (by omega)]
      dsimp only
      rw [fileRun]
      simp only [fileStep] at hp' ⊢
      by_cases hi : inside content (aim content pos o w) w = true
      · rw [if_pos hi] at hp' ⊢
        rw [if_pos hi, ih _ buf32 hp' h4 hv2, hi]; rfl
      · rw [if_neg hi] at hp' ⊢
        rw [if_neg hi, ih _ buf32 hp' h4 hv2, Bool.eq_false_iff.2 hi]; rfl

/-! ## Listing -/

variable {l : List Src} {size : Nat} {img : Str}

theorem cstrOf_app (u t : Str) (h : NulFree u) : cstrOf (u ++ 0 :: t) = u := by
  induction u with
  | nil => simp [cstrOf]
  | cons x r ih =>
    have hx : x ≠ 0 := h x (List.mem_cons_self ..)
    have := ih fun b hb => h b (List.mem_cons_of_mem _ hb)
    simp [cstrOf, hx] at this ⊢
    exact this

/-- What a listing gives, knowing the text of the name buffer before. -/
def listing (l : List Src) (size : Nat) : Str → List Src → List Src → List (Str × Nat × Nat)
  | _, _, [] => []
  | u, pre, f :: r =>
    let u' := if (fatOf l pre f).namePtr + 63 ≤ size then f.name.take 63 else u
    (u', f.data.length, f.mtime.toNat) :: listing l size u' (pre ++ [f]) r

theorem list_spec (h : IsImage l size img) (hs : size + 64 ≤ 4294967296) (hn : ∀ f ∈ l, NulFree f.name)
    (rest : List Src) : ∀ (pre : List Src) (d : Dir) (u : Str), l = pre ++ rest → d.fs = ⟨img, l.length⟩ →
      d.index = pre.length → NameHas d.name u → d.name.getD 63 0 = 0 → ∀ k, rest.length < k →
      ∃ d', Dir.list k d = .ok (listing l size u pre rest, d') ∧ d'.fs = ⟨img, l.length⟩ ∧
        d'.index = l.length ∧ (∃ u, NameHas d'.name u) ∧ d'.name.getD 63 0 = 0 := by
  have hl := h.length
  induction rest with
  | nil =>
    intro pre d u e h1 h2 h3 h4 k hk
    obtain ⟨k, rfl⟩ : ∃ m, k = m + 1 := ⟨k - 1, by omega⟩
    have e2 : l.length = pre.length := by rw [e]; simp
    refine ⟨d, ?_, h1, by omega, ⟨u, h3⟩, h4⟩
    rw [Dir.list, Dir.next, h1, if_neg (by simp only; omega)]
    rfl
  | cons f r ih =>
    intro pre d u e h1 h2 h3 h4 k hk
    obtain ⟨k, rfl⟩ : ∃ m, k = m + 1 := ⟨k - 1, by omega⟩
    have e2 : l.length = pre.length + (r.length + 1) := by rw [e]; simp
    obtain ⟨b1, b2, b3⟩ := fatOf_bounds e
    have ht : totalSize l ≤ size := h.1
    obtain ⟨b, hb, hb', -⟩ := h.fat (by omega) e
    have hfat : (Erfs.fatAddr ⟨img, l.length⟩) = fatOff l.length := rfl
    -- the name
    have hname : ∃ m, halInto img (fatOf l pre f).namePtr 63 d.name (copyTo d.name) = .ok m ∧
        NameHas m (if (fatOf l pre f).namePtr + 63 ≤ size then f.name.take 63 else u) ∧ m.getD 63 0 = 0 := by
      by_cases room : (fatOf l pre f).namePtr + 63 ≤ size
      · obtain ⟨t, ht'⟩ := h.name e
        obtain ⟨m, hm, hm2, hm3⟩ := nameHas_copy (hn f (by rw [e]; simp)) ht'
          (by rw [List.length_drop]; omega) h3 h4
        rw [halInto_some (halRead_in _ _ _ (by omega) (by omega)), if_pos room]
        exact ⟨m, hm, hm2, hm3⟩
      · rw [halInto_none (halRead_out _ _ _ (by omega) (by omega)), if_neg room]
        exact ⟨_, rfl, h3, h4⟩
    obtain ⟨m, m1, m2, m3⟩ := hname
    have hnext : d.next = .ok (true, { d with index := d.index + 1, fat := fatOf l pre f, name := m }) := by
      rw [Dir.next, h1, if_pos (by simp only; omega)]
      rw [hfat, h2, halInto_some hb]
      simp only [ok_bind, hb', m1]
      rfl
    obtain ⟨d', c1, c2⟩ := ih (pre ++ [f]) { d with index := d.index + 1, fat := fatOf l pre f, name := m } _
      (by rw [e]; simp) h1 (by simp [h2]) m2 m3 k (by simp at hk; omega)
    refine ⟨d', ?_, c2⟩
    rw [Dir.list, hnext]
    simp only [ok_bind, if_true]
    rw [c1]
    simp only [ok_bind, pure_ok, listing]
    obtain ⟨-, k1, -, t, k2⟩ := id m2
    have : ({ d with index := d.index + 1, fat := fatOf l pre f, name := m } : Dir).entry =
        ((if (fatOf l pre f).namePtr + 63 ≤ size then f.name.take 63 else u), f.data.length, f.mtime.toNat) := by
      rw [Dir.entry, if_pos ⟨by simp, by simp only [h1]; omega⟩]
      simp only
      rw [k2, cstrOf_app _ _ k1]; rfl
    rw [this]

end Wifinfo
