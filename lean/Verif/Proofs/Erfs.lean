import Verif.Proofs.Mkerfs
import Verif.Proofs.Queries

/-!
# What the reader finds in a built image
-/

namespace Wifinfo
open Spec

theorem halRead_in (img : Str) (a n : Nat) (h : a + n ≤ img.length) (hs : img.length < 4294967296) :
    halRead img a n = .ok (some ((img.drop a).take n)) := by
  have e : add32 a n = a + n := Nat.mod_eq_of_lt (by omega)
  rw [halRead, e, if_neg (by omega), if_pos h]

theorem halRead_out (img : Str) (a n : Nat) (h : img.length < a + n) (hs : a + n < 4294967296) :
    halRead img a n = .ok none := by
  have e : add32 a n = a + n := Nat.mod_eq_of_lt hs
  rw [halRead, e, if_pos h]

theorem halRead_at (p x q : Str) (hs : (p ++ (x ++ q)).length < 4294967296) :
    halRead (p ++ (x ++ q)) p.length x.length = .ok (some x) := by
  rw [halRead_in _ _ _ (by simp only [List.length_append]; omega) hs, List.drop_left, List.take_left]

theorem halRead_at' (img p x q : Str) (a n : Nat) (e : img = p ++ (x ++ q)) (ha : a = p.length)
    (hn : n = x.length) (hs : img.length < 4294967296) : halRead img a n = .ok (some x) := by
  subst e ha hn; exact halRead_at p x q hs

theorem halInto_some {α : Type} {img : Str} {a n : Nat} {b : Str} (h : halRead img a n = .ok (some b)) (old : α)
    (f : Str → Res α) : halInto img a n old f = f b := by
  rw [halInto, h]

theorem halInto_none {α : Type} {img : Str} {a n : Nat} (h : halRead img a n = .ok none) (old : α)
    (f : Str → Res α) : halInto img a n old f = .ok old := by
  rw [halInto, h]

/-- A partition of `size` bytes that begins with what the builder writes for `l`, whatever comes after. -/
def IsImage (l : List Src) (size : Nat) (img : Str) : Prop :=
  totalSize l ≤ size ∧ ∃ b, pyWrite l = some b ∧ ∃ z, z.length = size - totalSize l ∧ img = b ++ z

/-- The record of the file after `pre`. -/
def fatOf (l pre : List Src) (f : Src) : Fat :=
  recOf (namesOff l.length) (namesOff l.length + namesLen l) pre f

variable {l : List Src} {size : Nat} {img : Str}

theorem IsImage.length (h : IsImage l size img) : img.length = size := by
  obtain ⟨h1, b, hb, z, hz, rfl⟩ := h
  rw [List.length_append, pyWrite_length l b hb, ← totalSize_eq, hz]; omega

theorem IsImage.count (h : IsImage l size img) : l.length < 65536 := by
  obtain ⟨-, b, hb, -⟩ := h
  exact ((pyWrite_eq ..).1 hb).1

theorem IsImage.mount (h : IsImage l size img) (hs : size < 4294967296) :
    Erfs.begin img = .ok (true, ⟨img, l.length⟩) := by
  have hl := h.length
  have hc := h.count
  obtain ⟨h1, b, hb, z, hz, rfl⟩ := h
  obtain ⟨-, x, hx, rfl⟩ := (pyWrite_eq ..).1 hb
  have r := halRead_at' _ [] (bs "ERFS" ++ [3, 2] ++ le16 l.length) _ 0 8 (by
    rw [List.nil_append, List.append_assoc]) rfl (by simp [le16]; decide) (hl ▸ hs)
  have e : bs "ERFS" = [0x45, 0x52, 0x46, 0x53] := by decide
  have n6 := rd16_append (bs "ERFS" ++ [3, 2]) (le16 l.length ++ []) 0
  rw [rd16_le16 _ _ hc, List.append_nil, e] at n6
  rw [e] at r ⊢
  rw [Erfs.begin, r]
  simp only [ok_bind]
  rw [if_neg]
  · simp only [List.cons_append, List.nil_append, List.length_cons, List.length_nil, Nat.reduceAdd] at n6
    simp only [List.cons_append, List.nil_append, n6]; rfl
  · simp [rd32, rd16]

/-- The stored hash of a file. -/
theorem IsImage.hash (h : IsImage l size img) {pre post : List Src} {f : Src} (e : l = pre ++ f :: post) :
    rd16 img (8 + 2 * pre.length) = nameHash f.name := by
  obtain ⟨h1, b, hb, z, hz, rfl⟩ := h
  obtain ⟨-, x, hx, rfl⟩ := (pyWrite_eq ..).1 hb
  have hh : ∀ t, rd16 (((bs "ERFS" ++ [3, 2] ++ le16 l.length) ++
      (pre.flatMap fun f => le16 (nameHash f.name))) ++ (le16 (nameHash f.name) ++ t))
      (8 + 2 * pre.length) = nameHash f.name := by
    intro t
    have := rd16_append ((bs "ERFS" ++ [3, 2] ++ le16 l.length) ++
      (pre.flatMap fun f => le16 (nameHash f.name))) (le16 (nameHash f.name) ++ t) 0
    rw [rd16_le16 _ _ (nameHash_lt _), List.length_append, flatMap_hash_length] at this
    exact this
  rw [← hh]
  congr 1
  conv => lhs; arg 1; arg 2; rw [e]
  simp only [List.flatMap_append, List.flatMap_cons, List.append_assoc]
  rfl

/-- The stored record of a file. -/
theorem IsImage.fat (h : IsImage l size img) (hs : size < 4294967296) {pre post : List Src} {f : Src}
    (e : l = pre ++ f :: post) : ∃ b, halRead img (fatOff l.length + 16 * pre.length) 16 = .ok (some b) ∧
      Fat.ofBytes b = fatOf l pre f ∧ 0 ≤ f.mtime := by
  have hl := h.length
  obtain ⟨h1, b, hb, z, hz, rfl⟩ := h
  obtain ⟨-, x, hx, rfl⟩ := (pyWrite_eq ..).1 hb
  obtain ⟨u, v, rfl, hu, m0, m1, m2, m3, m4⟩ := pyFat_split pre f post _ _ x (by rw [← e]; exact hx)
  refine ⟨_, halRead_at' _ ((bs "ERFS" ++ [3, 2] ++ le16 l.length) ++
      ((l.flatMap fun f : Src => le16 (nameHash f.name)) ++
        (zeros (pyAlign (2 * l.length) - 2 * l.length) ++ u)))
      (recBytes (namesOff l.length + namesLen pre) (namesOff l.length + namesLen l + datasLen pre)
        f.data.length f.mtime.toNat) (v ++ (pyNames l ++ (pyDatas l ++ z))) _ _ (by
      simp only [List.append_assoc]) ?_ rfl (by rw [hl]; exact hs), ofBytes_rec _ _ _ _ m2 m3 m4 (by omega), m0⟩
  have e : (bs "ERFS").length = 4 := by decide
  have e2 : (le16 l.length).length = 2 := rfl
  simp only [List.length_append, flatMap_hash_length, zeros, List.length_replicate, hu, e, e2, fatOff,
    List.length_cons, List.length_nil]
  have := pyAlign_eq (2 * l.length)
  omega

/-- The name of a file and what comes after. -/
theorem IsImage.name (h : IsImage l size img) {pre post : List Src} {f : Src}
    (e : l = pre ++ f :: post) : ∃ t, img.drop (fatOf l pre f).namePtr = f.name ++ 0 :: t := by
  obtain ⟨h1, b, hb, z, hz, rfl⟩ := h
  obtain ⟨-, x, hx, rfl⟩ := (pyWrite_eq ..).1 hb
  have h0 : zeros (pyAlign (f.name.length + 1) - f.name.length) =
      0 :: zeros (pyAlign (f.name.length + 1) - f.name.length - 1) := by
    have := pyAlign_eq (f.name.length + 1)
    unfold zeros
    rw [← List.replicate_succ]; congr 1; omega
  have en : pyNames l = pyNames pre ++ ((f.name ++ 0 :: zeros (pyAlign (f.name.length + 1) - f.name.length - 1)) ++
      pyNames post) := by
    rw [e, pyNames_append]
    have : pyNames (f :: post) = (f.name ++ zeros (pyAlign (f.name.length + 1) - f.name.length)) ++ pyNames post := rfl
    rw [this, h0]
  have el : (fatOf l pre f).namePtr = ((((bs "ERFS" ++ [3, 2] ++ le16 l.length : Str)) ++
      ((l.flatMap fun f : Src => le16 (nameHash f.name)) ++
        (zeros (pyAlign (2 * l.length) - 2 * l.length) ++ (x ++ pyNames pre))))).length := by
    have e : (bs "ERFS").length = 4 := by decide
    have e2 : (le16 l.length).length = 2 := rfl
    simp only [List.length_append, flatMap_hash_length, zeros, List.length_replicate, e, e2,
      pyNames_length, List.length_cons, List.length_nil, pyFat_length _ _ _ _ hx, fatOf, recOf, namesOff, fatOff]
    have := pyAlign_eq (2 * l.length)
    omega
  rw [en, el]
  refine ⟨zeros (pyAlign (f.name.length + 1) - f.name.length - 1) ++ (pyNames post ++ (pyDatas l ++
    z)), ?_⟩
  rw [← List.cons_append, ← List.append_assoc]
  refine Eq.trans ?_ (List.drop_left (l₁ := ((bs "ERFS" ++ [3, 2] ++ le16 l.length) ++
      ((l.flatMap fun f : Src => le16 (nameHash f.name)) ++
        (zeros (pyAlign (2 * l.length) - 2 * l.length) ++ (x ++ pyNames pre))))))
  congr 1
  simp only [List.append_assoc]

/-- The content of a file. -/
theorem IsImage.data (h : IsImage l size img) {pre post : List Src} {f : Src}
    (e : l = pre ++ f :: post) : ∃ t, img.drop (fatOf l pre f).dataPtr = f.data ++ t := by
  obtain ⟨h1, b, hb, z, hz, rfl⟩ := h
  obtain ⟨-, x, hx, rfl⟩ := (pyWrite_eq ..).1 hb
  have en : pyDatas l = pyDatas pre ++ ((f.data ++ zeros (pyAlign f.data.length - f.data.length)) ++
      pyDatas post) := by
    rw [e, pyDatas_append]; rfl
  have el : (fatOf l pre f).dataPtr = ((((bs "ERFS" ++ [3, 2] ++ le16 l.length : Str)) ++
      ((l.flatMap fun f : Src => le16 (nameHash f.name)) ++
        (zeros (pyAlign (2 * l.length) - 2 * l.length) ++ (x ++ (pyNames l ++ pyDatas pre)))))).length := by
    have e : (bs "ERFS").length = 4 := by decide
    have e2 : (le16 l.length).length = 2 := rfl
    simp only [List.length_append, flatMap_hash_length, zeros, List.length_replicate, e, e2,
      pyNames_length, pyDatas_length, List.length_cons, List.length_nil, pyFat_length _ _ _ _ hx, fatOf, recOf,
      namesOff, fatOff]
    have := pyAlign_eq (2 * l.length)
    omega
  rw [en, el]
  refine ⟨zeros (pyAlign f.data.length - f.data.length) ++ (pyDatas post ++
    z), ?_⟩
  refine Eq.trans ?_ (List.drop_left (l₁ := ((bs "ERFS" ++ [3, 2] ++ le16 l.length) ++
      ((l.flatMap fun f : Src => le16 (nameHash f.name)) ++
        (zeros (pyAlign (2 * l.length) - 2 * l.length) ++ (x ++ (pyNames l ++ pyDatas pre)))))))
  congr 1
  simp only [List.append_assoc]

/-- Places of a file. -/
theorem fatOf_bounds {pre post : List Src} {f : Src} (e : l = pre ++ f :: post) :
    (fatOf l pre f).namePtr + f.name.length + 1 + datasLen l ≤ totalSize l ∧
    (fatOf l pre f).dataPtr + f.data.length ≤ totalSize l ∧ 24 + 2 * pre.length ≤ totalSize l := by
  have a1 : namesLen l = namesLen pre + (pyAlign (f.name.length + 1) + namesLen post) := by
    rw [e, namesLen_append]; simp [namesLen]
  have a2 : datasLen l = datasLen pre + (pyAlign f.data.length + datasLen post) := by
    rw [e, datasLen_append]; simp [datasLen]
  have a3 : l.length = pre.length + (post.length + 1) := by rw [e]; simp
  rw [totalSize_eq]
  have b1 := pyAlign_eq (f.name.length + 1)
  have b2 := pyAlign_eq f.data.length
  have b3 := pyAlign_eq (2 * l.length)
  simp only [fatOf, recOf, namesOff, fatOff]
  refine ⟨?_, ?_, ?_⟩ <;> omega

/-! ## Opening -/

theorem strncmpEq_spec (u : Str) : ∀ (p t : Str) (n : Nat), u.length < n → NulFree u → NulFree p →
    strncmpEq n (u ++ 0 :: t) (p ++ [0]) = .ok (decide (u = p)) := by
  induction u with
  | nil =>
    intro p t n hn _ hp
    obtain ⟨m, rfl⟩ : ∃ m, n = m + 1 := ⟨n - 1, by simp at hn; omega⟩
    cases p with
    | nil => simp [strncmpEq]
    | cons y p =>
      have : (0 : Byte) ≠ y := fun h => hp y (List.mem_cons_self ..) h.symm
      simp [strncmpEq, this]
  | cons x u ih =>
    intro p t n hn hu hp
    obtain ⟨m, rfl⟩ : ∃ m, n = m + 1 := ⟨n - 1, by simp at hn; omega⟩
    have hx : x ≠ 0 := hu x (List.mem_cons_self ..)
    cases p with
    | nil => simp [strncmpEq, hx]
    | cons y p =>
      by_cases h : x = y
      · subst h
        simp only [List.cons_append, strncmpEq, ne_eq, not_true_eq_false, if_false, hx, List.cons.injEq, true_and]
        exact ih p t m (by simp at hn; omega) (fun b hb => hu b (List.mem_cons_of_mem _ hb))
          fun b hb => hp b (List.mem_cons_of_mem _ hb)
      · simp [strncmpEq, h]

theorem rd16_cache (img : Str) (o r : Nat) (hr : r < 8) :
    rd16 ((img.drop o).take 16) (2 * r) = rd16 img (o + 2 * r) := by
  simp only [rd16, List.getD_eq_getElem?_getD]
  rw [List.getElem?_take_of_lt (by omega), List.getElem?_take_of_lt (by omega), List.getElem?_drop,
    List.getElem?_drop]
  rfl

/-- The name buffer of 64 bytes holds the text `u`. -/
def NameHas (name u : Str) : Prop := name.length = 64 ∧ NulFree u ∧ u.length ≤ 63 ∧ ∃ t, name = u ++ 0 :: t

theorem nameHas_zero : NameHas (List.replicate 64 0) [] :=
  ⟨List.length_replicate .., by simp [NulFree], by decide, List.replicate 63 0, rfl⟩

/-- The bytes of a name copied to the buffer. -/
theorem nameHas_copy {x name u : Str} (hx : NulFree x) {d t : Str} (hd : d = x ++ 0 :: t) (hl : 63 ≤ d.length)
    (hn : NameHas name u) (hz : name.getD 63 0 = 0) :
    ∃ m, copyTo name (d.take 63) = .ok m ∧ NameHas m (x.take 63) ∧ m.getD 63 0 = 0 := by
  have h63 : (d.take 63).length = 63 := by rw [List.length_take]; omega
  obtain ⟨n64, -, -, -⟩ := hn
  have e : name.drop 63 = [0] := by
    have : name.drop 63 = [name[63]] := by
      rw [List.drop_eq_getElem_cons (by omega), List.drop_of_length_le (by omega)]
    rw [this]
    rw [List.getD_eq_getElem?_getD, List.getElem?_eq_getElem (by omega)] at hz
    rw [show name[63] = 0 from hz]
  refine ⟨d.take 63 ++ [0], by rw [copyTo, if_pos (by omega), h63, e], ?_, ?_⟩
  · refine ⟨by rw [List.length_append, h63]; rfl, fun b hb => hx b (List.mem_of_mem_take hb),
      by rw [List.length_take]; omega, ?_⟩
    by_cases h : x.length ≤ 62
    · refine ⟨t.take (62 - x.length) ++ [0], ?_⟩
      rw [hd, List.take_append, List.take_of_length_le (by omega)]
      rw [show 63 - x.length = (62 - x.length) + 1 by omega, List.take_succ_cons, List.append_assoc]; rfl
    · refine ⟨[], ?_⟩
      rw [hd, List.take_append_of_le_length (by omega)]
  · rw [List.getD_eq_getElem?_getD, List.getElem?_append_right (by omega), h63]; rfl

/-- The record of the first file that matches. -/
def Match (l : List Src) (size : Nat) (path : Str) (pre : List Src) (f : Src) : Prop :=
  (fatOf l pre f).namePtr + 63 ≤ size ∧ f.name.take 63 = path ∧ nameHash f.name = nameHash path

/-- Every name can be read. -/
def Roomy (l : List Src) (size : Nat) : Prop :=
  ∀ pre f post, l = pre ++ f :: post → (fatOf l pre f).namePtr + 63 ≤ size

theorem scan_spec (h : IsImage l size img) (hs : size + 64 ≤ 4294967296) (hn : ∀ f ∈ l, NulFree f.name)
    (path : Str) (hp : NulFree path) (hr : path = [] → Roomy l size) (rest : List Src) :
    ∀ (pre : List Src) (s : Scan) (u : Str), l = pre ++ rest →
      (pre.length % 8 ≠ 0 → s.cache = some ((img.drop (8 + 2 * (pre.length - pre.length % 8))).take 16)) →
      NameHas s.name u → s.name.getD 63 0 = 0 → (u = path → path = []) →
      (∃ a f b m, rest = a ++ f :: b ∧ Match l size path (pre ++ a) f ∧
          (∀ a' g b', a = a' ++ g :: b' → ¬ Match l size path (pre ++ a') g) ∧
          NameHas m (f.name.take 63) ∧
          Erfs.scan ⟨img, l.length⟩ path rest.length pre.length s = .ok (some (fatOf l (pre ++ a) f, m))) ∨
        ((∀ a g b, rest = a ++ g :: b → ¬ Match l size path (pre ++ a) g) ∧
          Erfs.scan ⟨img, l.length⟩ path rest.length pre.length s = .ok none) := by
  have hl := h.length
  induction rest with
  | nil =>
    intro pre s u _ _ _ _ _
    exact .inr ⟨fun a g b e => by simp at e, rfl⟩
  | cons f r ih =>
    intro pre s u e hc hname hz hu
    obtain ⟨b1, b2, b3⟩ := fatOf_bounds e
    have ht : totalSize l ≤ size := h.1
    have e' : l = (pre ++ [f]) ++ r := by rw [e]; simp
    -- the hashes
    have hcache : (if pre.length % 8 = 0 then
        halInto img (8 + pre.length * 2) 16 s.cache (fun b => .ok (some b)) else .ok s.cache) =
        .ok (some ((img.drop (8 + 2 * (pre.length - pre.length % 8))).take 16)) := by
      by_cases h8 : pre.length % 8 = 0
      · rw [if_pos h8, halInto_some (halRead_in _ _ _ (by omega) (by omega)), h8, Nat.sub_zero, Nat.mul_comm]
      · rw [if_neg h8, hc h8]
    have hhash : rd16 ((img.drop (8 + 2 * (pre.length - pre.length % 8))).take 16) (2 * (pre.length % 8)) =
        nameHash f.name := by
      rw [rd16_cache _ _ _ (by omega), ← h.hash e]; congr 1; omega
    have hnext : (pre ++ [f]).length % 8 ≠ 0 →
        some ((img.drop (8 + 2 * (pre.length - pre.length % 8))).take 16) =
          some ((img.drop (8 + 2 * ((pre ++ [f]).length - (pre ++ [f]).length % 8))).take 16) := by
      intro h8
      rw [List.length_append, List.length_singleton] at h8 ⊢
      rw [show pre.length + 1 - (pre.length + 1) % 8 = pre.length - pre.length % 8 by omega]
    have hlen : pre.length + 1 = (pre ++ [f]).length := by simp
    -- what the rest gives
    have cont : ∀ (s' : Scan) (u' : Str), ¬ Match l size path pre f →
        s'.cache = some ((img.drop (8 + 2 * (pre.length - pre.length % 8))).take 16) →
        NameHas s'.name u' → s'.name.getD 63 0 = 0 → (u' = path → path = []) →
        (∃ a g b m, f :: r = a ++ g :: b ∧ Match l size path (pre ++ a) g ∧
          (∀ a' g b', a = a' ++ g :: b' → ¬ Match l size path (pre ++ a') g) ∧
          NameHas m (g.name.take 63) ∧
          Erfs.scan ⟨img, l.length⟩ path r.length (pre.length + 1) s' = .ok (some (fatOf l (pre ++ a) g, m))) ∨
        ((∀ a g b, f :: r = a ++ g :: b → ¬ Match l size path (pre ++ a) g) ∧
          Erfs.scan ⟨img, l.length⟩ path r.length (pre.length + 1) s' = .ok none) := by
      intro s' u' hm hc' hn' hz' hu'
      rcases ih (pre ++ [f]) s' u' e' (fun h8 => hc'.trans (hnext h8)) hn' hz' hu' with
        ⟨a, g, b, m, e1, e2, e3, e4, e5⟩ | ⟨e1, e2⟩
      · refine .inl ⟨f :: a, g, b, m, by rw [e1]; rfl, by simpa using e2, ?_, e4, by rw [hlen, e5]; simp⟩
        intro a' g' b' ha'
        cases a' with
        | nil => simp at ha'; rw [← ha'.1]; simpa using hm
        | cons y a' =>
          simp at ha'
          obtain ⟨rfl, rfl⟩ := ha'
          have := e3 a' g' b' rfl
          simpa using this
      · refine .inr ⟨?_, by rw [hlen, e2]⟩
        intro a' g' b' ha'
        cases a' with
        | nil => simp at ha'; rw [← ha'.1]; simpa using hm
        | cons y a' =>
          simp at ha'
          obtain ⟨rfl, rfl⟩ := ha'
          have := e1 a' g' b' rfl
          simpa using this
    rw [List.length_cons, Erfs.scan]
    dsimp only
    rw [hcache]
    simp only [ok_bind]
    rw [hhash]
    by_cases hh : nameHash path = nameHash f.name
    · rw [if_pos hh]
      obtain ⟨b, hb, hb', -⟩ := h.fat (by omega) e
      have hfat : (Erfs.fatAddr ⟨img, l.length⟩) = fatOff l.length := rfl
      rw [hfat, halInto_some hb]
      simp only [ok_bind, hb']
      by_cases room : (fatOf l pre f).namePtr + 63 ≤ size
      · obtain ⟨t, ht'⟩ := h.name e
        obtain ⟨m, hm, hm2, hm3⟩ := nameHas_copy (hn f (by rw [e]; simp)) ht'
          (by rw [List.length_drop]; omega) hname hz
        rw [halInto_some (halRead_in _ _ _ (by omega) (by omega)), hm]
        simp only [ok_bind]
        obtain ⟨-, k1, k2, t2, k3⟩ := id hm2
        have hcmp : strncmpEq 64 m (path ++ [0]) = .ok (decide (f.name.take 63 = path)) := by
          rw [k3]; exact strncmpEq_spec _ _ _ _ (by omega) k1 hp
        rw [hcmp]
        simp only [ok_bind]
        by_cases hq : f.name.take 63 = path
        · rw [if_pos (decide_eq_true hq)]
          refine .inl ⟨[], f, r, m, rfl, by simpa using ⟨room, hq, hh.symm⟩, ?_, hm2, by simp [pure_ok]⟩
          intro a' g' b' ha'; simp at ha'
        · rw [if_neg (by simpa using hq)]
          exact cont _ _ (fun hm => hq hm.2.1) rfl hm2 hm3 fun hq' => absurd hq' hq
      · rw [halInto_none (halRead_out _ _ _ (by omega) (by omega))]
        simp only [ok_bind]
        obtain ⟨-, k1, k2, t2, k3⟩ := id hname
        have hcmp : strncmpEq 64 s.name (path ++ [0]) = .ok (decide (u = path)) := by
          rw [k3]; exact strncmpEq_spec _ _ _ _ (by omega) k1 hp
        rw [hcmp]
        simp only [ok_bind]
        have hq : u ≠ path := fun hq => room (hr (hu hq) _ _ _ e)
        rw [if_neg (by simpa using hq)]
        exact cont _ _ (fun hm => room hm.1) rfl hname hz hu
    · rw [if_neg hh]
      exact cont _ _ (fun hm => hh hm.2.2.symm) rfl hname hz hu

/-- The path without its leading slash. -/
theorem open_eq (fs : Erfs) (path : Str) : fs.open path =
    (fs.scan (skipSlash path) fs.num 0
      ⟨none, none, List.replicate 64 0⟩).bind fun
      | some (r, n) => .ok (some ⟨fs, r, n, 0⟩)
      | none => .ok none := rfl

/-- Opening in an image. -/
theorem open_spec (h : IsImage l size img) (hs : size + 64 ≤ 4294967296) (hn : ∀ f ∈ l, NulFree f.name)
    (path path' : Str) (hp : NulFree path)
    (he : path = skipSlash path')
    (hr : path = [] → Roomy l size) :
    (∃ a f b m, l = a ++ f :: b ∧ Match l size path a f ∧
        (∀ a' g b', a = a' ++ g :: b' → ¬ Match l size path a' g) ∧ NameHas m (f.name.take 63) ∧
        Erfs.open ⟨img, l.length⟩ path' = .ok (some ⟨⟨img, l.length⟩, fatOf l a f, m, 0⟩)) ∨
      ((∀ a g b, l = a ++ g :: b → ¬ Match l size path a g) ∧
        Erfs.open ⟨img, l.length⟩ path' = .ok none) := by
  rw [open_eq, ← he]
  rcases scan_spec h hs hn path hp hr l [] ⟨none, none, List.replicate 64 0⟩ [] rfl
    (fun h => absurd rfl h) nameHas_zero rfl (fun h => h.symm) with ⟨a, f, b, m, e1, e2, e3, e4, e5⟩ | ⟨e1, e2⟩
  · refine .inl ⟨a, f, b, m, e1, e2, e3, e4, ?_⟩
    simp only [List.length_nil, List.nil_append] at e5
    rw [e5]; rfl
  · refine .inr ⟨e1, ?_⟩
    simp only [List.length_nil] at e2
    rw [e2]; rfl

end Wifinfo
