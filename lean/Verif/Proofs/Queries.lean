import Verif.Proofs.Decoder
import Verif.Spec.Number

/-!
# Refinement of the query functions of `Teleinfo` to the list of pairs
-/

namespace Wifinfo
open Spec

@[simp] theorem ok_bind {α β} (a : α) (f : α → Res β) : (Except.ok a >>= f) = f a := rfl
@[simp] theorem err_bind {α β} (e : Fault) (f : α → Res β) :
    (Except.error e >>= f) = Except.error e := rfl
@[simp] theorem pure_ok {α} (a : α) : (pure a : Res α) = Except.ok a := rfl

/-- NUL-free strings. -/
def NulFree (s : Str) : Prop := ∀ b ∈ s, b ≠ 0

/-- Concatenation of NUL-terminated strings. -/
def glue (ss : List Str) : Str := ss.flatMap (· ++ [0])

@[simp] theorem glue_nil : glue [] = [] := rfl
@[simp] theorem glue_cons (s : Str) (ss : List Str) : glue (s :: ss) = s ++ 0 :: glue ss := by
  simp [glue]
theorem glue_append (a b : List Str) : glue (a ++ b) = glue a ++ glue b := by simp [glue]

theorem cut_cons_zero (r : Str) : cut (0 :: r) = [] :: cut r := by simp [cut]

theorem cut_append_nul {s : Str} (hs : NulFree s) (r : Str) : cut (s ++ 0 :: r) = s :: cut r := by
  induction s with
  | nil => simp [cut_cons_zero]
  | cons b s ih =>
    have hb : b ≠ 0 := hs b (by simp)
    simp only [List.cons_append, cut, if_neg hb, ih (fun x hx => hs x (by simp [hx]))]

theorem cut_glue {ss : List Str} (h : ∀ s ∈ ss, NulFree s) : cut (glue ss) = ss := by
  induction ss with
  | nil => rfl
  | cons s ss ih =>
    rw [glue_cons, cut_append_nul (h s (by simp)), ih (fun x hx => h x (by simp [hx]))]

theorem cut_nulFree (c : Str) : ∀ s ∈ cut c, NulFree s := by
  induction c with
  | nil => simp [cut]
  | cons b c ih =>
    by_cases hb : b = 0
    · subst hb
      rw [cut_cons_zero]
      intro s hs
      simp at hs
      rcases hs with rfl | hs
      · intro b hb; simp at hb
      · exact ih s hs
    · simp only [cut, if_neg hb]
      cases hc : cut c with
      | nil => simp
      | cons s ss =>
        rw [hc] at ih
        intro t ht
        simp at ht
        rcases ht with rfl | ht
        · intro x hx
          simp at hx
          rcases hx with rfl | hx
          · exact hb
          · exact ih s (by simp) x hx
        · exact ih t (by simp [ht])

theorem glue_cut {c : Str} (h : EndsNul c) : glue (cut c) = c := by
  induction c with
  | nil => rfl
  | cons b c ih =>
    by_cases hc : c = []
    · subst hc
      rcases h with h | ⟨r, hr⟩
      · simp at h
      · have : b = 0 := by
          cases r with
          | nil => simpa using hr
          | cons x r => simp at hr
        subst this; rfl
    · have hc' : EndsNul c := by
        rcases h with h | ⟨r, hr⟩
        · simp at h
        · cases r with
          | nil => simp at hr; exact absurd hr.2 hc
          | cons x r => simp at hr; exact Or.inr ⟨r, hr.2⟩
      have ih := ih hc'
      by_cases hb : b = 0
      · subst hb; rw [cut_cons_zero, glue_cons, ih]; rfl
      · simp only [cut, if_neg hb]
        cases hcc : cut c with
        | nil => rw [hcc] at ih; exact absurd ih.symm hc
        | cons s ss =>
          rw [hcc] at ih
          simp only [glue_cons] at ih ⊢
          rw [List.cons_append, ih]

/-- A frame holds a stored content. -/
structure Frame.Has (t : Frame) (content : Str) : Prop where
  len : t.mem.length = 350
  size : t.size = content.length
  holds : Holds t.mem content
  nul : EndsNul content
  bound : content.length ≤ 346

theorem scanNul_spec (s : Str) : ∀ {m : Mem} {a c : Str} {end_ f : Nat},
    Holds m (a ++ s ++ 0 :: c) → NulFree s → a.length + s.length < end_ → s.length < f →
    scanNul m end_ f a.length = .ok (some (a.length + s.length)) := by
  induction s with
  | nil =>
    intro m a c end_ f h _ he hf
    cases f with
    | zero => simp at hf
    | succ f =>
      have := Holds.rd_append (m := m) (a := a) (b := 0) (c := c) (by simpa using h)
      simp [scanNul, this]
  | cons b s ih =>
    intro m a c end_ f h hs he hf
    cases f with
    | zero => simp at hf
    | succ f =>
      have hr := Holds.rd_append (m := m) (a := a) (b := b) (c := s ++ 0 :: c) (by simpa using h)
      have hb : b ≠ 0 := hs b (by simp)
      have := ih (m := m) (a := a ++ [b]) (c := c) (end_ := end_) (f := f) (by simpa using h)
        (fun x hx => hs x (by simp [hx])) (by simp at he ⊢; omega) (by simp at hf; omega)
      simp only [List.length_append, List.length_cons, List.length_nil, Nat.zero_add] at this
      have hne : ¬ a.length ≥ end_ := by simp at he; omega
      simp [scanNul, hr, hb, hne, this]
      omega

/-- The NUL-terminated string `v` is at index `p` of `content`. -/
def At (content : Str) (p : Nat) (v : Str) : Prop :=
  ∃ pre post, p = pre.length ∧ content = pre ++ v ++ 0 :: post ∧ NulFree v

theorem At.cstr {m : Mem} {content v : Str} {p : Nat} (h : Holds m content) (ha : At content p v) :
    m.cstr p = .ok v := by
  obtain ⟨pre, post, rfl, rfl, hv⟩ := ha
  exact Holds.cstr h hv

theorem At.shift {c v : Str} {p : Nat} (a : Str) (h : At c p v) : At (a ++ c) (a.length + p) v := by
  obtain ⟨pre, post, rfl, rfl, hv⟩ := h
  exact ⟨a ++ pre, post, by simp, by simp, hv⟩

theorem getValueLoop_spec (n : Nat) : ∀ (ss : List Str) {m : Mem} {label a : Str} {f : Nat},
    ss.length ≤ n → Holds m (a ++ glue ss) → (∀ s ∈ ss, NulFree s) →
    a.length + (glue ss).length ≤ 350 → ss.length < f →
    ∃ o, getValueLoop m (a.length + (glue ss).length) label f a.length = .ok o ∧
      (match o with
      | none => lookup label (pairUp ss) = none
      | some p => ∃ v, At (a ++ glue ss) p v ∧ lookup label (pairUp ss) = some v) := by
  induction n with
  | zero =>
    intro ss m label a f hn _ _ _ hf
    have : ss = [] := by simpa using hn
    subst this
    cases f with
    | zero => simp at hf
    | succ f => exact ⟨none, by simp [getValueLoop], rfl⟩
  | succ n ih =>
    intro ss m label a f hn hm hz hl hf
    cases f with
    | zero => simp at hf
    | succ f =>
      match ss with
      | [] => exact ⟨none, by simp [getValueLoop], rfl⟩
      | [s] =>
        have h1 := scanNul_spec s (m := m) (a := a) (c := []) (end_ := a.length + (glue [s]).length)
          (f := MAX_FRAME_SIZE + 1) (by simpa using hm) (hz s (by simp)) (by simp)
          (by simp [MAX_FRAME_SIZE] at hl ⊢; omega)
        refine ⟨none, ?_, rfl⟩
        simp [getValueLoop] at h1 ⊢
        simp [h1]
        simp [Nat.add_assoc]
      | s :: v :: r =>
        have hcat : Holds m (a ++ s ++ 0 :: (v ++ 0 :: glue r)) := by simpa using hm
        have hcat2 : Holds m ((a ++ s ++ [0]) ++ v ++ 0 :: glue r) := by simpa using hm
        have hlen : (glue (s :: v :: r)).length = s.length + v.length + (glue r).length + 2 := by
          simp; omega
        have h1 := scanNul_spec s (end_ := a.length + (glue (s :: v :: r)).length)
          (f := MAX_FRAME_SIZE + 1) hcat (hz s (by simp)) (by simp)
          (by simp [MAX_FRAME_SIZE]; omega)
        have h2 := scanNul_spec v (end_ := a.length + (glue (s :: v :: r)).length)
          (f := MAX_FRAME_SIZE + 1) hcat2 (hz v (by simp))
          (by rw [hlen]; simp; omega) (by simp [MAX_FRAME_SIZE]; omega)
        have h3 := Holds.cstr hcat (hz s (by simp))
        have el : (a ++ s ++ [0]).length = a.length + s.length + 1 := by simp; omega
        have el2 : (a ++ s ++ [0] ++ v ++ [0]).length = a.length + s.length + 1 + v.length + 1 := by
          simp; omega
        obtain ⟨o, h5, h6⟩ := ih r (m := m) (label := label) (a := a ++ s ++ [0] ++ v ++ [0]) (f := f)
          (by simp at hn; omega) (by simpa using hm) (fun x hx => hz x (by simp [hx]))
          (by rw [hlen] at hl; simp; omega) (by simp at hf; omega)
        rw [el] at h2
        rw [el2] at h5
        have e3 : a.length + s.length + 1 + v.length + 1 + (glue r).length
          = a.length + (glue (s :: v :: r)).length := by rw [hlen]; omega
        rw [e3] at h5
        have hlt : a.length < a.length + (glue (s :: v :: r)).length := by rw [hlen]; omega
        have hge : ¬ a.length + s.length + 1 ≥ a.length + (glue (s :: v :: r)).length := by
          rw [hlen]; omega
        rw [getValueLoop, if_pos hlt, h1]
        simp only [ok_bind, if_neg hge, h2, h3, pure_ok]
        by_cases hs : s = label
        · rw [if_pos hs]
          refine ⟨_, rfl, v, ⟨a ++ s ++ [0], glue r, by simp; omega, by simp, hz v (by simp)⟩, ?_⟩
          simp [pairUp, lookup, hs]
        · rw [if_neg hs]
          refine ⟨o, h5, ?_⟩
          simp only [pairUp, lookup, if_neg hs]
          cases o with
          | none => exact h6
          | some p =>
            obtain ⟨w, hw, hlk⟩ := h6
            exact ⟨w, by simpa using hw, hlk⟩

theorem glue_length_ge (ss : List Str) : ss.length ≤ (glue ss).length := by
  induction ss with
  | nil => simp
  | cons s ss ih => simp; omega

theorem getValueLoop_has {t : Frame} {content : Str} (h : t.Has content) (label : Str) :
    ∃ o, getValueLoop t.mem t.size label (MAX_FRAME_SIZE + 1) 0 = .ok o ∧
      (match o with
      | none => lookup label (pairs content) = none
      | some p => ∃ v, At content p v ∧ lookup label (pairs content) = some v) := by
  have hg := glue_cut h.nul
  have hb := h.bound
  have hge := glue_length_ge (cut content)
  have := getValueLoop_spec (cut content).length (cut content) (m := t.mem) (label := label) (a := [])
    (f := MAX_FRAME_SIZE + 1) (Nat.le_refl _) (by rw [hg]; exact h.holds) (cut_nulFree content)
    (by rw [hg]; simp; omega) (by rw [hg] at hge; simp [MAX_FRAME_SIZE]; omega)
  rw [hg, List.length_nil, Nat.zero_add, ← h.size] at this
  exact this

/-! ## Digits -/

theorem isDigit_eq (b : Byte) : isDigit b = digit b := by
  simp [isDigit, digit, UInt8.le_iff_toNat_le]

theorem allDigitsF_spec (s : Str) : ∀ {m : Mem} {a c : Str} {f : Nat},
    Holds m (a ++ s ++ 0 :: c) → NulFree s → s.length < f →
    allDigitsF m f a.length = .ok (numeral s) := by
  induction s with
  | nil =>
    intro m a c f h _ hf
    cases f with
    | zero => simp at hf
    | succ f =>
      have := Holds.rd_append (m := m) (a := a) (b := 0) (c := c) (by simpa using h)
      simp [allDigitsF, this, numeral]
  | cons b s ih =>
    intro m a c f h hs hf
    cases f with
    | zero => simp at hf
    | succ f =>
      have hr := Holds.rd_append (m := m) (a := a) (b := b) (c := s ++ 0 :: c) (by simpa using h)
      have hb : b ≠ 0 := hs b (by simp)
      have := ih (m := m) (a := a ++ [b]) (c := c) (f := f) (by simpa using h)
        (fun x hx => hs x (by simp [hx])) (by simp at hf; omega)
      simp only [List.length_append, List.length_cons, List.length_nil, Nat.zero_add] at this
      simp only [allDigitsF, hr, ok_bind, if_neg hb, isDigit_eq, this, numeral, List.all_cons]
      cases digit b <;> simp

theorem skipZerosF_spec (s : Str) : ∀ {m : Mem} {a c : Str} {f : Nat},
    Holds m (a ++ s ++ 0 :: c) → NulFree s → s.length < f →
    ∃ pre, s = pre ++ stripZeros s ∧ skipZerosF m f a.length = .ok (a.length + pre.length) := by
  induction s with
  | nil =>
    intro m a c f h _ hf
    cases f with
    | zero => simp at hf
    | succ f =>
      have := Holds.rd_append (m := m) (a := a) (b := 0) (c := c) (by simpa using h)
      exact ⟨[], by simp [stripZeros], by simp [skipZerosF, this]⟩
  | cons b s ih =>
    intro m a c f h hs hf
    cases f with
    | zero => simp at hf
    | succ f =>
      have hr := Holds.rd_append (m := m) (a := a) (b := b) (c := s ++ 0 :: c) (by simpa using h)
      by_cases hb : b = 48
      · subst hb
        cases s with
        | nil =>
          have hr1 := Holds.rd_append (m := m) (a := a ++ [48]) (b := 0) (c := c) (by simpa using h)
          simp only [List.length_append, List.length_cons, List.length_nil, Nat.zero_add] at hr1
          exact ⟨[], by simp [stripZeros], by simp [skipZerosF, hr, hr1]⟩
        | cons b1 s =>
          have hr1 := Holds.rd_append (m := m) (a := a ++ [48]) (b := b1) (c := s ++ 0 :: c)
            (by simpa using h)
          have hb1 : b1 ≠ 0 := hs b1 (by simp)
          obtain ⟨pre, hp, hq⟩ := ih (m := m) (a := a ++ [48]) (c := c) (f := f) (by simpa using h)
            (fun x hx => hs x (by simp [hx])) (by simp at hf ⊢; omega)
          simp only [List.length_append, List.length_cons, List.length_nil, Nat.zero_add] at hr1 hq
          refine ⟨48 :: pre, ?_, ?_⟩
          · have : stripZeros (48 :: b1 :: s) = stripZeros (b1 :: s) := by simp [stripZeros]
            rw [this, List.cons_append, ← hp]
          · simp [skipZerosF, hr, hr1, hb1, hq]; omega
      · refine ⟨[], ?_, by simp [skipZerosF, hr, hb]⟩
        cases s with
        | nil => simp [stripZeros]
        | cons b1 s => simp [stripZeros, hb]

theorem getInteger_spec {m : Mem} {a s c : Str} (h : Holds m (a ++ s ++ 0 :: c)) (hs : NulFree s) :
    ∃ pre, s = pre ++ normNum s ∧
      getInteger m a.length = .ok (numeral s, a.length + pre.length) := by
  have hl := h.le
  simp at hl
  have h1 := allDigitsF_spec s (f := m.length + 1 - a.length) h hs (by omega)
  obtain ⟨pre, hp, h2⟩ := skipZerosF_spec s (f := m.length + 1 - a.length) h hs (by omega)
  unfold getInteger
  rw [h1]
  cases hn : numeral s with
  | true =>
    refine ⟨pre, by simpa [normNum, hn] using hp, ?_⟩
    simp [h2]
  | false => exact ⟨[], by simp [normNum, hn], by simp⟩

/-- `get_integer` on a string of the frame designates the normalised number. -/
theorem getInteger_at {m : Mem} {content s : Str} {p : Nat} (h : Holds m content)
    (ha : At content p s) :
    ∃ q, getInteger m p = .ok (numeral s, q) ∧ At content q (normNum s) := by
  obtain ⟨a, c, rfl, rfl, hs⟩ := ha
  obtain ⟨pre, hp, hq⟩ := getInteger_spec h hs
  refine ⟨_, hq, a ++ pre, c, by simp, ?_, ?_⟩
  · conv => lhs; rw [hp]
    simp
  · intro b hb
    exact hs b (by rw [hp]; simp [hb])

theorem getValuePtr_spec {t : Frame} {content : Str} (h : t.Has content) (label : Str) (rz : Bool) :
    ∃ o, t.getValuePtr label rz = .ok o ∧
      (match o with
      | none => lookup label (pairs content) = none
      | some p => ∃ v, lookup label (pairs content) = some v ∧
          At content p (if rz then normNum v else v)) := by
  obtain ⟨o, h1, h2⟩ := getValueLoop_has h label
  unfold Frame.getValuePtr
  rw [h1]
  cases o with
  | none => exact ⟨none, rfl, h2⟩
  | some p =>
    obtain ⟨v, hv, hlk⟩ := h2
    cases rz with
    | false => exact ⟨some p, rfl, v, hlk, hv⟩
    | true =>
      obtain ⟨q, hq, hat⟩ := getInteger_at h.holds hv
      simp only [ok_bind, hq, pure_ok, if_true]
      exact ⟨some q, rfl, v, hlk, hat⟩

theorem getValue_spec {t : Frame} {content : Str} (h : t.Has content) (label : Str) (rz : Bool) :
    t.getValue label rz =
      .ok ((lookup label (pairs content)).map fun v => if rz then normNum v else v) := by
  obtain ⟨o, h1, h2⟩ := getValuePtr_spec h label rz
  unfold Frame.getValue
  rw [h1]
  cases o with
  | none => simp only at h2; simp [h2]
  | some p =>
    obtain ⟨v, hlk, hat⟩ := h2
    simp [At.cstr h.holds hat, hlk]

/-! ## Integers -/

theorem toU32_digit (b : Byte) : (b - 0x30 > 9) ↔ digit b = false := by
  simp only [digit, GT.gt, UInt8.lt_iff_toNat_lt, UInt8.toNat_sub]
  have := UInt8.toNat_lt b
  have h48 : UInt8.toNat 0x30 = 48 := rfl
  have h9 : UInt8.toNat 9 = 9 := rfl
  rw [h48, h9]
  simp only [Bool.and_eq_false_iff, decide_eq_false_iff_not]
  omega

theorem numeral_cons (b : Byte) (s : Str) : numeral (b :: s) = (digit b && numeral s) := rfl

theorem toU32F_spec (s : Str) : ∀ {m : Mem} {a c : Str} {f : Nat} (n : Nat),
    Holds m (a ++ s ++ 0 :: c) → NulFree s → s.length < f →
    toU32F m f a.length (UInt32.ofNat n) = .ok (if numeral s then
      some (UInt32.ofNat (s.foldl (fun a b => 10 * a + (b.toNat - 48)) n)) else none) := by
  induction s with
  | nil =>
    intro m a c f n h _ hf
    cases f with
    | zero => simp at hf
    | succ f =>
      have := Holds.rd_append (m := m) (a := a) (b := 0) (c := c) (by simpa using h)
      simp [toU32F, this, numeral]
  | cons b s ih =>
    intro m a c f n h hs hf
    cases f with
    | zero => simp at hf
    | succ f =>
      have hr := Holds.rd_append (m := m) (a := a) (b := b) (c := s ++ 0 :: c) (by simpa using h)
      have hb : b ≠ 0 := hs b (by simp)
      simp only [toU32F, hr, ok_bind, if_neg hb, toU32_digit, numeral_cons]
      by_cases hd : digit b = true
      case neg =>
        have hd' : digit b = false := by simpa using hd
        simp [hd']
      case pos =>
        have hd0 := hd
        have e : (b - 0x30).toUInt32 + UInt32.ofNat n * 10
            = UInt32.ofNat (10 * n + (b.toNat - 48)) := by
          apply UInt32.toNat_inj.1
          simp only [digit, Bool.and_eq_true, decide_eq_true_eq] at hd
          simp only [UInt32.toNat_add, UInt32.toNat_mul, UInt32.toNat_ofNat', UInt8.toNat_toUInt32,
            UInt8.toNat_sub]
          have h48 : UInt8.toNat 0x30 = 48 := rfl
          have h10 : UInt32.toNat 10 = 10 := rfl
          rw [h48, h10]
          omega
        have := ih (m := m) (a := a ++ [b]) (c := c) (f := f) (10 * n + (b.toNat - 48))
          (by simpa using h) (fun x hx => hs x (by simp [hx])) (by simp at hf; omega)
        simp only [List.length_append, List.length_cons, List.length_nil, Nat.zero_add] at this
        rw [if_neg (by simp [hd0]), e, this]
        simp only [hd0, Bool.true_and, List.foldl_cons]

theorem stripZeros_spec (s : Str) :
    decVal (stripZeros s) = decVal s ∧ numeral (stripZeros s) = numeral s ∧
      Canonical (stripZeros s) ∧ (stripZeros s = [] ↔ s = []) := by
  induction s with
  | nil => simp [stripZeros, Canonical]
  | cons b s ih =>
    cases s with
    | nil =>
      have : stripZeros [b] = [b] := by simp [stripZeros]
      rw [this]
      exact ⟨rfl, rfl, by intro r hr; simp at hr; exact hr.2, Iff.rfl⟩
    | cons b1 s =>
      by_cases hb : b = 48
      · subst hb
        have : stripZeros (48 :: b1 :: s) = stripZeros (b1 :: s) := by simp [stripZeros]
        rw [this]
        refine ⟨?_, ?_, ih.2.2.1, ?_⟩
        · rw [ih.1]; simp [decVal]
        · rw [ih.2.1]; simp [numeral, digit]
        · rw [ih.2.2.2]; simp
      · have : stripZeros (b :: b1 :: s) = b :: b1 :: s := by simp [stripZeros, hb]
        rw [this]
        exact ⟨rfl, rfl, by intro r hr; simp at hr; exact absurd hr.1 hb, Iff.rfl⟩

theorem numeral_normNum (s : Str) : numeral (normNum s) = numeral s := by
  unfold normNum; split
  · exact (stripZeros_spec s).2.1
  · rfl

theorem decVal_normNum (s : Str) : decVal (normNum s) = decVal s := by
  unfold normNum; split
  · exact (stripZeros_spec s).1
  · rfl

/-- Integer reading of an optional value. -/
def intOf (dflt : UInt32) : Option Str → UInt32
  | none => dflt
  | some v => if numeral v then UInt32.ofNat (decVal v) else dflt

theorem getValueInt_spec {t : Frame} {content : Str} (h : t.Has content) (label : Str)
    (dflt : UInt32) :
    t.getValueInt label dflt = .ok (intOf dflt (lookup label (pairs content))) := by
  obtain ⟨o, h1, h2⟩ := getValuePtr_spec h label true
  unfold Frame.getValueInt
  rw [h1]
  cases o with
  | none => simp only at h2; simp [h2, intOf]
  | some p =>
    obtain ⟨v, hlk, a, c, rfl, hc, hs⟩ := h2
    simp only [if_true] at hc hs
    have hh := h.holds
    rw [hc] at hh
    have hl := hh.le
    simp at hl
    have := toU32F_spec (normNum v) (f := t.mem.length + 1 - a.length) 0 hh hs (by omega)
    simp only [ok_bind]
    have e0 : (0 : UInt32) = UInt32.ofNat 0 := rfl
    rw [e0, this, numeral_normNum]
    have e1 := decVal_normNum v
    unfold decVal at e1
    rw [e1, hlk]
    simp only [ok_bind, intOf]
    cases numeral v <;> simp [decVal]

/-! ## Iteration -/

theorem getValueNext_spec {m : Mem} {a : Str} {ss : List Str} {ts : TimeVal} (st : Option Nat)
    (hst : st.getD 0 = a.length) (hne : st = none → glue ss ≠ [])
    (hm : Holds m (a ++ glue ss)) (hz : ∀ s ∈ ss, NulFree s)
    (hl : a.length + (glue ss).length ≤ 350) :
    Frame.getValueNext { mem := m, size := a.length + (glue ss).length, ts := ts } st =
      .ok (match ss with
        | s :: v :: _ => some (a.length, a.length + s.length + 1,
            a.length + s.length + 1 + v.length + 1)
        | _ => none) := by
  match ss with
  | [] =>
    cases st with
    | none => exact absurd rfl (hne rfl)
    | some p =>
      simp at hst
      simp [Frame.getValueNext, hst]
  | [s] =>
    have h1 := scanNul_spec s (m := m) (a := a) (c := []) (end_ := a.length + (glue [s]).length)
      (f := MAX_FRAME_SIZE + 1) (by simpa using hm) (hz s (by simp)) (by simp)
      (by simp [MAX_FRAME_SIZE] at hl ⊢; omega)
    have hany : st.any (fun p => decide (p ≥ a.length + (glue [s]).length)) = false := by
      cases st with
      | none => rfl
      | some p => simp at hst; subst hst; simp
    simp only [Frame.getValueNext, hany, hst, h1, ok_bind]
    simp [Nat.add_assoc]
  | s :: v :: r =>
    have hlen : (glue (s :: v :: r)).length = s.length + v.length + (glue r).length + 2 := by
      simp; omega
    have hcat : Holds m (a ++ s ++ 0 :: (v ++ 0 :: glue r)) := by simpa using hm
    have hcat2 : Holds m ((a ++ s ++ [0]) ++ v ++ 0 :: glue r) := by simpa using hm
    have h1 := scanNul_spec s (end_ := a.length + (glue (s :: v :: r)).length)
      (f := MAX_FRAME_SIZE + 1) hcat (hz s (by simp)) (by simp)
      (by simp [MAX_FRAME_SIZE]; omega)
    have h2 := scanNul_spec v (end_ := a.length + (glue (s :: v :: r)).length)
      (f := MAX_FRAME_SIZE + 1) hcat2 (hz v (by simp))
      (by rw [hlen]; simp; omega) (by simp [MAX_FRAME_SIZE]; omega)
    have el : (a ++ s ++ [0]).length = a.length + s.length + 1 := by simp; omega
    rw [el] at h2
    have hany : st.any (fun p => decide (p ≥ a.length + (glue (s :: v :: r)).length)) = false := by
      cases st with
      | none => rfl
      | some p => simp at hst; subst hst; simp; omega
    have hge : ¬ a.length + s.length + 1 ≥ a.length + (glue (s :: v :: r)).length := by
      rw [hlen]; omega
    simp only [Frame.getValueNext, hany, hst, h1, ok_bind]
    simp only [if_neg hge, h2, ok_bind]
    rfl

theorem iterF_spec (n : Nat) : ∀ (ss : List Str) {m : Mem} {a : Str} {ts : TimeVal}
    {st : Option Nat} {f : Nat}, ss.length ≤ n → st.getD 0 = a.length →
    (st = none → glue ss ≠ []) → Holds m (a ++ glue ss) → (∀ s ∈ ss, NulFree s) →
    a.length + (glue ss).length ≤ 350 → ss.length < f →
    Frame.iterF { mem := m, size := a.length + (glue ss).length, ts := ts } f st =
      .ok (pairUp ss) := by
  induction n with
  | zero =>
    intro ss m a ts st f hn hst hne hm hz hl hf
    cases f with
    | zero => simp at hf
    | succ f =>
      have := getValueNext_spec st hst hne hm hz hl (ts := ts)
      have h0 : ss = [] := by simpa using hn
      subst h0
      simp only [Frame.iterF, this, ok_bind, pairUp, pure_ok]
  | succ n ih =>
    intro ss m a ts st f hn hst hne hm hz hl hf
    cases f with
    | zero => simp at hf
    | succ f =>
      have hnext := getValueNext_spec st hst hne hm hz hl (ts := ts)
      match ss with
      | [] => simp only [Frame.iterF, hnext, ok_bind, pairUp, pure_ok]
      | [s] => simp only [Frame.iterF, hnext, ok_bind, pairUp, pure_ok]
      | s :: v :: r =>
        have hcat : Holds m (a ++ s ++ 0 :: (v ++ 0 :: glue r)) := by simpa using hm
        have hcat2 : Holds m ((a ++ s ++ [0]) ++ v ++ 0 :: glue r) := by simpa using hm
        have h3 := Holds.cstr hcat (hz s (by simp))
        have h4 := Holds.cstr hcat2 (hz v (by simp))
        have el : (a ++ s ++ [0]).length = a.length + s.length + 1 := by simp; omega
        rw [el] at h4
        have hlen : (glue (s :: v :: r)).length = s.length + v.length + (glue r).length + 2 := by
          simp; omega
        have e3 : (a ++ s ++ [0] ++ v ++ [0]).length + (glue r).length
          = a.length + (glue (s :: v :: r)).length := by rw [hlen]; simp; omega
        have h5 := ih r (m := m) (a := a ++ s ++ [0] ++ v ++ [0]) (ts := ts)
          (st := some (a.length + s.length + 1 + v.length + 1)) (f := f)
          (by simp at hn; omega) (by simp; omega) (by simp) (by simpa using hm)
          (fun x hx => hz x (by simp [hx])) (by rw [e3]; exact hl) (by simp at hf; omega)
        rw [e3] at h5
        simp only [Frame.iterF, hnext, ok_bind, pairUp, pure_ok, h3, h4, h5]

theorem iter_spec {t : Frame} {content : Str} (h : t.Has content) (hne : content ≠ []) :
    t.iter = .ok (pairs content) := by
  have hg := glue_cut h.nul
  have hb := h.bound
  have hge := glue_length_ge (cut content)
  have hs := h.size
  obtain ⟨m, sz, ts⟩ := t
  simp only at hs
  subst hs
  have := iterF_spec (cut content).length (cut content) (m := m) (a := []) (ts := ts) (st := none)
    (f := MAX_FRAME_SIZE + 1) (Nat.le_refl _) rfl (by rw [hg]; intro _; exact hne)
    (by rw [hg]; exact h.holds) (cut_nulFree content)
    (by rw [hg]; simp; omega) (by rw [hg] at hge; simp [MAX_FRAME_SIZE]; omega)
  simp only [hg, List.length_nil, Nat.zero_add] at this
  exact this

/-- On an empty frame whose first cell is initialised the iteration yields nothing. -/
theorem iter_empty {t : Frame} (h0 : t.size = 0) (hm : ∃ b, t.mem.rd 0 = .ok b) :
    t.iter = .ok [] := by
  obtain ⟨m, sz, ts⟩ := t
  simp only at h0 hm
  subst h0
  obtain ⟨b, hb⟩ := hm
  have hn : Frame.getValueNext { mem := m, size := 0, ts := ts } none = .ok none := by
    unfold Frame.getValueNext
    simp only [Option.any_none, Option.getD_none]
    rw [scanNul]
    by_cases hz : b = 0 <;> simp [hb, hz]
  unfold Frame.iter
  rw [Frame.iterF, hn]
  rfl

end Wifinfo
