import Verif.Model.Json
import Verif.Spec.Json
import Verif.Proofs.Config

/-!
# The JSON builders against the JSON parser
-/

namespace Wifinfo
open Spec

/-! ## Decimal texts -/

theorem digit_ofNat {n : Nat} (h : n < 10) : digit (UInt8.ofNat (48 + n)) = true ∧
    (UInt8.ofNat (48 + n)).toNat = 48 + n := by
  have : (UInt8.ofNat (48 + n)).toNat = 48 + n := by simp [UInt8.toNat_ofNat']; omega
  refine ⟨?_, this⟩
  simp only [digit, this, Bool.and_eq_true, decide_eq_true_eq]
  omega

theorem decVal_append (a : Str) (b : Byte) : decVal (a ++ [b]) = 10 * decVal a + (b.toNat - 48) := by
  simp [decVal, List.foldl_append]

theorem decDigits_spec (f : Nat) : ∀ n, n < f → decDigits f n ≠ [] ∧ numeral (decDigits f n) = true ∧
    decVal (decDigits f n) = n ∧ (n ≠ 0 → (decDigits f n).head? ≠ some 48) ∧ (n = 0 → decDigits f n = [48]) := by
  induction f with
  | zero => intro n h; omega
  | succ f ih =>
    intro n h
    rw [decDigits]
    by_cases h10 : n < 10
    · rw [if_pos h10]
      obtain ⟨h1, h2⟩ := digit_ofNat h10
      refine ⟨by simp, by simp only [numeral, List.all_cons, List.all_nil, h1, Bool.and_self], ?_, ?_, ?_⟩
      · simp only [decVal, List.foldl_cons, List.foldl_nil, h2]; omega
      · intro hn he
        simp only [List.head?_cons, Option.some.injEq] at he
        have := congrArg UInt8.toNat he
        rw [h2] at this
        change 48 + n = 48 at this
        omega
      · intro hn; subst hn; rfl
    · rw [if_neg h10]
      obtain ⟨i1, i2, i3, i4, _⟩ := ih (n / 10) (by omega)
      obtain ⟨h1, h2⟩ := digit_ofNat (n := n % 10) (by omega)
      refine ⟨by simp, ?_, ?_, ?_, ?_⟩
      · simp only [numeral, List.all_append, Bool.and_eq_true] at i2 ⊢
        exact ⟨i2, by simp only [List.all_cons, List.all_nil, h1, Bool.and_self]⟩
      · rw [decVal_append, i3, h2]; omega
      · intro _
        have := i4 (by omega)
        cases hd : decDigits f (n / 10) with
        | nil => exact absurd hd i1
        | cons x r => rw [hd] at this; simpa using this
      · intro hn; omega

theorem decText_spec (n : Nat) : decText n ≠ [] ∧ numeral (decText n) = true ∧
    decVal (decText n) = n ∧ Canonical (decText n) := by
  obtain ⟨h1, h2, h3, h4, h5⟩ := decDigits_spec (n + 1) n (by omega)
  refine ⟨h1, h2, h3, ?_⟩
  intro r hr
  by_cases hn : n = 0
  · unfold decText at hr; rw [h5 hn] at hr; cases hr; rfl
  · exact absurd (by unfold decText at hr; rw [hr]; rfl) (h4 hn)

/-! ## Parsing pieces -/

theorem pString_plain {s : Str} (hs : Plain s) (r : Str) : ∀ f, s.length < f →
    pString f (s ++ 34 :: r) = some (s, r) := by
  induction s with
  | nil =>
    intro f hf
    cases f with
    | zero => simp at hf
    | succ f => simp [pString]
  | cons b s ih =>
    intro f hf
    cases f with
    | zero => simp at hf
    | succ f =>
      have hb := hs b (by simp)
      simp only [plain, Bool.and_eq_true, decide_eq_true_eq, bne_iff_ne] at hb
      have h32 : ¬ b < 32 := by
        have := hb.1.1
        exact UInt8.not_lt.2 this
      simp only [List.cons_append, pString, if_neg hb.1.2, if_neg h32, if_neg hb.2]
      rw [ih (fun x hx => hs x (by simp [hx])) f (by simpa using hf)]
      rfl

theorem skipWs_cons {b : Byte} {r : Str} (h : b ≠ 32 ∧ b ≠ 9 ∧ b ≠ 10 ∧ b ≠ 13) :
    skipWs (b :: r) = b :: r := by
  simp [skipWs, h.1, h.2.1, h.2.2.1, h.2.2.2]

theorem skipWs_quote (r : Str) : skipWs (34 :: r) = 34 :: r := skipWs_cons (by decide)
theorem skipWs_colon (r : Str) : skipWs (58 :: r) = 58 :: r := skipWs_cons (by decide)
theorem skipWs_comma (r : Str) : skipWs (44 :: r) = 44 :: r := skipWs_cons (by decide)
theorem skipWs_rbrace (r : Str) : skipWs (125 :: r) = 125 :: r := skipWs_cons (by decide)
theorem skipWs_lbrace (r : Str) : skipWs (123 :: r) = 123 :: r := skipWs_cons (by decide)
theorem skipWs_rbracket (r : Str) : skipWs (93 :: r) = 93 :: r := skipWs_cons (by decide)
theorem skipWs_lbracket (r : Str) : skipWs (91 :: r) = 91 :: r := skipWs_cons (by decide)

/-- What may follow a value in the texts of the builders. -/
def Stop (r : Str) : Prop := ∃ x, r = 44 :: x ∨ r = 125 :: x ∨ r = 93 :: x

theorem digit_iff (b : Byte) : digit b = true ↔ 48 ≤ b.toNat ∧ b.toNat ≤ 57 := by
  simp [digit]

theorem takeWhile_digits {s r : Str} (hs : numeral s = true) (hr : Stop r) :
    (s ++ r).takeWhile digit = s ∧ (s ++ r).dropWhile digit = r := by
  have hs' : ∀ b ∈ s, digit b = true := by simpa [numeral] using hs
  have hr' : r.takeWhile digit = [] ∧ r.dropWhile digit = r := by
    obtain ⟨x, h | h | h⟩ := hr <;> subst h <;> constructor <;> rfl
  rw [List.takeWhile_append_of_pos hs', List.dropWhile_append_of_pos hs', hr'.1, hr'.2]
  simp

theorem pNumber_nat {s r : Str} (hn : numeral s = true) (hc : Canonical s) (h0 : s ≠ [])
    (hr : Stop r) : pNumber (s ++ r) = some (.int (decVal s), r) := by
  obtain ⟨h1, h2⟩ := takeWhile_digits hn hr
  have hh : ¬ (s ++ r).head? = some 45 := by
    cases s with
    | nil => exact absurd rfl h0
    | cons b s =>
      have : digit b = true := by simp [numeral] at hn; exact hn.1
      rw [digit_iff] at this
      intro h
      simp only [List.cons_append, List.head?_cons, Option.some.injEq] at h
      subst h
      exact absurd this.1 (by decide)
  have hz : ¬ (s = [] ∨ (s.head? = some 48 ∧ s ≠ [48])) := by
    rintro (h | ⟨h, h'⟩)
    · exact h0 h
    · cases s with
      | nil => exact h0 rfl
      | cons b s =>
        simp only [List.head?_cons, Option.some.injEq] at h
        subst h
        have := hc s rfl
        subst this
        exact h' rfl
  have e1 : ¬ r.head? = some 46 := by obtain ⟨x, h | h | h⟩ := hr <;> subst h <;> simp
  have e2 : ¬ (r.head? = some 101 ∨ r.head? = some 69) := by
    obtain ⟨x, h | h | h⟩ := hr <;> subst h <;> simp
  simp only [pNumber, if_neg hh, pDigits, h1, h2, if_neg hz, if_neg e1]
  show (do
      let __x ← (if r.head? = some 101 ∨ r.head? = some 69 then _ else some ([], r) : Option (Str × Str))
      _) = _
  rw [if_neg e2]
  rfl

theorem pNumber_neg {s r : Str} (hn : numeral s = true) (hc : Canonical s) (h0 : s ≠ [])
    (hr : Stop r) : pNumber (45 :: (s ++ r)) = some (.int (-(decVal s : Int)), r) := by
  obtain ⟨h1, h2⟩ := takeWhile_digits hn hr
  have hz : ¬ (s = [] ∨ (s.head? = some 48 ∧ s ≠ [48])) := by
    rintro (h | ⟨h, h'⟩)
    · exact h0 h
    · cases s with
      | nil => exact h0 rfl
      | cons b s =>
        simp only [List.head?_cons, Option.some.injEq] at h
        subst h
        have := hc s rfl
        subst this
        exact h' rfl
  have e1 : ¬ r.head? = some 46 := by obtain ⟨x, h | h | h⟩ := hr <;> subst h <;> simp
  have e2 : ¬ (r.head? = some 101 ∨ r.head? = some 69) := by
    obtain ⟨x, h | h | h⟩ := hr <;> subst h <;> simp
  simp only [pNumber, List.head?_cons, if_true, List.tail_cons, pDigits, h1, h2, if_neg hz, if_neg e1]
  show (do
      let __x ← (if r.head? = some 101 ∨ r.head? = some 69 then _ else some ([], r) : Option (Str × Str))
      _) = _
  rw [if_neg e2]
  rfl

/-- Text and meaning of a simple value. -/
inductive JItem : Str → JVal → Prop
  | text {s : Str} : Plain s → JItem (34 :: s ++ [34]) (.str s)
  | num {s : Str} : numeral s = true → s ≠ [] → Canonical s → JItem s (.int (decVal s))
  | neg {s : Str} : numeral s = true → s ≠ [] → Canonical s → JItem (45 :: s) (.int (-(decVal s : Int)))

theorem pValue_item {t : Str} {v : JVal} (h : JItem t v) {r : Str} (hr : Stop r) (f : Nat) :
    pValue (f + 1) (t ++ r) = some (v, r) := by
  cases h with
  | @text s hs =>
    have e : (34 :: s ++ [34]) ++ r = 34 :: (s ++ 34 :: r) := by simp
    rw [e, pValue, skipWs_quote]
    simp only [if_true]
    rw [pString_plain hs r _ (by simp; omega)]
    rfl
  | num hn h0 hc =>
    have hp := pNumber_nat hn hc h0 hr
    cases t with
    | nil => exact absurd rfl h0
    | cons b s =>
      have hd : digit b = true := by simp [numeral] at hn; exact hn.1
      rw [digit_iff] at hd
      have ne : ∀ x : Byte, ¬ (48 ≤ x.toNat ∧ x.toNat ≤ 57) → b ≠ x := by
        intro x hx hbx; subst hbx; exact hx hd
      rw [List.cons_append, pValue, skipWs_cons ⟨ne _ (by decide), ne _ (by decide), ne _ (by decide), ne _ (by decide)⟩]
      simp only [if_neg (ne 34 (by decide)), if_neg (ne 123 (by decide)), if_neg (ne 91 (by decide)),
        if_neg (ne 116 (by decide)), if_neg (ne 102 (by decide)), if_neg (ne 110 (by decide))]
      exact hp
  | @neg s hn h0 hc =>
    have hp := pNumber_neg hn hc h0 hr
    rw [List.cons_append, pValue, skipWs_cons (by decide)]
    simp only [if_neg (show ¬ (45 : Byte) = 34 by decide), if_neg (show ¬ (45 : Byte) = 123 by decide),
      if_neg (show ¬ (45 : Byte) = 91 by decide), if_neg (show ¬ (45 : Byte) = 116 by decide),
      if_neg (show ¬ (45 : Byte) = 102 by decide), if_neg (show ¬ (45 : Byte) = 110 by decide)]
    exact hp

/-! ## Objects -/

/-- A member: name, text of the value, meaning of the value. -/
abbrev JMember := Str × Str × JVal

def JMember.Good (x : JMember) : Prop := Plain x.1 ∧ JItem x.2.1 x.2.2

/-- Text of a member. -/
def memText (x : JMember) : Str := 34 :: x.1 ++ 34 :: 58 :: x.2.1

/-- Text of the members of an object and the closing brace. -/
def memsText : List JMember → Str
  | [] => [125]
  | [x] => memText x ++ [125]
  | x :: l => memText x ++ 44 :: memsText l

/-- Meaning. -/
def memsVal (l : List JMember) : List (Str × JVal) := l.map fun x => (x.1, x.2.2)

theorem pMembers_spec (l : List JMember) : l ≠ [] → (∀ x ∈ l, JMember.Good x) → ∀ r f, l.length < f →
    pMembers f (memsText l ++ r) = some (memsVal l, r) := by
  induction l with
  | nil => intro h; exact absurd rfl h
  | cons x l ih =>
    intro _ hg r f hf
    obtain ⟨hp, hi⟩ := hg x (by simp)
    obtain ⟨f, rfl⟩ : ∃ g, f = g + 1 + 1 := ⟨f - 2, by simp at hf; omega⟩
    cases l with
    | nil =>
      have e : memsText [x] ++ r = 34 :: (x.1 ++ 34 :: (58 :: (x.2.1 ++ 125 :: r))) := by
        simp [memsText, memText]
      rw [e, pMembers, skipWs_quote]
      simp only [ne_eq, not_true_eq_false, if_false]
      rw [pString_plain hp _ _ (by simp; omega)]
      simp only [skipWs_colon, not_true_eq_false, if_false]
      rw [pValue_item hi ⟨r, Or.inr (Or.inl rfl)⟩]
      simp [skipWs_rbrace, memsVal]
    | cons y l =>
      have e : memsText (x :: y :: l) ++ r =
          34 :: (x.1 ++ 34 :: (58 :: (x.2.1 ++ 44 :: (memsText (y :: l) ++ r)))) := by
        simp [memsText, memText]
      rw [e, pMembers, skipWs_quote]
      simp only [ne_eq, not_true_eq_false, if_false]
      rw [pString_plain hp _ _ (by simp; omega)]
      simp only [skipWs_colon, not_true_eq_false, if_false]
      rw [pValue_item hi ⟨_, Or.inl rfl⟩]
      simp only [skipWs_comma, if_true]
      rw [ih (by simp) (fun z hz => hg z (by simp [hz])) r (f + 1) (by simp at hf ⊢; omega)]
      simp [memsVal]

theorem memsText_length (l : List JMember) : l.length < (memsText l).length := by
  induction l with
  | nil => simp [memsText]
  | cons x l ih =>
    cases l with
    | nil => simp [memsText, memText]; omega
    | cons y l => simp only [memsText, List.length_cons, List.length_append] at *; omega

theorem pValue_obj (l : List JMember) (hg : ∀ x ∈ l, JMember.Good x) (r : Str) (f : Nat)
    (hf : l.length < f) : pValue (f + 1) (123 :: (memsText l ++ r)) = some (.obj (memsVal l), r) := by
  rw [pValue, skipWs_lbrace]
  cases l with
  | nil => simp [memsText, skipWs_rbrace, memsVal]
  | cons x l =>
    have e : ∃ s, memsText (x :: l) ++ r = 34 :: s := by
      cases l <;> exact ⟨_, rfl⟩
    obtain ⟨s, hs⟩ := e
    have := pMembers_spec (x :: l) (by simp) hg r f hf
    rw [hs] at this ⊢
    simp [skipWs_quote, this]

theorem parse_obj (l : List JMember) (hg : ∀ x ∈ l, JMember.Good x) :
    parseJson (123 :: memsText l) = some (.obj (memsVal l)) := by
  have h := pValue_obj l hg [] (2 * (123 :: memsText l).length + 1)
    (by have := memsText_length l; simp; omega)
  rw [List.append_nil] at h
  unfold parseJson
  rw [h]
  simp [skipWs]

/-! ## Arrays of objects -/

/-- Text of the elements of an array of objects and the closing bracket. -/
def elemsText : List (List JMember) → Str
  | [] => [93]
  | [x] => 123 :: memsText x ++ [93]
  | x :: l => 123 :: memsText x ++ 44 :: elemsText l

theorem pElems_spec (l : List (List JMember)) : l ≠ [] → (∀ x ∈ l, ∀ y ∈ x, JMember.Good y) →
    ∀ r f, (∀ x ∈ l, l.length + x.length + 1 < f) →
    pElems f (elemsText l ++ r) = some (l.map fun x => .obj (memsVal x), r) := by
  induction l with
  | nil => intro h; exact absurd rfl h
  | cons x l ih =>
    intro _ hg r f hf
    have hfx := hf x (by simp)
    obtain ⟨f, rfl⟩ : ∃ g, f = g + 1 + 1 := ⟨f - 2, by simp at hfx; omega⟩
    cases l with
    | nil =>
      have e : elemsText [x] ++ r = 123 :: (memsText x ++ 93 :: r) := by simp [elemsText]
      rw [e, pElems, pValue_obj x (hg x (by simp)) _ _ (by simp at hfx; omega)]
      simp [skipWs_rbracket]
    | cons y l =>
      have e : elemsText (x :: y :: l) ++ r = 123 :: (memsText x ++ 44 :: (elemsText (y :: l) ++ r)) := by
        simp [elemsText]
      rw [e, pElems, pValue_obj x (hg x (by simp)) _ _ (by simp at hfx; omega)]
      simp only [skipWs_comma, if_true]
      rw [ih (by simp) (fun z hz => hg z (by simp [hz])) r (f + 1) (by
        intro z hz
        have := hf z (by simp [hz])
        simp at this ⊢; omega)]
      rfl

theorem elemsText_length (l : List (List JMember)) :
    ∀ x ∈ l, l.length + x.length + 1 < 2 * (elemsText l).length := by
  induction l with
  | nil => simp
  | cons x l ih =>
    intro z hz
    cases l with
    | nil =>
      have := memsText_length x
      simp only [List.mem_singleton] at hz
      subst hz
      simp [elemsText]; omega
    | cons y l =>
      have h1 := memsText_length x
      simp only [elemsText, List.length_append, List.length_cons] at *
      rcases List.mem_cons.1 hz with rfl | hz
      · have := ih y (by simp)
        omega
      · have := ih z hz
        omega

theorem parse_arr (l : List (List JMember)) (hg : ∀ x ∈ l, ∀ y ∈ x, JMember.Good y) :
    parseJson (91 :: elemsText l) = some (.arr (l.map fun x => .obj (memsVal x))) := by
  unfold parseJson
  rw [show 2 * (91 :: elemsText l).length + 2 = (2 * (elemsText l).length + 3) + 1 by simp; omega,
    pValue, skipWs_lbracket]
  cases l with
  | nil => rfl
  | cons x l =>
    have e : ∃ s, elemsText (x :: l) = 123 :: s := by cases l <;> exact ⟨_, rfl⟩
    have h := pElems_spec (x :: l) (by simp) hg [] (2 * (elemsText (x :: l)).length + 3) (by
      intro z hz
      have := elemsText_length (x :: l) z hz
      omega)
    rw [List.append_nil] at h
    obtain ⟨s, hs⟩ := e
    rw [hs] at h ⊢
    have e93 : ¬ (123 : Byte) = 93 := by decide
    have e1 : ¬ (91 : Byte) = 34 := by decide
    have e2 : ¬ (91 : Byte) = 123 := by decide
    simp only [skipWs_lbrace, h, if_neg e93, if_neg e1, if_neg e2, if_true, Option.map_some]
    rfl

/-! ## The builders -/

/-- The string after a number of `append` calls. -/
def jbState (l : List JMember) : Str := 123 :: l.flatMap (fun x => memText x ++ [44]) ++ [34]

theorem jb_open : Jb.open = jbState [] := by decide

/-- `append` of a text. -/
def mText (n v : Str) : JMember := (n, 34 :: v ++ [34], .str v)
/-- `append` of a number. -/
def mNum (n : Str) (k : Nat) : JMember := (n, decText k, .int k)
/-- `append_without_quote`. -/
def mRaw (n v : Str) : JMember := (n, v, .int (decVal v))

theorem bs_quotes : bs "\":\"" = [34, 58, 34] ∧ bs "\":" = [34, 58] ∧ bs "\",\"" = [34, 44, 34] ∧
    bs ",\"" = [44, 34] ∧ bs "\"}" = [34, 125] ∧ bs "}" = [125] := by decide

theorem jb_text (l n v) : Jb.text (jbState l) n v = jbState (l ++ [mText n v]) := by
  obtain ⟨h1, h2, h3, h4, h5, h6⟩ := bs_quotes
  simp [Jb.text, jbState, mText, memText, h1, h3]

theorem jb_raw (l n v) : Jb.raw (jbState l) n v = jbState (l ++ [mRaw n v]) := by
  obtain ⟨h1, h2, h3, h4, h5, h6⟩ := bs_quotes
  simp [Jb.raw, jbState, mRaw, memText, h2, h4]

theorem jb_num (l n k) : Jb.num (jbState l) n k = jbState (l ++ [mNum n k]) := by
  obtain ⟨h1, h2, h3, h4, h5, h6⟩ := bs_quotes
  simp [Jb.num, Jb.raw, jbState, mNum, memText, h2, h4]

theorem flat_close (l : List JMember) (x : JMember) :
    l.flatMap (fun x => memText x ++ [44]) ++ (memText x ++ [125]) = memsText (l ++ [x]) := by
  induction l with
  | nil => rfl
  | cons y l ih =>
    have e : ∀ z, memsText (y :: (z ++ [x])) = memText y ++ 44 :: memsText (z ++ [x]) := by
      intro z
      cases z <;> rfl
    rw [List.cons_append, e, ← ih]
    simp

theorem jb_num_last (l n k) : Jb.num (jbState l) n k true = 123 :: memsText (l ++ [mNum n k]) := by
  obtain ⟨h1, h2, h3, h4, h5, h6⟩ := bs_quotes
  rw [← flat_close]
  simp [Jb.num, Jb.raw, jbState, mNum, memText, h2, h6]

theorem jb_text_last (l n v) : Jb.text (jbState l) n v true = 123 :: memsText (l ++ [mText n v]) := by
  obtain ⟨h1, h2, h3, h4, h5, h6⟩ := bs_quotes
  rw [← flat_close]
  simp [Jb.text, jbState, mText, memText, h1, h5]

theorem jb_finalize (l : List JMember) : Jb.finalize (jbState l) = .ok (123 :: memsText l) := by
  rcases List.eq_nil_or_concat l with rfl | ⟨l, x, rfl⟩
  · decide
  · have e : jbState (l ++ [x]) = (123 :: (l.flatMap (fun x => memText x ++ [44]) ++ memText x) ++ [44]) ++ [34] := by
      simp [jbState]
    rw [List.concat_eq_append, e]
    unfold Jb.finalize
    rw [List.dropLast_concat, List.getLast?_concat]
    simp only [List.dropLast_concat]
    rw [if_neg (by decide), ← flat_close]
    simp

/-- The table after a number of `append` calls. -/
def jtState (l : List (List JMember)) : Str := 91 :: l.flatMap (fun x => 123 :: memsText x ++ [44])

theorem jt_open : Jt.open = jtState [] := by decide

theorem bs_table : bs "{\"na\":\"" = [123] ++ 34 :: bs "na" ++ [34, 58, 34] ∧
    bs "\",\"va\":\"" = [34, 44, 34] ++ bs "va" ++ [34, 58, 34] ∧
    bs "\",\"va\":" = [34, 44, 34] ++ bs "va" ++ [34, 58] ∧
    bs "\"}," = [34, 125, 44] ∧ bs "}," = [125, 44] := by decide

theorem jt_text (l n v) : Jt.text (jtState l) n v =
    jtState (l ++ [[mText (bs "na") n, mText (bs "va") v]]) := by
  obtain ⟨h1, h2, h3, h4, h5⟩ := bs_table
  simp [Jt.text, jtState, h1, h2, h4, memsText, memText, mText]

theorem jt_num (l n k) : Jt.num (jtState l) n k =
    jtState (l ++ [[mText (bs "na") n, mNum (bs "va") k]]) := by
  obtain ⟨h1, h2, h3, h4, h5⟩ := bs_table
  simp [Jt.num, jtState, h1, h3, h5, memsText, memText, mText, mNum]

theorem flat_elems (l : List (List JMember)) (x : List JMember) :
    l.flatMap (fun x => 123 :: memsText x ++ [44]) ++ (123 :: memsText x ++ [93]) =
      elemsText (l ++ [x]) := by
  induction l with
  | nil => rfl
  | cons y l ih =>
    have e : ∀ z, elemsText (y :: (z ++ [x])) = 123 :: memsText y ++ 44 :: elemsText (z ++ [x]) := by
      intro z
      cases z <;> rfl
    rw [show (y :: l) ++ [x] = y :: (l ++ [x]) from rfl, e, ← ih]
    simp

theorem jt_finalize (l : List (List JMember)) : Jt.finalize (jtState l) = .ok (91 :: elemsText l) := by
  rcases List.eq_nil_or_concat l with rfl | ⟨l, x, rfl⟩
  · decide
  · have e : jtState (l ++ [x]) = (91 :: (l.flatMap (fun x => 123 :: memsText x ++ [44]) ++ 123 :: memsText x)) ++ [44] := by
      simp [jtState]
    rw [List.concat_eq_append, e]
    unfold Jt.finalize
    rw [List.getLast?_concat]
    simp only [List.dropLast_concat]
    rw [if_neg (by decide), ← flat_elems]
    simp

theorem mText_good {n v : Str} (hn : Plain n) (hv : Plain v) : (mText n v).Good := ⟨hn, .text hv⟩
theorem mNum_good {n : Str} (hn : Plain n) (k : Nat) : (mNum n k).Good := by
  obtain ⟨h1, h2, h3, h4⟩ := decText_spec k
  refine ⟨hn, ?_⟩
  have := JItem.num h2 h1 h4
  rw [h3] at this
  exact this
theorem mRaw_good {n v : Str} (hn : Plain n) (hv : numeral v = true) (h0 : v ≠ []) (hc : Canonical v) :
    (mRaw n v).Good := ⟨hn, .num hv h0 hc⟩

end Wifinfo
