import Verif.Model.Dumps
import Verif.Proofs.Backup

/-!
# What `json.dumps` writes is read back
-/

namespace Wifinfo

namespace Spec

mutual
/-- The texts of the value are UTF-8 and its numbers are integers. -/
def Texty : JVal → Prop
  | .null => True
  | .bool _ => True
  | .int _ => True
  | .dec _ => False
  | .str s => IsUtf8 s
  | .arr l => TextyList l
  | .obj l => TextyMembers l
def TextyList : List JVal → Prop
  | [] => True
  | v :: l => Texty v ∧ TextyList l
def TextyMembers : List (Str × JVal) → Prop
  | [] => True
  | x :: l => IsUtf8 x.1 ∧ Texty x.2 ∧ TextyMembers l
end

end Spec
open Spec

/-- Only blanks. -/
def Blank (w : Str) : Prop := ∀ b ∈ w, b = 32 ∨ b = 10

theorem skipWs_blank {w : Str} (hw : Blank w) (r : Str) : skipWs (w ++ r) = skipWs r := by
  induction w with
  | nil => rfl
  | cons b w ih =>
    have hb := hw b (by simp)
    rw [List.cons_append, skipWs, List.dropWhile_cons_of_pos (by rcases hb with rfl | rfl <;> decide)]
    exact ih fun b hb => hw b (by simp [hb])

theorem pValue_blank {w : Str} (hw : Blank w) (f : Nat) (r : Str) : pValue f (w ++ r) = pValue f r := by
  cases f with
  | zero => rfl
  | succ f => rw [pValue, pValue, skipWs_blank hw]

theorem pElems_blank {w : Str} (hw : Blank w) (f : Nat) (r : Str) : pElems f (w ++ r) = pElems f r := by
  cases f with
  | zero => rfl
  | succ f => rw [pElems, pElems, pValue_blank hw]

theorem pMembers_blank {w : Str} (hw : Blank w) (f : Nat) (r : Str) : pMembers f (w ++ r) = pMembers f r := by
  cases f with
  | zero => rfl
  | succ f => rw [pMembers, pMembers, skipWs_blank hw]

/-- A number may end here. -/
def Ends (r : Str) : Prop := ∀ b, r.head? = some b → digit b = false ∧ b ≠ 46 ∧ b ≠ 101 ∧ b ≠ 69

theorem ends_blank {w : Str} (hw : Blank w) {r : Str} (hr : Ends r) : Ends (w ++ r) := by
  cases w with
  | nil => exact hr
  | cons b w =>
    intro c hc
    cases hc
    rcases hw _ (by simp : b ∈ b :: w) with h | h <;> rw [h] <;> decide

theorem ends_cons {b : Byte} (h : digit b = false ∧ b ≠ 46 ∧ b ≠ 101 ∧ b ≠ 69) (r : Str) : Ends (b :: r) := by
  intro c hc
  cases hc
  exact h

theorem digits_end {s r : Str} (hs : numeral s = true) (hr : Ends r) :
    (s ++ r).takeWhile digit = s ∧ (s ++ r).dropWhile digit = r := by
  have hs' : ∀ b ∈ s, digit b = true := by simpa [numeral] using hs
  have hr' : r.takeWhile digit = [] ∧ r.dropWhile digit = r := by
    cases r with
    | nil => exact ⟨rfl, rfl⟩
    | cons b r =>
      have := (hr b rfl).1
      simp [this]
  rw [List.takeWhile_append_of_pos hs', List.dropWhile_append_of_pos hs', hr'.1, hr'.2]
  simp

theorem pNumber_int (n : Int) {r : Str} (hr : Ends r) : pNumber (decInt n ++ r) = some (.int n, r) := by
  obtain ⟨h0, hn, hv, hc⟩ := decText_spec n.natAbs
  obtain ⟨h1, h2⟩ := digits_end hn hr
  have hz : ¬ (decText n.natAbs = [] ∨ ((decText n.natAbs).head? = some 48 ∧ decText n.natAbs ≠ [48])) := by
    rintro (h | ⟨h, h'⟩)
    · exact h0 h
    · cases hs : decText n.natAbs with
      | nil => exact h0 hs
      | cons b s =>
        rw [hs] at h h' hc
        simp only [List.head?_cons, Option.some.injEq] at h
        subst h
        have := hc s rfl
        subst this
        exact h' rfl
  have e1 : ¬ r.head? = some 46 := fun h => (hr _ h).2.1 rfl
  have e2 : ¬ (r.head? = some 101 ∨ r.head? = some 69) := by
    rintro (h | h)
    · exact (hr _ h).2.2.1 rfl
    · exact (hr _ h).2.2.2 rfl
  unfold decInt
  split
  · rename_i hlt
    simp only [pNumber, List.cons_append, List.head?_cons, if_true, List.tail_cons, pDigits, h1, h2, if_neg hz, if_neg e1]
    show (do
        let __x ← (if r.head? = some 101 ∨ r.head? = some 69 then _ else some ([], r) : Option (Str × Str))
        _) = _
    rw [if_neg e2]
    simp only [Option.bind_eq_bind, Option.bind_some, and_self, if_true, hv]
    rw [show (-(n.natAbs : Int)) = n by omega]
    rfl
  · rename_i hlt
    have hh : ¬ (decText n.natAbs ++ r).head? = some 45 := by
      cases hs : decText n.natAbs with
      | nil => exact absurd hs h0
      | cons b s =>
        rw [hs] at hn
        have hb : digit b = true := by simp [numeral] at hn; exact hn.1
        intro h
        simp only [List.cons_append, List.head?_cons, Option.some.injEq] at h
        subst h
        exact absurd hb (by decide)
    simp only [pNumber, if_neg hh, pDigits, h1, h2, if_neg hz, if_neg e1]
    show (do
        let __x ← (if r.head? = some 101 ∨ r.head? = some 69 then _ else some ([], r) : Option (Str × Str))
        _) = _
    rw [if_neg e2]
    simp only [Option.bind_eq_bind, Option.bind_some, and_self, if_true, hv]
    rw [if_neg (by simp), show ((n.natAbs : Int)) = n by omega]
    rfl

/-- A number begins with a digit or a minus sign. -/
theorem decInt_head (n : Int) : ∃ b x, decInt n = b :: x ∧ (digit b = true ∨ b = 45) := by
  obtain ⟨h0, hn, -, -⟩ := decText_spec n.natAbs
  unfold decInt
  split
  · exact ⟨_, _, rfl, .inr rfl⟩
  · cases hs : decText n.natAbs with
    | nil => exact absurd hs h0
    | cons b s =>
      rw [hs] at hn
      exact ⟨b, s, rfl, .inl (by simp [numeral] at hn; exact hn.1)⟩

/-- The blanks of a style are blanks. -/
structure PyStyle.Usual (st : PyStyle) : Prop where
  item : ∃ w, st.item = 44 :: w ∧ Blank w
  colon : ∃ w, st.colon = 58 :: w ∧ Blank w
  line : ∀ k, Blank (st.line k)

theorem pString_py {s : Str} (h : IsUtf8 s) (r : Str) :
    ∃ t, pyString s = 34 :: t ∧ pString ((t ++ r).length + 1) (t ++ r) = some (s, r) ∧ 1 ≤ t.length := by
  obtain ⟨l, hl⟩ := Option.isSome_iff_exists.1 (pyDecode_isSome.2 h)
  obtain ⟨k1, k2⟩ := pyDecode_iff.1 hl
  refine ⟨l.flatMap dumpChar ++ [34], by rw [pyString, hl]; rfl, ?_, by simp⟩
  have := flatMap_dumpChar_length l
  have e : l.flatMap dumpChar ++ [34] ++ r = l.flatMap dumpChar ++ 34 :: r := by simp
  rw [e, pString_dump k1 r _ (by simp only [List.length_append, List.length_cons]; omega), ← k2]

/-- The first character of a value. -/
theorem pyDump_head (st : PyStyle) (k : Nat) {v : JVal} (h : Texty v) :
    ∃ b x, pyDump st k v = b :: x ∧ b ≠ 93 ∧ b ≠ 32 ∧ b ≠ 9 ∧ b ≠ 10 ∧ b ≠ 13 := by
  cases v with
  | null => exact ⟨110, bs "ull", by rw [pyDump]; decide, by decide⟩
  | bool b =>
    cases b
    · exact ⟨102, bs "alse", by rw [pyDump]; decide, by decide⟩
    · exact ⟨116, bs "rue", by rw [pyDump]; decide, by decide⟩
  | int n =>
    obtain ⟨b, x, e, hb⟩ := decInt_head n
    refine ⟨b, x, by rw [pyDump]; exact e, ?_⟩
    have : ∀ y : Byte, digit y = false → y ≠ 45 → b ≠ y := by
      rintro y h1 h2 rfl
      rcases hb with hb | hb
      · rw [h1] at hb; cases hb
      · exact h2 hb
    exact ⟨this _ (by decide) (by decide), this _ (by decide) (by decide), this _ (by decide) (by decide), this _ (by decide) (by decide),
      this _ (by decide) (by decide)⟩
  | dec t => rw [Texty] at h; exact h.elim
  | str s => exact ⟨34, _, by rw [pyDump]; rfl, by decide⟩
  | arr l => exact ⟨91, _, by rw [pyDump], by decide⟩
  | obj l => exact ⟨123, _, by rw [pyDump], by decide⟩

theorem pyElems_cons (st : PyStyle) (k : Nat) (v u : JVal) (l : List JVal) :
    pyElems st k (v :: u :: l) = st.line k ++ pyDump st k v ++ st.item ++ pyElems st k (u :: l) := by
  rw [pyElems]
  simp

theorem pyMembers_cons (st : PyStyle) (k : Nat) (x y : Str × JVal) (l : List (Str × JVal)) :
    pyMembers st k (x :: y :: l) = st.line k ++ pyString x.1 ++ st.colon ++ pyDump st k x.2 ++ st.item ++ pyMembers st k (y :: l) := by
  rw [pyMembers]
  simp

mutual

theorem pValue_py {st : PyStyle} (hst : st.Usual) : ∀ (v : JVal), Texty v → ∀ (k f : Nat) (r : Str), Ends r →
    (pyDump st k v).length ≤ f → pValue f (pyDump st k v ++ r) = some (v, r)
  | .null, _, k, f, r, _, hf => by
    rw [pyDump] at hf ⊢
    obtain ⟨f, rfl⟩ : ∃ g, f = g + 1 := ⟨f - 1, by rw [show (bs "null").length = 4 by decide] at hf; omega⟩
    rw [show bs "null" = [110, 117, 108, 108] by decide, pValue]
    simp [skipWs, show bs "ull" = [117, 108, 108] by decide]
  | .bool b, _, k, f, r, _, hf => by
    rw [pyDump] at hf ⊢
    cases b with
    | false =>
      rw [if_neg (by simp)] at hf ⊢
      obtain ⟨f, rfl⟩ : ∃ g, f = g + 1 := ⟨f - 1, by rw [show (bs "false").length = 5 by decide] at hf; omega⟩
      rw [show bs "false" = [102, 97, 108, 115, 101] by decide, pValue]
      simp [skipWs, show bs "alse" = [97, 108, 115, 101] by decide]
    | true =>
      rw [if_pos rfl] at hf ⊢
      obtain ⟨f, rfl⟩ : ∃ g, f = g + 1 := ⟨f - 1, by rw [show (bs "true").length = 4 by decide] at hf; omega⟩
      rw [show bs "true" = [116, 114, 117, 101] by decide, pValue]
      simp [skipWs, show bs "rue" = [114, 117, 101] by decide]
  | .int n, _, k, f, r, hr, hf => by
    rw [pyDump] at hf ⊢
    obtain ⟨b, x, e, hb⟩ := decInt_head n
    have hp := pNumber_int n hr
    rw [e] at hf hp ⊢
    obtain ⟨f, rfl⟩ : ∃ g, f = g + 1 := ⟨f - 1, by simp only [List.length_cons] at hf; omega⟩
    have ne : ∀ y : Byte, digit y = false → y ≠ 45 → b ≠ y := by
      rintro y h1 h2 rfl
      rcases hb with hb | hb
      · rw [h1] at hb; cases hb
      · exact h2 hb
    rw [List.cons_append, pValue, skipWs_cons ⟨ne _ (by decide) (by decide), ne _ (by decide) (by decide),
      ne _ (by decide) (by decide), ne _ (by decide) (by decide)⟩]
    simp only [if_neg (ne 34 (by decide) (by decide)), if_neg (ne 123 (by decide) (by decide)), if_neg (ne 91 (by decide) (by decide)),
      if_neg (ne 116 (by decide) (by decide)), if_neg (ne 102 (by decide) (by decide)), if_neg (ne 110 (by decide) (by decide))]
    exact hp
  | .dec t, h, _, _, _, _, _ => by rw [Texty] at h; exact h.elim
  | .str s, h, k, f, r, _, hf => by
    rw [Texty] at h
    rw [pyDump] at hf ⊢
    obtain ⟨t, e, h1, -⟩ := pString_py h r
    rw [e] at hf ⊢
    obtain ⟨f, rfl⟩ : ∃ g, f = g + 1 := ⟨f - 1, by simp only [List.length_cons] at hf; omega⟩
    rw [List.cons_append, pValue, skipWs_quote]
    simp only [if_true]
    rw [h1]
    rfl
  | .arr l, h, k, f, r, _, hf => by
    rw [Texty] at h
    rw [pyDump] at hf ⊢
    obtain ⟨f, rfl⟩ : ∃ g, f = g + 1 := ⟨f - 1, by simp only [List.length_cons] at hf; omega⟩
    rw [List.cons_append, pValue, skipWs_lbracket]
    simp only [if_neg (show ¬ (91 : Byte) = 34 by decide), if_neg (show ¬ (91 : Byte) = 123 by decide), if_true]
    have := pElems_py hst l h (k + 1) f r
    match l with
    | [] =>
      rw [pyElems]
      rfl
    | v :: l =>
      obtain ⟨w, c, x, e, hw, hc, hs⟩ : ∃ w c x, pyElems st (k + 1) (v :: l) = w ++ c :: x ∧ Blank w ∧ c ≠ 93 ∧
          skipWs (pyElems st (k + 1) (v :: l) ++ r) = c :: (x ++ r) := by
        rw [TextyList] at h
        obtain ⟨b, x, e, h1, h2⟩ := pyDump_head st (k + 1) h.1
        obtain ⟨y, hy⟩ : ∃ y, pyElems st (k + 1) (v :: l) = st.line (k + 1) ++ b :: y := by
          match l with
          | [] => exact ⟨x ++ st.line (k + 1 - 1) ++ [93], by rw [pyElems, e]; simp⟩
          | u :: l => exact ⟨x ++ st.item ++ pyElems st (k + 1) (u :: l), by rw [pyElems_cons, e]; simp⟩
        exact ⟨_, _, _, hy, hst.line _, h1, by
          rw [hy, List.append_assoc, skipWs_blank (hst.line _), List.cons_append, skipWs_cons h2]⟩
      rw [hs]
      simp only [if_neg hc]
      have h2 := this (by simp) (by simp only [List.length_cons] at hf; omega)
      rw [e, List.append_assoc, pElems_blank hw, List.cons_append] at h2
      rw [h2]
      rfl
  | .obj l, h, k, f, r, _, hf => by
    rw [Texty] at h
    rw [pyDump] at hf ⊢
    obtain ⟨f, rfl⟩ : ∃ g, f = g + 1 := ⟨f - 1, by simp only [List.length_cons] at hf; omega⟩
    rw [List.cons_append, pValue, skipWs_cons (by decide)]
    simp only [if_neg (show ¬ (123 : Byte) = 34 by decide), if_true]
    have := pMembers_py hst l h (k + 1) f r
    match l with
    | [] =>
      rw [pyMembers]
      rfl
    | v :: l =>
      obtain ⟨y, hy⟩ : ∃ y, pyMembers st (k + 1) (v :: l) = st.line (k + 1) ++ 34 :: y := by
        match l with
        | [] => exact ⟨_, by rw [pyMembers, pyString]; simp; rfl⟩
        | u :: l => exact ⟨_, by rw [pyMembers_cons, pyString]; simp; rfl⟩
      have hs : skipWs (pyMembers st (k + 1) (v :: l) ++ r) = 34 :: (y ++ r) := by
        rw [hy, List.append_assoc, skipWs_blank (hst.line _), List.cons_append, skipWs_quote]
      rw [hs]
      simp only [if_neg (show ¬ (34 : Byte) = 125 by decide)]
      have h2 := this (by simp) (by simp only [List.length_cons] at hf; omega)
      rw [hy, List.append_assoc, pMembers_blank (hst.line _), List.cons_append] at h2
      rw [h2]
      rfl

theorem pElems_py {st : PyStyle} (hst : st.Usual) : ∀ (l : List JVal), TextyList l → ∀ (k f : Nat) (r : Str), l ≠ [] →
    (pyElems st k l).length ≤ f → pElems f (pyElems st k l ++ r) = some (l, r)
  | [], _, _, _, _, h0, _ => absurd rfl h0
  | [v], h, k, f, r, _, hf => by
    rw [TextyList] at h
    rw [pyElems] at hf ⊢
    simp only [List.length_append, List.length_cons, List.length_nil] at hf
    obtain ⟨f, rfl⟩ : ∃ g, f = g + 1 := ⟨f - 1, by omega⟩
    have e : st.line k ++ pyDump st k v ++ st.line (k - 1) ++ [93] ++ r =
        st.line k ++ (pyDump st k v ++ (st.line (k - 1) ++ 93 :: r)) := by simp
    rw [e, pElems_blank (hst.line _), pElems, pValue_py hst v h.1 k f _ (ends_blank (hst.line _) (ends_cons (by decide) _)) (by omega)]
    simp only [skipWs_blank (hst.line _)]
    rw [skipWs_cons (by decide)]
    rfl
  | v :: u :: l, h, k, f, r, _, hf => by
    rw [TextyList] at h
    obtain ⟨w, hi, hw⟩ := hst.item
    rw [pyElems_cons, hi] at hf ⊢
    simp only [List.length_append, List.length_cons] at hf
    obtain ⟨f, rfl⟩ : ∃ g, f = g + 1 := ⟨f - 1, by omega⟩
    have e : st.line k ++ pyDump st k v ++ 44 :: w ++ pyElems st k (u :: l) ++ r =
        st.line k ++ (pyDump st k v ++ (44 :: (w ++ (pyElems st k (u :: l) ++ r)))) := by simp
    rw [e, pElems_blank (hst.line _), pElems, pValue_py hst v h.1 k f _ (ends_cons (by decide) _) (by omega)]
    simp only []
    rw [skipWs_comma]
    simp only [if_true]
    rw [pElems_blank hw, pElems_py hst (u :: l) h.2 k f r (by simp) (by omega)]
    rfl

theorem pMembers_py {st : PyStyle} (hst : st.Usual) : ∀ (l : List (Str × JVal)), TextyMembers l → ∀ (k f : Nat) (r : Str), l ≠ [] →
    (pyMembers st k l).length ≤ f → pMembers f (pyMembers st k l ++ r) = some (l, r)
  | [], _, _, _, _, h0, _ => absurd rfl h0
  | [(n, v)], h, k, f, r, _, hf => by
    rw [TextyMembers] at h
    obtain ⟨w, hi, hw⟩ := hst.colon
    rw [pyMembers, hi] at hf ⊢
    obtain ⟨t, e, h1, -⟩ := pString_py h.1 (58 :: (w ++ (pyDump st k v ++ (st.line (k - 1) ++ 125 :: r))))
    simp only at e
    rw [e] at hf ⊢
    simp only [List.length_append, List.length_cons, List.length_nil] at hf
    obtain ⟨f, rfl⟩ : ∃ g, f = g + 1 := ⟨f - 1, by omega⟩
    have e : st.line k ++ 34 :: t ++ 58 :: w ++ pyDump st k v ++ st.line (k - 1) ++ [125] ++ r =
        st.line k ++ (34 :: (t ++ (58 :: (w ++ (pyDump st k v ++ (st.line (k - 1) ++ 125 :: r)))))) := by simp
    rw [e, pMembers_blank (hst.line _), pMembers, skipWs_quote]
    simp only [ne_eq, not_true_eq_false, if_false]
    rw [h1]
    simp only [skipWs_colon, not_true_eq_false, if_false]
    rw [pValue_blank hw, pValue_py hst v h.2.1 k f _ (ends_blank (hst.line _) (ends_cons (by decide) _)) (by omega)]
    simp only [skipWs_blank (hst.line _)]
    rw [skipWs_cons (by decide)]
    rfl
  | (n, v) :: u :: l, h, k, f, r, _, hf => by
    rw [TextyMembers] at h
    obtain ⟨w, hi, hw⟩ := hst.colon
    obtain ⟨z, hz, hzw⟩ := hst.item
    rw [pyMembers_cons, hi, hz] at hf ⊢
    obtain ⟨t, e, h1, -⟩ := pString_py h.1 (58 :: (w ++ (pyDump st k v ++ (44 :: (z ++ (pyMembers st k (u :: l) ++ r))))))
    simp only at e
    simp only [e] at hf ⊢
    simp only [List.length_append, List.length_cons] at hf
    obtain ⟨f, rfl⟩ : ∃ g, f = g + 1 := ⟨f - 1, by omega⟩
    have e : st.line k ++ 34 :: t ++ 58 :: w ++ pyDump st k v ++ 44 :: z ++ pyMembers st k (u :: l) ++ r =
        st.line k ++ (34 :: (t ++ (58 :: (w ++ (pyDump st k v ++ (44 :: (z ++ (pyMembers st k (u :: l) ++ r)))))))) := by simp
    rw [e, pMembers_blank (hst.line _), pMembers, skipWs_quote]
    simp only [ne_eq, not_true_eq_false, if_false]
    rw [h1]
    simp only [skipWs_colon, not_true_eq_false, if_false]
    rw [pValue_blank hw, pValue_py hst v h.2.1 k f _ (ends_cons (by decide) _) (by omega)]
    simp only []
    rw [skipWs_comma]
    simp only [if_true]
    rw [pMembers_blank hzw, pMembers_py hst (u :: l) h.2.2 k f r (by simp) (by omega)]
    rfl

end

/-- `json.loads(json.dumps(v)) == v` -/
theorem parse_dumps {st : PyStyle} (hst : st.Usual) {v : JVal} (h : Texty v) : parseJson (pyDumps st v) = some v := by
  have := pValue_py hst v h 0 (2 * (pyDumps st v).length + 2) [] (by simp [Ends]) (by rw [pyDumps]; omega)
  rw [List.append_nil] at this
  unfold parseJson
  rw [show pyDump st 0 v = pyDumps st v from rfl] at this
  rw [this]
  rfl

/-- Followed by a line break (`flask.jsonify`). -/
theorem parse_dumps_line {st : PyStyle} (hst : st.Usual) {v : JVal} (h : Texty v) : parseJson (pyDumps st v ++ [10]) = some v := by
  have := pValue_py hst v h 0 (2 * (pyDumps st v ++ [10]).length + 2) [10] (ends_cons (by decide) _)
    (by rw [List.length_append, pyDumps]; omega)
  unfold parseJson
  rw [show pyDump st 0 v = pyDumps st v from rfl] at this
  rw [this]
  rfl

theorem blank_line (n : Nat) : Blank (10 :: List.replicate n 32) := by
  intro b hb
  rcases List.mem_cons.1 hb with rfl | hb
  · exact .inr rfl
  · exact .inl (List.eq_of_mem_replicate hb)

theorem tight_usual : tightStyle.Usual :=
  ⟨⟨[], by decide, by simp [Blank]⟩, ⟨[], by decide, by simp [Blank]⟩, fun _ => by simp [tightStyle, Blank]⟩

theorem indent_usual : indentStyle.Usual :=
  ⟨⟨[], by decide, by simp [Blank]⟩, ⟨[32], by decide, by simp [Blank]⟩, fun _ => blank_line _⟩

theorem jsonify_usual : jsonifyStyle.Usual :=
  ⟨⟨[32], by decide, by simp [Blank]⟩, ⟨[32], by decide, by simp [Blank]⟩, fun _ => blank_line _⟩

end Wifinfo
