import Verif.Proofs.Json

/-!
# The JSON builders against the JSON parser: exactly which texts come back

The builders put texts between quotes as they are.  A text comes back from the parser as itself only if it
has nothing to escape, so that a document made of such members is read as its meaning only if every text
of it is plain.
-/

namespace Wifinfo
open Spec

theorem utf8_length (n : Nat) : 1 ≤ (utf8 n).length ∧ (utf8 n).length ≤ 4 := by
  unfold utf8
  split
  · simp
  · split
    · simp
    · split <;> simp

theorem hexVal_quote : hexVal 34 = none := by decide

theorem hex4_quote {a b c d : Byte} {n : Nat} (h : hex4 a b c d = some n) : 34 ∉ [a, b, c, d] := by
  unfold hex4 at h
  cases ha : hexVal a with
  | none => simp [ha] at h
  | some a' =>
    cases hb : hexVal b with
    | none => simp [ha, hb] at h
    | some b' =>
      cases hc : hexVal c with
      | none => simp [ha, hb, hc] at h
      | some c' =>
        cases hd : hexVal d with
        | none => simp [ha, hb, hc, hd] at h
        | some d' =>
          have hq : ∀ x v, hexVal x = some v → x ≠ 34 := by
            intro x v hx e
            rw [e, hexVal_quote] at hx
            cases hx
          simp [Ne.symm (hq _ _ ha), Ne.symm (hq _ _ hb), Ne.symm (hq _ _ hc), Ne.symm (hq _ _ hd)]

/-- What an escape eats after its four digits. -/
theorem codePoint_rest (n : Nat) (r : Str) : ∃ q, r = q ++ (codePoint n r).2 ∧ 34 ∉ q := by
  unfold codePoint
  split
  · cases hl : lowHalf r with
    | none => exact ⟨[], rfl, by simp⟩
    | some p =>
      obtain ⟨m, r'⟩ := p
      unfold lowHalf at hl
      split at hl
      · rename_i e u a b c d r
        split at hl
        · rename_i he
          cases h4 : hex4 a b c d with
          | none => simp [h4] at hl
          | some k =>
            simp only [h4] at hl
            split at hl
            · simp only [Option.some.injEq, Prod.mk.injEq] at hl
              refine ⟨[e, u, a, b, c, d], by rw [← hl.2]; rfl, ?_⟩
              have := hex4_quote h4
              simp only [List.mem_cons, List.not_mem_nil, or_false, not_or] at this ⊢
              rw [he.1, he.2]
              exact ⟨by decide, by decide, this⟩
            · cases hl
        · cases hl
      · cases hl
  · exact ⟨[], rfl, by simp⟩

/-- What a step of the parser eats when it does not end the string: a chunk of the text, its meaning, and the
parse of the rest. -/
theorem pString_step {f : Nat} {c : Byte} {t w r' : Str} (h : pString f (c :: t) = some (w, r')) (hc : c ≠ 34) :
    ∃ q y g rest w', c :: t = q ++ rest ∧ w = y ++ w' ∧ pString g rest = some (w', r') ∧ y ≠ [] ∧
      ((q = [c] ∧ y = [c] ∧ plain c = true) ∨
       (∃ e, q = [92, e] ∧ c = 92 ∧ y.length = 1 ∧ (e = 34 → y = [34])) ∨
       (∃ q', q = 92 :: q' ∧ c = 92 ∧ y.length < q.length ∧ 34 ∉ q)) := by
  cases f with
  | zero => simp [pString] at h
  | succ f =>
    rw [pString.eq_def] at h
    dsimp only at h
    rw [if_neg hc] at h
    by_cases h32 : c < 32
    · rw [if_pos h32] at h; cases h
    rw [if_neg h32] at h
    by_cases h92 : c = 92
    · rw [if_pos h92] at h
      cases t with
      | nil => simp at h
      | cons e t =>
        dsimp only at h
        by_cases hu : e = 117
        · rw [if_pos hu] at h
          match t, h with
          | [], h => simp at h
          | [_], h => simp at h
          | [_, _], h => simp at h
          | [_, _, _], h => simp at h
          | a :: b :: d :: g :: t, h =>
            dsimp only at h
            cases h4 : hex4 a b d g with
            | none => simp [h4] at h
            | some n =>
              cases hr : pString f (codePoint n t).2 with
              | none => simp [h4, hr] at h
              | some p =>
                obtain ⟨s, r⟩ := p
                simp only [h4, hr, Option.bind_eq_bind, Option.bind_some, Option.pure_def,
                  Option.some.injEq, Prod.mk.injEq] at h
                obtain ⟨h1, rfl⟩ := h
                obtain ⟨q, hq1, hq2⟩ := codePoint_rest n t
                have hl := utf8_length (codePoint n t).1
                have h34 := hex4_quote h4
                refine ⟨92 :: 117 :: a :: b :: d :: g :: q, utf8 (codePoint n t).1, f, (codePoint n t).2, s, ?_, h1.symm,
                  hr, ?_, Or.inr (Or.inr ⟨_, rfl, h92, ?_, ?_⟩)⟩
                · rw [h92, hu]
                  show 92 :: 117 :: a :: b :: d :: g :: t = 92 :: 117 :: a :: b :: d :: g :: (q ++ (codePoint n t).2)
                  rw [← hq1]
                · intro e0
                  have := hl.1
                  rw [e0] at this
                  simp at this
                · simp only [List.length_cons]
                  omega
                · simp only [List.mem_cons, List.not_mem_nil, or_false, not_or] at h34 ⊢
                  exact ⟨by decide, by decide, h34.1, h34.2.1, h34.2.2.1, h34.2.2.2, hq2⟩
        · rw [if_neg hu] at h
          cases he : escape e with
          | none => simp [he] at h
          | some x =>
            cases hr : pString f t with
            | none => simp [he, hr] at h
            | some p =>
              obtain ⟨s, r⟩ := p
              simp only [he, hr, Option.bind_eq_bind, Option.bind_some, Option.pure_def, Option.some.injEq,
                Prod.mk.injEq] at h
              obtain ⟨h1, rfl⟩ := h
              refine ⟨[92, e], [x], f, t, s, by rw [h92]; rfl, h1.symm, hr, by simp,
                Or.inr (Or.inl ⟨e, rfl, h92, rfl, ?_⟩)⟩
              intro e34
              rw [e34] at he
              have : escape 34 = some 34 := by decide
              rw [this] at he
              injection he with he
              rw [he]
    · rw [if_neg h92] at h
      cases hr : pString f t with
      | none => simp [hr] at h
      | some p =>
        obtain ⟨s, r⟩ := p
        simp only [hr, Option.bind_eq_bind, Option.bind_some, Option.pure_def, Option.some.injEq,
          Prod.mk.injEq] at h
        obtain ⟨h1, rfl⟩ := h
        refine ⟨[c], [c], f, t, s, rfl, h1.symm, hr, by simp, Or.inl ⟨rfl, rfl, ?_⟩⟩
        simp only [plain, Bool.and_eq_true, decide_eq_true_eq, bne_iff_ne]
        exact ⟨⟨UInt8.not_lt.1 h32, hc⟩, h92⟩

/-- A chunk eaten by a step starts inside the text `t` put between quotes: either it is a part of `t`, or the
last character of `t` is a backslash that eats the closing quote. -/
theorem chunk_inside {q rest t r : Str} (h : t ++ 34 :: r = q ++ rest) (hq : 34 ∉ q) :
    ∃ t2, t = q ++ t2 ∧ rest = t2 ++ 34 :: r := by
  rcases List.append_eq_append_iff.1 h with ⟨a, h1, h2⟩ | ⟨a, h1, h2⟩
  · cases a with
    | nil => exact ⟨[], by simpa using h1.symm, by simpa using h2.symm⟩
    | cons x a =>
      simp only [List.cons_append, List.cons.injEq] at h2
      exact absurd (by rw [h1, ← h2.1]; simp) hq
  · exact ⟨a, h1, h2⟩

/-- The parser never gives back more than the text between the quotes: not the text after something else. -/
theorem pString_not_more (n : Nat) : ∀ t : Str, t.length ≤ n → ∀ u r f r', u ≠ [] → (34 : Byte) ∉ u →
    pString f (t ++ 34 :: r) ≠ some (u ++ t, r') := by
  induction n with
  | zero =>
    intro t ht u r f r' hu _ h
    have : t = [] := List.length_eq_zero_iff.1 (by omega)
    subst this
    cases f with
    | zero => simp [pString] at h
    | succ f =>
      simp [pString] at h
      exact hu h.1
  | succ n ih =>
    intro t ht u r f r' hu hq h
    cases t with
    | nil => exact ih [] (by simp) u r f r' hu hq h
    | cons c t =>
      by_cases hc : c = 34
      · subst hc
        cases f with
        | zero => simp [pString] at h
        | succ f =>
          simp [pString] at h
      · rw [List.cons_append] at h
        obtain ⟨q, y, g, rest, w', e1, e2, e3, hy, hk⟩ := pString_step h hc
        rw [← List.cons_append] at e1
        have step : ∀ t2, c :: t = q ++ t2 → rest = t2 ++ 34 :: r → y.length ≤ q.length → (34 : Byte) ∉ q → False := by
          intro t2 g1 g2 g3 g4
          rw [g1, ← List.append_assoc] at e2
          have hlen : y.length ≤ (u ++ q).length := by simp; omega
          obtain ⟨u', hu'⟩ : ∃ u', u ++ q = y ++ u' := by
            have : (u ++ q ++ t2).take y.length = y := by rw [e2]; simp
            rw [List.take_append_of_le_length hlen] at this
            exact ⟨(u ++ q).drop y.length, by
              have h2 := List.take_append_drop y.length (u ++ q)
              rw [this] at h2
              exact h2.symm⟩
          rw [hu', List.append_assoc] at e2
          have e2 := List.append_cancel_left e2
          rw [← e2, g2] at e3
          have hul : u.length ≠ 0 := by intro h0; exact hu (List.length_eq_zero_iff.1 h0)
          have hl := congrArg List.length hu'
          simp only [List.length_append] at hl
          have ht2 : t2.length ≤ n := by
            have h1 := congrArg List.length g1
            have h2 : q.length ≠ 0 := by
              rcases hk with ⟨rfl, _⟩ | ⟨_, rfl, _⟩ | ⟨_, rfl, _⟩ <;> simp
            simp only [List.length_append, List.length_cons] at h1 ht
            omega
          refine ih t2 ht2 u' r g r' (by intro h0; rw [h0] at hl; simp at hl; omega) ?_ e3
          intro hm
          have : (34 : Byte) ∈ u ++ q := by rw [hu']; simp [hm]
          rcases List.mem_append.1 this with h | h
          · exact hq h
          · exact g4 h
        rcases hk with ⟨rfl, rfl, hp⟩ | ⟨e, rfl, rfl, hl, he⟩ | ⟨q', rfl, rfl, hl, g4⟩
        · exact step t rfl (by simpa using e1.symm) (by simp) (by simpa using Ne.symm hc)
        · by_cases h34 : e = 34
          · have := he h34
            subst this
            cases u with
            | nil => exact hu rfl
            | cons x u =>
              simp at e2
              exact hq (by simp [e2.1])
          · have g4 : (34 : Byte) ∉ [92, e] := by simp [Ne.symm h34]
            obtain ⟨t2, g1, g2⟩ := chunk_inside e1 g4
            exact step t2 g1 g2 (by simp; omega) g4
        · obtain ⟨t2, g1, g2⟩ := chunk_inside e1 g4
          exact step t2 g1 g2 (by omega) g4

/-- A text put between quotes as it is comes back as itself only if it has nothing to escape. -/
theorem pString_self {s r r' : Str} {f : Nat} (h : pString f (s ++ 34 :: r) = some (s, r')) : Plain s := by
  induction s generalizing f with
  | nil => intro b hb; simp at hb
  | cons c t ih =>
    by_cases hc : c = 34
    · subst hc
      cases f with
      | zero => simp [pString] at h
      | succ f => simp [pString] at h
    · rw [List.cons_append] at h
      obtain ⟨q, y, g, rest, w', e1, e2, e3, hy, hk⟩ := pString_step h hc
      rw [← List.cons_append] at e1
      have step : ∀ t2, c :: t = q ++ t2 → rest = t2 ++ 34 :: r → y.length < q.length → (34 : Byte) ∉ q → False := by
        intro t2 g1 g2 g3 g4
        rw [g1] at e2
        obtain ⟨u', hu'⟩ : ∃ u', q = y ++ u' := by
          have : (q ++ t2).take y.length = y := by rw [e2]; simp
          rw [List.take_append_of_le_length (by omega)] at this
          exact ⟨q.drop y.length, by
            have h2 := List.take_append_drop y.length q
            rw [this] at h2
            exact h2.symm⟩
        rw [hu', List.append_assoc] at e2
        have e2 := List.append_cancel_left e2
        rw [← e2, g2] at e3
        have hl := congrArg List.length hu'
        simp only [List.length_append] at hl
        refine pString_not_more _ t2 (Nat.le_refl _) u' r g r' (by intro h0; rw [h0] at hl; simp at hl; omega) ?_ e3
        intro hm
        exact g4 (by rw [hu']; simp [hm])
      rcases hk with ⟨rfl, rfl, hp⟩ | ⟨e, rfl, rfl, hl, he⟩ | ⟨q', rfl, rfl, hl, g4⟩
      · simp only [List.cons_append, List.nil_append, List.cons.injEq, true_and] at e1 e2
        rw [← e1, ← e2] at e3
        intro x hx
        rcases List.mem_cons.1 hx with rfl | hx
        · exact hp
        · exact ih e3 x hx
      · exfalso
        by_cases h34 : e = 34
        · have := he h34
          subst this
          simp at e2
        · have g4 : (34 : Byte) ∉ [92, e] := by simp [Ne.symm h34]
          obtain ⟨t2, g1, g2⟩ := chunk_inside e1 g4
          exact step t2 g1 g2 (by simp; omega) g4
      · exfalso
        obtain ⟨t2, g1, g2⟩ := chunk_inside e1 g4
        exact step t2 g1 g2 hl g4

theorem pString_self_rest {s r r' : Str} (h : pString ((s ++ 34 :: r).length + 1) (s ++ 34 :: r) = some (s, r')) :
    Plain s ∧ r' = r := by
  have hp := pString_self h
  rw [pString_plain hp r _ (by simp; omega)] at h
  injection h with h
  injection h with _ h
  exact ⟨hp, h.symm⟩

/-! ## Members and elements -/

/-- A member as the builders write it: a text between quotes, a number, or nothing at all. -/
def JMember.Built (x : JMember) : Prop :=
  (∃ v, x.2 = (34 :: v ++ [34], .str v)) ∨ JItem x.2.1 x.2.2 ∨ x.2.1 = []

theorem pValue_built {x : JMember} (hb : x.Built) {r r' : Str} (hr : Stop r) {f : Nat}
    (h : pValue f (x.2.1 ++ r) = some (x.2.2, r')) : JItem x.2.1 x.2.2 ∧ r' = r := by
  have rest : JItem x.2.1 x.2.2 → r' = r := by
    intro hi
    cases f with
    | zero => simp [pValue] at h
    | succ f =>
      rw [pValue_item hi hr] at h
      injection h with h
      injection h with _ h
      exact h.symm
  rcases hb with ⟨v, hv⟩ | hi | he
  · have : JItem x.2.1 x.2.2 := by
      cases f with
      | zero => simp [pValue] at h
      | succ f =>
        rw [hv] at h ⊢
        have e : (34 :: v ++ [34]) ++ r = 34 :: (v ++ 34 :: r) := by simp
        rw [e, pValue, skipWs_quote] at h
        simp only [if_true] at h
        cases hs : pString ((v ++ 34 :: r).length + 1) (v ++ 34 :: r) with
        | none => rw [hs] at h; simp at h
        | some p =>
          obtain ⟨s, t⟩ := p
          rw [hs] at h
          simp only [Option.map_some, Option.some.injEq, Prod.mk.injEq, JVal.str.injEq] at h
          rw [h.1] at hs
          exact .text (pString_self hs)
    exact ⟨this, rest this⟩
  · exact ⟨hi, rest hi⟩
  · exfalso
    rw [he] at h
    cases f with
    | zero => simp [pValue] at h
    | succ f =>
      obtain ⟨z, hz | hz | hz⟩ := hr <;> subst hz <;>
        simp [pValue, skipWs, pNumber, pDigits, digit] at h

theorem pMembers_built (l : List JMember) : l ≠ [] → (∀ x ∈ l, JMember.Built x) → ∀ f r r',
    pMembers f (memsText l ++ r) = some (memsVal l, r') → ∀ x ∈ l, JMember.Good x := by
  induction l with
  | nil => intro h; exact absurd rfl h
  | cons x l ih =>
    intro _ hb f r r' h
    cases f with
    | zero => simp [pMembers] at h
    | succ f =>
      have key : ∀ c z, Stop (c :: z) → ∀ m, pMembers (f + 1) (34 :: (x.1 ++ 34 :: (58 :: (x.2.1 ++ c :: z)))) =
          some ((x.1, x.2.2) :: m, r') →
          x.Good ∧ (c = 44 → ∃ m', m = m' ∧ pMembers f z = some (m', r')) := by
        intro c z hs m h
        rw [pMembers, skipWs_quote] at h
        simp only [ne_eq, not_true_eq_false, if_false] at h
        cases h1 : pString ((x.1 ++ 34 :: 58 :: (x.2.1 ++ c :: z)).length + 1) (x.1 ++ 34 :: 58 :: (x.2.1 ++ c :: z)) with
        | none => rw [h1] at h; cases h
        | some p =>
          obtain ⟨k, r1⟩ := p
          rw [h1] at h
          dsimp only at h
          cases h2 : skipWs r1 with
          | nil => rw [h2] at h; cases h
          | cons d r2 =>
            rw [h2] at h
            dsimp only at h
            by_cases hd : ¬ d = 58
            · rw [if_pos hd] at h; cases h
            · rw [if_neg hd] at h
              cases h3 : pValue f r2 with
              | none => rw [h3] at h; cases h
              | some p =>
                obtain ⟨v, r3⟩ := p
                rw [h3] at h
                dsimp only at h
                cases h4 : skipWs r3 with
                | nil => rw [h4] at h; cases h
                | cons d' r4 =>
                  rw [h4] at h
                  dsimp only at h
                  have kv : k = x.1 ∧ v = x.2.2 ∧ (d' = 44 → pMembers f r4 = some (m, r')) := by
                    by_cases hd' : d' = 44
                    · rw [if_pos hd'] at h
                      cases h5 : pMembers f r4 with
                      | none => rw [h5] at h; cases h
                      | some p =>
                        rw [h5] at h
                        simp only [Option.map_some, Option.some.injEq, Prod.mk.injEq, List.cons.injEq] at h
                        obtain ⟨⟨⟨a, b⟩, c⟩, d⟩ := h
                        refine ⟨a, b, fun _ => ?_⟩
                        rw [← c, ← d]
                    · rw [if_neg hd'] at h
                      by_cases hd2 : d' = 125
                      · rw [if_pos hd2] at h
                        simp only [Option.some.injEq, Prod.mk.injEq, List.cons.injEq] at h
                        exact ⟨h.1.1.1, h.1.1.2, fun e => absurd e hd'⟩
                      · rw [if_neg hd2] at h; cases h
                  obtain ⟨rfl, rfl, k3⟩ := kv
                  obtain ⟨p1, p2⟩ := pString_self_rest h1
                  subst p2
                  rw [skipWs_colon] at h2
                  injection h2 with _ h2
                  subst h2
                  obtain ⟨i1, i2⟩ := pValue_built (hb x (by simp)) hs h3
                  refine ⟨⟨p1, i1⟩, ?_⟩
                  intro hc
                  subst hc
                  subst i2
                  rw [skipWs_comma] at h4
                  injection h4 with h4 h5
                  subst h5
                  exact ⟨m, rfl, k3 h4.symm⟩
      cases l with
      | nil =>
        have e : memsText [x] ++ r = 34 :: (x.1 ++ 34 :: (58 :: (x.2.1 ++ 125 :: r))) := by
          simp [memsText, memText]
        rw [e] at h
        have := (key 125 r ⟨r, Or.inr (Or.inl rfl)⟩ [] h).1
        intro y hy
        rw [List.mem_singleton.1 hy]
        exact this
      | cons y l =>
        have e : memsText (x :: y :: l) ++ r =
            34 :: (x.1 ++ 34 :: (58 :: (x.2.1 ++ 44 :: (memsText (y :: l) ++ r)))) := by
          simp [memsText, memText]
        rw [e] at h
        obtain ⟨g, hm⟩ := key 44 _ ⟨_, Or.inl rfl⟩ (memsVal (y :: l)) h
        obtain ⟨m', e1, e2⟩ := hm rfl
        subst e1
        have := ih (by simp) (fun z hz => hb z (by simp [hz])) f r r' e2
        intro z hz
        rcases List.mem_cons.1 hz with rfl | hz
        · exact g
        · exact this z hz

theorem pValue_obj_built (l : List JMember) (hb : ∀ x ∈ l, JMember.Built x) {f : Nat} {r r' : Str}
    (h : pValue f (123 :: (memsText l ++ r)) = some (.obj (memsVal l), r')) : ∀ x ∈ l, JMember.Good x := by
  cases l with
  | nil => intro x hx; simp at hx
  | cons x l =>
    cases f with
    | zero => simp [pValue] at h
    | succ f =>
      have e : ∃ s, memsText (x :: l) ++ r = 34 :: s := by
        cases l <;> exact ⟨_, rfl⟩
      obtain ⟨s, hs⟩ := e
      rw [pValue, skipWs_lbrace] at h
      rw [hs] at h
      have e1 : ¬ (123 : Byte) = 34 := by decide
      have e2 : ¬ (34 : Byte) = 125 := by decide
      simp only [if_neg e1, if_true, skipWs_quote, if_neg e2] at h
      cases hm : pMembers f (34 :: s) with
      | none => rw [hm] at h; simp at h
      | some p =>
        obtain ⟨m, z⟩ := p
        rw [hm] at h
        simp only [Option.map_some, Option.some.injEq, Prod.mk.injEq, JVal.obj.injEq] at h
        rw [h.1, ← hs] at hm
        exact pMembers_built (x :: l) (by simp) hb f r z hm

/-- **Objects.** The text the builders make of the members is read as their meaning exactly when every name and
text is plain and no value is missing. -/
theorem parse_obj_iff (l : List JMember) (hb : ∀ x ∈ l, JMember.Built x) :
    parseJson (123 :: memsText l) = some (.obj (memsVal l)) ↔ ∀ x ∈ l, JMember.Good x := by
  refine ⟨fun h => ?_, parse_obj l⟩
  unfold parseJson at h
  cases hv : pValue (2 * (123 :: memsText l).length + 2) (123 :: memsText l) with
  | none => rw [hv] at h; cases h
  | some p =>
    obtain ⟨v, r⟩ := p
    rw [hv] at h
    dsimp only at h
    split at h
    · injection h with h
      subst h
      rw [← List.append_nil (memsText l)] at hv
      exact pValue_obj_built l hb hv
    · cases h

theorem pElems_built (l : List (List JMember)) : l ≠ [] → (∀ x ∈ l, ∀ y ∈ x, JMember.Built y) → ∀ f r r',
    (∀ x ∈ l, l.length + x.length + 1 < f) →
    pElems f (elemsText l ++ r) = some (l.map fun x => .obj (memsVal x), r') →
    ∀ x ∈ l, ∀ y ∈ x, JMember.Good y := by
  induction l with
  | nil => intro h; exact absurd rfl h
  | cons x l ih =>
    intro _ hb f r r' hf h
    have hfx := hf x (by simp)
    obtain ⟨f, rfl⟩ : ∃ g, f = g + 1 + 1 := ⟨f - 2, by simp at hfx; omega⟩
    have key : ∀ c z, pElems (f + 1 + 1) (123 :: (memsText x ++ c :: z)) =
        some ((x :: l).map fun x => .obj (memsVal x), r') → ∀ y ∈ x, JMember.Good y := by
      intro c z h
      rw [pElems] at h
      cases h1 : pValue (f + 1) (123 :: (memsText x ++ c :: z)) with
      | none => rw [h1] at h; cases h
      | some p =>
        obtain ⟨v, r1⟩ := p
        rw [h1] at h
        dsimp only at h
        cases h2 : skipWs r1 with
        | nil => rw [h2] at h; cases h
        | cons d r2 =>
          rw [h2] at h
          dsimp only at h
          have hv : v = .obj (memsVal x) := by
            split at h
            · cases h5 : pElems (f + 1) r2 with
              | none => rw [h5] at h; cases h
              | some p =>
                rw [h5] at h
                simp only [Option.map_some, Option.some.injEq, Prod.mk.injEq, List.map_cons, List.cons.injEq] at h
                exact h.1.1
            · split at h
              · simp only [Option.some.injEq, Prod.mk.injEq, List.map_cons, List.cons.injEq] at h
                exact h.1.1
              · cases h
          subst hv
          exact pValue_obj_built x (hb x (by simp)) h1
    cases l with
    | nil =>
      have e : elemsText [x] ++ r = 123 :: (memsText x ++ 93 :: r) := by simp [elemsText]
      rw [e] at h
      intro z hz
      rw [List.mem_singleton.1 hz]
      exact key _ _ h
    | cons y l =>
      have e : elemsText (x :: y :: l) ++ r = 123 :: (memsText x ++ 44 :: (elemsText (y :: l) ++ r)) := by
        simp [elemsText]
      rw [e] at h
      have hx := key _ _ h
      rw [pElems, pValue_obj x hx _ _ (by simp at hfx; omega)] at h
      simp only [skipWs_comma, if_true] at h
      cases h5 : pElems (f + 1) (elemsText (y :: l) ++ r) with
      | none => rw [h5] at h; cases h
      | some p =>
        obtain ⟨m, z⟩ := p
        rw [h5] at h
        rw [List.map_cons] at h
        simp only [Option.map_some, Option.some.injEq, Prod.mk.injEq, List.cons.injEq, true_and] at h
        rw [h.1] at h5
        have := ih (by simp) (fun z hz => hb z (by simp [hz])) (f + 1) r z (by
          intro z hz
          have := hf z (by simp [hz])
          simp at this ⊢; omega) h5
        intro z hz
        rcases List.mem_cons.1 hz with rfl | hz
        · exact hx
        · exact this z hz

theorem pValue_arr_built (l : List (List JMember)) (hb : ∀ x ∈ l, ∀ y ∈ x, JMember.Built y) {f : Nat} {r r' : Str}
    (hf : ∀ x ∈ l, l.length + x.length + 1 < f)
    (h : pValue (f + 1) (91 :: (elemsText l ++ r)) = some (.arr (l.map fun x => .obj (memsVal x)), r')) :
    ∀ x ∈ l, ∀ y ∈ x, JMember.Good y := by
  cases l with
  | nil => intro x hx; simp at hx
  | cons x l =>
    rw [pValue, skipWs_lbracket] at h
    obtain ⟨s, hs⟩ : ∃ s, elemsText (x :: l) ++ r = 123 :: s := by cases l <;> exact ⟨_, rfl⟩
    have e93 : ¬ (123 : Byte) = 93 := by decide
    have e1 : ¬ (91 : Byte) = 34 := by decide
    have e2 : ¬ (91 : Byte) = 123 := by decide
    rw [hs] at h
    simp only [skipWs_lbrace, if_neg e93, if_neg e1, if_neg e2, if_true] at h
    rw [← hs] at h
    cases hm : pElems f (elemsText (x :: l) ++ r) with
    | none => rw [hm] at h; simp at h
    | some p =>
      obtain ⟨m, r1⟩ := p
      rw [hm] at h
      simp only [Option.map_some, Option.some.injEq, Prod.mk.injEq, JVal.arr.injEq] at h
      rw [h.1] at hm
      exact pElems_built (x :: l) (by simp) hb _ _ _ hf hm

/-- **Arrays of objects.** The same. -/
theorem parse_arr_iff (l : List (List JMember)) (hb : ∀ x ∈ l, ∀ y ∈ x, JMember.Built y) :
    parseJson (91 :: elemsText l) = some (.arr (l.map fun x => .obj (memsVal x))) ↔
      ∀ x ∈ l, ∀ y ∈ x, JMember.Good y := by
  refine ⟨fun h => ?_, parse_arr l⟩
  unfold parseJson at h
  rw [show 2 * (91 :: elemsText l).length + 2 = (2 * (elemsText l).length + 3) + 1 by simp; omega] at h
  cases hv : pValue ((2 * (elemsText l).length + 3) + 1) (91 :: elemsText l) with
  | none => rw [hv] at h; cases h
  | some p =>
    obtain ⟨v, r⟩ := p
    rw [hv] at h
    dsimp only at h
    split at h
    · injection h with h
      subst h
      rw [← List.append_nil (elemsText l)] at hv
      exact pValue_arr_built l hb (by
        intro z hz
        have := elemsText_length l z hz
        simp
        omega) hv
    · cases h

/-! ## The members of the builders -/

theorem mText_built (n v : Str) : (mText n v).Built := Or.inl ⟨v, rfl⟩

theorem mText_good_iff {n v : Str} : (mText n v).Good ↔ Plain n ∧ Plain v := by
  refine ⟨fun h => ⟨h.1, ?_⟩, fun h => mText_good h.1 h.2⟩
  have := h.2
  unfold mText at this
  dsimp only at this
  generalize hv : JVal.str v = w at this
  generalize 34 :: v ++ [34] = z at this
  cases this with
  | text hs => injection hv with hv; rw [hv]; exact hs
  | num _ _ _ => cases hv
  | neg _ _ _ => cases hv

theorem mNum_built (n : Str) (k : Nat) : (mNum n k).Built :=
  Or.inr (Or.inl (mNum_good (n := []) (by intro b hb; simp at hb) k).2)

end Wifinfo
