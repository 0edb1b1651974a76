import Verif.Model.Restrict

/-!
# C79: what restricted clients are not shown
-/

namespace Wifinfo

namespace Spec

/-- Text between a marker and the next. -/
def hidden (s : Str) : Str := bs "<!--RESTRICT_ON-->" ++ s ++ bs "<!--RESTRICT_OFF-->"

/-- A page: texts to show, each followed by a text to hide, and a last text. -/
def pageText (l : List (Str × Str)) (last : Str) : Str := (l.map fun p => p.1 ++ hidden p.2).flatten ++ last

/-- The texts to show. -/
def shownText (l : List (Str × Str)) (last : Str) : Str := (l.map Prod.fst).flatten ++ last

end Spec

open Spec

theorem prefix_iff {m t : Str} : m.isPrefixOf t = true ↔ m <+: t := List.isPrefixOf_iff_prefix

/-- A text whose first byte is found nowhere else in it. -/
def OnceFirst (m : Str) : Prop := ∀ i, 0 < i → i < m.length → m[i]? ≠ m[0]?

theorem on_once : OnceFirst markOn := by
  unfold OnceFirst
  have h : ∀ i : Fin markOn.length, 0 < i.val → markOn[i.val]? ≠ markOn[0]? := by decide +kernel
  exact fun i h0 hi => h ⟨i, hi⟩ h0

theorem off_once : OnceFirst markOff := by
  unfold OnceFirst
  have h : ∀ i : Fin markOff.length, 0 < i.val → markOff[i.val]? ≠ markOff[0]? := by decide +kernel
  exact fun i h0 hi => h ⟨i, hi⟩ h0

/-- Such a text, not found in `u`, is not found before the end of `u` when `u` is followed by it. -/
theorem not_before {m u rest : Str} (ho : OnceFirst m) (hm : m ≠ []) (hu : u ≠ []) (hn : ¬ m <:+: u) :
    ¬ m <+: u ++ (m ++ rest) := by
  intro hp
  by_cases hl : m.length ≤ u.length
  · exact hn (List.prefix_of_prefix_length_le hp (List.prefix_append _ _) hl).isInfix
  · have hl : u.length < m.length := by omega
    have hpos : 0 < u.length := List.length_pos_iff.2 hu
    refine ho u.length hpos hl ?_
    obtain ⟨x, hx⟩ := hp
    have e1 : (m ++ x)[u.length]? = m[u.length]? := List.getElem?_append_left hl
    rw [hx, List.getElem?_append_right (Nat.le_refl _), Nat.sub_self,
      List.getElem?_append_left (List.length_pos_iff.2 hm)] at e1
    exact e1.symm

theorem not_infix_tail {m : Str} {b : Byte} {t : Str} (h : ¬ m <:+: b :: t) : ¬ m <:+: t :=
  fun hi => h (hi.trans (List.suffix_cons b t).isInfix)

theorem afterOff_spec {s rest : Str} (hs : ¬ markOff <:+: s) : afterOff (s ++ (markOff ++ rest)) = some rest := by
  induction s with
  | nil =>
    have hp : markOff.isPrefixOf (markOff ++ rest) = true := prefix_iff.2 (List.prefix_append _ _)
    obtain ⟨b, r, e⟩ : ∃ b r, markOff ++ rest = b :: r := ⟨_, _, rfl⟩
    rw [List.nil_append, e, afterOff, if_pos (e ▸ hp), ← e, List.drop_left]
  | cons b s ih =>
    have hn := not_before (rest := rest) off_once (by decide) (List.cons_ne_nil b s) hs
    rw [List.cons_append] at hn ⊢
    rw [afterOff, if_neg (fun h => hn (prefix_iff.1 h))]
    exact ih (not_infix_tail hs)

/-- Conversely. -/
theorem afterOff_some {t rest : Str} (h : afterOff t = some rest) :
    ∃ s, t = s ++ (markOff ++ rest) ∧ ¬ markOff <:+: s := by
  induction t with
  | nil => cases h
  | cons b t ih =>
    rw [afterOff] at h
    split at h
    · rename_i hp
      obtain ⟨x, hx⟩ := prefix_iff.1 hp
      refine ⟨[], ?_, by decide +kernel⟩
      rw [← hx, List.drop_left] at h
      rw [List.nil_append, ← hx, Option.some.inj h]
    · rename_i hp
      obtain ⟨s, e, hs⟩ := ih h
      refine ⟨b :: s, by rw [e]; rfl, ?_⟩
      intro hi
      rcases List.infix_cons_iff.1 hi with hi | hi
      · refine hp (prefix_iff.2 (hi.trans ?_))
        rw [e]
        exact List.prefix_append (b :: s) _
      · exact hs hi

theorem afterOff_none {t : Str} : afterOff t = none ↔ ¬ markOff <:+: t := by
  constructor
  · intro h hi
    induction t with
    | nil => exact absurd hi (by decide +kernel)
    | cons b t ih =>
      rw [afterOff] at h
      split at h
      · cases h
      · rename_i hp
        rcases List.infix_cons_iff.1 hi with hi | hi
        · exact hp (prefix_iff.2 hi)
        · exact ih h hi
  · intro h
    cases e : afterOff t with
    | none => rfl
    | some rest =>
      obtain ⟨s, e, _⟩ := afterOff_some e
      exact absurd (e ▸ ⟨s, rest, by simp⟩ : markOff <:+: t) h

/-- The last text has no section to hide. -/
def Open (last : Str) : Prop := ∀ a b, last = a ++ (markOn ++ b) → ¬ markOff <:+: b

theorem sub_last {last : Str} (h : Open last) : ∀ n, subRestrict n last = last := by
  intro n
  induction n generalizing last with
  | zero => rfl
  | succ n ih =>
    cases last with
    | nil => rfl
    | cons b t =>
      have ht : subRestrict n t = t := ih fun a c e => h (b :: a) c (by rw [e]; rfl)
      rw [subRestrict]
      split
      · rename_i hp
        obtain ⟨x, hx⟩ := prefix_iff.1 hp
        rw [← hx, List.drop_left, afterOff_none.2 (h [] x (by rw [← hx]; rfl))]
        simp only [ht, hx]
      · rw [ht]

theorem sub_section {s rest : Str} (hs : ¬ markOff <:+: s) (n : Nat) :
    subRestrict (n + 1) (hidden s ++ rest) = subRestrict n rest := by
  have e : hidden s ++ rest = markOn ++ (s ++ (markOff ++ rest)) := by
    show (markOn ++ s ++ markOff) ++ rest = _
    simp only [List.append_assoc]
  have hp : markOn.isPrefixOf (markOn ++ (s ++ (markOff ++ rest))) = true :=
    prefix_iff.2 (List.prefix_append _ _)
  rw [e]
  obtain ⟨b, r, e2⟩ : ∃ b r, markOn ++ (s ++ (markOff ++ rest)) = b :: r := ⟨_, _, rfl⟩
  rw [e2, subRestrict, if_pos (e2 ▸ hp), ← e2, List.drop_left, afterOff_spec hs]

theorem sub_shown {t s rest : Str} (ht : ¬ markOn <:+: t) (n : Nat) :
    subRestrict (t.length + n) (t ++ (hidden s ++ rest)) = t ++ subRestrict n (hidden s ++ rest) := by
  induction t with
  | nil => simp
  | cons b t ih =>
    have hn := not_before (rest := s ++ (markOff ++ rest)) on_once (by decide) (List.cons_ne_nil b t) ht
    have e : hidden s ++ rest = markOn ++ (s ++ (markOff ++ rest)) := by
      show (markOn ++ s ++ markOff) ++ rest = _
      simp only [List.append_assoc]
    rw [← e, List.cons_append] at hn
    rw [List.length_cons, show t.length + 1 + n = (t.length + n) + 1 by omega, List.cons_append, subRestrict,
      if_neg (fun h => hn (prefix_iff.1 h)), ih (not_infix_tail ht)]
    rfl

theorem sub_page {l : List (Str × Str)} {last : Str} (h1 : ∀ p ∈ l, ¬ markOn <:+: p.1)
    (h2 : ∀ p ∈ l, ¬ markOff <:+: p.2) (h3 : Open last) : ∀ n, (pageText l last).length ≤ n →
    subRestrict n (pageText l last) = shownText l last := by
  induction l with
  | nil => intro n _; exact sub_last h3 n
  | cons p l ih =>
    intro n hn
    have e : pageText (p :: l) last = p.1 ++ (hidden p.2 ++ pageText l last) := by
      simp [pageText]
    have hh : 0 < (hidden p.2).length := by
      have : 0 < (bs "<!--RESTRICT_ON-->").length := by decide
      simp only [hidden, List.length_append]; omega
    rw [e] at hn ⊢
    simp only [List.length_append] at hn
    obtain ⟨k, rfl⟩ : ∃ k, n = p.1.length + (k + 1) := ⟨n - p.1.length - 1, by omega⟩
    rw [sub_shown (h1 p (by simp)), sub_section (h2 p (by simp)),
      ih (fun q hq => h1 q (by simp [hq])) (fun q hq => h2 q (by simp [hq])) k (by omega)]
    simp [shownText]

/-- **C79.**  Whatever the texts to show and to hide, the restricted page made from a marked page has exactly the
texts to show: the texts to show do not have the opening marker, the texts to hide do not have the closing one,
and no section follows the last of them. -/
theorem c79_sections {l : List (Str × Str)} {last : Str}
    (hm : hasText (bs "<!--MAKE_RESTRICT-->") (pageText l last) = true)
    (h1 : ∀ p ∈ l, ¬ bs "<!--RESTRICT_ON-->" <:+: p.1) (h2 : ∀ p ∈ l, ¬ bs "<!--RESTRICT_OFF-->" <:+: p.2)
    (h3 : ∀ a b, last = a ++ (bs "<!--RESTRICT_ON-->" ++ b) → ¬ bs "<!--RESTRICT_OFF-->" <:+: b) :
    makeRestrict (pageText l last) = some (shownText l last) := by
  unfold makeRestrict
  rw [if_neg (fun h => by rw [show hasText markPage _ = true from hm] at h; cases h)]
  rw [sub_page h1 h2 h3 _ (Nat.le_refl _)]

theorem sections_exist (n : Nat) : ∀ t : Str, t.length ≤ n → ∃ l last, t = pageText l last ∧
    (∀ p ∈ l, ¬ markOn <:+: p.1) ∧ (∀ p ∈ l, ¬ markOff <:+: p.2) ∧ Open last := by
  induction n with
  | zero =>
    intro t h
    have : t = [] := List.length_eq_zero_iff.1 (by omega)
    subst this
    refine ⟨[], [], rfl, by simp, by simp, ?_⟩
    intro a b e
    have := congrArg List.length e
    have h0 : 0 < markOn.length := by decide
    simp only [List.length_nil, List.length_append] at this
    omega
  | succ n ih =>
    intro t ht
    cases t with
    | nil => exact ih [] (Nat.zero_le _)
    | cons b t =>
      by_cases hc : ∃ s rest, b :: t = markOn ++ (s ++ (markOff ++ rest)) ∧ ¬ markOff <:+: s
      · obtain ⟨s, rest, e, hs⟩ := hc
        have hlen : rest.length ≤ n := by
          have := congrArg List.length e
          have h0 : 0 < markOn.length := by decide
          simp only [List.length_append, List.length_cons] at this ht
          omega
        obtain ⟨l, last, e2, h1, h2, h3⟩ := ih rest hlen
        refine ⟨([], s) :: l, last, ?_, ?_, ?_, h3⟩
        · rw [e, e2]
          simp [pageText, hidden, markOn, markOff]
        · intro p hp
          rcases List.mem_cons.1 hp with rfl | hp
          · exact (by decide +kernel : ¬ markOn <:+: [])
          · exact h1 p hp
        · intro p hp
          rcases List.mem_cons.1 hp with rfl | hp
          · exact hs
          · exact h2 p hp
      · have hc2 : ∀ x, b :: t = markOn ++ x → ¬ markOff <:+: x := by
          intro x hx hi
          cases ha : afterOff x with
          | none => exact afterOff_none.1 ha hi
          | some rest =>
            obtain ⟨s, e, hs⟩ := afterOff_some ha
            exact hc ⟨s, rest, by rw [hx, e], hs⟩
        obtain ⟨l, last, e, h1, h2, h3⟩ := ih t (by simp only [List.length_cons] at ht; omega)
        cases l with
        | nil =>
          refine ⟨[], b :: last, by rw [e]; rfl, by simp, by simp, ?_⟩
          intro a c ec
          cases a with
          | nil => exact hc2 c (by rw [e]; exact ec)
          | cons a0 a => exact h3 a c (List.cons.inj ec).2
        | cons p l =>
          refine ⟨(b :: p.1, p.2) :: l, last, by rw [e]; simp [pageText], ?_, ?_, h3⟩
          · intro q hq
            rcases List.mem_cons.1 hq with rfl | hq
            · intro hi
              rcases List.infix_cons_iff.1 hi with hi | hi
              · obtain ⟨x, hx⟩ := hi
                refine hc2 (x ++ (hidden p.2 ++ pageText l last)) ?_ ?_
                · rw [← List.append_assoc, hx, e]; simp [pageText]
                · refine List.IsInfix.trans ?_ (List.suffix_append x _).isInfix
                  exact ⟨markOn ++ p.2, pageText l last, by simp [hidden, markOn, markOff]⟩
              · exact h1 p (by simp) hi
            · exact h1 q (by simp [hq])
          · intro q hq
            rcases List.mem_cons.1 hq with rfl | hq
            · exact h2 p (by simp)
            · exact h2 q (by simp [hq])

/-- **C79.**  Every text is made of such sections, so that `c79_sections` tells what becomes of every page; a page
without the marker has no restricted version. -/
theorem c79_every (t : Str) :
    (∃ l last, t = pageText l last ∧ (∀ p ∈ l, ¬ bs "<!--RESTRICT_ON-->" <:+: p.1) ∧
      (∀ p ∈ l, ¬ bs "<!--RESTRICT_OFF-->" <:+: p.2) ∧
      (∀ a b, last = a ++ (bs "<!--RESTRICT_ON-->" ++ b) → ¬ bs "<!--RESTRICT_OFF-->" <:+: b)) ∧
    (makeRestrict t = none ↔ ¬ bs "<!--MAKE_RESTRICT-->" <:+: t) := by
  refine ⟨sections_exist _ t (Nat.le_refl _), ?_⟩
  have hh : ∀ u : Str, hasText markPage u = true ↔ markPage <:+: u := by
    intro u
    induction u with
    | nil => decide +kernel
    | cons b u ih =>
      rw [hasText, Bool.or_eq_true, prefix_iff, ih, List.infix_cons_iff]
  unfold makeRestrict
  rw [show bs "<!--MAKE_RESTRICT-->" = markPage from rfl, ← hh]
  cases hasText markPage t <;> simp

/-- A page with two sections, in the style of `data_src/index.html`. -/
def samplePage : List (Str × Str) :=
  [(bs "<!doctype html><!--MAKE_RESTRICT--><h1>", bs "<a>Admin</a>"), (bs "</h1>", bs "<input name=psk>")]

example : makeRestrict (pageText samplePage (bs "</html>")) =
    some (bs "<!doctype html><!--MAKE_RESTRICT--><h1></h1></html>") := by decide +kernel

/-- **C79**: the sections do not nest, a section inside a section shows the end of the outer one. -/
theorem c79_nested_leaks : makeRestrict (bs "<!--MAKE_RESTRICT-->" ++ hidden (bs "a" ++ hidden (bs "b") ++ bs "secret")) =
    some (bs "<!--MAKE_RESTRICT-->secret<!--RESTRICT_OFF-->") := by decide +kernel

/-- **C79**: a section that is not closed is shown. -/
theorem c79_unclosed_shown : makeRestrict (bs "<!--MAKE_RESTRICT--><!--RESTRICT_ON-->secret") =
    some (bs "<!--MAKE_RESTRICT--><!--RESTRICT_ON-->secret") := by decide +kernel

end Wifinfo
