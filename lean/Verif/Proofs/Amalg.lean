import Verif.Model.Amalg
import Verif.Spec.Preproc

/-! # Lemmas on the amalgamation -/

namespace Wifinfo

open Spec

/-! ## Lines -/

theorem pyBlank_eq (b : Byte) (h : ¬ (28 ≤ b ∧ b ≤ 31)) : pyBlank b = cBlank b := by
  have : (28 ≤ b && b ≤ 31) = false := by simpa using h
  simp only [pyBlank, cBlank, this, Bool.or_false]
  congr 1

theorem dropWhile_blank (line : Str) (h : ∀ b ∈ line, ¬ (28 ≤ b ∧ b ≤ 31)) :
    pyLstrip line = line.dropWhile cBlank := by
  unfold pyLstrip
  induction line with
  | nil => rfl
  | cons b r ih =>
    have hb := pyBlank_eq b (h b (by simp))
    have := ih (fun x hx => h x (by simp [hx]))
    simp only [List.dropWhile_cons, hb, this]

theorem textAfter_blank (pat line t : Str) : line.dropWhile cBlank = 35 :: pat ++ t →
    textAfter (35 :: pat) line = some t := by
  induction line with
  | nil => intro h; exact absurd h (by simp)
  | cons b r ih =>
    intro h
    rw [List.dropWhile_cons] at h
    by_cases hb : cBlank b = true
    · rw [if_pos hb] at h
      have hne : (35 :: pat).isPrefixOf (b :: r) = false := by
        have : b ≠ 35 := by rintro rfl; exact absurd hb (by decide)
        rw [List.isPrefixOf]
        have : ((35 : Byte) == b) = false := by simpa using Ne.symm this
        simp [this]
      rw [textAfter, hne]
      exact ih h
    · rw [if_neg hb] at h
      have hp : (35 :: pat).isPrefixOf (b :: r) = true := by
        rw [List.isPrefixOf_iff_prefix]
        exact ⟨t, h.symm⟩
      rw [textAfter, hp, if_pos rfl, h, List.drop_left]

theorem textAfter_mem (pat line t : Str) (h : textAfter pat line = some t) (b : Byte) (hb : b ∈ pat) : b ∈ line := by
  induction line with
  | nil =>
    simp only [textAfter] at h
    by_cases hp : pat = []
    · rw [hp] at hb; simp at hb
    · simp [hp] at h
  | cons x r ih =>
    rw [textAfter] at h
    by_cases hp : pat.isPrefixOf (x :: r) = true
    · rw [List.isPrefixOf_iff_prefix] at hp
      exact hp.subset hb
    · rw [if_neg hp] at h
      exact List.mem_cons_of_mem _ (ih h)

theorem takeWhile_no {q : Byte} (a : Str) (r : Str) (h : q ∉ a) : (a ++ q :: r).takeWhile (· ≠ q) = a := by
  induction a with
  | nil => simp
  | cons x a ih =>
    have hx : x ≠ q := fun e => h (by simp [e])
    have := ih (fun e => h (by simp [e]))
    simp only [List.cons_append, List.takeWhile_cons, hx, ne_eq, not_false_iff, decide_true, if_true]
    simpa using this

theorem takeWhile_append_no {q : Byte} (a r : Str) (h : q ∉ a) :
    (a ++ r).takeWhile (· ≠ q) = a ++ r.takeWhile (· ≠ q) := by
  induction a with
  | nil => simp
  | cons x a ih =>
    have hx : x ≠ q := fun e => h (by simp [e])
    have := ih (fun e => h (by simp [e]))
    simp only [List.cons_append, List.takeWhile_cons, hx, ne_eq, not_false_iff, decide_true, if_true]
    simpa using this

theorem dropWhile_no {q : Byte} (a r : Str) (h : q ∉ a) : (a ++ q :: r).dropWhile (· ≠ q) = q :: r := by
  induction a with
  | nil => simp
  | cons x a ih =>
    have hx : x ≠ q := fun e => h (by simp [e])
    have := ih (fun e => h (by simp [e]))
    simp only [List.cons_append, List.dropWhile_cons, hx, ne_eq, not_false_iff, decide_true, if_true]
    simpa using this

theorem upToLast_quote (name r : Str) (h0 : name ≠ []) (h1 : (34 : Byte) ∉ r) (h2 : (10 : Byte) ∉ name) :
    upToLast 34 (name ++ 34 :: r) = some name := by
  have hr : (34 : Byte) ∉ (r.takeWhile (· ≠ (10 : Byte))).reverse := by
    rw [List.mem_reverse]
    exact fun h => h1 ((List.takeWhile_sublist _).subset h)
  have e : (name ++ 34 :: r).takeWhile (· ≠ (10 : Byte)) = name ++ 34 :: r.takeWhile (· ≠ (10 : Byte)) := by
    rw [takeWhile_append_no _ _ h2]
    simp
  unfold upToLast
  simp only [e]
  rw [List.reverse_append, List.reverse_cons, List.append_assoc, List.singleton_append, dropWhile_no _ _ hr]
  have : name.reverse ≠ [] := by simpa using h0
  simp [this]

theorem mem_of_dropWhile (line : Str) (b : Byte) (hb : cBlank b = false) (h : b ∈ line) : b ∈ line.dropWhile cBlank := by
  induction line with
  | nil => exact absurd h (by simp)
  | cons x r ih =>
    rw [List.dropWhile_cons]
    by_cases hx : cBlank x = true
    · rw [if_pos hx]
      rcases List.mem_cons.mp h with e | e
      · rw [← e, hb] at hx; exact absurd hx (by simp)
      · exact ih e
    · rw [if_neg hx]; exact h

/-- Two different directives. -/
theorem prefix_ne (a b t : Str) (hl : a.take (min a.length b.length) ≠ b.take (min a.length b.length)) (ha : a <+: t)
    (hb : b <+: t) : False := by
  apply hl
  obtain ⟨x, rfl⟩ := ha
  obtain ⟨y, hy⟩ := hb
  have h1 : (a ++ x).take (min a.length b.length) = a.take (min a.length b.length) := by
    rw [List.take_append_of_le_length (by omega)]
  have h2 : (b ++ y).take (min a.length b.length) = b.take (min a.length b.length) := by
    rw [List.take_append_of_le_length (by omega)]
  rw [← h1, ← hy, h2]

theorem cLine_once_iff (line : Str) : cLine line = .once ↔ bs "#pragma once" <+: line.dropWhile cBlank := by
  unfold cLine
  constructor
  · intro h
    simp only at h
    split at h
    · exact absurd h (by simp)
    · split at h
      · assumption
      · split at h
        · exact absurd h (by simp)
        · repeat' split at h
          all_goals exact absurd h (by simp)
  · intro h
    have h1 : ¬ (line.dropWhile cBlank = [] ∨ bs "//" <+: line.dropWhile cBlank) := by
      rintro (e | e)
      · rw [e] at h; exact absurd h (by decide +kernel)
      · exact prefix_ne _ _ _ (by decide +kernel) e h
    simp only
    rw [if_neg h1, if_pos h]

theorem cLine_include_iff (line name : Str) : cLine line = .include name ↔
    bs "#include \"" <+: line.dropWhile cBlank ∧ name = ((line.dropWhile cBlank).drop 10).takeWhile (· ≠ 34) := by
  unfold cLine
  constructor
  · intro h
    simp only at h
    split at h
    · exact absurd h (by simp)
    · split at h
      · exact absurd h (by simp)
      · split at h
        · rename_i hp
          exact ⟨hp, (CLine.include.inj h).symm⟩
        · repeat' split at h
          all_goals exact absurd h (by simp)
  · rintro ⟨h, rfl⟩
    have h1 : ¬ (line.dropWhile cBlank = [] ∨ bs "//" <+: line.dropWhile cBlank) := by
      rintro (e | e)
      · rw [e] at h; exact absurd h (by decide +kernel)
      · exact prefix_ne _ _ _ (by decide +kernel) e h
    have h2 : ¬ bs "#pragma once" <+: line.dropWhile cBlank :=
      fun e => prefix_ne _ _ _ (by decide +kernel) e h
    simp only
    rw [if_neg h1, if_neg h2, if_pos h]

theorem cLine_comment (x : Str) : cLine (bs "//" ++ x) = .nothing := by
  have : (bs "//" ++ x).dropWhile cBlank = bs "//" ++ x := by
    have : bs "//" ++ x = 47 :: 47 :: x := by
      have : bs "//" = [47, 47] := by decide +kernel
      rw [this]; rfl
    rw [this, List.dropWhile_cons, if_neg (by decide)]
  unfold cLine
  rw [this]
  exact if_pos (Or.inr ⟨x, rfl⟩)

/-- The tool and the compiler agree on the lines. -/
theorem srcLine_tidy {line : Str} (h : TidyLine line) :
    match srcLine line with
    | .once => cLine line = .once
    | .quoted name => cLine line = .include name
    | .plain => cLine line ≠ .once ∧ ∀ name, cLine line ≠ .include name
    | .bad => True := by
  unfold srcLine
  rw [dropWhile_blank _ h.control]
  by_cases h1 : (bs "#pragma once").isPrefixOf (line.dropWhile cBlank) = true
  · rw [if_pos h1]
    rw [List.isPrefixOf_iff_prefix] at h1
    exact (cLine_once_iff line).mpr h1
  rw [if_neg h1]
  rw [List.isPrefixOf_iff_prefix] at h1
  have hno : cLine line ≠ .once := fun e => h1 ((cLine_once_iff line).mp e)
  by_cases h2 : (bs "#include").isPrefixOf (line.dropWhile cBlank) = true
  · rw [if_pos h2]
    rw [List.isPrefixOf_iff_prefix] at h2
    obtain ⟨x, hx⟩ := h2
    rcases h.inclusion x hx.symm with ⟨name, r, e, hn0, hn1, hr, hn2⟩ | ⟨name, r, e, _, _, h34⟩
    · have hd : line.dropWhile cBlank = bs "#include \"" ++ (name ++ 34 :: r) := by
        have : bs "#include \"" = bs "#include" ++ bs " \"" := by decide +kernel
        rw [← hx, e, this]; simp
      have hq : quotedName line = some name := by
        unfold quotedName
        have h35 : (bs "#include \"") = 35 :: bs "include \"" := by decide +kernel
        rw [h35] at hd ⊢
        rw [textAfter_blank _ _ _ hd]
        exact upToLast_quote _ _ hn0 hr hn2
      rw [hq]
      refine (cLine_include_iff _ _).mpr ⟨⟨_, hd.symm⟩, ?_⟩
      have hl : (bs "#include \"").length = 10 := by decide +kernel
      rw [hd, ← hl, List.drop_left, takeWhile_no _ _ hn1]
    · have hq : quotedName line = none := by
        unfold quotedName
        cases ht : textAfter (bs "#include \"") line with
        | none => rfl
        | some t =>
          have hm := mem_of_dropWhile _ _ (by decide) (textAfter_mem _ _ _ ht 34 (by decide +kernel))
          rw [← hx, List.mem_append] at hm
          rcases hm with hm | hm
          · exact absurd hm (by decide +kernel)
          · exact absurd hm h34
      rw [hq]
      simp only
      by_cases hs : (systemName line).isSome = true
      · rw [if_pos hs]
        refine ⟨hno, fun n hn => ?_⟩
        have := ((cLine_include_iff _ _).mp hn).1.subset (show (34 : Byte) ∈ bs "#include \"" by decide +kernel)
        rw [← hx, List.mem_append] at this
        rcases this with hm | hm
        · exact absurd hm (by decide +kernel)
        · exact absurd hm h34
      · rw [if_neg hs]; trivial
  · rw [if_neg h2]
    refine ⟨hno, fun n hn => h2 ?_⟩
    rw [List.isPrefixOf_iff_prefix]
    refine List.IsPrefix.trans ?_ ((cLine_include_iff _ _).mp hn).1
    decide +kernel

theorem dropWhile_some {q : Byte} (a b : Str) : ∃ c, (a ++ q :: b).dropWhile (· ≠ q) = q :: (c ++ b) := by
  induction a with
  | nil => exact ⟨[], by simp⟩
  | cons x a ih =>
    obtain ⟨c, hc⟩ := ih
    by_cases hx : x = q
    · subst hx
      exact ⟨a ++ [x], by simp⟩
    · refine ⟨c, ?_⟩
      simp only [List.cons_append, List.dropWhile_cons, hx, ne_eq, not_false_iff, decide_true, if_true]
      simpa using hc

theorem upToLast_some (q : Byte) (name r : Str) (h0 : name ≠ []) (hq : q ≠ 10) (h2 : (10 : Byte) ∉ name) :
    (upToLast q (name ++ q :: r)).isSome = true := by
  have e : (name ++ q :: r).takeWhile (· ≠ (10 : Byte)) = name ++ q :: r.takeWhile (· ≠ (10 : Byte)) := by
    rw [takeWhile_append_no _ _ h2]
    simp [hq]
  unfold upToLast
  simp only [e]
  rw [List.reverse_append, List.reverse_cons, List.append_assoc, List.singleton_append]
  obtain ⟨c, hc⟩ := dropWhile_some (q := q) (r.takeWhile (· ≠ (10 : Byte))).reverse name.reverse
  rw [hc]
  have : c ++ name.reverse ≠ [] := by simp [h0]
  simp [this]

theorem srcLine_not_bad {line : Str} (h : TidyLine line) : srcLine line ≠ .bad := by
  unfold srcLine
  rw [dropWhile_blank _ h.control]
  split
  · simp
  split
  · rename_i h2
    rw [List.isPrefixOf_iff_prefix] at h2
    obtain ⟨x, hx⟩ := h2
    rcases h.inclusion x hx.symm with ⟨name, r, e, hn0, hn1, hr, hn2⟩ | ⟨name, r, e, hn0, hn2, h34⟩
    · have hd : line.dropWhile cBlank = 35 :: bs "include \"" ++ (name ++ 34 :: r) := by
        have : 35 :: bs "include \"" = bs "#include" ++ bs " \"" := by decide +kernel
        rw [← hx, e, this]; simp
      have hq : quotedName line = some name := by
        unfold quotedName
        have h35 : (bs "#include \"") = 35 :: bs "include \"" := by decide +kernel
        rw [h35, textAfter_blank _ _ _ hd]
        exact upToLast_quote _ _ hn0 hr hn2
      rw [hq]; simp
    · have hd : line.dropWhile cBlank = 35 :: bs "include <" ++ (name ++ 62 :: r) := by
        have : 35 :: bs "include <" = bs "#include" ++ bs " <" := by decide +kernel
        rw [← hx, e, this]; simp
      have hq : (systemName line).isSome = true := by
        unfold systemName
        have h35 : (bs "#include <") = 35 :: bs "include <" := by decide +kernel
        rw [h35, textAfter_blank _ _ _ hd]
        exact upToLast_some _ _ _ hn0 (by decide) hn2
      split
      · simp
      · rw [if_pos hq]; simp
  · simp

/-! ## It ends -/

/-- The files not yet read. -/
def unread (p : Sources) (s : Amalg) : Nat := (p.filter fun x => !s.included.contains x.1).length

theorem unread_mono (p : Sources) (s s' : Amalg) (h : s.included ⊆ s'.included) : unread p s' ≤ unread p s := by
  unfold unread
  induction p with
  | nil => simp
  | cons x p ih =>
    simp only [List.filter_cons]
    by_cases h1 : x.1 ∈ s.included
    · have h2 := h h1
      simpa [h1, h2] using ih
    · by_cases h2 : x.1 ∈ s'.included
      · simp [h1, h2] at ih ⊢; omega
      · simp [h1, h2] at ih ⊢; omega

theorem unread_less (p : Sources) (s s' : Amalg) (h : s.included ⊆ s'.included) (name : Str) (ls : List Str)
    (hf : p.lines name = some ls) (h1 : name ∉ s.included) (h2 : name ∈ s'.included) : unread p s' < unread p s := by
  have hm : ∃ x ∈ p, x.1 = name := by
    unfold Sources.lines at hf
    cases hx : p.find? fun x => x.1 == name with
    | none => rw [hx] at hf; simp at hf
    | some x =>
      exact ⟨x, List.mem_of_find?_eq_some hx, by simpa using List.find?_some hx⟩
  obtain ⟨x, hx, rfl⟩ := hm
  clear hf
  induction p with
  | nil => simp at hx
  | cons y p ih =>
    rcases List.mem_cons.mp hx with rfl | hx
    · have := unread_mono p s s' h
      unfold unread at this ⊢
      simp [h1, h2] at this ⊢; omega
    · have := ih hx
      unfold unread at this ⊢
      simp only [List.filter_cons]
      by_cases h3 : y.1 ∈ s.included
      · have h4 := h h3
        simpa [h3, h4] using this
      · by_cases h4 : y.1 ∈ s'.included
        · simp [h3, h4] at this ⊢; omega
        · simp [h3, h4] at this ⊢; omega

/-- The loop inside `add`. -/
def Amalg.addLines (p : Sources) (n : Nat) (ls : List Str) (s : Amalg) : Except AmalgErr Amalg :=
  Amalg.loop (Amalg.add p n) ls s

/-- Both functions at once. -/
theorem add_addLines (p : Sources) {P : Nat → Str → Amalg → Except AmalgErr Amalg → Prop}
    {Q : Nat → List Str → Amalg → Except AmalgErr Amalg → Prop}
    (h0 : ∀ name s, P 0 name s (Amalg.add p 0 name s))
    (h1 : ∀ n name s, (∀ ls s, Q n ls s (Amalg.addLines p n ls s)) → P (n + 1) name s (Amalg.add p (n + 1) name s))
    (h2 : ∀ n s, Q n [] s (Amalg.addLines p n [] s))
    (h3 : ∀ n line r s, (∀ name s, P n name s (Amalg.add p n name s)) → (∀ s, Q n r s (Amalg.addLines p n r s)) →
      Q n (line :: r) s (Amalg.addLines p n (line :: r) s)) (n : Nat) :
    (∀ name s, P n name s (Amalg.add p n name s)) ∧ ∀ ls s, Q n ls s (Amalg.addLines p n ls s) := by
  have hq : ∀ n, (∀ name s, P n name s (Amalg.add p n name s)) → ∀ ls s, Q n ls s (Amalg.addLines p n ls s) := by
    intro n hp ls
    induction ls with
    | nil => exact h2 n
    | cons line r ih => exact fun s => h3 n line r s hp ih
  induction n with
  | zero => exact ⟨h0, hq 0 h0⟩
  | succ n ih =>
    have hp := fun name s => h1 n name s ih.2
    exact ⟨hp, hq _ hp⟩

theorem add_some {p : Sources} {n : Nat} {name : Str} {s : Amalg} {ls : List Str} (hc : name ∉ s.included)
    (hf : p.lines name = some ls) : Amalg.add p (n + 1) name s =
      (Amalg.addLines p n ls
        ⟨s.lines ++ [bs "\n", bs "//begin: " ++ name ++ bs "\n"], name :: s.included⟩).map
          (fun s => ⟨s.lines ++ [bs "//end: " ++ name ++ bs "\n"], s.included⟩) := by
  rw [Amalg.add, if_neg (by simpa using hc)]
  simp only [hf]
  unfold Amalg.addLines
  cases Amalg.loop (Amalg.add p n) ls ⟨s.lines ++ [bs "\n", bs "//begin: " ++ name ++ bs "\n"], name :: s.included⟩ <;> rfl

theorem add_ok {p : Sources} {n : Nat} {name : Str} {s s' : Amalg} (h : Amalg.add p (n + 1) name s = .ok s') :
    (name ∈ s.included ∧ s' = s) ∨ (name ∉ s.included ∧ ∃ ls s1, p.lines name = some ls ∧
      Amalg.addLines p n ls ⟨s.lines ++ [bs "\n", bs "//begin: " ++ name ++ bs "\n"], name :: s.included⟩ = .ok s1 ∧
      s' = ⟨s1.lines ++ [bs "//end: " ++ name ++ bs "\n"], s1.included⟩) := by
  by_cases hc : name ∈ s.included
  · rw [Amalg.add, if_pos (by simpa using hc)] at h
    exact Or.inl ⟨hc, (Except.ok.inj h).symm⟩
  · refine Or.inr ⟨hc, ?_⟩
    cases hf : p.lines name with
    | none => rw [Amalg.add, if_neg (by simpa using hc), hf] at h; exact absurd h (by simp)
    | some ls =>
      rw [add_some hc hf] at h
      refine ⟨ls, ?_⟩
      cases h1 : Amalg.addLines p n ls
        ⟨s.lines ++ [bs "\n", bs "//begin: " ++ name ++ bs "\n"], name :: s.included⟩ with
      | error e => rw [h1] at h; exact absurd h (by simp [Except.map])
      | ok s1 =>
        rw [h1] at h
        exact ⟨s1, rfl, rfl, (Except.ok.inj h).symm⟩

theorem addLines_once {p : Sources} {n : Nat} {line : Str} {r : List Str} {s : Amalg} (hl : srcLine line = .once) :
    Amalg.addLines p n (line :: r) s = Amalg.addLines p n r ⟨s.lines ++ [bs "// " ++ line], s.included⟩ := by
  rw [Amalg.addLines, Amalg.loop]; simp only [hl]; rfl

theorem addLines_plain {p : Sources} {n : Nat} {line : Str} {r : List Str} {s : Amalg} (hl : srcLine line = .plain) :
    Amalg.addLines p n (line :: r) s = Amalg.addLines p n r ⟨s.lines ++ [line], s.included⟩ := by
  rw [Amalg.addLines, Amalg.loop]; simp only [hl]; rfl

theorem addLines_bad {p : Sources} {n : Nat} {line : Str} {r : List Str} {s : Amalg} (hl : srcLine line = .bad) :
    Amalg.addLines p n (line :: r) s = .error (.badLine line) := by
  rw [Amalg.addLines, Amalg.loop]; simp only [hl]

theorem addLines_again {p : Sources} {n : Nat} {line name : Str} {r : List Str} {s : Amalg}
    (hl : srcLine line = .quoted name) (hc : name ∈ s.included) :
    Amalg.addLines p n (line :: r) s = Amalg.addLines p n r ⟨s.lines ++ [bs "// " ++ line], s.included⟩ := by
  rw [Amalg.addLines, Amalg.loop]; simp only [hl]
  rw [if_pos (by simpa using hc)]; rfl

theorem addLines_new {p : Sources} {n : Nat} {line name : Str} {r : List Str} {s : Amalg}
    (hl : srcLine line = .quoted name) (hc : name ∉ s.included) :
    Amalg.addLines p n (line :: r) s =
      (match Amalg.add p n name ⟨s.lines ++ [bs "// " ++ line], s.included⟩ with
        | .ok s1 => Amalg.addLines p n r s1
        | .error e => .error e) := by
  rw [Amalg.addLines, Amalg.loop]; simp only [hl]
  rw [if_neg (by simpa using hc)]
  cases Amalg.add p n name ⟨s.lines ++ [bs "// " ++ line], s.included⟩ <;> rfl

theorem addLines_new_ok {p : Sources} {n : Nat} {line name : Str} {r : List Str} {s s' : Amalg}
    (hl : srcLine line = .quoted name) (hc : name ∉ s.included) (h : Amalg.addLines p n (line :: r) s = .ok s') :
    ∃ s1, Amalg.add p n name ⟨s.lines ++ [bs "// " ++ line], s.included⟩ = .ok s1 ∧
      Amalg.addLines p n r s1 = .ok s' := by
  rw [addLines_new hl hc] at h
  cases h1 : Amalg.add p n name ⟨s.lines ++ [bs "// " ++ line], s.included⟩ with
  | error e => rw [h1] at h; exact absurd h (by simp)
  | ok s1 => rw [h1] at h; exact ⟨s1, rfl, h⟩

theorem add_mono (p : Sources) (n : Nat) :
    (∀ name s s', Amalg.add p n name s = .ok s' → s.included ⊆ s'.included ∧ name ∈ s'.included) ∧
    ∀ ls s s', Amalg.addLines p n ls s = .ok s' → s.included ⊆ s'.included := by
  have := add_addLines p
    (P := fun _ name s r => ∀ s', r = .ok s' → s.included ⊆ s'.included ∧ name ∈ s'.included)
    (Q := fun _ _ s r => ∀ s', r = .ok s' → s.included ⊆ s'.included) ?_ ?_ ?_ ?_ n
  · exact this
  · intro name s s' h
    rw [Amalg.add] at h; exact absurd h (by simp)
  · intro n name s ih s' h
    rcases add_ok h with ⟨hc, rfl⟩ | ⟨hc, ls, s1, hf, h1, rfl⟩
    · exact ⟨fun _ h => h, hc⟩
    · have := ih _ _ _ h1
      exact ⟨fun x hx => this (by simp [hx]), this (by simp)⟩
  · intro n s s' h
    rw [Amalg.addLines, Amalg.loop] at h; cases h; exact fun _ h => h
  · intro n line r s ihP ihQ s' h
    cases hl : srcLine line with
    | once => rw [addLines_once hl] at h; have := ihQ _ _ h; exact this
    | plain => rw [addLines_plain hl] at h; have := ihQ _ _ h; exact this
    | bad => rw [addLines_bad hl] at h; exact absurd h (by simp)
    | quoted name =>
      by_cases hc : name ∈ s.included
      · rw [addLines_again hl hc] at h; have := ihQ _ _ h; exact this
      · obtain ⟨s1, h1, h2⟩ := addLines_new_ok hl hc h
        have h3 := (ihP _ _ _ h1).1
        exact fun x hx => ihQ _ _ h2 (h3 hx)

theorem add_not_deep (p : Sources) (n : Nat) :
    (∀ name s, unread p s < n → Amalg.add p n name s ≠ .error .deep) ∧
    ∀ ls s, unread p s < n → Amalg.addLines p n ls s ≠ .error .deep := by
  have hL : ∀ n, (∀ name s, unread p s < n → Amalg.add p n name s ≠ .error .deep) →
      ∀ ls s, unread p s < n → Amalg.addLines p n ls s ≠ .error .deep := by
    intro n hp ls
    induction ls with
    | nil => intro s _; rw [Amalg.addLines, Amalg.loop]; simp
    | cons line r ih =>
      intro s hs
      cases hl : srcLine line with
      | once => rw [addLines_once hl]; exact ih _ hs
      | plain => rw [addLines_plain hl]; exact ih _ hs
      | bad => rw [addLines_bad hl]; simp
      | quoted name =>
        by_cases hc : name ∈ s.included
        · rw [addLines_again hl hc]; exact ih _ hs
        · rw [addLines_new hl hc]
          have h1 := hp name ⟨s.lines ++ [bs "// " ++ line], s.included⟩ hs
          cases h2 : Amalg.add p n name ⟨s.lines ++ [bs "// " ++ line], s.included⟩ with
          | error e => intro h; rw [h2] at h1; exact h1 h
          | ok s1 =>
            refine ih _ (Nat.lt_of_le_of_lt (unread_mono p ⟨s.lines ++ [bs "// " ++ line], s.included⟩ s1 ?_) hs)
            exact ((add_mono p n).1 _ _ _ h2).1
  have hA : ∀ n name s, unread p s < n → Amalg.add p n name s ≠ .error .deep := by
    intro n
    induction n with
    | zero => intro name s h; omega
    | succ n ih =>
      intro name s hs
      by_cases hc : name ∈ s.included
      · rw [Amalg.add, if_pos (by simpa using hc)]; simp
      · cases hf : p.lines name with
        | none => rw [Amalg.add, if_neg (by simpa using hc), hf]; simp
        | some ls =>
          rw [add_some hc hf]
          have hlt := unread_less p s ⟨s.lines ++ [bs "\n", bs "//begin: " ++ name ++ bs "\n"], name :: s.included⟩
            (fun x hx => by simp [hx]) name ls hf hc (by simp)
          have := hL n ih ls ⟨s.lines ++ [bs "\n", bs "//begin: " ++ name ++ bs "\n"], name :: s.included⟩ (by omega)
          intro h
          apply this
          cases h1 : Amalg.addLines p n ls
            ⟨s.lines ++ [bs "\n", bs "//begin: " ++ name ++ bs "\n"], name :: s.included⟩ with
          | error e => rw [h1] at h; simpa [Except.map] using h
          | ok s1 => rw [h1] at h; simp [Except.map] at h
  exact ⟨hA n, hL n (hA n)⟩

theorem addAll_not_deep (p : Sources) (n : Nat) (roots : List Str) (s : Amalg) (h : unread p s < n) :
    Amalg.addAll p n roots s ≠ .error .deep := by
  induction roots generalizing s with
  | nil => simp [Amalg.addAll]
  | cons f r ih =>
    rw [Amalg.addAll]
    have h1 := (add_not_deep p n).1 f s h
    cases h2 : Amalg.add p n f s with
    | error e => intro h; rw [h2] at h1; exact h1 h
    | ok s1 =>
      exact ih s1 (Nat.lt_of_le_of_lt (unread_mono p s s1 ((add_mono p n).1 _ _ _ h2).1) h)

theorem addAll_cons_ok {p : Sources} {n : Nat} {f : Str} {r : List Str} {s s' : Amalg}
    (h : Amalg.addAll p n (f :: r) s = .ok s') :
    ∃ s1, Amalg.add p n f s = .ok s1 ∧ Amalg.addAll p n r s1 = .ok s' := by
  rw [Amalg.addAll] at h
  cases h1 : Amalg.add p n f s with
  | error e => rw [h1] at h; exact absurd h (by simp [bind, Except.bind])
  | ok s1 => rw [h1] at h; exact ⟨s1, rfl, h⟩

/-! ## The files read -/

/-- A project whose lines are tidy. -/
def Tidy (p : Sources) : Prop := ∀ f ls, p.lines f = some ls → ∀ line ∈ ls, TidyLine line

theorem include_quoted {line name : Str} (h : TidyLine line) (hc : cLine line = .include name) :
    srcLine line = .quoted name := by
  have := srcLine_tidy h
  cases hl : srcLine line with
  | once => rw [hl] at this; rw [this] at hc; exact absurd hc (by simp)
  | plain => rw [hl] at this; exact absurd hc (this.2 name)
  | bad => exact absurd hl (srcLine_not_bad h)
  | quoted x =>
    rw [hl] at this
    simp only at this
    rw [this] at hc
    rw [CLine.include.inj hc]

theorem quoted_include {line name : Str} (h : TidyLine line) (hl : srcLine line = .quoted name) :
    cLine line = .include name := by
  have := srcLine_tidy h
  rw [hl] at this; exact this

/-- The names a file includes. -/
def Names (ls : List Str) (name : Str) : Prop := ∃ line ∈ ls, cLine line = .include name

/-- `add` reads what is needed, once. -/
theorem add_reads (p : Sources) (ht : Tidy p) (R : Str → Prop)
    (hR : ∀ f ls line name, R f → p.lines f = some ls → line ∈ ls → cLine line = .include name → R name) (n : Nat) :
    (∀ name s s', R name → Amalg.add p n name s = .ok s' → s.included.Nodup → (∀ f ∈ s.included, R f) →
      s'.included.Nodup ∧ (∀ f ∈ s'.included, R f) ∧ ∀ f ∈ s'.included, f ∈ s.included ∨
        ∃ ls, p.lines f = some ls ∧ ∀ x, Names ls x → x ∈ s'.included) ∧
    ∀ ls s s', (∀ line ∈ ls, TidyLine line) → (∀ x, Names ls x → R x) → Amalg.addLines p n ls s = .ok s' →
      s.included.Nodup → (∀ f ∈ s.included, R f) →
      s'.included.Nodup ∧ (∀ f ∈ s'.included, R f) ∧ (∀ x, Names ls x → x ∈ s'.included) ∧
        ∀ f ∈ s'.included, f ∈ s.included ∨ ∃ ls, p.lines f = some ls ∧ ∀ x, Names ls x → x ∈ s'.included := by
  have := add_addLines p
    (P := fun _ name s r => ∀ s', R name → r = .ok s' → s.included.Nodup → (∀ f ∈ s.included, R f) →
      s'.included.Nodup ∧ (∀ f ∈ s'.included, R f) ∧ ∀ f ∈ s'.included, f ∈ s.included ∨
        ∃ ls, p.lines f = some ls ∧ ∀ x, Names ls x → x ∈ s'.included)
    (Q := fun _ ls s r => ∀ s', (∀ line ∈ ls, TidyLine line) → (∀ x, Names ls x → R x) → r = .ok s' →
      s.included.Nodup → (∀ f ∈ s.included, R f) →
      s'.included.Nodup ∧ (∀ f ∈ s'.included, R f) ∧ (∀ x, Names ls x → x ∈ s'.included) ∧
        ∀ f ∈ s'.included, f ∈ s.included ∨ ∃ ls, p.lines f = some ls ∧ ∀ x, Names ls x → x ∈ s'.included)
    ?_ ?_ ?_ ?_ n
  · exact this
  · intro name s s' _ h
    rw [Amalg.add] at h; exact absurd h (by simp)
  · intro n name s ih s' hr h hd hi
    rcases add_ok h with ⟨hc, rfl⟩ | ⟨hc, ls, s1, hf, h1, rfl⟩
    · exact ⟨hd, hi, fun f hf => Or.inl hf⟩
    · obtain ⟨a1, a2, a3, a4⟩ := ih _ _ _ (ht _ _ hf) (fun x ⟨line, hm, hx⟩ => hR _ _ _ _ hr hf hm hx) h1
        (List.nodup_cons.mpr ⟨hc, hd⟩)
        (fun f hf => (List.mem_cons.mp hf).elim (fun e => e ▸ hr) (hi f))
      refine ⟨a1, a2, fun f hm => ?_⟩
      rcases a4 f hm with h | h
      · rcases List.mem_cons.mp h with rfl | h
        · exact Or.inr ⟨ls, hf, a3⟩
        · exact Or.inl h
      · exact Or.inr h
  · intro n s s' _ _ h hd hi
    rw [Amalg.addLines, Amalg.loop] at h; cases h
    exact ⟨hd, hi, fun x ⟨_, h, _⟩ => absurd h (by simp), fun f hf => Or.inl hf⟩
  · intro n line r s ihP ihQ s' htl hnl h hd hi
    have htr : ∀ line ∈ r, TidyLine line := fun x hx => htl x (by simp [hx])
    have hnr : ∀ x, Names r x → R x := fun x ⟨l, hl, hx⟩ => hnl x ⟨l, by simp [hl], hx⟩
    have hline := srcLine_tidy (htl line (by simp))
    cases hl : srcLine line with
    | once =>
      rw [addLines_once hl] at h
      rw [hl] at hline
      obtain ⟨a1, a2, a3, a4⟩ := ihQ _ _ htr hnr h hd hi
      refine ⟨a1, a2, fun x ⟨l, hm, hx⟩ => ?_, a4⟩
      rcases List.mem_cons.mp hm with rfl | hm
      · simp only at hline; rw [hline] at hx; exact absurd hx (by simp)
      · exact a3 x ⟨l, hm, hx⟩
    | plain =>
      rw [addLines_plain hl] at h
      rw [hl] at hline
      obtain ⟨a1, a2, a3, a4⟩ := ihQ _ _ htr hnr h hd hi
      refine ⟨a1, a2, fun x ⟨l, hm, hx⟩ => ?_, a4⟩
      rcases List.mem_cons.mp hm with rfl | hm
      · exact absurd hx (hline.2 x)
      · exact a3 x ⟨l, hm, hx⟩
    | bad => rw [addLines_bad hl] at h; exact absurd h (by simp)
    | quoted name =>
      rw [hl] at hline
      have hRn : R name := hnl name ⟨line, by simp, hline⟩
      by_cases hc : name ∈ s.included
      · rw [addLines_again hl hc] at h
        have hm0 := (add_mono p n).2 _ _ _ h
        obtain ⟨a1, a2, a3, a4⟩ := ihQ _ _ htr hnr h hd hi
        refine ⟨a1, a2, fun x ⟨l, hm, hx⟩ => ?_, a4⟩
        rcases List.mem_cons.mp hm with rfl | hm
        · simp only at hline; rw [hline] at hx; rw [← CLine.include.inj hx]; exact hm0 hc
        · exact a3 x ⟨l, hm, hx⟩
      · obtain ⟨s1, h1, h2⟩ := addLines_new_ok hl hc h
        have hm0 := (add_mono p n).2 _ _ _ h2
        obtain ⟨b1, b2, b4⟩ := ihP _ _ _ hRn h1 hd hi
        obtain ⟨a1, a2, a3, a4⟩ := ihQ _ _ htr hnr h2 b1 b2
        refine ⟨a1, a2, fun x ⟨l, hm, hx⟩ => ?_, fun f hf => ?_⟩
        · rcases List.mem_cons.mp hm with rfl | hm
          · simp only at hline; rw [hline] at hx; rw [← CLine.include.inj hx]
            exact hm0 ((add_mono p n).1 _ _ _ h1).2
          · exact a3 x ⟨l, hm, hx⟩
        · rcases a4 f hf with h | h
          · rcases b4 f h with h | ⟨ls, e1, e2⟩
            · exact Or.inl h
            · exact Or.inr ⟨ls, e1, fun x hx => hm0 (e2 x hx)⟩
          · exact Or.inr h

theorem addAll_reads (p : Sources) (ht : Tidy p) (R : Str → Prop)
    (hR : ∀ f ls line name, R f → p.lines f = some ls → line ∈ ls → cLine line = .include name → R name) (n : Nat)
    (roots : List Str) : ∀ s s', (∀ f ∈ roots, R f) → Amalg.addAll p n roots s = .ok s' → s.included.Nodup →
      (∀ f ∈ s.included, R f) →
      s.included ⊆ s'.included ∧ s'.included.Nodup ∧ (∀ f ∈ s'.included, R f) ∧ (∀ f ∈ roots, f ∈ s'.included) ∧
        ∀ f ∈ s'.included, f ∈ s.included ∨ ∃ ls, p.lines f = some ls ∧ ∀ x, Names ls x → x ∈ s'.included := by
  induction roots with
  | nil =>
    intro s s' _ h hd hi
    rw [Amalg.addAll] at h; cases h
    exact ⟨fun _ h => h, hd, hi, fun _ h => absurd h (by simp), fun f hf => Or.inl hf⟩
  | cons f r ih =>
    intro s s' hr h hd hi
    obtain ⟨s1, h1, h2⟩ := addAll_cons_ok h
    obtain ⟨b1, b2, b4⟩ := (add_reads p ht R hR n).1 _ _ _ (hr f (by simp)) h1 hd hi
    obtain ⟨a0, a1, a2, a3, a4⟩ := ih _ _ (fun x hx => hr x (by simp [hx])) h2 b1 b2
    have hm := (add_mono p n).1 _ _ _ h1
    refine ⟨fun x hx => a0 (hm.1 hx), a1, a2, fun x hx => ?_, fun x hx => ?_⟩
    · rcases List.mem_cons.mp hx with rfl | hx
      · exact a0 hm.2
      · exact a3 x hx
    · rcases a4 x hx with h | h
      · rcases b4 x h with h | ⟨ls, e1, e2⟩
        · exact Or.inl h
        · exact Or.inr ⟨ls, e1, fun y hy => a0 (e2 y hy)⟩
      · exact Or.inr h

/-- The only failure: a file is missing. -/
theorem add_missing (p : Sources) (ht : Tidy p) (R : Str → Prop)
    (hR : ∀ f ls line name, R f → p.lines f = some ls → line ∈ ls → cLine line = .include name → R name) (n : Nat) :
    (∀ name s e, R name → Amalg.add p n name s = .error e → e = .deep ∨ ∃ x, e = .missing x ∧ R x ∧ p.lines x = none) ∧
    ∀ ls s e, (∀ line ∈ ls, TidyLine line) → (∀ x, Names ls x → R x) → Amalg.addLines p n ls s = .error e →
      e = .deep ∨ ∃ x, e = .missing x ∧ R x ∧ p.lines x = none := by
  have := add_addLines p
    (P := fun _ name _ r => ∀ e, R name → r = .error e → e = .deep ∨ ∃ x, e = .missing x ∧ R x ∧ p.lines x = none)
    (Q := fun _ ls _ r => ∀ e, (∀ line ∈ ls, TidyLine line) → (∀ x, Names ls x → R x) → r = .error e →
      e = .deep ∨ ∃ x, e = .missing x ∧ R x ∧ p.lines x = none)
    ?_ ?_ ?_ ?_ n
  · exact this
  · intro name s e _ h
    rw [Amalg.add] at h; exact Or.inl (Except.error.inj h).symm
  · intro n name s ih e hr h
    by_cases hc : name ∈ s.included
    · rw [Amalg.add, if_pos (by simpa using hc)] at h; exact absurd h (by simp)
    · cases hf : p.lines name with
      | none =>
        rw [Amalg.add, if_neg (by simpa using hc), hf] at h
        exact Or.inr ⟨name, (Except.error.inj h).symm, hr, hf⟩
      | some ls =>
        rw [add_some hc hf] at h
        cases h1 : Amalg.addLines p n ls
          ⟨s.lines ++ [bs "\n", bs "//begin: " ++ name ++ bs "\n"], name :: s.included⟩ with
        | ok s1 => rw [h1] at h; simp [Except.map] at h
        | error e1 =>
          rw [h1] at h
          have : e1 = e := by simpa [Except.map] using h
          subst this
          exact ih _ _ _ (ht _ _ hf) (fun x ⟨line, hm, hx⟩ => hR _ _ _ _ hr hf hm hx) h1
  · intro n s e _ _ h
    rw [Amalg.addLines, Amalg.loop] at h; exact absurd h (by simp)
  · intro n line r s ihP ihQ e htl hnl h
    have htr : ∀ line ∈ r, TidyLine line := fun x hx => htl x (by simp [hx])
    have hnr : ∀ x, Names r x → R x := fun x ⟨l, hl, hx⟩ => hnl x ⟨l, by simp [hl], hx⟩
    cases hl : srcLine line with
    | once => rw [addLines_once hl] at h; exact ihQ _ _ htr hnr h
    | plain => rw [addLines_plain hl] at h; exact ihQ _ _ htr hnr h
    | bad => exact absurd hl (srcLine_not_bad (htl line (by simp)))
    | quoted name =>
      have hRn : R name := hnl name ⟨line, by simp, quoted_include (htl line (by simp)) hl⟩
      by_cases hc : name ∈ s.included
      · rw [addLines_again hl hc] at h; exact ihQ _ _ htr hnr h
      · rw [addLines_new hl hc] at h
        cases h1 : Amalg.add p n name ⟨s.lines ++ [bs "// " ++ line], s.included⟩ with
        | ok s1 => rw [h1] at h; exact ihQ _ _ htr hnr h
        | error e1 => rw [h1] at h; cases h; exact ihP _ _ _ hRn h1

theorem addAll_missing (p : Sources) (ht : Tidy p) (R : Str → Prop)
    (hR : ∀ f ls line name, R f → p.lines f = some ls → line ∈ ls → cLine line = .include name → R name) (n : Nat)
    (roots : List Str) : ∀ s e, (∀ f ∈ roots, R f) → Amalg.addAll p n roots s = .error e →
      e = .deep ∨ ∃ x, e = .missing x ∧ R x ∧ p.lines x = none := by
  induction roots with
  | nil => intro s e _ h; rw [Amalg.addAll] at h; exact absurd h (by simp)
  | cons f r ih =>
    intro s e hr h
    rw [Amalg.addAll] at h
    cases h1 : Amalg.add p n f s with
    | error e1 =>
      rw [h1] at h
      have : e1 = e := by simpa [bind, Except.bind] using h
      subst this
      exact (add_missing p ht R hR n).1 _ _ _ (hr f (by simp)) h1
    | ok s1 => rw [h1] at h; exact ih _ _ (fun x hx => hr x (by simp [hx])) h

/-! ## Compilation -/

theorem Spec.Cpp.append {file eval cur a b u u1 u'} (h1 : Cpp file eval cur a u u1) (h2 : Cpp file eval cur b u1 u') :
    Cpp file eval cur (a ++ b) u u' := by
  induction h1 with
  | nil => exact h2
  | condition h hr ih => exact .condition h (ih h2)
  | skipped h ha hr ih => exact .skipped h ha (ih h2)
  | nothing h ha hr ih => exact .nothing h ha (ih h2)
  | item h ha hr ih => exact .item h ha (ih h2)
  | once h ha hr ih => exact .once h ha (ih h2)
  | again h ha hn hr ih => exact .again h ha hn (ih h2)
  | enter h ha hn hf hi hr _ ih => exact .enter h ha hn hf hi (ih h2)

theorem Spec.Cpp.unique {file eval cur ls u u1 u2} (h1 : Cpp file eval cur ls u u1) (h2 : Cpp file eval cur ls u u2) :
    u1 = u2 := by
  induction h1 generalizing u2 with
  | nil => cases h2; rfl
  | condition h hr ih =>
    cases h2 with
    | condition h' hr' => exact ih hr'
    | skipped h' => exact absurd h h'
    | nothing h' => rw [h'] at h; exact absurd h (by simp)
    | item h' => rw [h'] at h; exact absurd h (by simp)
    | once h' => rw [h'] at h; exact absurd h (by simp)
    | again h' => rw [h'] at h; exact absurd h (by simp)
    | enter h' => rw [h'] at h; exact absurd h (by simp)
  | skipped h ha hr ih =>
    cases h2 with
    | condition h' hr' => exact absurd h' h
    | skipped h' _ hr' => exact ih hr'
    | nothing _ ha' => rw [ha] at ha'; exact absurd ha' (by simp)
    | item _ ha' => rw [ha] at ha'; exact absurd ha' (by simp)
    | once _ ha' => rw [ha] at ha'; exact absurd ha' (by simp)
    | again _ ha' => rw [ha] at ha'; exact absurd ha' (by simp)
    | enter _ ha' => rw [ha] at ha'; exact absurd ha' (by simp)
  | nothing h ha hr ih =>
    cases h2 with
    | condition h' hr' => rw [h] at h'; exact absurd h' (by simp)
    | skipped _ ha' => rw [ha] at ha'; exact absurd ha' (by simp)
    | nothing _ _ hr' => exact ih hr'
    | item h' => rw [h] at h'; exact absurd h' (by simp)
    | once h' => rw [h] at h'; exact absurd h' (by simp)
    | again h' => rw [h] at h'; exact absurd h' (by simp)
    | enter h' => rw [h] at h'; exact absurd h' (by simp)
  | item h ha hr ih =>
    cases h2 with
    | condition h' hr' => rw [h] at h'; exact absurd h' (by simp)
    | skipped _ ha' => rw [ha] at ha'; exact absurd ha' (by simp)
    | nothing h' => rw [h] at h'; exact absurd h' (by simp)
    | item _ _ hr' => exact ih hr'
    | once h' => rw [h] at h'; exact absurd h' (by simp)
    | again h' => rw [h] at h'; exact absurd h' (by simp)
    | enter h' => rw [h] at h'; exact absurd h' (by simp)
  | once h ha hr ih =>
    cases h2 with
    | condition h' hr' => rw [h] at h'; exact absurd h' (by simp)
    | skipped _ ha' => rw [ha] at ha'; exact absurd ha' (by simp)
    | nothing h' => rw [h] at h'; exact absurd h' (by simp)
    | item h' => rw [h] at h'; exact absurd h' (by simp)
    | once _ _ hr' => exact ih hr'
    | again h' => rw [h] at h'; exact absurd h' (by simp)
    | enter h' => rw [h] at h'; exact absurd h' (by simp)
  | again h ha hn hr ih =>
    cases h2 with
    | condition h' hr' => rw [h] at h'; exact absurd h' (by simp)
    | skipped _ ha' => rw [ha] at ha'; exact absurd ha' (by simp)
    | nothing h' => rw [h] at h'; exact absurd h' (by simp)
    | item h' => rw [h] at h'; exact absurd h' (by simp)
    | once h' => rw [h] at h'; exact absurd h' (by simp)
    | again _ _ _ hr' => exact ih hr'
    | enter h' _ hn' => rw [h] at h'; exact absurd (CLine.include.inj h' ▸ hn) hn'
  | enter h ha hn hf hi hr ihi ih =>
    cases h2 with
    | condition h' hr' => rw [h] at h'; exact absurd h' (by simp)
    | skipped _ ha' => rw [ha] at ha'; exact absurd ha' (by simp)
    | nothing h' => rw [h] at h'; exact absurd h' (by simp)
    | item h' => rw [h] at h'; exact absurd h' (by simp)
    | once h' => rw [h] at h'; exact absurd h' (by simp)
    | again h' _ hn' => rw [h] at h'; exact absurd (CLine.include.inj h' ▸ hn') hn
    | enter h' _ _ hf' hi' hr' =>
      rw [h] at h'
      have e := CLine.include.inj h'
      subst e
      rw [hf] at hf'
      have e := Option.some.inj hf'
      subst e
      have e := ihi hi'
      subst e
      exact ih hr'

theorem Spec.Unity.unique {file eval roots u u1 u2} (h1 : Unity file eval roots u u1) (h2 : Unity file eval roots u u2) :
    u1 = u2 := by
  induction h1 generalizing u2 with
  | nil => cases h2; rfl
  | cons hf h1 _ ih =>
    cases h2 with
    | cons hf' h1' h2' =>
      rw [hf] at hf'
      have e := Option.some.inj hf'
      subst e
      have e := h1.unique h1'
      subst e
      exact ih h2'

/-- The same compilation, but for `#pragma once`. -/
def Spec.Compile.as (u : Compile) (o : List Str) : Compile := { u with once := o }

theorem plain_step {file eval} {line : Str} (h1 : cLine line ≠ .once) (h2 : ∀ name, cLine line ≠ .include name)
    {u : Compile} {r : List Str} (hp : PlainIncludes u.open_.length (line :: r)) :
    ∃ u1 : Compile, u1.once = u.once ∧ PlainIncludes u1.open_.length r ∧
      ∀ o cur r u', Cpp file eval cur r (u1.as o) u' → Cpp file eval cur (line :: r) (u.as o) u' := by
  obtain ⟨out, once, op⟩ := u
  rw [PlainIncludes] at hp
  have hact : ∀ o, (Compile.as ⟨out, once, op⟩ o).active = op.all (·.on) := fun _ => rfl
  cases hc : cLine line with
  | once => exact absurd hc h1
  | «include» name => exact absurd hc (h2 name)
  | nothing =>
    rw [hc] at hp
    refine ⟨⟨out, once, op⟩, rfl, hp, fun o cur r u' h => ?_⟩
    cases ha : op.all (·.on) with
    | true => exact .nothing hc ((hact o).trans ha) h
    | false => exact .skipped (by simp [hc]) ((hact o).trans ha) h
  | item =>
    rw [hc] at hp
    cases ha : op.all (·.on) with
    | true => exact ⟨⟨out ++ [line], once, op⟩, rfl, hp, fun o cur r u' h => .item hc ((hact o).trans ha) h⟩
    | false => exact ⟨⟨out, once, op⟩, rfl, hp, fun o cur r u' h => .skipped (by simp [hc]) ((hact o).trans ha) h⟩
  | cond =>
    rw [hc] at hp
    refine ⟨⟨out, once, Compile.condition eval ⟨out, once, op⟩ line⟩, rfl, ?_,
      fun o cur r u' h => .condition (by simp [hc]) ?_⟩
    · simp only [Compile.condition, hc]
      exact hp
    · have : (Compile.as ⟨out, once, op⟩ o).condition eval line = Compile.condition eval ⟨out, once, op⟩ line := by
        simp only [Compile.condition, Compile.as, hc]
        rfl
      rw [this]; exact h
  | elif =>
    rw [hc] at hp
    obtain ⟨b, l, rfl⟩ : ∃ b l, op = b :: l := by
      cases op with
      | nil => exact absurd hp.1 (by simp)
      | cons b l => exact ⟨b, l, rfl⟩
    refine ⟨⟨out, once, Compile.condition eval ⟨out, once, b :: l⟩ line⟩, rfl, ?_,
      fun o cur r u' h => .condition (by simp [hc]) ?_⟩
    · simp only [Compile.condition, hc]
      exact hp.2
    · have : (Compile.as ⟨out, once, b :: l⟩ o).condition eval line = Compile.condition eval ⟨out, once, b :: l⟩ line := by
        simp only [Compile.condition, Compile.as, hc]
      rw [this]; exact h
  | els =>
    rw [hc] at hp
    obtain ⟨b, l, rfl⟩ : ∃ b l, op = b :: l := by
      cases op with
      | nil => exact absurd hp.1 (by simp)
      | cons b l => exact ⟨b, l, rfl⟩
    refine ⟨⟨out, once, Compile.condition eval ⟨out, once, b :: l⟩ line⟩, rfl, ?_,
      fun o cur r u' h => .condition (by simp [hc]) ?_⟩
    · simp only [Compile.condition, hc]
      exact hp.2
    · have : (Compile.as ⟨out, once, b :: l⟩ o).condition eval line = Compile.condition eval ⟨out, once, b :: l⟩ line := by
        simp only [Compile.condition, Compile.as, hc]
      rw [this]; exact h
  | endif =>
    rw [hc] at hp
    obtain ⟨b, l, rfl⟩ : ∃ b l, op = b :: l := by
      cases op with
      | nil => exact absurd hp.1 (by simp)
      | cons b l => exact ⟨b, l, rfl⟩
    refine ⟨⟨out, once, Compile.condition eval ⟨out, once, b :: l⟩ line⟩, rfl, ?_,
      fun o cur r u' h => .condition (by simp [hc]) ?_⟩
    · simp only [Compile.condition, hc]
      exact hp.2
    · have : (Compile.as ⟨out, once, b :: l⟩ o).condition eval line = Compile.condition eval ⟨out, once, b :: l⟩ line := by
        simp only [Compile.condition, Compile.as, hc]
      rw [this]; exact h

theorem Spec.Cpp.ignored {file eval cur line r u u'} (h : cLine line = .nothing) (hr : Cpp file eval cur r u u') :
    Cpp file eval cur (line :: r) u u' := by
  cases ha : u.active with
  | true => exact .nothing h ha hr
  | false => exact .skipped (by simp [h]) ha hr

theorem Spec.Cpp.ignored_all {file eval cur pre r u u'} (h : ∀ x ∈ pre, cLine x = .nothing)
    (hr : Cpp file eval cur r u u') : Cpp file eval cur (pre ++ r) u u' := by
  induction pre with
  | nil => exact hr
  | cons x pre ih => exact .ignored (h x (by simp)) (ih (fun y hy => h y (by simp [hy])))

theorem cLine_commented (line : Str) : cLine (bs "// " ++ line) = .nothing := by
  have : bs "// " ++ line = bs "//" ++ (32 :: line) := by
    have : bs "// " = bs "//" ++ [32] := by decide +kernel
    rw [this]; simp
  rw [this]; exact cLine_comment _

theorem cLine_begin (name : Str) : cLine (bs "//begin: " ++ name ++ bs "\n") = .nothing := by
  have : bs "//begin: " = bs "//" ++ bs "begin: " := by decide +kernel
  rw [this, List.append_assoc, List.append_assoc]; exact cLine_comment _

theorem cLine_end (name : Str) : cLine (bs "//end: " ++ name ++ bs "\n") = .nothing := by
  have : bs "//end: " = bs "//" ++ bs "end: " := by decide +kernel
  rw [this, List.append_assoc, List.append_assoc]; exact cLine_comment _

theorem cLine_title (name : Str) : cLine (bs "//amalgamation: " ++ name ++ bs " *.ino *.cpp\n") = .nothing := by
  have : bs "//amalgamation: " = bs "//" ++ bs "amalgamation: " := by decide +kernel
  rw [this, List.append_assoc, List.append_assoc]; exact cLine_comment _

theorem nothing_plain {line : Str} (h : TidyLine line) (hc : cLine line = .nothing) : srcLine line = .plain := by
  have := srcLine_tidy h
  cases hl : srcLine line with
  | once => rw [hl] at this; rw [this] at hc; exact absurd hc (by simp)
  | plain => rfl
  | bad => exact absurd hl (srcLine_not_bad h)
  | quoted x => rw [hl] at this; simp only at this; rw [this] at hc; exact absurd hc (by simp)

theorem once_once {line : Str} (h : TidyLine line) (hc : cLine line = .once) : srcLine line = .once := by
  have := srcLine_tidy h
  cases hl : srcLine line with
  | once => rfl
  | plain => rw [hl] at this; exact absurd hc this.1
  | bad => exact absurd hl (srcLine_not_bad h)
  | quoted x => rw [hl] at this; simp only at this; rw [this] at hc; exact absurd hc (by simp)

theorem addLines_guard {p : Sources} {n : Nat} {pre : List Str} {line : Str} {r : List Str}
    (ht : ∀ x ∈ pre ++ line :: r, TidyLine x) (h1 : ∀ x ∈ pre, cLine x = .nothing) (h2 : cLine line = .once) (s : Amalg) :
    Amalg.addLines p n (pre ++ line :: r) s =
      Amalg.addLines p n r ⟨s.lines ++ pre ++ [bs "// " ++ line], s.included⟩ := by
  induction pre generalizing s with
  | nil =>
    rw [List.nil_append, addLines_once (once_once (ht _ (by simp)) h2)]
    simp
  | cons x pre ih =>
    rw [List.cons_append, addLines_plain (nothing_plain (ht _ (by simp)) (h1 x (by simp))),
      ih (fun y hy => ht y (by rw [List.cons_append]; exact List.mem_cons_of_mem _ hy)) (fun y hy => h1 y (by simp [hy]))]
    simp

theorem plainIncludes_guard {pre : List Str} {line : Str} {r : List Str} {d : Nat} (h1 : ∀ x ∈ pre, cLine x = .nothing)
    (h2 : cLine line = .once) (h : PlainIncludes d (pre ++ line :: r)) : PlainIncludes d r := by
  induction pre with
  | nil => rw [List.nil_append, PlainIncludes, h2] at h; exact h
  | cons x pre ih =>
    rw [List.cons_append, PlainIncludes, h1 x (by simp)] at h
    exact ih (fun y hy => h1 y (by simp [hy])) h

/-- The tool has read the headers that the compiler has read. -/
def SameHeaders (p : Sources) (u : Compile) (s : Amalg) : Prop :=
  ∀ x, Included p.lines x → (x ∈ u.once ↔ x ∈ s.included)

/-- Lines `new` of the sketch do what `ls` does. -/
def Stands (p : Sources) (eval : List Str → Str → Bool) (cur : Str) (ls : List Str) (u : Compile) (s s' : Amalg) : Prop :=
  ∃ new u', s'.lines = s.lines ++ new ∧ Cpp p.lines eval cur ls u u' ∧
    (∀ sk o, Cpp p.lines eval sk new (u.as o) (u'.as o)) ∧ u'.open_ = [] ∧ SameHeaders p u' s'

theorem add_same (p : Sources) (eval : List Str → Str → Bool) (ht : Tidy p)
    (hG : ∀ name ls, Included p.lines name → p.lines name = some ls → Guarded ls)
    (hP : ∀ f ls, p.lines f = some ls → PlainIncludes 0 ls) (n : Nat) :
    (∀ name s s' u, Amalg.add p n name s = .ok s' → name ∉ s.included → u.open_ = [] → SameHeaders p u s →
      ∃ ls, p.lines name = some ls ∧ Stands p eval name ls u s s') ∧
    ∀ ls s s' cur u, Amalg.addLines p n ls s = .ok s' → (∀ line ∈ ls, TidyLine line) →
      (∀ x, Names ls x → Included p.lines x) → PlainIncludes u.open_.length ls → SameHeaders p u s → cur ∈ s.included →
      Stands p eval cur ls u s s' := by
  have := add_addLines p
    (P := fun _ name s r => ∀ s' u, r = .ok s' → name ∉ s.included → u.open_ = [] → SameHeaders p u s →
      ∃ ls, p.lines name = some ls ∧ Stands p eval name ls u s s')
    (Q := fun _ ls s r => ∀ s' cur u, r = .ok s' → (∀ line ∈ ls, TidyLine line) →
      (∀ x, Names ls x → Included p.lines x) → PlainIncludes u.open_.length ls → SameHeaders p u s → cur ∈ s.included →
      Stands p eval cur ls u s s')
    ?_ ?_ ?_ ?_ n
  · exact ⟨fun name s s' u => this.1 name s s' u, fun ls s s' cur u => this.2 ls s s' cur u⟩
  · intro name s s' u h
    rw [Amalg.add] at h; exact absurd h (by simp)
  · intro n name s ih s' u h hc ho hs
    rcases add_ok h with ⟨hc', _⟩ | ⟨_, ls, s1, hf, h1, rfl⟩
    · exact absurd hc' hc
    refine ⟨ls, hf, ?_⟩
    have hact : u.active = true := by simp [Compile.active, ho]
    by_cases hi : Included p.lines name
    · obtain ⟨pre, line, r, rfl, g1, g2⟩ := hG name ls hi hf
      have htl := ht _ _ hf
      rw [addLines_guard htl g1 g2] at h1
      obtain ⟨new, u', e1, e2, e3, e4, e5⟩ := ih r _ s1 name { u with once := name :: u.once } h1
        (fun x hx => htl x (by simp [hx])) (fun x ⟨l, hl, hx⟩ => ⟨name, _, l, hf, by simp [hl], hx⟩)
        (by rw [show ({ u with once := name :: u.once } : Compile).open_ = [] from ho]
            exact plainIncludes_guard g1 g2 (hP _ _ hf))
        (fun x hx => by
          have := hs x hx
          simp only [List.mem_cons, this])
        (by simp)
      refine ⟨[bs "\n", bs "//begin: " ++ name ++ bs "\n"] ++ pre ++ [bs "// " ++ line] ++ new ++
        [bs "//end: " ++ name ++ bs "\n"], u', ?_, ?_, fun sk o => ?_, e4, e5⟩
      · rw [e1]; simp
      · exact .ignored_all g1 (.once g2 hact e2)
      · refine Cpp.append (Cpp.append (u1 := u.as o) ?_ (e3 sk o)) (.ignored (cLine_end _) (.nil _ _))
        have hb : ∀ x ∈ [bs "\n", bs "//begin: " ++ name ++ bs "\n"] ++ pre ++ [bs "// " ++ line], cLine x = .nothing := by
          intro x hx
          simp only [List.append_assoc, List.mem_append, List.mem_cons, List.not_mem_nil, or_false] at hx
          rcases hx with (rfl | rfl) | hx | rfl
          · decide +kernel
          · exact (by simpa using cLine_begin name)
          · exact g1 x hx
          · exact cLine_commented _
        have := Cpp.ignored_all (r := []) (cur := sk) (file := p.lines) (eval := eval) hb (.nil sk (u.as o))
        rw [List.append_nil] at this
        exact this
    · obtain ⟨new, u', e1, e2, e3, e4, e5⟩ := ih ls _ s1 name u h1 (ht _ _ hf)
        (fun x ⟨l, hl, hx⟩ => ⟨name, _, l, hf, hl, hx⟩) (by rw [ho]; exact hP _ _ hf)
        (fun x hx => by
          have := hs x hx
          have hne : x ≠ name := fun e => hi (e ▸ hx)
          simp only [List.mem_cons, this, hne, false_or])
        (by simp)
      refine ⟨[bs "\n", bs "//begin: " ++ name ++ bs "\n"] ++ new ++ [bs "//end: " ++ name ++ bs "\n"], u', ?_, e2,
        fun sk o => ?_, e4, e5⟩
      · rw [e1]; simp
      · refine Cpp.append (Cpp.append (u1 := u.as o) ?_ (e3 sk o)) (.ignored (cLine_end _) (.nil _ _))
        exact .ignored (by decide +kernel) (.ignored (cLine_begin _) (.nil _ _))
  · intro n s s' cur u h _ _ hp hs hcur
    rw [Amalg.addLines, Amalg.loop] at h; cases h
    rw [PlainIncludes] at hp
    exact ⟨[], u, by simp, .nil _ _, fun _ _ => .nil _ _, List.length_eq_zero_iff.mp hp, hs⟩
  · intro n line r s ihP ihQ s' cur u h htl hnl hp hs hcur
    have htr : ∀ line ∈ r, TidyLine line := fun x hx => htl x (by simp [hx])
    have hnr : ∀ x, Names r x → Included p.lines x := fun x ⟨l, hl, hx⟩ => hnl x ⟨l, by simp [hl], hx⟩
    have hline := srcLine_tidy (htl line (by simp))
    cases hl : srcLine line with
    | bad => exact absurd hl (srcLine_not_bad (htl line (by simp)))
    | once =>
      rw [addLines_once hl] at h
      rw [hl] at hline
      simp only at hline
      rw [PlainIncludes, hline] at hp
      simp only at hp
      cases ha : u.active with
      | true =>
        obtain ⟨new, u', e1, e2, e3, e4, e5⟩ := ihQ _ _ cur { u with once := cur :: u.once } h htr hnr hp
          (fun x hx => by
            have := hs x hx
            simp only [List.mem_cons, this]
            exact ⟨fun e => e.elim (fun e => e ▸ hcur) id, Or.inr⟩) hcur
        exact ⟨(bs "// " ++ line) :: new, u', by rw [e1]; simp, .once hline ha e2,
          fun sk o => .ignored (cLine_commented _) (e3 sk o), e4, e5⟩
      | false =>
        obtain ⟨new, u', e1, e2, e3, e4, e5⟩ := ihQ _ _ cur u h htr hnr hp hs hcur
        exact ⟨(bs "// " ++ line) :: new, u', by rw [e1]; simp, .skipped (by simp [hline]) ha e2,
          fun sk o => .ignored (cLine_commented _) (e3 sk o), e4, e5⟩
    | plain =>
      rw [addLines_plain hl] at h
      rw [hl] at hline
      obtain ⟨u1, k1, k2, k3⟩ := plain_step (file := p.lines) (eval := eval) hline.1 hline.2 hp
      obtain ⟨new, u', e1, e2, e3, e4, e5⟩ := ihQ _ _ cur u1 h htr hnr k2
        (fun x hx => by rw [k1]; exact hs x hx) hcur
      refine ⟨line :: new, u', by rw [e1]; simp, ?_, fun sk o => k3 o sk new _ (e3 sk o), e4, e5⟩
      have := k3 u.once cur r u'
      rw [← k1] at this
      have hu1 : u1.as u1.once = u1 := rfl
      have hu : u.as u1.once = u := by rw [k1]; rfl
      rw [hu1, hu] at this
      exact this e2
    | quoted name =>
      rw [hl] at hline
      simp only at hline
      have hin : Included p.lines name := hnl name ⟨line, by simp, hline⟩
      rw [PlainIncludes, hline] at hp
      simp only at hp
      have ho : u.open_ = [] := List.length_eq_zero_iff.mp hp.1
      have hact : u.active = true := by simp [Compile.active, ho]
      by_cases hc : name ∈ s.included
      · rw [addLines_again hl hc] at h
        obtain ⟨new, u', e1, e2, e3, e4, e5⟩ := ihQ _ _ cur u h htr hnr hp.2 hs hcur
        exact ⟨(bs "// " ++ line) :: new, u', by rw [e1]; simp, .again hline hact ((hs name hin).mpr hc) e2,
          fun sk o => .ignored (cLine_commented _) (e3 sk o), e4, e5⟩
      · obtain ⟨s1, h1, h2⟩ := addLines_new_ok hl hc h
        obtain ⟨ls, hf, new1, u1, f1, f2, f3, f4, f5⟩ := ihP _ _ _ u h1 hc ho hs
        have hm := ((add_mono p n).1 _ _ _ h1).1
        obtain ⟨new, u', e1, e2, e3, e4, e5⟩ := ihQ _ _ cur u1 h2 htr hnr
          (by rw [f4, ← ho]; exact hp.2) f5 (hm hcur)
        refine ⟨(bs "// " ++ line) :: new1 ++ new, u', by rw [e1, f1]; simp, ?_, fun sk o => ?_, e4, e5⟩
        · refine .enter (u1 := u1) hline hact (fun hx => hc ((hs name hin).mp hx)) hf ?_ ?_
          · have : ({ u with open_ := [] } : Compile) = u := by rw [← ho]
            rw [this]; exact f2
          · have : ({ u1 with open_ := u.open_ } : Compile) = u1 := by rw [ho, ← f4]
            rw [this]; exact e2
        · exact Cpp.append (.ignored (cLine_commented _) (f3 sk o)) (e3 sk o)

theorem addAll_same (p : Sources) (eval : List Str → Str → Bool) (ht : Tidy p)
    (hG : ∀ name ls, Included p.lines name → p.lines name = some ls → Guarded ls)
    (hP : ∀ f ls, p.lines f = some ls → PlainIncludes 0 ls) (n : Nat) (roots : List Str) :
    ∀ s s' u acc, Amalg.addAll p n roots s = .ok s' → (∀ f ∈ roots, ¬ Included p.lines f) → s.included.Nodup →
      (∀ x, ¬ Included p.lines x → (x ∈ s.included ↔ x ∈ acc)) → u.open_ = [] → SameHeaders p u s →
      ∃ ext new u', roots.foldl (fun acc x => if x ∈ acc then acc else acc ++ [x]) acc = acc ++ ext ∧
        s'.lines = s.lines ++ new ∧ Unity p.lines eval ext u u' ∧ ∀ sk o, Cpp p.lines eval sk new (u.as o) (u'.as o) := by
  induction roots with
  | nil =>
    intro s s' u acc h _ _ _ _ _
    rw [Amalg.addAll] at h; cases h
    exact ⟨[], [], u, by simp, by simp, .nil _, fun _ _ => .nil _ _⟩
  | cons f r ih =>
    intro s s' u acc h hr hd hacc ho hs
    obtain ⟨s1, h1, h2⟩ := addAll_cons_ok h
    have hrr : ∀ f ∈ r, ¬ Included p.lines f := fun x hx => hr x (by simp [hx])
    have hf0 := hr f (by simp)
    by_cases hc : f ∈ s.included
    · have : s1 = s := by
        cases n with
        | zero => rw [Amalg.add] at h1; exact absurd h1 (by simp)
        | succ n =>
          rcases add_ok h1 with ⟨_, e⟩ | ⟨hc', _⟩
          · exact e
          · exact absurd hc hc'
      subst this
      obtain ⟨ext, new, u', e⟩ := ih s1 s' u acc h2 hrr hd hacc ho hs
      refine ⟨ext, new, u', ?_⟩
      rw [List.foldl_cons, if_pos ((hacc f hf0).mp hc)]
      exact e
    · obtain ⟨ls, hf, new1, u1, f1, f2, f3, f4, f5⟩ := (add_same p eval ht hG hP n).1 f s s1 u h1 hc ho hs
      obtain ⟨b1, b2, _⟩ := (add_reads p ht (fun x => x ∈ s.included ∨ x = f ∨ Included p.lines x)
        (fun g ls line name _ h1 h2 h3 => Or.inr (Or.inr ⟨g, ls, line, h1, h2, h3⟩)) n).1 f s s1
        (Or.inr (Or.inl rfl)) h1 hd (fun x hx => Or.inl hx)
      have hm := (add_mono p n).1 _ _ _ h1
      obtain ⟨ext, new, u', e1, e2, e3, e4⟩ := ih s1 s' u1 (acc ++ [f]) h2 hrr b1
        (fun x hx => by
          rw [List.mem_append, List.mem_singleton, ← hacc x hx]
          constructor
          · intro h
            rcases b2 x h with h | h | h
            · exact Or.inl h
            · exact Or.inr h
            · exact absurd h hx
          · rintro (h | rfl)
            · exact hm.1 h
            · exact hm.2) f4 f5
      refine ⟨f :: ext, new1 ++ new, u', ?_, by rw [e2, f1]; simp, .cons hf f2 e3, fun sk o => (f3 sk o).append (e4 sk o)⟩
      rw [List.foldl_cons, if_neg (fun h => hc ((hacc f hf0).mpr h)), e1]
      simp

end Wifinfo
