import Verif.Proofs.Amalg

/-!
# C93: the single-file Arduino sketch is the program (`tools/mkarduinosrc.py`)

`c93_ends`: whatever the sources include, even in a cycle, the tool ends, and for tidy lines it fails only when a file is
missing.  `c93_code`: each line of code of each file that is read appears exactly once.  `c93_lines`: the lines of the sketch
are those written.  `c93_same_partial`: compiling the sketch is compiling the sources one after the other, when headers begin
with `#pragma once` and are included outside of conditions.  `c93_refuted`: without the latter, it is false.
-/

namespace Wifinfo

open Spec

/-- The files given to the tool, in order: the `*.ino`, `main.cpp` if there is one, the `*.cpp`. -/
def Spec.sketchRoots (p : Sources) (inos cpps : List Str) : List Str :=
  inos ++ (if (p.lines (bs "main.cpp")).isSome then [bs "main.cpp"] else []) ++ cpps

/-- A line of code: not a comment, not a blank, not `#pragma once`, not a quoted `#include`. -/
def Spec.Code (line : Str) : Prop := cLine line ≠ .nothing ∧ cLine line ≠ .once ∧ ∀ name, cLine line ≠ .include name

/-! ## It ends -/

theorem c93_ends (p : Sources) (folder : Str) (inos cpps : List Str) (e : AmalgErr)
    (h : amalgamation p folder inos cpps = .error e) :
    e ≠ .deep ∧ ((∀ f ls, p.lines f = some ls → ∀ line ∈ ls, TidyLine line) →
      ∃ name, e = .missing name ∧ ReadFrom p.lines (sketchRoots p inos cpps) name ∧ p.lines name = none) := by
  have hd : e ≠ .deep := by
    rintro rfl
    refine addAll_not_deep p (p.length + 1) _ _ ?_ h
    exact Nat.lt_succ_of_le (List.length_filter_le _ _)
  refine ⟨hd, fun ht => ?_⟩
  rcases addAll_missing p ht (ReadFrom p.lines (sketchRoots p inos cpps))
    (fun f ls line name h1 h2 h3 h4 => .step h1 h2 h3 h4) _ _ _ _ (fun f hf => .root hf) h with rfl | h
  · exact absurd rfl hd
  · exact h

/-! ## The lines -/

theorem add_count (p : Sources) (ht : Tidy p) (l : Str) (hl : Code l) (n : Nat) :
    (∀ name s s', Amalg.add p n name s = .ok s' → ∃ fs, s'.included = fs ++ s.included ∧
      s'.lines.count l = s.lines.count l + (fs.map fun f => ((p.lines f).getD []).count l).sum) ∧
    ∀ ls s s', (∀ line ∈ ls, TidyLine line) → Amalg.addLines p n ls s = .ok s' → ∃ fs, s'.included = fs ++ s.included ∧
      s'.lines.count l = s.lines.count l + ls.count l + (fs.map fun f => ((p.lines f).getD []).count l).sum := by
  have hno : ∀ x, cLine x = .nothing → ([x] : List Str).count l = 0 := by
    intro x hx
    rw [List.count_eq_zero]
    intro hm
    rw [List.mem_singleton] at hm
    exact hl.1 (hm ▸ hx)
  have := add_addLines p
    (P := fun _ _ s r => ∀ s', r = .ok s' → ∃ fs, s'.included = fs ++ s.included ∧
      s'.lines.count l = s.lines.count l + (fs.map fun f => ((p.lines f).getD []).count l).sum)
    (Q := fun _ ls s r => ∀ s', (∀ line ∈ ls, TidyLine line) → r = .ok s' → ∃ fs, s'.included = fs ++ s.included ∧
      s'.lines.count l = s.lines.count l + ls.count l + (fs.map fun f => ((p.lines f).getD []).count l).sum)
    ?_ ?_ ?_ ?_ n
  · exact this
  · intro name s s' h
    rw [Amalg.add] at h; exact absurd h (by simp)
  · intro n name s ih s' h
    rcases add_ok h with ⟨_, rfl⟩ | ⟨hc, ls, s1, hf, h1, rfl⟩
    · exact ⟨[], by simp, by simp⟩
    · obtain ⟨fs, e1, e2⟩ := ih _ _ _ (ht _ _ hf) h1
      refine ⟨fs ++ [name], by simpa using e1, ?_⟩
      have c1 := hno _ (cLine_end name)
      have c2 := hno _ (cLine_begin name)
      have c3 := hno (bs "\n") (by decide +kernel)
      have e3 : ([bs "\n", bs "//begin: " ++ name ++ bs "\n"] : List Str) =
        [bs "\n"] ++ [bs "//begin: " ++ name ++ bs "\n"] := rfl
      rw [e3] at e2
      simp only [List.count_append, c2, c3] at e2
      simp only [List.count_append, c1, List.map_append, List.sum_append, List.map_cons, List.map_nil, hf, Option.getD_some,
        List.sum_cons, List.sum_nil]
      omega
  · intro n s s' _ h
    rw [Amalg.addLines, Amalg.loop] at h; cases h
    exact ⟨[], by simp, by simp⟩
  · intro n line r s ihP ihQ s' htl h
    have htr : ∀ line ∈ r, TidyLine line := fun x hx => htl x (by simp [hx])
    have hline := srcLine_tidy (htl line (by simp))
    have hc1 := hno _ (cLine_commented line)
    cases hs : srcLine line with
    | bad => exact absurd hs (srcLine_not_bad (htl line (by simp)))
    | once =>
      rw [addLines_once hs] at h
      rw [hs] at hline
      obtain ⟨fs, e1, e2⟩ := ihQ _ _ htr h
      have hne : line ≠ l := fun e => hl.2.1 (e ▸ hline)
      refine ⟨fs, e1, ?_⟩
      rw [List.count_append, hc1] at e2
      rw [List.count_cons_of_ne hne]
      omega
    | plain =>
      rw [addLines_plain hs] at h
      obtain ⟨fs, e1, e2⟩ := ihQ _ _ htr h
      refine ⟨fs, e1, ?_⟩
      rw [List.count_append] at e2
      rw [show line :: r = [line] ++ r from rfl, List.count_append]
      omega
    | quoted name =>
      rw [hs] at hline
      have hne : line ≠ l := fun e => hl.2.2 name (e ▸ hline)
      rw [List.count_cons_of_ne hne]
      by_cases hc : name ∈ s.included
      · rw [addLines_again hs hc] at h
        obtain ⟨fs, e1, e2⟩ := ihQ _ _ htr h
        refine ⟨fs, e1, ?_⟩
        rw [List.count_append, hc1] at e2
        omega
      · obtain ⟨s1, h1, h2⟩ := addLines_new_ok hs hc h
        obtain ⟨fs1, f1, f2⟩ := ihP _ _ _ h1
        obtain ⟨fs, e1, e2⟩ := ihQ _ _ htr h2
        refine ⟨fs ++ fs1, by rw [e1, f1]; simp, ?_⟩
        rw [List.count_append, hc1] at f2
        rw [List.map_append, List.sum_append]
        omega

theorem addAll_count (p : Sources) (ht : Tidy p) (l : Str) (hl : Code l) (n : Nat) (roots : List Str) :
    ∀ s s', Amalg.addAll p n roots s = .ok s' → ∃ fs, s'.included = fs ++ s.included ∧
      s'.lines.count l = s.lines.count l + (fs.map fun f => ((p.lines f).getD []).count l).sum := by
  induction roots with
  | nil => intro s s' h; rw [Amalg.addAll] at h; cases h; exact ⟨[], by simp, by simp⟩
  | cons f r ih =>
    intro s s' h
    obtain ⟨s1, h1, h2⟩ := addAll_cons_ok h
    obtain ⟨fs1, f1, f2⟩ := (add_count p ht l hl n).1 _ _ _ h1
    obtain ⟨fs, e1, e2⟩ := ih _ _ h2
    refine ⟨fs ++ fs1, by rw [e1, f1]; simp, ?_⟩
    rw [List.map_append, List.sum_append]
    omega

/-- **Each line of code of each file that is read is in the sketch, as many times as in that file.** -/
theorem c93_code (p : Sources) (folder : Str) (inos cpps : List Str) (s : Amalg)
    (ht : ∀ f ls, p.lines f = some ls → ∀ line ∈ ls, TidyLine line) (h : amalgamation p folder inos cpps = .ok s) :
    ∃ files : List Str, files.Nodup ∧ (∀ f, f ∈ files ↔ ReadFrom p.lines (sketchRoots p inos cpps) f) ∧
      (∀ f ∈ files, ∃ ls, p.lines f = some ls) ∧
      ∀ line, Code line → s.lines.count line = (files.map fun f => ((p.lines f).getD []).count line).sum := by
  obtain ⟨_, h1, h2, h3, h4⟩ := addAll_reads p ht (ReadFrom p.lines (sketchRoots p inos cpps))
    (fun f ls line name h1 h2 h3 h4 => .step h1 h2 h3 h4) _ _ _ _ (fun f hf => .root hf) h (by simp) (by simp)
  refine ⟨s.included, h1, fun f => ⟨h2 f, fun hr => ?_⟩, fun f hf => ?_, fun line hl => ?_⟩
  · induction hr with
    | root hf => exact h3 _ hf
    | step _ hf hm hc ih =>
      rcases h4 _ ih with h | ⟨ls, e1, e2⟩
      · exact absurd h (by simp)
      · rw [hf] at e1
        cases e1
        exact e2 _ ⟨_, hm, hc⟩
  · rcases h4 f hf with h | ⟨ls, e, _⟩
    · exact absurd h (by simp)
    · exact ⟨ls, e⟩
  · obtain ⟨fs, e1, e2⟩ := addAll_count p ht line hl _ _ _ _ h
    simp only [List.append_nil] at e1
    rw [e1, e2, List.count_eq_zero.mpr, Nat.zero_add]
    intro hm
    rw [List.mem_singleton] at hm
    exact hl.1 (hm ▸ cLine_title folder)

/-- A line and its newline. -/
def Spec.WholeLine (l : Str) : Prop := ∃ x, l = x ++ [10] ∧ (10 : Byte) ∉ x

theorem add_whole (p : Sources) (ht : Tidy p) (n : Nat) :
    (∀ name s s', (10 : Byte) ∉ name → Amalg.add p n name s = .ok s' → (∀ l ∈ s.lines, WholeLine l) →
      ∀ l ∈ s'.lines, WholeLine l) ∧
    ∀ ls s s', (∀ line ∈ ls, TidyLine line) → Amalg.addLines p n ls s = .ok s' → (∀ l ∈ s.lines, WholeLine l) →
      ∀ l ∈ s'.lines, WholeLine l := by
  have mark : ∀ a name, (10 : Byte) ∉ a → (10 : Byte) ∉ name → WholeLine (a ++ name ++ bs "\n") := by
    intro a name ha hn
    refine ⟨a ++ name, by rw [show bs "\n" = [10] by decide +kernel], ?_⟩
    rw [List.mem_append]; exact fun h => h.elim ha hn
  have comment : ∀ line, TidyLine line → WholeLine (bs "// " ++ line) := by
    intro line h
    obtain ⟨x, rfl, hx⟩ := h.newline
    refine ⟨bs "// " ++ x, by simp, ?_⟩
    rw [List.mem_append]
    exact fun h => h.elim (by decide +kernel) hx
  have snoc : ∀ (a b : List Str), (∀ l ∈ a, WholeLine l) → (∀ l ∈ b, WholeLine l) → ∀ l ∈ a ++ b, WholeLine l := by
    intro a b ha hb l hl
    rcases List.mem_append.mp hl with h | h
    · exact ha l h
    · exact hb l h
  have one : ∀ x, WholeLine x → ∀ l ∈ [x], WholeLine l := by
    intro x hx l hl
    rw [List.mem_singleton] at hl
    exact hl ▸ hx
  have := add_addLines p
    (P := fun _ name s r => ∀ s', (10 : Byte) ∉ name → r = .ok s' → (∀ l ∈ s.lines, WholeLine l) →
      ∀ l ∈ s'.lines, WholeLine l)
    (Q := fun _ ls s r => ∀ s', (∀ line ∈ ls, TidyLine line) → r = .ok s' → (∀ l ∈ s.lines, WholeLine l) →
      ∀ l ∈ s'.lines, WholeLine l)
    ?_ ?_ ?_ ?_ n
  · exact this
  · intro name s s' _ h
    rw [Amalg.add] at h; exact absurd h (by simp)
  · intro n name s ih s' hn h hs
    rcases add_ok h with ⟨_, rfl⟩ | ⟨hc, ls, s1, hf, h1, rfl⟩
    · exact hs
    · refine snoc _ _ (ih _ _ _ (ht _ _ hf) h1 (snoc _ _ hs ?_)) (one _ (mark _ _ (by decide +kernel) hn))
      refine snoc [bs "\n"] [_] (one _ ⟨[], by decide +kernel, by simp⟩) (one _ (mark _ _ (by decide +kernel) hn))
  · intro n s s' _ h hs
    rw [Amalg.addLines, Amalg.loop] at h; cases h; exact hs
  · intro n line r s ihP ihQ s' htl h hs
    have htr : ∀ line ∈ r, TidyLine line := fun x hx => htl x (by simp [hx])
    have hline := htl line (by simp)
    have hcm := snoc _ _ hs (one _ (comment _ hline))
    cases hl : srcLine line with
    | bad => rw [addLines_bad hl] at h; exact absurd h (by simp)
    | once => rw [addLines_once hl] at h; exact ihQ _ _ htr h hcm
    | plain => rw [addLines_plain hl] at h; exact ihQ _ _ htr h (snoc _ _ hs (one _ hline.newline))
    | quoted name =>
      by_cases hc : name ∈ s.included
      · rw [addLines_again hl hc] at h; exact ihQ _ _ htr h hcm
      · obtain ⟨s1, h1, h2⟩ := addLines_new_ok hl hc h
        refine ihQ _ _ htr h2 (ihP _ _ _ ?_ h1 hcm)
        have hcl := (cLine_include_iff _ _).mp (quoted_include hline hl)
        obtain ⟨⟨t, ht1⟩, hname⟩ := hcl
        have hx : line.dropWhile cBlank = bs "#include" ++ (bs " \"" ++ t) := by
          rw [← ht1, show bs "#include \"" = bs "#include" ++ bs " \"" by decide +kernel]; simp
        rcases hline.inclusion _ hx with ⟨nm, r', e, _, hn1, _, hn2⟩ | ⟨nm, r', e, _, _, h34⟩
        · have e' : t = nm ++ 34 :: r' := by
            rw [List.append_assoc] at e
            exact List.append_cancel_left e
          rw [← ht1, show (10 : Nat) = (bs "#include \"").length by decide +kernel, List.drop_left, e',
            takeWhile_no _ _ hn1] at hname
          rw [hname]; exact hn2
        · exact absurd (List.mem_append.mpr (Or.inl (by decide +kernel))) h34

theorem addAll_whole (p : Sources) (ht : Tidy p) (n : Nat) (roots : List Str) :
    ∀ s s', (∀ f ∈ roots, (10 : Byte) ∉ f) → Amalg.addAll p n roots s = .ok s' → (∀ l ∈ s.lines, WholeLine l) →
      ∀ l ∈ s'.lines, WholeLine l := by
  induction roots with
  | nil => intro s s' _ h hs; rw [Amalg.addAll] at h; cases h; exact hs
  | cons f r ih =>
    intro s s' hr h hs
    obtain ⟨s1, h1, h2⟩ := addAll_cons_ok h
    exact ih _ _ (fun x hx => hr x (by simp [hx])) h2 ((add_whole p ht n).1 _ _ _ (hr f (by simp)) h1 hs)

/-- **The file that is written has these lines and no other**: each ends with the only newline in it. -/
theorem c93_lines (p : Sources) (folder : Str) (inos cpps : List Str) (s : Amalg)
    (ht : ∀ f ls, p.lines f = some ls → ∀ line ∈ ls, TidyLine line) (hf : (10 : Byte) ∉ folder)
    (hr : ∀ f ∈ inos ++ cpps, (10 : Byte) ∉ f) (h : amalgamation p folder inos cpps = .ok s) :
    ∀ l ∈ s.lines, WholeLine l := by
  refine addAll_whole p ht _ _ _ _ (fun f hm => ?_) h (fun l hl => ?_)
  · rw [List.mem_append, List.mem_append] at hm
    rcases hm with (hm | hm) | hm
    · exact hr f (by simp [hm])
    · split at hm
      · rw [List.mem_singleton] at hm; subst hm; decide +kernel
      · simp at hm
    · exact hr f (by simp [hm])
  · rw [List.mem_singleton] at hl
    refine ⟨bs "//amalgamation: " ++ folder ++ bs " *.ino *.cpp", ?_, ?_⟩
    · rw [hl, List.append_assoc _ _ [10], show bs " *.ino *.cpp\n" = bs " *.ino *.cpp" ++ [10] by decide +kernel]
    · simp only [List.mem_append]
      rintro ((h | h) | h)
      · exact absurd h (by decide +kernel)
      · exact hf h
      · exact absurd h (by decide +kernel)

/-! ## Compilation -/

/-- **Compiling the sketch is compiling the sources one after the other**, whatever the values of the conditions. -/
theorem c93_same_partial (p : Sources) (folder : Str) (inos cpps : List Str) (s : Amalg)
    (eval : List Str → Str → Bool) (ino : Str)
    (ht : ∀ f ls, p.lines f = some ls → ∀ line ∈ ls, TidyLine line)
    (hG : ∀ name ls, Included p.lines name → p.lines name = some ls → Guarded ls)
    (hP : ∀ f ls, p.lines f = some ls → PlainIncludes 0 ls)
    (hR : ∀ f ∈ sketchRoots p inos cpps, ¬ Included p.lines f) (h : amalgamation p folder inos cpps = .ok s) :
    ∃ whole sketch, Unity p.lines eval (distinct (sketchRoots p inos cpps)) .start whole ∧
      Cpp p.lines eval ino s.lines .start sketch ∧ sketch.out = whole.out ∧
      (∀ w, Unity p.lines eval (distinct (sketchRoots p inos cpps)) .start w → w = whole) ∧
      ∀ w, Cpp p.lines eval ino s.lines .start w → w = sketch := by
  obtain ⟨ext, new, u', e1, e2, e3, e4⟩ := addAll_same p eval ht hG hP _ _ _ _ Compile.start [] h hR (by simp)
    (fun x _ => by simp) rfl (fun x _ => by simp [Compile.start])
  rw [List.nil_append] at e1
  have hu : Unity p.lines eval (distinct (sketchRoots p inos cpps)) .start u' := by
    unfold distinct sketchRoots
    rw [e1]; exact e3
  have hs : Cpp p.lines eval ino s.lines .start (u'.as []) := by
    rw [e2]
    exact .ignored (cLine_title folder) (e4 ino [])
  exact ⟨u', u'.as [], hu, hs, rfl, fun w hw => hw.unique hu, fun w hw => hw.unique hs⟩

/-! ## Examples -/

/-- The compiler, with a bound on the nesting, for the examples. -/
def cppRun (file : Str → Option (List Str)) (eval : List Str → Str → Bool) : Nat → Str → List Str → Compile → Option Compile
  | 0, _, _, _ => none
  | _ + 1, _, [], u => some u
  | n + 1, cur, line :: r, u =>
    if cLine line ∈ [.cond, .elif, .els, .endif] then cppRun file eval n cur r { u with open_ := u.condition eval line }
    else if u.active = false then cppRun file eval n cur r u
    else
      match cLine line with
      | .nothing => cppRun file eval n cur r u
      | .item => cppRun file eval n cur r { u with out := u.out ++ [line] }
      | .once => cppRun file eval n cur r { u with once := cur :: u.once }
      | .include name =>
        if name ∈ u.once then cppRun file eval n cur r u
        else
          match file name with
          | none => none
          | some ls =>
            match cppRun file eval n name ls { u with open_ := [] } with
            | none => none
            | some u1 => cppRun file eval n cur r { u1 with open_ := u.open_ }
      | _ => none

theorem cppRun_sound {file eval} (n : Nat) : ∀ {cur ls u u'}, cppRun file eval n cur ls u = some u' →
    Cpp file eval cur ls u u' := by
  induction n with
  | zero => intro cur ls u u' h; simp [cppRun] at h
  | succ n ih =>
    intro cur ls u u' h
    cases ls with
    | nil => simp only [cppRun, Option.some.injEq] at h; subst h; exact .nil _ _
    | cons line r =>
      rw [cppRun] at h
      by_cases hc : cLine line ∈ [.cond, .elif, .els, .endif]
      · rw [if_pos hc] at h; exact .condition hc (ih h)
      rw [if_neg hc] at h
      by_cases ha : u.active = false
      · rw [if_pos ha] at h; exact .skipped hc ha (ih h)
      rw [if_neg ha] at h
      have ha : u.active = true := by simpa using ha
      cases hl : cLine line with
      | nothing => rw [hl] at h; exact .nothing hl ha (ih h)
      | item => rw [hl] at h; exact .item hl ha (ih h)
      | once => rw [hl] at h; exact .once hl ha (ih h)
      | cond => rw [hl] at hc; exact absurd hc (by simp)
      | elif => rw [hl] at hc; exact absurd hc (by simp)
      | els => rw [hl] at hc; exact absurd hc (by simp)
      | endif => rw [hl] at hc; exact absurd hc (by simp)
      | «include» name =>
        rw [hl] at h
        simp only at h
        by_cases hn : name ∈ u.once
        · rw [if_pos hn] at h; exact .again hl ha hn (ih h)
        · rw [if_neg hn] at h
          cases hf : file name with
          | none => rw [hf] at h; exact absurd h (by simp)
          | some ls =>
            rw [hf] at h
            simp only at h
            cases h1 : cppRun file eval n name ls { u with open_ := [] } with
            | none => rw [h1] at h; exact absurd h (by simp)
            | some u1 => rw [h1] at h; exact .enter hl ha hn hf (ih h1) (ih h)

/-- `cli.cpp` and `config.cpp` with what they say about `strncpy_s.h` (cli.cpp:8-14,343, config.cpp:29,388, strncpy_s.h:1-7),
`ENABLE_CLI` being undefined (wifinfo.h:20). -/
def cliProject : Sources :=
  [(bs "cli.cpp", [bs "#ifdef ENABLE_CLI\n", bs "#include \"strncpy_s.h\"\n", bs "#endif // ENABLE_CLI\n"]),
   (bs "config.cpp", [bs "#include \"strncpy_s.h\"\n", bs "strncpy_s(dst, s, n);\n"]),
   (bs "strncpy_s.h", [bs "#pragma once\n", bs "static inline void strncpy_s();\n"])]

/-- **False when a header is included inside a condition**: `strncpy_s` is used, but its definition is inside the `#ifdef` of
`cli.cpp`, if `glob` gives that file before the others. -/
theorem c93_refuted : ∃ (p : Sources) (cpps : List Str) (s : Amalg) (whole sketch : Compile),
    amalgamation p (bs "src") [] cpps = .ok s ∧
    Unity p.lines (fun _ _ => false) (distinct (sketchRoots p [] cpps)) .start whole ∧
    Cpp p.lines (fun _ _ => false) (bs "wifinfo.ino") s.lines .start sketch ∧
    whole.out = [bs "static inline void strncpy_s();\n", bs "strncpy_s(dst, s, n);\n"] ∧
    sketch.out = [bs "strncpy_s(dst, s, n);\n"] := by
  have h1 : (match amalgamation cliProject (bs "src") [] [bs "cli.cpp", bs "config.cpp"] with
    | .error _ => none
    | .ok s => cppRun cliProject.lines (fun _ _ => false) 40 (bs "wifinfo.ino") s.lines .start).map Compile.out =
      some [bs "strncpy_s(dst, s, n);\n"] := by decide +kernel
  cases hs : amalgamation cliProject (bs "src") [] [bs "cli.cpp", bs "config.cpp"] with
  | error e => rw [hs] at h1; exact absurd h1 (by simp)
  | ok s =>
    rw [hs] at h1
    simp only at h1
    cases hc : cppRun cliProject.lines (fun _ _ => false) 40 (bs "wifinfo.ino") s.lines .start with
    | none => rw [hc] at h1; exact absurd h1 (by simp)
    | some u =>
      rw [hc] at h1
      refine ⟨cliProject, [bs "cli.cpp", bs "config.cpp"], s,
        ⟨[bs "static inline void strncpy_s();\n", bs "strncpy_s(dst, s, n);\n"], [bs "strncpy_s.h"], []⟩, u, hs, ?_,
        cppRun_sound _ hc, rfl, by simpa using h1⟩
      have hr : distinct (sketchRoots cliProject [] [bs "cli.cpp", bs "config.cpp"]) = [bs "cli.cpp", bs "config.cpp"] := by
        decide +kernel
      rw [hr]
      refine .cons (u1 := .start) (show cliProject.lines (bs "cli.cpp") = some [bs "#ifdef ENABLE_CLI\n",
        bs "#include \"strncpy_s.h\"\n", bs "#endif // ENABLE_CLI\n"] by decide +kernel) ?_ ?_
      · exact .condition (by decide +kernel) (.skipped (by decide +kernel) (by decide +kernel)
          (.condition (by decide +kernel) (by
            have : (Compile.condition (fun _ _ => false) ⟨[], [], Compile.start.condition (fun _ _ => false)
              (bs "#ifdef ENABLE_CLI\n")⟩ (bs "#endif // ENABLE_CLI\n")) = [] := by decide +kernel
            simp only [Compile.start] at this ⊢
            rw [this]; exact .nil _ _)))
      refine .cons (show cliProject.lines (bs "config.cpp") = some [bs "#include \"strncpy_s.h\"\n",
        bs "strncpy_s(dst, s, n);\n"] by decide +kernel) ?_ (.nil _)
      refine .enter (name := bs "strncpy_s.h") (by decide +kernel) rfl (by simp [Compile.start])
        (show cliProject.lines (bs "strncpy_s.h") = some [bs "#pragma once\n", bs "static inline void strncpy_s();\n"] by
          decide +kernel)
        (.once (by decide +kernel) rfl (.item (by decide +kernel) rfl (.nil _ _))) ?_
      exact .item (by decide +kernel) rfl (.nil _ _)

/-- Two headers that include each other, one with a condition. -/
def cyclicProject : Sources :=
  [(bs "main.cpp", [bs "#include \"a.h\"\n", bs "#include \"b.h\"\n", bs "int main() { return a + b; }\n"]),
   (bs "a.h", [bs "// the header a\n", bs "#pragma once\n", bs "#include \"b.h\"\n", bs "#ifdef BIG\n",
     bs "const int a = 1000;\n", bs "#else\n", bs "const int a = 1;\n", bs "#endif\n"]),
   (bs "b.h", [bs "#pragma once\n", bs "#include \"a.h\"\n", bs "#define BIG\n", bs "const int b = 2;\n"])]

theorem lines_mem {p : Sources} {f : Str} {ls : List Str} (h : p.lines f = some ls) : (f, ls) ∈ p := by
  unfold Sources.lines at h
  cases hx : p.find? fun x => x.1 == f with
  | none => rw [hx] at h; simp at h
  | some x =>
    rw [hx] at h
    have h1 := List.mem_of_find?_eq_some hx
    have h2 : x.1 = f := by simpa using List.find?_some hx
    have h3 : x.2 = ls := by simpa using h
    rw [← h2, ← h3]; exact h1

theorem tidy_other {line : Str} (h1 : line.all (fun b => !(28 ≤ b && b ≤ 31)) = true)
    (h2 : line = line.dropLast ++ [10] ∧ (10 : Byte) ∉ line.dropLast)
    (h3 : (bs "#include").isPrefixOf (line.dropWhile cBlank) = false) : TidyLine line := by
  refine ⟨fun b hb => ?_, ⟨_, h2.1, h2.2⟩, fun x hx => ?_⟩
  · have := List.all_eq_true.mp h1 b hb
    rintro ⟨e1, e2⟩
    simp [e1, e2] at this
  · have : (bs "#include").isPrefixOf (line.dropWhile cBlank) = true := by
      rw [List.isPrefixOf_iff_prefix]; exact ⟨x, hx.symm⟩
    rw [this] at h3; exact absurd h3 (by simp)

theorem tidy_quoted {line name : Str} (h1 : line.all (fun b => !(28 ≤ b && b ≤ 31)) = true)
    (h2 : line = line.dropLast ++ [10] ∧ (10 : Byte) ∉ line.dropLast)
    (h3 : line.dropWhile cBlank = bs "#include" ++ (bs " \"" ++ name ++ 34 :: [10]))
    (h4 : name ≠ [] ∧ (34 : Byte) ∉ name ∧ (10 : Byte) ∉ name) : TidyLine line := by
  refine ⟨fun b hb => ?_, ⟨_, h2.1, h2.2⟩, fun x hx => Or.inl ⟨name, [10], ?_, h4.1, h4.2.1, by decide, h4.2.2⟩⟩
  · have := List.all_eq_true.mp h1 b hb
    rintro ⟨e1, e2⟩
    simp [e1, e2] at this
  · rw [h3] at hx
    exact (List.append_cancel_left hx).symm

theorem cyclic_tidy : ∀ f ls, cyclicProject.lines f = some ls → ∀ line ∈ ls, TidyLine line := by
  intro f ls h line hl
  have h := lines_mem h
  simp only [cyclicProject, List.mem_cons, Prod.mk.injEq, List.not_mem_nil, or_false] at h
  have ha : TidyLine (bs "#include \"a.h\"\n") :=
    tidy_quoted (name := bs "a.h") (by decide +kernel) (by decide +kernel) (by decide +kernel) (by decide +kernel)
  have hb : TidyLine (bs "#include \"b.h\"\n") :=
    tidy_quoted (name := bs "b.h") (by decide +kernel) (by decide +kernel) (by decide +kernel) (by decide +kernel)
  rcases h with ⟨rfl, rfl⟩ | ⟨rfl, rfl⟩ | ⟨rfl, rfl⟩ <;>
    simp only [List.mem_cons, List.not_mem_nil, or_false] at hl
  · rcases hl with rfl | rfl | rfl
    · exact ha
    · exact hb
    · exact tidy_other (by decide +kernel) (by decide +kernel) (by decide +kernel)
  · rcases hl with rfl | rfl | rfl | rfl | rfl | rfl | rfl | rfl
    · exact tidy_other (by decide +kernel) (by decide +kernel) (by decide +kernel)
    · exact tidy_other (by decide +kernel) (by decide +kernel) (by decide +kernel)
    · exact hb
    all_goals exact tidy_other (by decide +kernel) (by decide +kernel) (by decide +kernel)
  · rcases hl with rfl | rfl | rfl | rfl
    · exact tidy_other (by decide +kernel) (by decide +kernel) (by decide +kernel)
    · exact ha
    all_goals exact tidy_other (by decide +kernel) (by decide +kernel) (by decide +kernel)

/-- The hypotheses of `c93_code` and `c93_lines` hold there; the sketch is made. -/
example : (∀ f ls, cyclicProject.lines f = some ls → ∀ line ∈ ls, TidyLine line) ∧
    ∃ s, amalgamation cyclicProject (bs "src") [] [bs "main.cpp"] = .ok s ∧ s.lines.length = 25 := by
  refine ⟨cyclic_tidy, ?_⟩
  have h : (match amalgamation cyclicProject (bs "src") [] [bs "main.cpp"] with
    | .ok s => s.lines.length
    | .error _ => 0) = 25 := by decide +kernel
  cases hs : amalgamation cyclicProject (bs "src") [] [bs "main.cpp"] with
  | error e => rw [hs] at h; exact absurd h (by simp)
  | ok s => rw [hs] at h; exact ⟨s, rfl, h⟩

/-- Those of `c93_same_partial` hold too. -/
example : (∀ name ls, Included cyclicProject.lines name → cyclicProject.lines name = some ls → Guarded ls) ∧
    (∀ f ls, cyclicProject.lines f = some ls → PlainIncludes 0 ls) ∧
    ∀ f ∈ sketchRoots cyclicProject [] [bs "main.cpp"], ¬ Included cyclicProject.lines f := by
  have names : ∀ name, Included cyclicProject.lines name → name = bs "a.h" ∨ name = bs "b.h" := by
    rintro name ⟨f, ls, line, h, hl, hc⟩
    have h := lines_mem h
    have hall : (cyclicProject.all fun x => x.2.all fun l => match cLine l with
      | .include n => n = bs "a.h" || n = bs "b.h"
      | _ => true) = true := by decide +kernel
    have := List.all_eq_true.mp (List.all_eq_true.mp hall _ h) line hl
    rw [hc] at this
    simpa using this
  refine ⟨fun name ls hi hf => ?_, fun f ls hf => ?_, fun f hf hi => ?_⟩
  · have hm := lines_mem hf
    simp only [cyclicProject, List.mem_cons, Prod.mk.injEq, List.not_mem_nil, or_false] at hm
    rcases hm with ⟨rfl, rfl⟩ | ⟨rfl, rfl⟩ | ⟨rfl, rfl⟩
    · exact absurd (names _ hi) (by decide +kernel)
    · exact ⟨[_], _, _, rfl, by decide +kernel, by decide +kernel⟩
    · exact ⟨[], _, _, rfl, by simp, by decide +kernel⟩
  · have hm := lines_mem hf
    have hd : ∀ (l : Str) (c : CLine) (n : Nat) (r : List Str), cLine l = c → PlainIncludes n (l :: r) = (match c with
      | .include _ => n = 0 ∧ PlainIncludes n r
      | .cond => PlainIncludes (n + 1) r
      | .elif | .els => 0 < n ∧ PlainIncludes n r
      | .endif => 0 < n ∧ PlainIncludes (n - 1) r
      | _ => PlainIncludes n r) := by
      rintro l _ n r rfl
      rw [PlainIncludes]
      cases cLine l <;> rfl
    simp only [cyclicProject, List.mem_cons, Prod.mk.injEq, List.not_mem_nil, or_false] at hm
    rcases hm with ⟨_, rfl⟩ | ⟨_, rfl⟩ | ⟨_, rfl⟩
    · rw [hd _ (.include (bs "a.h")) _ _ (by decide +kernel), hd _ (.include (bs "b.h")) _ _ (by decide +kernel),
        hd _ .item _ _ (by decide +kernel)]
      exact ⟨rfl, rfl, rfl⟩
    · rw [hd _ .nothing _ _ (by decide +kernel), hd _ .once _ _ (by decide +kernel),
        hd _ (.include (bs "b.h")) _ _ (by decide +kernel), hd _ .cond _ _ (by decide +kernel),
        hd _ .item _ _ (by decide +kernel), hd _ .els _ _ (by decide +kernel), hd _ .item _ _ (by decide +kernel),
        hd _ .endif _ _ (by decide +kernel)]
      exact ⟨rfl, by decide, by decide, rfl⟩
    · rw [hd _ .once _ _ (by decide +kernel), hd _ (.include (bs "a.h")) _ _ (by decide +kernel),
        hd _ .item _ _ (by decide +kernel), hd _ .item _ _ (by decide +kernel)]
      exact ⟨rfl, rfl⟩
  · have hr : sketchRoots cyclicProject [] [bs "main.cpp"] = [bs "main.cpp", bs "main.cpp"] := by decide +kernel
    rw [hr] at hf
    have : f = bs "main.cpp" := by simpa using hf
    subst this
    exact absurd (names _ hi) (by decide +kernel)

/-- A file that is missing. -/
example : ∃ e, amalgamation [(bs "main.cpp", [bs "#include \"a.h\"\n"])] (bs "src") [] [] = .error e ∧
    e = .missing (bs "a.h") := by
  have h : (match amalgamation [(bs "main.cpp", [bs "#include \"a.h\"\n"])] (bs "src") [] [] with
    | .ok _ => false
    | .error e => e = .missing (bs "a.h")) = true := by decide +kernel
  cases hs : amalgamation [(bs "main.cpp", [bs "#include \"a.h\"\n"])] (bs "src") [] [] with
  | ok s => rw [hs] at h; exact absurd h (by simp)
  | error e => rw [hs] at h; exact ⟨e, rfl, by simpa using h⟩

end Wifinfo
