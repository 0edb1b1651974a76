import Verif.Model.Prep

/-!
# C86: the data folder follows the sources
-/

namespace Wifinfo

namespace Spec

/-- The kinds of source files, by the end of their names: a page is minified and compressed, a script, a style
sheet or a font is compressed, anything else is copied. -/
inductive Kind
  | page | packed | plain
deriving DecidableEq, Repr

/-- A name made of something and of that ending. -/
def ends (name : Str) (e : String) : Bool := decide ((bs e).length < name.length) && (bs e).isSuffixOf name

/-- The kind of a file. -/
def kindOf (name : Str) : Kind :=
  if ends name ".htm" ∨ ends name ".html" then .page
  else if ends name ".js" ∨ ends name ".css" ∨ ends name ".ttf" then .packed
  else .plain

/-- What must be made of a file. -/
def made (w : Tools) (k : Kind) (c : Str) : Str :=
  match k with
  | .page => w.gzip ((w.minify c).getD [])
  | .packed => w.gzip c
  | .plain => c

/-- Where it must be. -/
def place (k : Kind) (parent : FsPath) (name : Str) : FsPath :=
  if k = .plain then parent ++ [name] else parent ++ [name ++ bs ".gz"]

end Spec
open Spec

/-! ## Folders -/

theorem at_put (t : Tree) (p q : FsPath) (n : Node) :
    (t.put p n).at q = if q = p then some n else t.at q := by
  induction t with
  | nil =>
    by_cases h : q = p
    · subst h; simp [Tree.put, Tree.at]
    · have h' : ¬ p = q := fun e => h e.symm
      simp [Tree.put, Tree.at, h, h']
  | cons x t ih =>
    unfold Tree.put
    by_cases hx : x.1 = p
    · rw [if_pos hx]
      by_cases h : q = p
      · subst h; simp [Tree.at]
      · have h' : ¬ p = q := fun e => h e.symm
        have h'' : ¬ x.1 = q := fun e => h' (hx ▸ e)
        simp [Tree.at, h, h', h'']
    · rw [if_neg hx]
      by_cases h : x.1 = q
      · have h' : ¬ q = p := fun e => hx (h.trans e)
        simp [Tree.at, h, h']
      · have : ∀ t : Tree, Tree.at (x :: t) q = Tree.at t q := by
          intro t; unfold Tree.at; rw [List.find?_cons_of_neg (by simpa using h)]
        rw [this, this, ih]

theorem at_write {t t' : Tree} {p : FsPath} {c m} (h : t.write p c m = some t') (q : FsPath) :
    t'.at q = if q = p then some (.file c m) else t.at q := by
  unfold Tree.write at h
  split at h
  · cases h
  · rw [← Option.some.inj h]; exact at_put ..

theorem at_remove (t : Tree) (p q : FsPath) :
    (t.remove p).at q = if p <+: q then none else t.at q := by
  unfold Tree.remove Tree.at
  rw [List.find?_filter]
  by_cases h : p <+: q
  · rw [if_pos h, List.find?_eq_none.2, Option.map_none]
    rintro x - hx
    simp only [Bool.and_eq_true, Bool.not_eq_true', decide_eq_true_eq] at hx
    rw [hx.2, List.isPrefixOf_iff_prefix.2 h] at hx
    exact absurd hx.1 (by simp)
  · rw [if_neg h]
    congr 2
    funext x
    by_cases hx : x.1 = q
    · have : p.isPrefixOf q = false := by
        cases hb : p.isPrefixOf q
        · rfl
        · exact absurd (List.isPrefixOf_iff_prefix.1 hb) h
      simp [hx, this]
    · simp [hx]

/-- Folders are made at the prefixes of the path only. -/
theorem at_mkdirs : ∀ (p : FsPath) {t t' : Tree} {done : FsPath}, t.mkdirs done p = some t' → ∀ q,
    t'.at q = t.at q ∨ (t.at q = none ∧ t'.at q = some .dir ∧ q <+: done ++ p) := by
  intro p
  induction p with
  | nil =>
    intro t t' done h q
    left; rw [Option.some.inj h]
  | cons n r ih =>
    intro t t' done h q
    unfold Tree.mkdirs at h
    have hp : done ++ n :: r = (done ++ [n]) ++ r := by simp
    split at h
    · rw [hp]; exact ih h q
    · cases h
    · rename_i hn
      rcases ih h q with h1 | ⟨h1, h2, h3⟩
      · rw [at_put] at h1
        by_cases hq : q = done ++ [n]
        · rw [if_pos hq] at h1
          right
          refine ⟨hq ▸ hn, h1, ?_⟩
          rw [hq, hp]; exact List.prefix_append ..
        · rw [if_neg hq] at h1; exact Or.inl h1
      · rw [at_put] at h1
        by_cases hq : q = done ++ [n]
        · rw [if_pos hq] at h1; cases h1
        · rw [if_neg hq] at h1
          right; exact ⟨h1, h2, hp ▸ h3⟩

/-! ## Names -/

theorem suffix_cases (n : Str) : pySuffix n = [] ∨ ∃ a r, n = a ++ 46 :: r ∧ a ≠ [] ∧ r ≠ [] ∧
    (46 : Byte) ∉ r ∧ pySuffix n = 46 :: r := by
  unfold pySuffix
  simp only
  split
  · rename_i h
    right
    have hsplit := List.takeWhile_append_dropWhile (p := fun b : Byte => decide (b ≠ 46)) (l := n.reverse)
    have hr : ∀ b ∈ n.reverse.takeWhile (fun b => decide (b ≠ 46)), b ≠ 46 := by
      intro b hb
      have := List.all_eq_true.1 (List.all_takeWhile (p := fun b : Byte => decide (b ≠ 46)) (l := n.reverse)) b hb
      simpa using this
    generalize hR : n.reverse.takeWhile (fun b => decide (b ≠ 46)) = R at *
    cases hD : n.reverse.dropWhile (fun b => decide (b ≠ 46)) with
    | nil =>
      rw [hD, List.append_nil] at hsplit
      have := congrArg List.length hsplit
      simp at this
      omega
    | cons x D =>
      have hx : x = 46 := by
        have := List.head?_dropWhile_not (fun b : Byte => decide (b ≠ 46)) n.reverse
        rw [hD] at this
        simpa using this
      rw [hD, hx] at hsplit
      have hn : n = D.reverse ++ 46 :: R.reverse := by
        have := congrArg List.reverse hsplit
        simp at this
        rw [← this]
      refine ⟨D.reverse, R.reverse, hn, ?_, by simpa using h.1, ?_, rfl⟩
      · intro e
        have : n.length = R.length + 1 := by
          have := congrArg List.length hsplit
          simp at this e
          subst e
          simp at this; omega
        omega
      · intro hm; exact hr 46 (by simpa using hm) rfl
  · exact Or.inl rfl

theorem pySuffix_app {a r : Str} (ha : a ≠ []) (hr : r ≠ []) (hd : (46 : Byte) ∉ r) :
    pySuffix (a ++ 46 :: r) = 46 :: r := by
  have h : (a ++ 46 :: r).reverse.takeWhile (fun b => decide (b ≠ 46)) = r.reverse := by
    rw [List.reverse_append, List.reverse_cons, List.append_assoc, List.takeWhile_append_of_pos]
    · simp
    · intro b hb
      simp only [List.mem_reverse] at hb
      have : b ≠ 46 := fun e => hd (e ▸ hb)
      simpa using this
  unfold pySuffix
  simp only [h]
  have := List.length_pos_iff.2 ha
  rw [if_pos ⟨by simpa using hr, by simp; omega⟩]
  simp

theorem ends_iff (n : Str) (r : Str) (e : String) (he : bs e = 46 :: r) (hr : r ≠ []) (hd : (46 : Byte) ∉ r) :
    pySuffix n = bs e ↔ ends n e = true := by
  unfold ends
  rw [Bool.and_eq_true, decide_eq_true_eq, List.isSuffixOf_iff_suffix, he]
  constructor
  · intro h
    rcases suffix_cases n with h0 | ⟨a, r', h1, h2, h3, h4, h5⟩
    · rw [h0] at h; cases h
    · rw [h5] at h
      obtain ⟨-, rfl⟩ := List.cons.inj h
      have := List.length_pos_iff.2 h2
      rw [h1]
      exact ⟨by simp; omega, a, rfl⟩
  · rintro ⟨h1, a, h2⟩
    rw [← h2]
    apply pySuffix_app _ hr hd
    rintro rfl
    rw [← h2] at h1
    simp at h1

theorem kind_minifier (w : Tools) (n : Str) : w.minifier (pySuffix n) =
    match kindOf n with
    | .page => some (fun c => w.gzip ((w.minify c).getD []))
    | .packed => some w.gzip
    | .plain => none := by
  unfold Tools.minifier kindOf
  simp only [ends_iff n (bs "htm") ".htm" (by decide) (by decide) (by decide),
    ends_iff n (bs "html") ".html" (by decide) (by decide) (by decide),
    ends_iff n (bs "js") ".js" (by decide) (by decide) (by decide),
    ends_iff n (bs "css") ".css" (by decide) (by decide) (by decide),
    ends_iff n (bs "ttf") ".ttf" (by decide) (by decide) (by decide)]
  split
  · rfl
  · split <;> rfl

/-! ## One file -/

namespace Spec

/-- Where the restricted version of a page is. -/
def restrictedPlace (parent : FsPath) (name : Str) : FsPath := parent ++ [restrictName name]

/-- What the preparation of a source file of content `c` writes: the file, the restricted version of a page that
has the mark, and when a file is copied to a place taken by a folder, the file in that folder. -/
def mayWrite (p : FsPath) (c : Str) : List FsPath :=
  let parent := p.dropLast
  let name := p.getLastD []
  place (kindOf name) parent name ::
    ((if ends name ".html" ∧ bs "<!--MAKE_RESTRICT-->" <:+: c then [restrictedPlace parent name] else []) ++
      (if kindOf name = .plain then [p ++ [name]] else []))

/-- All these places, whatever the content. -/
def targets (p : FsPath) : List FsPath :=
  let parent := p.dropLast
  let name := p.getLastD []
  [place (kindOf name) parent name, restrictedPlace parent name, p ++ [name]]

end Spec

/-- The destination of a source file: where `place` puts it. -/
def destOf (p : FsPath) : FsPath := place (kindOf (p.getLastD [])) p.dropLast (p.getLastD [])

theorem destOf_plain {p : FsPath} (hp : p ≠ []) (h : kindOf (p.getLastD []) = .plain) : destOf p = p := by
  unfold destOf place
  rw [if_pos h]
  have := List.dropLast_concat_getLast hp
  rw [List.getLastD_eq_getLast?, List.getLast?_eq_some_getLast hp]
  simpa using this

theorem destOf_other {p : FsPath} (h : kindOf (p.getLastD []) ≠ .plain) :
    destOf p = p.dropLast ++ [p.getLastD [] ++ bs ".gz"] := by
  unfold destOf place
  rw [if_neg h]

/-- `prepOne` in two cases, up to date or not. -/
theorem prepOne_cases {w : Tools} {now p c m} {d d' : Tree} (hp : p ≠ []) (h : prepOne w now p c m d = some d') :
    (upToDate d (destOf p) m = true ∧ d' = d) ∨
    (upToDate d (destOf p) m = false ∧ ∃ d1, d.mkdirs [] p.dropLast = some d1 ∧
      ((kindOf (p.getLastD []) = .plain ∧
          ((d1.at p = some .dir ∧ d1.write (p ++ [p.getLastD []]) c m = some d') ∨
           (d1.at p ≠ some .dir ∧ d1.write p c m = some d'))) ∨
       (kindOf (p.getLastD []) ≠ .plain ∧ ∃ d2,
          d1.write (destOf p) (made w (kindOf (p.getLastD [])) c) (now (destOf p)) = some d2 ∧
          ((ends (p.getLastD []) ".html" = true ∧ ∃ r, makeRestrict c = some r ∧
              d2.write (restrictedPlace p.dropLast (p.getLastD [])) (w.html r)
                (now (restrictedPlace p.dropLast (p.getLastD []))) = some d') ∨
           ((ends (p.getLastD []) ".html" = false ∨ makeRestrict c = none) ∧ d' = d2))))) := by
  by_cases hne : kindOf (p.getLastD []) = .plain
  · have hm : w.minifier (pySuffix (p.getLastD [])) = none := by rw [kind_minifier, hne]
    unfold prepOne at h
    simp only [hm] at h
    rw [destOf_plain hp hne]
    by_cases hu : upToDate d p m = true
    · rw [if_pos hu] at h
      exact Or.inl ⟨hu, (Option.some.inj h).symm⟩
    · rw [if_neg hu] at h
      obtain ⟨d1, h1, h⟩ := Option.bind_eq_some_iff.1 h
      refine Or.inr ⟨by simpa using hu, d1, h1, Or.inl ⟨hne, ?_⟩⟩
      by_cases hd : d1.at p = some .dir
      · rw [hd] at h; exact Or.inl ⟨hd, h⟩
      · refine Or.inr ⟨hd, ?_⟩
        split at h
        · rename_i e; exact absurd e hd
        · exact h
  · obtain ⟨cmd, hm, hcmd⟩ : ∃ cmd, w.minifier (pySuffix (p.getLastD [])) = some cmd ∧
        ∀ c, cmd c = made w (kindOf (p.getLastD [])) c := by
      rw [kind_minifier]
      cases hk : kindOf (p.getLastD []) with
      | page => exact ⟨_, rfl, fun _ => rfl⟩
      | packed => exact ⟨_, rfl, fun _ => rfl⟩
      | plain => exact absurd hk hne
    unfold prepOne at h
    simp only [hm] at h
    rw [← destOf_other hne] at h
    by_cases hu : upToDate d (destOf p) m = true
    · rw [if_pos hu] at h
      exact Or.inl ⟨hu, (Option.some.inj h).symm⟩
    · rw [if_neg hu] at h
      obtain ⟨d1, h1, h⟩ := Option.bind_eq_some_iff.1 h
      obtain ⟨d2, h2, h⟩ := Option.bind_eq_some_iff.1 h
      refine Or.inr ⟨by simpa using hu, d1, h1, Or.inr ⟨hne, d2, ?_, ?_⟩⟩
      · rw [← hcmd]; exact h2
      · by_cases he : pySuffix (p.getLastD []) = bs ".html"
        · rw [if_pos he] at h
          have he' := (ends_iff _ (bs "html") ".html" (by decide) (by decide) (by decide)).1 he
          split at h
          · rename_i r hr
            exact Or.inl ⟨he', r, hr, h⟩
          · rename_i hr
            exact Or.inr ⟨Or.inr hr, (Option.some.inj h).symm⟩
        · rw [if_neg he] at h
          have he' : ¬ ends (p.getLastD []) ".html" = true := fun hx =>
            he ((ends_iff _ (bs "html") ".html" (by decide) (by decide) (by decide)).2 hx)
          exact Or.inr ⟨Or.inl (by simpa using he'), (Option.some.inj h).symm⟩

/-- Another path is left alone. -/
theorem prepOne_away {w : Tools} {now p c m} {d d' : Tree} (hp : p ≠ []) (h : prepOne w now p c m d = some d')
    {x : FsPath} (hx : ∀ t ∈ targets p, ¬ x <+: t) : d'.at x = d.at x := by
  have h1 : ¬ x <+: destOf p := hx _ (by simp [targets, destOf])
  have h2 : ¬ x <+: restrictedPlace p.dropLast (p.getLastD []) := hx _ (by simp [targets])
  have h3 : ¬ x <+: p ++ [p.getLastD []] := hx _ (by simp [targets])
  have hne : ∀ {y : FsPath}, ¬ x <+: y → x ≠ y := fun h e => h (e ▸ List.prefix_refl _)
  have hpar : ¬ x <+: p.dropLast := fun hh => h2 (hh.trans (List.prefix_append ..))
  have hmk : ∀ d1, d.mkdirs [] p.dropLast = some d1 → d1.at x = d.at x := by
    intro d1 h
    rcases at_mkdirs _ h x with h | ⟨-, -, h⟩
    · exact h
    · exact absurd h hpar
  rcases prepOne_cases hp h with ⟨-, rfl⟩ | ⟨-, d1, e1, h⟩
  · rfl
  rw [← hmk d1 e1]
  rcases h with ⟨-, ⟨-, h⟩ | ⟨-, h⟩⟩ | ⟨-, d2, e2, h⟩
  · rw [at_write h, if_neg (hne h3)]
  · rw [at_write h, if_neg]
    exact fun e => h3 (e ▸ List.prefix_append ..)
  · have g : d2.at x = d1.at x := by rw [at_write e2, if_neg (hne h1)]
    rw [← g]
    rcases h with ⟨-, r, -, h⟩ | ⟨-, rfl⟩
    · rw [at_write h, if_neg (hne h2)]
    · rfl

theorem hasText_infix (m t : Str) : hasText m t = true ↔ m <:+: t := by
  induction t with
  | nil =>
    unfold hasText
    rw [List.isEmpty_iff, List.infix_nil]
  | cons b t ih =>
    unfold hasText
    rw [Bool.or_eq_true, ih, List.isPrefixOf_iff_prefix, List.infix_cons_iff]

/-- A file that is there afterwards was there before or is one that may be written. -/
theorem prepOne_only {w : Tools} {now p c m} {d d' : Tree} (hp : p ≠ []) (h : prepOne w now p c m d = some d')
    {x : FsPath} {k n} (hx : d'.at x = some (.file k n)) : x ∈ mayWrite p c ∨ d.at x = some (.file k n) := by
  have hmk : ∀ d1, d.mkdirs [] p.dropLast = some d1 → ∀ y, d1.at x = some (.file y n) →
      d.at x = some (.file y n) := by
    intro d1 h y hy
    rcases at_mkdirs _ h x with h | ⟨-, h, -⟩
    · rw [← h]; exact hy
    · rw [h] at hy; cases hy
  rcases prepOne_cases hp h with ⟨-, rfl⟩ | ⟨-, d1, e1, h⟩
  · exact Or.inr hx
  rcases h with ⟨hk, ⟨-, h⟩ | ⟨-, h⟩⟩ | ⟨-, d2, e2, h⟩
  · rw [at_write h] at hx
    split at hx
    · rename_i e
      left
      unfold mayWrite
      dsimp only
      rw [if_pos (c := kindOf (p.getLastD []) = .plain) hk, e]
      exact List.mem_cons_of_mem _ (List.mem_append_right _ (List.mem_singleton.2 rfl))
    · exact Or.inr (hmk _ e1 _ hx)
  · rw [at_write h] at hx
    split at hx
    · rename_i e
      left
      have : x = destOf p := by rw [destOf_plain hp hk]; exact e
      simp [mayWrite, this, destOf]
    · exact Or.inr (hmk _ e1 _ hx)
  · have hd2 : d2.at x = some (.file k n) → x ∈ mayWrite p c ∨ d.at x = some (.file k n) := by
      intro hx
      rw [at_write e2] at hx
      split at hx
      · rename_i e; exact Or.inl (by simp [mayWrite, e, destOf])
      · exact Or.inr (hmk _ e1 _ hx)
    rcases h with ⟨he, r, hr, h⟩ | ⟨-, rfl⟩
    · rw [at_write h] at hx
      split at hx
      · rename_i e
        have hm : bs "<!--MAKE_RESTRICT-->" <:+: c := by
          unfold makeRestrict at hr
          split at hr
          · cases hr
          · rename_i ht
            have ht : hasText markPage c = true := by simpa using ht
            exact (hasText_infix _ _).1 ht
        left
        unfold mayWrite
        dsimp only
        rw [if_pos (c := ends (p.getLastD []) ".html" = true ∧ _) ⟨he, hm⟩, e]
        exact List.mem_cons_of_mem _ (List.mem_append_left _ (List.mem_singleton.2 rfl))
      · exact hd2 hx
    · exact hd2 hx

theorem restrict_differs {p : FsPath} (h : ends (p.getLastD []) ".html" = true) :
    restrictedPlace p.dropLast (p.getLastD []) ≠ destOf p := by
  have hs := (ends_iff _ (bs "html") ".html" (by decide) (by decide) (by decide)).2 h
  have hk : kindOf (p.getLastD []) ≠ .plain := by
    unfold kindOf; rw [if_pos (Or.inr h)]; decide
  rw [destOf_other hk]
  unfold restrictedPlace
  intro e
  have e := List.append_cancel_left e
  have e : restrictName (p.getLastD []) = p.getLastD [] ++ bs ".gz" := by simpa using e
  have hl := congrArg List.length e
  simp only [restrictName, pyStem, hs, List.length_append, List.length_take] at hl
  have h1 : (bs ".html").length = 5 := by decide
  have h2 : (bs ".restrict").length = 9 := by decide
  have h3 : (bs ".gz").length = 3 := by decide
  omega

/-- What is at the destination of the file itself. -/
theorem prepOne_self {w : Tools} {now p c m} {d d' : Tree} (hp : p ≠ []) (h : prepOne w now p c m d = some d')
    (hd : d.at (destOf p) ≠ some .dir)
    (hc : ∀ k n, d.at (destOf p) = some (.file k n) → m ≤ n → k = made w (kindOf (p.getLastD [])) c) :
    ∃ n, d'.at (destOf p) = some (.file (made w (kindOf (p.getLastD [])) c) n) := by
  rcases prepOne_cases hp h with ⟨hu, rfl⟩ | ⟨-, d1, e1, h⟩
  · unfold upToDate at hu
    split at hu
    · rename_i k n hk
      rw [hk, hc k n hk (by simpa using hu)]
      exact ⟨n, rfl⟩
    · cases hu
  rcases h with ⟨hk, ⟨hdir, h⟩ | ⟨-, h⟩⟩ | ⟨hk, d2, e2, h⟩
  · exfalso
    rcases at_mkdirs _ e1 p with g | ⟨-, -, g⟩
    · rw [destOf_plain hp hk] at hd
      exact hd (g ▸ hdir)
    · have := List.IsPrefix.length_le g
      have := List.length_pos_iff.2 hp
      simp at *
      omega
  · refine ⟨m, ?_⟩
    rw [destOf_plain hp hk, at_write h, if_pos rfl, hk]; rfl
  · refine ⟨now (destOf p), ?_⟩
    rcases h with ⟨he, r, -, h⟩ | ⟨-, rfl⟩
    · rw [at_write h, if_neg (restrict_differs he).symm, at_write e2, if_pos rfl]
    · rw [at_write e2, if_pos rfl]

/-- What is at the place of the restricted page: what was there if nothing was done. -/
theorem prepOne_restricted {w : Tools} {now p c m} {d d' : Tree} (hp : p ≠ []) (h : prepOne w now p c m d = some d')
    (he : ends (p.getLastD []) ".html" = true) {r : Str} (hr : makeRestrict c = some r)
    (hc : ∀ k n, d.at (destOf p) = some (.file k n) → m ≤ n →
      ∃ n, d.at (restrictedPlace p.dropLast (p.getLastD [])) = some (.file (w.html r) n)) :
    ∃ n, d'.at (restrictedPlace p.dropLast (p.getLastD [])) = some (.file (w.html r) n) := by
  have hk : kindOf (p.getLastD []) ≠ .plain := by
    unfold kindOf; rw [if_pos (Or.inr he)]; decide
  rcases prepOne_cases hp h with ⟨hu, rfl⟩ | ⟨-, d1, e1, h⟩
  · unfold upToDate at hu
    split at hu
    · rename_i k n hx
      exact hc k n hx (by simpa using hu)
    · cases hu
  rcases h with ⟨hk', -⟩ | ⟨hk, d2, e2, h⟩
  · exact absurd hk' hk
  · rcases h with ⟨-, r', hr', h⟩ | ⟨hn, -⟩
    · rw [hr] at hr'
      cases hr'
      exact ⟨_, by rw [at_write h, if_pos rfl]⟩
    · rcases hn with hn | hn
      · rw [hn] at he; cases he
      · rw [hn] at hr; cases hr

/-! ## All the files -/

theorem prepAll_append {w : Tools} {now} : ∀ (l1 l2 : Tree) (d : Tree),
    prepAll w now (l1 ++ l2) d = (prepAll w now l1 d).bind (prepAll w now l2) := by
  intro l1
  induction l1 with
  | nil => intro l2 d; rfl
  | cons x l1 ih =>
    intro l2 d
    obtain ⟨p, n⟩ := x
    cases n with
    | dir => exact ih l2 d
    | file c m =>
      show (prepOne w now p c m d).bind _ = ((prepOne w now p c m d).bind _).bind _
      cases prepOne w now p c m d with
      | none => rfl
      | some d => exact ih l2 d

theorem prepAll_away {w : Tools} {now} {x : FsPath} : ∀ (l : Tree) {d d' : Tree}, prepAll w now l d = some d' →
    (∀ q c m, (q, Node.file c m) ∈ l → q ≠ [] ∧ ∀ t ∈ targets q, ¬ x <+: t) → d'.at x = d.at x := by
  intro l
  induction l with
  | nil => intro d d' h _; rw [← Option.some.inj h]
  | cons y l ih =>
    intro d d' h hx
    obtain ⟨p, n⟩ := y
    cases n with
    | dir => exact ih h (fun q c m hq => hx q c m (List.mem_cons_of_mem _ hq))
    | file c m =>
      obtain ⟨d1, h1, h2⟩ := Option.bind_eq_some_iff.1 h
      have hp := hx p c m (List.mem_cons_self ..)
      rw [ih h2 (fun q c m hq => hx q c m (List.mem_cons_of_mem _ hq)), prepOne_away hp.1 h1 hp.2]

theorem prepAll_only {w : Tools} {now} {x : FsPath} {k n} : ∀ (l : Tree) {d d' : Tree},
    prepAll w now l d = some d' → (∀ q c m, (q, Node.file c m) ∈ l → q ≠ []) → d'.at x = some (.file k n) →
    (∃ q c m, (q, Node.file c m) ∈ l ∧ x ∈ mayWrite q c) ∨ d.at x = some (.file k n) := by
  intro l
  induction l with
  | nil => intro d d' h _ hx; rw [Option.some.inj h]; exact Or.inr hx
  | cons y l ih =>
    intro d d' h hq hx
    obtain ⟨p, nd⟩ := y
    cases nd with
    | dir =>
      rcases ih h (fun q c m h => hq q c m (List.mem_cons_of_mem _ h)) hx with ⟨q, c, m, h1, h2⟩ | h1
      · exact Or.inl ⟨q, c, m, List.mem_cons_of_mem _ h1, h2⟩
      · exact Or.inr h1
    | file c m =>
      obtain ⟨d1, h1, h2⟩ := Option.bind_eq_some_iff.1 h
      rcases ih h2 (fun q c m h => hq q c m (List.mem_cons_of_mem _ h)) hx with ⟨q, c', m', h3, h4⟩ | h3
      · exact Or.inl ⟨q, c', m', List.mem_cons_of_mem _ h3, h4⟩
      · rcases prepOne_only (hq p c m (List.mem_cons_self ..)) h1 h3 with h4 | h4
        · exact Or.inl ⟨p, c, m, List.mem_cons_self .., h4⟩
        · exact Or.inr h4

/-! ## Cleaning -/

theorem foldl_remove : ∀ (l : List FsPath) (t : Tree) (x : FsPath),
    (l.foldl Tree.remove t).at x = if ∃ r ∈ l, r <+: x then none else t.at x := by
  intro l
  induction l with
  | nil => intro t x; simp
  | cons y l ih =>
    intro t x
    rw [List.foldl_cons, ih, at_remove]
    by_cases h1 : ∃ r ∈ l, r <+: x
    · obtain ⟨r, h, h2⟩ := h1
      rw [if_pos ⟨r, h, h2⟩, if_pos ⟨r, List.mem_cons_of_mem _ h, h2⟩]
    · rw [if_neg h1]
      by_cases h2 : y <+: x
      · rw [if_pos h2, if_pos ⟨y, List.mem_cons_self .., h2⟩]
      · rw [if_neg h2, if_neg]
        rintro ⟨r, h3, h4⟩
        rcases List.mem_cons.1 h3 with rfl | h3
        · exact h2 h4
        · exact h1 ⟨r, h3, h4⟩

theorem clean_at (src data : Tree) (x : FsPath) : (clean src data).at x = none ∨
    ((clean src data).at x = data.at x ∧ ∀ r, data.has r = true → r <+: x → stale src r = false) := by
  unfold clean
  rw [foldl_remove]
  split
  · exact Or.inl rfl
  · rename_i h
    refine Or.inr ⟨rfl, ?_⟩
    intro r hr hx
    cases hs : stale src r with
    | false => rfl
    | true =>
      exfalso
      refine h ⟨r, List.mem_filter.2 ⟨?_, hs⟩, hx⟩
      unfold Tree.has Tree.at at hr
      rw [Option.isSome_map] at hr
      obtain ⟨y, hy⟩ := Option.isSome_iff_exists.1 hr
      have h1 := List.mem_of_find?_eq_some hy
      have h2 := List.find?_some hy
      have h2 : y.1 = r := by simpa using h2
      exact List.mem_map.2 ⟨y, h1, h2⟩

theorem clean_keeps (src data : Tree) (x : FsPath) (h : ∀ r, data.has r = true → r <+: x → stale src r = false) :
    (clean src data).at x = data.at x := by
  unfold clean
  rw [foldl_remove, if_neg]
  rintro ⟨r, h1, h2⟩
  obtain ⟨h1, h3⟩ := List.mem_filter.1 h1
  rw [h r ?_ h2] at h3
  · cases h3
  · obtain ⟨y, hy, rfl⟩ := List.mem_map.1 h1
    unfold Tree.has Tree.at
    rw [Option.isSome_map, List.find?_isSome]
    exact ⟨y, hy, by simp⟩

/-! ## The preparation -/

namespace Spec

/-- Is it a file ? -/
def isFile : Node → Bool
  | .dir => false
  | .file _ _ => true

/-- The place of the restricted version of a source file. -/
def restrictedOf (p : FsPath) : FsPath := restrictedPlace p.dropLast (p.getLastD [])

/-- A name of a file or of a folder: not empty, without `/` and without NUL. -/
def GoodName (n : Str) : Prop := n ≠ [] ∧ (0 : Byte) ∉ n ∧ (47 : Byte) ∉ n

/-- An ordinary folder of sources: each path once, the folders of a path are there, and no file is prepared at a
place, or below a place, that another one or the version takes. -/
structure Tidy (src : Tree) : Prop where
  nodup : (src.map Prod.fst).Nodup
  named : ∀ x ∈ src, x.1 ≠ []
  names : ∀ x ∈ src, ∀ n ∈ x.1, GoodName n
  parents : ∀ x ∈ src, ∀ i < x.1.length, 0 < i → src.has (x.1.take i) = true
  alone : ∀ x ∈ src, isFile x.2 = true → destOf x.1 ≠ [bs "version"] ∧ restrictedOf x.1 ≠ [bs "version"] ∧
    ∀ y ∈ src, isFile y.2 = true → y.1 ≠ x.1 → ∀ t ∈ targets y.1, ¬ destOf x.1 <+: t ∧ ¬ restrictedOf x.1 <+: t

end Spec

theorem split_at {src : Tree} {x : FsPath × Node} (hx : x ∈ src) (hn : (src.map Prod.fst).Nodup) :
    ∃ l1 l2, src = l1 ++ x :: l2 ∧ ∀ y ∈ l1 ++ l2, y ∈ src ∧ y.1 ≠ x.1 := by
  obtain ⟨l1, l2, rfl⟩ := List.append_of_mem hx
  refine ⟨l1, l2, rfl, ?_⟩
  intro y hy
  rw [List.map_append, List.map_cons, List.nodup_append, List.nodup_cons] at hn
  obtain ⟨-, ⟨h2, -⟩, h3⟩ := hn
  rcases List.mem_append.1 hy with h | h
  · exact ⟨List.mem_append_left _ h, h3 y.1 (List.mem_map.2 ⟨y, h, rfl⟩) x.1 (List.mem_cons_self ..)⟩
  · exact ⟨List.mem_append_right _ (List.mem_cons_of_mem _ h),
      fun e => h2 (e ▸ List.mem_map.2 ⟨y, h, rfl⟩)⟩

/-- The steps that concern one file: the rest leaves its two places alone. -/
theorem prepare_one {w : Tools} {now v} {src data data' : Tree} (ht : Tidy src)
    (h : prepare w now v src data = some data') {p c m} (hp : (p, Node.file c m) ∈ src) :
    ∃ d d', prepOne w now p c m d = some d' ∧
      (d.at (destOf p) = (clean src data).at (destOf p) ∧ d.at (restrictedOf p) = (clean src data).at (restrictedOf p)) ∧
      (data'.at (destOf p) = d'.at (destOf p) ∧ data'.at (restrictedOf p) = d'.at (restrictedOf p)) := by
  obtain ⟨e, h1, h2⟩ := Option.bind_eq_some_iff.1 h
  obtain ⟨l1, l2, hs, hl⟩ := split_at hp ht.nodup
  obtain ⟨v1, v2, ha⟩ := ht.alone _ hp rfl
  have key : ∀ l : Tree, (∀ y ∈ l, y ∈ l1 ++ l2) → ∀ q c' m', (q, Node.file c' m') ∈ l → q ≠ [] ∧
      ∀ t ∈ targets q, ¬ destOf p <+: t ∧ ¬ restrictedOf p <+: t := by
    intro l hsub q c' m' hq
    obtain ⟨g1, g2⟩ := hl _ (hsub _ hq)
    exact ⟨ht.named _ g1, ha _ g1 rfl g2⟩
  rw [hs, ← hs, hs, prepAll_append] at h1
  obtain ⟨d, g1, g2⟩ := Option.bind_eq_some_iff.1 h1
  obtain ⟨d', g3, g4⟩ := Option.bind_eq_some_iff.1 g2
  have k1 := key l1 (fun y hy => List.mem_append_left _ hy)
  have k2 := key l2 (fun y hy => List.mem_append_right _ hy)
  refine ⟨d, d', g3, ⟨?_, ?_⟩, ?_, ?_⟩
  · rw [hs]
    exact prepAll_away l1 g1 fun q c m hq => ⟨(k1 q c m hq).1, fun t ht => ((k1 q c m hq).2 t ht).1⟩
  · rw [hs]
    exact prepAll_away l1 g1 fun q c m hq => ⟨(k1 q c m hq).1, fun t ht => ((k1 q c m hq).2 t ht).2⟩
  · rw [at_write h2, if_neg v1]
    exact prepAll_away l2 g4 fun q c m hq => ⟨(k2 q c m hq).1, fun t ht => ((k2 q c m hq).2 t ht).1⟩
  · rw [at_write h2, if_neg v2]
    exact prepAll_away l2 g4 fun q c m hq => ⟨(k2 q c m hq).1, fun t ht => ((k2 q c m hq).2 t ht).2⟩

/-- **C86 (partial), one preparation.** Every source file is prepared from its present content, whatever was in the
data folder, unless what is in its place is as recent as the source and is something else, or is a folder.
Missing with respect to the property as stated: these cases, for which it is false (`c86_refuted_date`,
`c86_refuted_folder`). -/
theorem c86_current_partial {w : Tools} {now v} {src data data' : Tree} (ht : Tidy src)
    (h : prepare w now v src data = some data') {p c m} (hp : (p, Node.file c m) ∈ src)
    (hd : data.at (destOf p) ≠ some .dir)
    (hc : ∀ k n, data.at (destOf p) = some (.file k n) → m ≤ n → k = made w (kindOf (p.getLastD [])) c) :
    ∃ n, data'.at (destOf p) = some (.file (made w (kindOf (p.getLastD [])) c) n) := by
  obtain ⟨d, d', h1, ⟨h2, -⟩, h3, -⟩ := prepare_one ht h hp
  rw [h3]
  rcases clean_at src data (destOf p) with h4 | ⟨h4, -⟩
  · refine prepOne_self (ht.named _ hp) h1 ?_ ?_
    · rw [h2, h4]; simp
    · intro k n hk; rw [h2, h4] at hk; cases hk
  · refine prepOne_self (ht.named _ hp) h1 ?_ ?_
    · rw [h2, h4]; exact hd
    · intro k n hk; rw [h2, h4] at hk; exact hc k n hk

/-- **C86, nothing else.** A file that is in the data folder after a preparation is the version, or one of the
places of a source file, or was there with the same content, and then there is something at its path in the
sources, or it has `.gz` after a path of the sources, or `.restrict` is one of its suffixes. -/
theorem c86_nothing_else {w : Tools} {now v} {src data data' : Tree} (ht : Tidy src)
    (h : prepare w now v src data = some data') {x : FsPath} {k n} (hx : data'.at x = some (.file k n)) :
    x = [bs "version"] ∨ (∃ q c m, (q, Node.file c m) ∈ src ∧ x ∈ mayWrite q c) ∨
    (data.at x = some (.file k n) ∧
      (src.has x = true ∨ (∃ a r, x.getLastD [] = a ++ bs ".gz" ∧ r = x.dropLast ++ [a] ∧ src.has r = true) ∨
        bs ".restrict" ∈ pySuffixes (x.getLastD []))) := by
  obtain ⟨e, h1, h2⟩ := Option.bind_eq_some_iff.1 h
  rw [at_write h2] at hx
  split at hx
  · rename_i hv; exact Or.inl hv
  refine Or.inr ?_
  rcases prepAll_only src h1 (fun q c m hq => ht.named _ hq) hx with h3 | h3
  · exact Or.inl h3
  refine Or.inr ?_
  rcases clean_at src data x with h4 | ⟨h4, h5⟩
  · rw [h4] at h3; cases h3
  rw [h4] at h3
  refine ⟨h3, ?_⟩
  have := h5 x (by unfold Tree.has; rw [h3]; rfl) (List.prefix_refl _)
  unfold stale at this
  simp only [Bool.and_eq_false_iff, Bool.not_eq_false', Bool.and_eq_true, decide_eq_true_eq] at this
  rcases this with (h | ⟨h, h'⟩) | h
  · exact Or.inl h
  · refine Or.inr (Or.inl ⟨pyStem (x.getLastD []), _, ?_, rfl, h'⟩)
    rcases suffix_cases (x.getLastD []) with h0 | ⟨a, r, e1, -, -, -, e2⟩
    · rw [h0] at h; exact absurd h (by decide)
    · unfold pyStem
      rw [← h, e2]
      generalize x.getLastD [] = y at e1
      rw [e1]
      simp
  · exact Or.inr (Or.inr (by simpa using h))

/-! ## A history of preparations -/

namespace Spec

/-- The sources have changed from `src` to `src'` since the data folder was prepared: a file that is not as it was
is newer than what is in its place, which is not a folder. -/
def Dated (src src' data : Tree) : Prop := ∀ p c m, (p, Node.file c m) ∈ src' →
  data.at (destOf p) ≠ some .dir ∧
  ((p, Node.file c m) ∈ src ∨ ∀ k n, data.at (destOf p) = some (.file k n) → n < m)

/-- The data folders that come from preparations, one after the other, and the last state of the sources. -/
inductive Prepared (w : Tools) : Tree → Tree → Prop
  | first {src data now v} : Tidy src → prepare w now v src [] = some data → Prepared w src data
  | next {src src' data data' now v} : Prepared w src data → Tidy src' → Dated src src' data →
      prepare w now v src' data = some data' → Prepared w src' data'

end Spec

/-- **C86 (partial), every preparation.** When every change of a source file makes it newer than what was prepared
before, the data folder has each file as made from its present content, after any number of preparations.
Missing with respect to the property as stated: other dates, for which it is false (`c86_refuted_date`). -/
theorem c86_follows_partial {w : Tools} {src data : Tree} (h : Prepared w src data) {p c m}
    (hp : (p, Node.file c m) ∈ src) :
    ∃ n, data.at (destOf p) = some (.file (made w (kindOf (p.getLastD [])) c) n) := by
  induction h generalizing p c m with
  | first ht h => exact c86_current_partial ht h hp (by simp [Tree.at]) (by simp [Tree.at])
  | next hpre ht hd h ih =>
    obtain ⟨h1, h2⟩ := hd p c m hp
    refine c86_current_partial ht h hp h1 ?_
    intro k n hk hm
    rcases h2 with h2 | h2
    · obtain ⟨n', h3⟩ := ih h2
      rw [hk] at h3
      exact (Node.file.inj (Option.some.inj h3)).1
    · have := h2 k n hk; omega

theorem splitDots_ne (s : Str) : splitDots s ≠ [] := by
  cases s with
  | nil => simp [splitDots]
  | cons b r =>
    unfold splitDots
    split
    · simp
    · split <;> simp

theorem splitDots_append (a b : Str) : splitDots (a ++ 46 :: b) = splitDots a ++ splitDots b := by
  induction a with
  | nil => simp [splitDots]
  | cons x a ih =>
    by_cases hx : x = 46
    · subst hx
      simp only [List.cons_append, splitDots, if_true, ih]
    · simp only [List.cons_append, splitDots, if_neg hx, ih]
      cases h : splitDots a with
      | nil => exact absurd h (splitDots_ne a)
      | cons y l => rfl

theorem splitDots_plain {a : Str} (h : (46 : Byte) ∉ a) : splitDots a = [a] := by
  induction a with
  | nil => rfl
  | cons x a ih =>
    simp only [List.mem_cons, not_or] at h
    simp only [splitDots, if_neg (fun e => h.1 (Eq.symm e)), ih h.2]

/-- The name of the restricted version of `name.html`. -/
theorem c86_restricted_name {a : Str} (h1 : a ≠ []) (h2 : (46 : Byte) ∉ a) :
    restrictName (a ++ bs ".html") = a ++ bs ".restrict.html.gz" := by
  have hs : pySuffix (a ++ bs ".html") = bs ".html" := pySuffix_app h1 (r := bs "html") (by decide) (by decide)
  have hd : (a ++ bs ".html").dropWhile (· = 46) = a ++ bs ".html" := by
    cases a with
    | nil => exact absurd rfl h1
    | cons x a =>
      rw [List.cons_append, List.dropWhile_cons_of_neg]
      have : x ≠ 46 := fun e => h2 (by simp [e])
      simpa using this
  have hx : pySuffixes (a ++ bs ".html") = [bs ".html"] := by
    unfold pySuffixes
    rw [if_neg, hd, show bs ".html" = 46 :: bs "html" from rfl, splitDots_append, splitDots_plain h2]
    · rfl
    · rw [List.getLast?_append, show (bs ".html").getLast? = some 108 from by decide]; simp
  unfold restrictName pyStem
  rw [hs, hx]
  simp [show (bs ".html").length = 5 from by decide]
  decide

theorem restrict_suffix {n : Str} (h : n.head? ≠ some 46) (he : ends n ".html" = true) :
    bs ".restrict" ∈ pySuffixes (restrictName n) := by
  have hs := (ends_iff n (bs "html") ".html" (by decide) (by decide) (by decide)).2 he
  rcases suffix_cases n with h0 | ⟨a, r, h1, h2, h3, h4, h5⟩
  · rw [h0] at hs; exact absurd hs (by decide)
  have hstem : pyStem n = a := by
    unfold pyStem
    rw [h5, h1]
    simp
  obtain ⟨z, hz⟩ : ∃ z, (pySuffixes n).flatten ++ bs ".gz" = 46 :: z := by
    cases hx : pySuffixes n with
    | nil => exact ⟨bs "gz", rfl⟩
    | cons y l =>
      unfold pySuffixes at hx
      split at hx
      · cases hx
      · have : y ∈ ((splitDots (n.dropWhile (· = 46))).drop 1).map (46 :: ·) := by rw [hx]; simp
        obtain ⟨y', -, rfl⟩ := List.mem_map.1 this
        exact ⟨_, rfl⟩
  have hz0 : z ≠ [] ∧ z.getLast? = some 122 := by
    have hl := congrArg List.getLast? hz
    rw [List.getLast?_append, show (bs ".gz").getLast? = some 122 from by decide, Option.some_or] at hl
    cases z with
    | nil => exact absurd hl (by decide)
    | cons u z =>
      refine ⟨by simp, ?_⟩
      rw [List.getLast?_cons_cons] at hl
      exact hl.symm
  have hname : restrictName n = a ++ 46 :: (bs "restrict" ++ 46 :: z) := by
    unfold restrictName
    rw [hstem, List.append_assoc (bs ".restrict"), hz]; rfl
  rw [hname]
  have hd : (a ++ 46 :: (bs "restrict" ++ 46 :: z)).dropWhile (· = 46) = a ++ 46 :: (bs "restrict" ++ 46 :: z) := by
    cases a with
    | nil => exact absurd rfl h2
    | cons x a =>
      rw [List.cons_append, List.dropWhile_cons_of_neg]
      have : x ≠ 46 := fun e => h (by rw [h1, e]; rfl)
      simpa using this
  unfold pySuffixes
  rw [if_neg, hd, splitDots_append, splitDots_append, splitDots_plain (a := bs "restrict") (by decide)]
  · refine List.mem_map.2 ⟨bs "restrict", ?_, rfl⟩
    cases hx : splitDots a with
    | nil => exact absurd hx (splitDots_ne a)
    | cons y l => simp
  · rw [List.getLast?_append, List.getLast?_cons, List.getLast?_append, List.getLast?_cons, hz0.2]
    simp

theorem mkdirs_root : ∀ (p : FsPath) {t t' : Tree} {done : FsPath}, t.mkdirs done p = some t' →
    t'.at [] = t.at [] := by
  intro p
  induction p with
  | nil => intro t t' done h; rw [Option.some.inj h]
  | cons n r ih =>
    intro t t' done h
    unfold Tree.mkdirs at h
    split at h
    · exact ih h
    · cases h
    · rw [ih h, at_put, if_neg (by simp)]

theorem prepOne_root {w : Tools} {now p c m} {d d' : Tree} (hp : p ≠ []) (h : prepOne w now p c m d = some d') :
    d'.at [] = d.at [] := by
  have hdest : ([] : FsPath) ≠ destOf p := by unfold destOf place; split <;> simp
  rcases prepOne_cases hp h with ⟨-, rfl⟩ | ⟨-, d1, e1, h⟩
  · rfl
  rw [← mkdirs_root _ e1]
  rcases h with ⟨-, ⟨-, h⟩ | ⟨-, h⟩⟩ | ⟨-, d2, e2, h⟩
  · rw [at_write h, if_neg (by simp)]
  · rw [at_write h, if_neg hp.symm]
  · have g : d2.at [] = d1.at [] := by rw [at_write e2, if_neg hdest]
    rw [← g]
    rcases h with ⟨-, r, -, h⟩ | ⟨-, rfl⟩
    · rw [at_write h, if_neg (by simp [restrictedPlace])]
    · rfl

theorem prepAll_root {w : Tools} {now} : ∀ (l : Tree) {d d' : Tree}, prepAll w now l d = some d' →
    (∀ x ∈ l, x.1 ≠ []) → d'.at [] = d.at [] := by
  intro l
  induction l with
  | nil => intro d d' h _; rw [← Option.some.inj h]
  | cons y l ih =>
    intro d d' h hx
    obtain ⟨p, n⟩ := y
    have hl : ∀ x ∈ l, x.1 ≠ [] := fun x h => hx x (List.mem_cons_of_mem _ h)
    cases n with
    | dir => exact ih h hl
    | file c m =>
      obtain ⟨d1, h1, h2⟩ := Option.bind_eq_some_iff.1 h
      rw [ih h2 hl, prepOne_root (hx _ (List.mem_cons_self ..)) h1]

theorem prepare_root {w : Tools} {now v} {src data data' : Tree} (ht : Tidy src)
    (h : prepare w now v src data = some data') (hd : data.at [] = none) : data'.at [] = none := by
  obtain ⟨e, h1, h2⟩ := Option.bind_eq_some_iff.1 h
  rw [at_write h2, if_neg (by simp), prepAll_root src h1 ht.named]
  rcases clean_at src data [] with h | ⟨h, -⟩
  · exact h
  · rw [h, hd]

theorem prepared_root {w : Tools} {src data : Tree} (h : Prepared w src data) : data.at [] = none := by
  induction h with
  | first ht h => exact prepare_root ht h rfl
  | next _ ht _ h ih => exact prepare_root ht h ih

/-- **C86, restricted pages (partial).** Under the same conditions, the restricted version of each page that has
the mark is there and comes from its present content.  Missing with respect to the property as stated: pages that
have lost the mark or are not there any more, whose restricted version stays (`c86_refuted_restricted`), and names
that begin with a dot. -/
theorem c86_restricted_partial {w : Tools} {src data : Tree} (h : Prepared w src data) {p c m r}
    (hp : (p, Node.file c m) ∈ src) (he : ends (p.getLastD []) ".html" = true)
    (hn : (p.getLastD []).head? ≠ some 46) (hr : makeRestrict c = some r) :
    ∃ n, data.at (restrictedOf p) = some (.file (w.html r) n) := by
  induction h generalizing p c m r with
  | first ht h =>
    obtain ⟨d, d', h1, ⟨h2, -⟩, -, h3⟩ := prepare_one ht h hp
    rw [h3]
    refine prepOne_restricted (ht.named _ hp) h1 he hr ?_
    intro k n hk
    rw [h2] at hk; cases hk
  | @next src src' data data' now v hpre ht hd h ih =>
    obtain ⟨h1, h2⟩ := hd p c m hp
    obtain ⟨d, d', g1, ⟨g2, g3⟩, -, g4⟩ := prepare_one ht h hp
    rw [g4]
    refine prepOne_restricted (ht.named _ hp) g1 he hr ?_
    intro k n hk hm
    have hdat : data.at (destOf p) = some (.file k n) := by
      rcases clean_at src' data (destOf p) with h4 | ⟨h4, -⟩
      · rw [g2, h4] at hk; cases hk
      · rw [← h4, ← g2]; exact hk
    rcases h2 with h2 | h2
    · obtain ⟨n', h3⟩ := ih h2 he hn hr
      refine ⟨n', ?_⟩
      rw [show restrictedPlace p.dropLast (p.getLastD []) = restrictedOf p from rfl, g3, clean_keeps, h3]
      intro q hq hx
      by_cases hqr : q = restrictedOf p
      · subst hqr
        unfold stale
        have : (restrictedOf p).getLastD [] = restrictName (p.getLastD []) := by
          simp [restrictedOf, restrictedPlace, List.getLastD_eq_getLast?]
        have hm := List.contains_iff_mem.2 (restrict_suffix hn he)
        simp only [this, hm, Bool.not_true, Bool.and_false]
      · -- a folder of `p`
        have hpl : q <+: p.dropLast := by
          unfold restrictedOf restrictedPlace at hx hqr
          rcases List.prefix_concat_iff.1 hx with hx | hx
          · exact absurd hx hqr
          · exact hx
        have hlen := hpl.length_le
        have hpos := List.length_pos_iff.2 (ht.named _ hp)
        simp only [List.length_dropLast] at hlen
        have hsrc : src'.has q = true := by
          by_cases hq0 : q = []
          · subst hq0
            unfold Tree.has at hq
            rw [prepared_root hpre] at hq
            cases hq
          · have := ht.parents _ hp q.length (by simp only; simp only at hpos; omega) (List.length_pos_iff.2 hq0)
            rw [← List.prefix_iff_eq_take.1 (hpl.trans (List.dropLast_prefix p))] at this
            exact this
        unfold stale
        simp [hsrc]
    · have := h2 k n hdat; omega

/-! ## Cases -/

/-- The names of `data_src`, with short contents: the first page has the mark and a private part. -/
def sampleSrc : Tree :=
  [([bs "favicon.ico"], .file (bs "icon") 5),
   ([bs "index.html"], .file (bs "<!--MAKE_RESTRICT-->a<!--RESTRICT_ON-->secret<!--RESTRICT_OFF-->b") 5),
   ([bs "fonts"], .dir),
   ([bs "fonts", bs "digital-7.ttf"], .file (bs "font") 4), ([bs "fonts", bs "glyphicons.woff"], .file (bs "f1") 4),
   ([bs "fonts", bs "d-7.monoitalic.ttf"], .file (bs "f2") 4), ([bs "fonts", bs "glyphicons.woff2"], .file (bs "f3") 4),
   ([bs "css"], .dir), ([bs "css", bs "wifinfo.css"], .file (bs "style") 3),
   ([bs "js"], .dir), ([bs "js", bs "wifinfo.js"], .file (bs "code") 6),
   ([bs "js", bs "gauge.min.js"], .file (bs "gauge") 2)]

/-- The page has lost its mark, at a later date. -/
def sampleSrc2 : Tree := ([bs "index.html"], .file (bs "new") 20) :: sampleSrc.filter fun x => x.1 ≠ [bs "index.html"]

/-- The page of before is put back with its date. -/
def sampleSrc3 : Tree := ([bs "index.html"], .file (bs "old") 1) :: sampleSrc.filter fun x => x.1 ≠ [bs "index.html"]

/-- Tools that leave a trace. -/
def sampleTools : Tools := { minify := fun s => some (bs "m" ++ s), gzip := fun s => bs "z" ++ s }

/-- `Tidy`, computed. -/
def tidyCheck (src : Tree) : Bool :=
  decide (src.map Prod.fst).Nodup && src.all (fun x => x.1 ≠ []) &&
  src.all (fun x => x.1.all fun n => n ≠ [] && n.all (fun b => b ≠ 0 && b ≠ 47)) &&
  src.all (fun x => (List.range x.1.length).all fun i => i = 0 || src.has (x.1.take i)) &&
  src.all fun x => !isFile x.2 || (destOf x.1 ≠ [bs "version"] && restrictedOf x.1 ≠ [bs "version"] &&
    src.all fun y => !isFile y.2 || y.1 = x.1 || (targets y.1).all fun t =>
      !(destOf x.1).isPrefixOf t && !(restrictedOf x.1).isPrefixOf t)

theorem tidy_of {src : Tree} (h : tidyCheck src = true) : Tidy src := by
  unfold tidyCheck at h
  simp only [Bool.and_eq_true] at h
  obtain ⟨⟨⟨⟨h1, h2⟩, h5⟩, h3⟩, h4⟩ := h
  refine ⟨by simpa using h1, ?_, ?_, ?_, ?_⟩
  · intro x hx
    simpa using List.all_eq_true.1 h2 x hx
  · intro x hx n hn
    have := List.all_eq_true.1 (List.all_eq_true.1 h5 x hx) n hn
    rw [Bool.and_eq_true, decide_eq_true_eq, List.all_eq_true] at this
    exact ⟨this.1, fun h0 => by simpa using this.2 0 h0, fun h0 => by simpa using this.2 47 h0⟩
  · intro x hx i hi h0
    have := List.all_eq_true.1 (List.all_eq_true.1 h3 x hx) i (List.mem_range.2 hi)
    simp only [Bool.or_eq_true, decide_eq_true_eq] at this
    rcases this with h | h
    · omega
    · exact h
  · intro x hx hf
    have := List.all_eq_true.1 h4 x hx
    simp only [hf, Bool.not_true, Bool.false_or, Bool.and_eq_true, decide_eq_true_eq] at this
    refine ⟨this.1.1, this.1.2, ?_⟩
    intro y hy hfy hne t ht
    have := List.all_eq_true.1 this.2 y hy
    simp only [hfy, hne, Bool.not_true, decide_false, Bool.or_self, Bool.false_or] at this
    have := List.all_eq_true.1 this t ht
    rw [Bool.and_eq_true] at this
    constructor
    · intro hp; rw [List.isPrefixOf_iff_prefix.2 hp] at this; exact absurd this.1 (by simp)
    · intro hp; rw [List.isPrefixOf_iff_prefix.2 hp] at this; exact absurd this.2 (by simp)

theorem sample_tidy : Tidy sampleSrc ∧ Tidy sampleSrc2 ∧ Tidy sampleSrc3 :=
  ⟨tidy_of (by decide +kernel), tidy_of (by decide +kernel), tidy_of (by decide +kernel)⟩

/-- The data folder after a first preparation at the date 10. -/
def sampleData : Tree := (prepare sampleTools (fun _ => 10) (bs "1.0") sampleSrc []).getD []

theorem sample_prepared : Prepared sampleTools sampleSrc sampleData := by
  refine .first (now := fun _ => 10) (v := bs "1.0") sample_tidy.1 ?_
  unfold sampleData
  decide +kernel

-- The page, its restricted version and a plain file.
example : sampleData.at [bs "index.html.gz"] = some (.file (bs "zm<!--MAKE_RESTRICT-->a<!--RESTRICT_ON-->secret<!--RESTRICT_OFF-->b") 10) ∧
    sampleData.at [bs "index.restrict.html.gz"] = some (.file (bs "zm<!--MAKE_RESTRICT-->ab") 10) ∧
    sampleData.at [bs "favicon.ico"] = some (.file (bs "icon") 5) ∧
    sampleData.at [bs "js", bs "gauge.min.js.gz"] = some (.file (bs "zgauge") 10) := by
  decide +kernel

-- A second preparation, after a change of the page.
theorem sample_second : ∃ data, prepare sampleTools (fun _ => 30) (bs "1.1") sampleSrc2 sampleData = some data ∧
    Prepared sampleTools sampleSrc2 data := by
  have h : (prepare sampleTools (fun _ => 30) (bs "1.1") sampleSrc2 sampleData).isSome = true := by decide +kernel
  obtain ⟨data, hd⟩ := Option.isSome_iff_exists.1 h
  refine ⟨data, hd, .next sample_prepared sample_tidy.2.1 ?_ hd⟩
  have key : (sampleSrc2.all fun x => !isFile x.2 || decide (sampleData.at (destOf x.1) ≠ some .dir) &&
      (sampleSrc.contains x || match x.2, sampleData.at (destOf x.1) with
        | .file _ m, some (.file _ n) => decide (n < m)
        | _, _ => true)) = true := by decide +kernel
  intro p c m hp
  have := List.all_eq_true.1 key _ hp
  rw [show isFile (p, Node.file c m).2 = true from rfl, Bool.not_true, Bool.false_or, Bool.and_eq_true,
    Bool.or_eq_true, decide_eq_true_eq] at this
  refine ⟨this.1, ?_⟩
  rcases this.2 with h | h
  · exact Or.inl (List.contains_iff_mem.1 h)
  · refine Or.inr fun k n hk => ?_
    simp only [hk] at h
    simpa using h

/-- **C86** as stated is false: the restricted page of a page that has lost its mark is still there, with its old
content. -/
theorem c86_refuted_restricted : ∃ data, Prepared sampleTools sampleSrc2 data ∧
    (∀ c m, ([bs "index.html"], Node.file c m) ∈ sampleSrc2 → makeRestrict c = none) ∧
    data.at [bs "index.restrict.html.gz"] = some (.file (bs "zm<!--MAKE_RESTRICT-->ab") 10) := by
  obtain ⟨data, h1, h2⟩ := sample_second
  refine ⟨data, h2, ?_, ?_⟩
  · have : (sampleSrc2.all fun x => match x.2 with
        | .file c _ => decide (x.1 = [bs "index.html"] → makeRestrict c = none)
        | .dir => true) = true := by decide +kernel
    intro c m hm
    have := List.all_eq_true.1 this _ hm
    simpa using this
  · have : ((prepare sampleTools (fun _ => 30) (bs "1.1") sampleSrc2 sampleData).getD []).at
        [bs "index.restrict.html.gz"] = some (.file (bs "zm<!--MAKE_RESTRICT-->ab") 10) := by decide +kernel
    rw [h1] at this
    exact this

/-- **C86** as stated is false: a page put back with its date of before is not prepared. -/
theorem c86_refuted_date : ([bs "index.html"], Node.file (bs "old") 1) ∈ sampleSrc3 ∧ Tidy sampleSrc3 ∧
    ∃ data, prepare sampleTools (fun _ => 30) (bs "1.1") sampleSrc3 sampleData = some data ∧
      data.at [bs "index.html.gz"] = sampleData.at [bs "index.html.gz"] ∧
      ∀ n, data.at [bs "index.html.gz"] ≠ some (.file (made sampleTools .page (bs "old")) n) := by
  refine ⟨by decide +kernel, sample_tidy.2.2, ?_⟩
  have h : ((prepare sampleTools (fun _ => 30) (bs "1.1") sampleSrc3 sampleData).map fun d =>
      d.at [bs "index.html.gz"]) = some (sampleData.at [bs "index.html.gz"]) := by decide +kernel
  obtain ⟨data, h1, h2⟩ := Option.map_eq_some_iff.1 h
  refine ⟨data, h1, h2, ?_⟩
  intro n hn
  rw [h2] at hn
  have : (sampleData.at [bs "index.html.gz"]).map (fun x => match x with | .file k _ => k | .dir => []) ≠
    some (made sampleTools .page (bs "old")) := by decide +kernel
  rw [hn] at this
  exact this rfl

/-- **C86** as stated is false: when a folder has become a file, the file is copied into the folder. -/
theorem c86_refuted_folder : ∃ data, prepare sampleTools (fun _ => 30) [] [([bs "doc"], .file (bs "text") 20)]
    [([bs "doc"], .dir)] = some data ∧ data.at [bs "doc"] = some .dir ∧
    data.at [bs "doc", bs "doc"] = some (.file (bs "text") 20) := by
  exact ⟨[([bs "doc"], .dir), ([bs "doc", bs "doc"], .file (bs "text") 20), ([bs "version"], .file [] 30)],
    by decide +kernel, by decide +kernel, by decide +kernel⟩

/-- When `html-minifier` fails or is not there, the preparation goes on and every page is empty. -/
theorem c86_failed_minifier (gzip : Str → Str) {now v} {src data : Tree} (ht : Tidy src)
    (h : prepare ⟨fun _ => none, gzip⟩ now v src [] = some data) {p c m} (hp : (p, Node.file c m) ∈ src)
    (hk : kindOf (p.getLastD []) = .page) : ∃ n, data.at (destOf p) = some (.file (gzip []) n) := by
  have := c86_current_partial ht h hp (by simp [Tree.at]) (by simp [Tree.at])
  rw [hk] at this
  exact this

example : kindOf (bs "index.html") = .page ∧
    (prepare ⟨fun _ => none, fun s => bs "z" ++ s⟩ (fun _ => 1) [] sampleSrc []).isSome = true := by
  decide +kernel

end Wifinfo
