import Verif.Model.FsApi
import Verif.Props.Erfs
import Verif.Props.Template

/-!
# C122: to a program, the files of an image are a read-only folder
-/

namespace Wifinfo
open Spec

/-! ## Lists that correspond -/

/-- Same length, and the members at the same place are related. -/
def Both {α β : Type} (R : α → β → Prop) (a : List α) (b : List β) : Prop :=
  a.length = b.length ∧ ∀ (i : Nat) (x : α) (y : β), a[i]? = some x → b[i]? = some y → R x y

theorem both_nil {α β : Type} {R : α → β → Prop} : Both R [] [] := ⟨rfl, nofun⟩

theorem both_push {α β : Type} {R : α → β → Prop} {a : List α} {b : List β} (h : Both R a b) {x : α} {y : β} (hr : R x y) :
    Both R (a ++ [x]) (b ++ [y]) := by
  refine ⟨by simp [h.1], fun i u v hu hv => ?_⟩
  by_cases hi : i < a.length
  · rw [List.getElem?_append_left hi] at hu
    rw [List.getElem?_append_left (h.1 ▸ hi)] at hv
    exact h.2 i u v hu hv
  · rw [List.getElem?_append_right (by omega)] at hu
    rw [List.getElem?_append_right (by have := h.1; omega)] at hv
    rw [← h.1] at hv
    cases hk : i - a.length with
    | zero => rw [hk] at hu hv; cases hu; cases hv; exact hr
    | succ k => rw [hk] at hu; cases hu

theorem both_set {α β : Type} {R : α → β → Prop} {a : List α} {b : List β} (h : Both R a b) (i : Nat) {x : α} {y : β} (hr : R x y) :
    Both R (a.set i x) (b.set i y) := by
  refine ⟨by simp [h.1], fun j u v hu hv => ?_⟩
  rw [List.getElem?_set] at hu hv
  have := h.1
  by_cases hj : i = j
  · rw [if_pos hj] at hu hv
    split at hu
    · split at hv
      · cases hu; cases hv; exact hr
      · cases hv
    · cases hu
  · rw [if_neg hj] at hu hv
    exact h.2 j u v hu hv

theorem both_get {α β : Type} {R : α → β → Prop} {a : List α} {b : List β} (h : Both R a b) (i : Nat) :
    (a[i]? = none ∧ b[i]? = none) ∨ ∃ x y, a[i]? = some x ∧ b[i]? = some y ∧ R x y := by
  by_cases hi : i < a.length
  · have hb : i < b.length := h.1 ▸ hi
    exact .inr ⟨a[i], b[i], by simp [hi], by simp [hb], h.2 i _ _ (by simp [hi]) (by simp [hb])⟩
  · exact .inl ⟨by rw [List.getElem?_eq_none]; omega, by rw [List.getElem?_eq_none]; have := h.1; omega⟩

/-! ## The correspondence -/

variable {l : List Src} {size : Nat} {img : Str}

/-- An open file. -/
def FileRel (l : List Src) (img : Str) (f : File) (x : Src × Nat) : Prop :=
  (∃ a b, l = a ++ x.1 :: b ∧ f.fat = fatOf l a x.1) ∧ f.fs.img = img ∧ NameHas f.name x.1.name ∧ f.pos = x.2 ∧
    x.2 ≤ x.1.data.length

/-- A listing. -/
def DirRel (l : List Src) (d : Dir) (k : Nat) : Prop :=
  d.index = k ∧ k ≤ l.length ∧ (∃ u, NameHas d.name u) ∧ d.name.getD 63 0 = 0 ∧
    ∀ j, k = j + 1 → ∃ a f b, l = a ++ f :: b ∧ a.length = j ∧ d.fat = fatOf l a f ∧ NameHas d.name f.name

/-- The whole. -/
structure FsRel (l : List Src) (img : Str) (s : Fsys) (p : Folder) : Prop where
  fs : s.fs = ⟨img, if p.mounted then l.length else 0⟩
  buf : s.buf32.length = 260
  files : Both (FileRel l img) s.files p.files
  dirs : Both (DirRel l) s.dirs p.dirs

theorem nul_free {s : Str} (h : 0 ∉ s) : NulFree s := fun _ hb e => h (e ▸ hb)

theorem named_skip {path : Str} {s : Src} (hs : s.name.head? ≠ some 47) :
    (path = s.name ∨ path = 47 :: s.name) ↔ s.name = skipSlash path ∧ s.name.head? ≠ some 47 := by
  constructor
  · intro h
    refine ⟨?_, hs⟩
    rcases h with h | h
    · exact asks_eq (.inl ⟨h, hs⟩)
    · exact asks_eq (.inr h)
  · rintro ⟨h, -⟩
    cases path with
    | nil => exact .inl h.symm
    | cons b r =>
      by_cases hb : b = 47
      · rw [hb] at h ⊢
        exact .inr (by rw [h]; simp [skipSlash])
      · exact .inl (by rw [h]; simp [skipSlash, hb])

theorem file_unique (hl : FileSet l) {f y : Src} (hf : f ∈ l) (hy : y ∈ l) (hn : f.name = y.name) : f = y := by
  obtain ⟨a, b, e⟩ := List.append_of_mem hf
  have nd := hl.nodup
  rw [e, List.map_append, List.map_cons] at nd
  rw [e] at hy
  have nd1 := List.nodup_append.1 nd
  rcases List.mem_append.1 hy with hx | hx
  · exact absurd hn.symm (nd1.2.2 _ (List.mem_map_of_mem hx) _ (List.mem_cons_self ..))
  · rcases List.mem_cons.1 hx with hx | hx
    · exact hx.symm
    · exact absurd (hn ▸ List.mem_map_of_mem hx) (List.nodup_cons.1 nd1.2.1).1

/-- Opening a path. -/
theorem open_folder (hi : IsImage l size img) (hs : size < 2147483648) (hl : FileSet l) (hshort : ∀ f ∈ l, f.name.length ≤ 63)
    (hr : Roomy l size) {path : Str} (hp : NulFree path) :
    (∃ f s, Erfs.open ⟨img, l.length⟩ path = .ok (some f) ∧ inFolder l path = some s ∧ FileRel l img f (s, 0)) ∨
      (Erfs.open ⟨img, l.length⟩ path = .ok none ∧ inFolder l path = none) := by
  have hps : NulFree (skipSlash path) := by
    cases path with
    | nil => exact hp
    | cons b r =>
      by_cases hb : b = 47
      · rw [show skipSlash (b :: r) = r by simp [skipSlash, hb]]
        exact fun x hx => hp x (List.mem_cons_of_mem _ hx)
      · rw [show skipSlash (b :: r) = b :: r by simp [skipSlash, hb]]
        exact hp
  rcases open_spec hi (by omega) hl.text (skipSlash path) path hps rfl (fun _ => hr) with
    ⟨a, f, b, m, e1, e2, e3, e4, e5⟩ | ⟨e1, e2⟩
  · left
    have hf : f ∈ l := by rw [e1]; simp
    have hn : f.name = skipSlash path := by
      have := e2.2.1; rwa [List.take_of_length_le (hshort f hf)] at this
    refine ⟨_, f, e5, ?_, ⟨a, b, e1, rfl⟩, rfl, ?_, rfl, Nat.zero_le _⟩
    · unfold inFolder
      rw [e1, List.find?_append, List.find?_eq_none.2 ?_]
      · rw [List.find?_cons_of_pos]
        · rfl
        · have := (named_skip (hl.relative f hf)).2 ⟨hn, hl.relative f hf⟩
          simpa using this
      · intro x hx
        have hxl : x ∈ l := by rw [e1]; simp [hx]
        obtain ⟨a', b', ea⟩ := List.append_of_mem hx
        intro hh
        have h2 := (named_skip (hl.relative x hxl)).1 (by simpa using hh)
        exact e3 a' x b' ea ⟨hr a' x (b' ++ f :: b) (by rw [e1, ea]; simp), by rw [List.take_of_length_le (hshort x hxl)]; exact h2.1, by rw [h2.1]⟩
    · rw [List.take_of_length_le (hshort f hf)] at e4
      exact e4
  · right
    refine ⟨e2, ?_⟩
    unfold inFolder
    rw [List.find?_eq_none]
    intro x hx hh
    obtain ⟨a', b', ea⟩ := List.append_of_mem hx
    have h2 := (named_skip (hl.relative x hx)).1 (by simpa using hh)
    exact e1 a' x b' ea ⟨hr a' x b' ea, by rw [List.take_of_length_le (hshort x hx)]; exact h2.1, by rw [h2.1]⟩

/-- Nothing is found before it is mounted. -/
theorem open_unmounted (img path : Str) : Erfs.open ⟨img, 0⟩ path = .ok none := rfl

theorem afterSlash_base : ∀ n : Str, (match afterSlash n with | some x => x | none => n) = baseName n := by
  have none_iff : ∀ n : Str, afterSlash n = none ↔ 47 ∉ n := by
    intro n
    induction n with
    | nil => simp [afterSlash]
    | cons b r ih =>
      rw [afterSlash]
      cases h : afterSlash r with
      | some x =>
        have : 47 ∈ r := by
          apply Classical.byContradiction
          intro hc
          rw [ih.2 hc] at h
          cases h
        simp [this]
      | none =>
        have := ih.1 h
        by_cases hb : b = 47
        · simp [hb]
        · have : ¬ (47 = b) := fun e => hb e.symm
          simp [hb, this, *]
  intro n
  induction n with
  | nil => rfl
  | cons b r ih =>
    rw [afterSlash]
    unfold baseName at ih ⊢
    cases h : afterSlash r with
    | some x =>
      rw [h] at ih
      simp only at ih ⊢
      have hm : 47 ∈ r.reverse := by
        rw [List.mem_reverse]
        apply Classical.byContradiction
        intro hc
        rw [(none_iff r).2 hc] at h
        cases h
      rw [ih, List.reverse_cons, List.takeWhile_append]
      rw [if_neg]
      intro hc
      have := List.takeWhile_prefix (p := fun b : Byte => decide (b ≠ 47)) (l := r.reverse)
      have he := this.eq_of_length hc
      rw [← he] at hm
      have hall : ∀ (l : Str), 47 ∉ l.takeWhile (fun b : Byte => decide (b ≠ 47)) := by
        intro l hl
        induction l with
        | nil => cases hl
        | cons y l ih =>
          by_cases hy : y = 47
          · rw [List.takeWhile_cons_of_neg (by simp [hy])] at hl; cases hl
          · rw [List.takeWhile_cons_of_pos (by simp [hy])] at hl
            rcases List.mem_cons.1 hl with e | e
            · exact hy e.symm
            · exact ih e
      exact hall _ hm
    | none =>
      have hn := (none_iff r).1 h
      have hall : r.reverse.takeWhile (· ≠ 47) = r.reverse := by
        have := List.takeWhile_append_of_pos (p := fun b : Byte => decide (b ≠ 47)) (l₁ := r.reverse) (l₂ := [])
          (by intro x hx; simp only [decide_eq_true_eq]; exact fun e => hn (e ▸ List.mem_reverse.1 hx))
        simpa using this
      rw [List.reverse_cons, List.takeWhile_append, hall, if_pos rfl]
      by_cases hb : b = 47
      · simp [hb]
      · simp [hb]

theorem short_name {f : File} {n : Str} (h : NameHas f.name n) : f.shortName = baseName n ∧ cstrOf f.name = n := by
  obtain ⟨-, h1, -, t, h2⟩ := h
  have : cstrOf f.name = n := by rw [h2, cstrOf_app _ _ h1]
  refine ⟨?_, this⟩
  unfold File.shortName
  rw [this]
  exact afterSlash_base n

/-- One more entry of a listing. -/
theorem next_folder (hi : IsImage l size img) (hs : size < 2147483648) (hl : FileSet l) (hshort : ∀ f ∈ l, f.name.length ≤ 63)
    (hr : Roomy l size) {d : Dir} {k : Nat} (hd : DirRel l d k) (hf : d.fs = ⟨img, l.length⟩) (hk : k < l.length) :
    ∃ d', d.next = .ok (true, d') ∧ DirRel l d' (k + 1) := by
  obtain ⟨h1, h2, ⟨u, h3⟩, h4, -⟩ := hd
  have e : l = l.take k ++ l[k] :: l.drop (k + 1) := by
    rw [← List.drop_eq_getElem_cons hk, List.take_append_drop]
  have hlen : (l.take k).length = k := by rw [List.length_take]; omega
  obtain ⟨b1, b2, b3⟩ := fatOf_bounds e
  have ht : totalSize l ≤ size := hi.1
  have hlen' := hi.length
  obtain ⟨b, hb, hb', -⟩ := hi.fat (by omega) e
  rw [hlen] at hb
  have room := hr _ _ _ e
  have hm : l[k] ∈ l := List.getElem_mem hk
  obtain ⟨t, ht'⟩ := hi.name e
  obtain ⟨m, hm1, hm2, hm3⟩ := nameHas_copy (hl.text _ hm) ht' (by rw [List.length_drop]; omega) h3 h4
  rw [List.take_of_length_le (hshort _ hm)] at hm2
  refine ⟨{ d with index := d.index + 1, fat := fatOf l (l.take k) l[k], name := m }, ?_, by simp only; omega, by omega, ⟨_, hm2⟩, hm3, ?_⟩
  · have hfat : (Erfs.fatAddr ⟨img, l.length⟩) = fatOff l.length := rfl
    rw [Dir.next, hf, if_pos (by simp only; omega)]
    rw [hfat, h1, halInto_some hb]
    have hn : halInto img (fatOf l (l.take k) l[k]).namePtr 63 d.name (copyTo d.name) = .ok m := by
      rw [halInto_some (halRead_in _ _ _ (by omega) (by omega))]; exact hm1
    simp only [ok_bind, hb', hn]
    rfl
  · intro j hj
    exact ⟨_, _, _, e, by omega, rfl, hm2⟩

/-- The size that is told. -/
theorem info_folder (hi : IsImage l size img) (hs : size < 4294967296) :
    ∃ used, used ≤ totalSize l ∧ totalSize l < used + 4 ∧ Erfs.info ⟨img, l.length⟩ = .ok (size, used) := by
  have hl := hi.length
  rcases List.eq_nil_or_concat l with rfl | ⟨pre, f, e⟩
  · refine ⟨8, by decide, by decide, ?_⟩
    simp [Erfs.info, hl, pure_ok]
  · rw [List.concat_eq_append] at e
    obtain ⟨b, hb, hb', -⟩ := hi.fat hs e
    have hlen : l.length = pre.length + 1 := by rw [e]; simp
    have hnum : l.length - 1 = pre.length := by omega
    obtain ⟨-, b2, -⟩ := fatOf_bounds e
    have h1 := hi.1
    have a2 : datasLen l = datasLen pre + pyAlign f.data.length := by
      rw [e, datasLen_append]; simp [datasLen]
    have a3 := pyAlign_eq f.data.length
    have a4 := totalSize_eq l
    have a5 : (fatOf l pre f).dataPtr = namesOff l.length + namesLen l + datasLen pre := rfl
    have a6 : (fatOf l pre f).len = f.data.length := rfl
    refine ⟨(fatOf l pre f).dataPtr + f.data.length, b2, by omega, ?_⟩
    rw [Erfs.info, if_pos (by simp only; omega)]
    have hfat : (Erfs.fatAddr ⟨img, l.length⟩) = fatOff l.length := rfl
    simp only [hnum]
    rw [hfat, halInto_some hb]
    simp only [ok_bind, hb', a6, pure_ok, hl]
    rw [add32, Nat.mod_eq_of_lt (by omega)]

/-- Opening, with the mode. -/
theorem opens_rel (hi : IsImage l size img) (hs : size < 2147483648) (hl : FileSet l) (hshort : ∀ f ∈ l, f.name.length ≤ 63)
    (hr : Roomy l size) {s : Fsys} {p : Folder} (h : FsRel l img s p) {path : Str} (hp : NulFree path) (m : OpenMode) :
    ∃ s', s.open path m = .ok (s', (p.opens (if p.mounted && m.reads then inFolder l path else none)).2) ∧
      FsRel l img s' (p.opens (if p.mounted && m.reads then inFolder l path else none)).1 := by
  unfold Fsys.open
  by_cases hm : m.flags ≠ 0 ∨ m.access ≠ 1
  · rw [if_pos hm]
    have : m.reads = false := by
      unfold OpenMode.reads
      rcases hm with hm | hm <;> simp [hm]
    rw [this, Bool.and_false]
    exact ⟨s, rfl, h⟩
  · rw [if_neg hm]
    have hm' : m.flags = 0 ∧ m.access = 1 := by omega
    have : m.reads = true := by simp [OpenMode.reads, hm'.1, hm'.2]
    rw [this, Bool.and_true, h.fs]
    cases hmt : p.mounted with
    | false =>
      simp only [Bool.false_eq_true, if_false, open_unmounted, ok_bind]
      exact ⟨s, rfl, h⟩
    | true =>
      simp only [if_true]
      rcases open_folder hi hs hl hshort hr hp with ⟨f, x, e1, e2, e3⟩ | ⟨e1, e2⟩
      · rw [e1, e2]
        simp only [ok_bind, Folder.opens]
        exact ⟨⟨⟨img, l.length⟩, s.buf32, s.files ++ [f], s.dirs⟩, by rw [h.files.1]; rfl, by simp [hmt], h.buf,
          both_push h.files e3, h.dirs⟩
      · rw [e1, e2]
        exact ⟨s, rfl, h⟩

theorem dir_fs {s : Fsys} {p : Folder} (h : FsRel l img s p) (d : Nat) :
    (s.dir d = none ∧ p.dirs[d]? = none) ∨ ∃ x k, s.dir d = some x ∧ p.dirs[d]? = some k ∧ DirRel l x k ∧ x.fs = s.fs := by
  rcases both_get h.dirs d with ⟨e1, e2⟩ | ⟨x, k, e1, e2, e3⟩
  · exact .inl ⟨by simp [Fsys.dir, e1], e2⟩
  · exact .inr ⟨{ x with fs := s.fs }, k, by simp [Fsys.dir, e1], e2, e3, rfl⟩

/-- One call. -/
theorem step_folder (hi : IsImage l size img) (hs : size < 2147483648) (hl : FileSet l) (hshort : ∀ f ∈ l, f.name.length ≤ 63)
    (hr : Roomy l size) {used : Nat} (hu : Erfs.info ⟨img, l.length⟩ = .ok (size, used)) {s : Fsys} {p : Folder}
    (h : FsRel l img s p) {c : FsCall} (hc : c.Valid) :
    ∃ s', s.step c = .ok (s', (p.step l size used 8 c).2) ∧ FsRel l img s' (p.step l size used 8 c).1 := by
  have himg := hi.length
  cases c with
  | mount =>
    refine ⟨{ s with fs := ⟨img, l.length⟩ }, ?_, ⟨rfl, h.buf, h.files, h.dirs⟩⟩
    simp only [Fsys.step, h.fs, hi.mount (by omega : size < 4294967296), ok_bind, if_true]
    rfl
  | unmount =>
    refine ⟨{ s with fs := { s.fs with num := 0 } }, rfl, ⟨?_, h.buf, h.files, h.dirs⟩⟩
    simp only [h.fs, Folder.step, Bool.false_eq_true, if_false]
  | info =>
    refine ⟨s, ?_, h⟩
    simp only [Fsys.step, h.fs, Folder.step]
    cases p.mounted with
    | true => simp only [if_true, hu, ok_bind]; rfl
    | false => simp [Erfs.info, himg, pure_ok, ok_bind]
  | there path =>
    refine ⟨s, ?_, h⟩
    simp only [Fsys.step, h.fs, Folder.step]
    cases p.mounted with
    | false => rfl
    | true =>
      simp only [if_true, Bool.true_and]
      rcases open_folder hi hs hl hshort hr (nul_free hc) with ⟨f, x, e1, e2, -⟩ | ⟨e1, e2⟩
      · rw [e1, e2]; rfl
      · rw [e1, e2]; rfl
  | openFile path m => exact opens_rel hi hs hl hshort hr h (nul_free hc) m
  | openDir path =>
    simp only [Fsys.step, Folder.step, Erfs.openDir]
    by_cases hp : path = bs "/"
    · rw [if_neg (fun e => e hp), if_pos hp]
      exact ⟨{ s with dirs := s.dirs ++ [⟨s.fs, 0, ⟨0, 0, 0, 0⟩, List.replicate 64 0⟩] }, by rw [← h.dirs.1]; rfl, h.fs, h.buf, h.files,
        both_push h.dirs ⟨rfl, Nat.zero_le _, ⟨[], nameHas_zero⟩, rfl, fun j hj => by omega⟩⟩
    · rw [if_pos hp, if_neg hp]
      exact ⟨s, rfl, h⟩
  | next d =>
    simp only [Fsys.step, Folder.step]
    rcases dir_fs h d with ⟨e1, e2⟩ | ⟨x, k, e1, e2, e3, e4⟩
    · rw [e1, e2]; exact ⟨s, rfl, h⟩
    · rw [e1, e2]
      simp only
      by_cases hk : p.mounted = true ∧ k < l.length
      · obtain ⟨x', g1, g2⟩ := next_folder hi hs hl hshort hr e3 (by rw [e4, h.fs, if_pos hk.1]) hk.2
        rw [g1, if_pos (by simp [hk])]
        exact ⟨_, rfl, h.fs, h.buf, h.files, both_set h.dirs d g2⟩
      · have : x.next = .ok (false, x) := by
          rw [Dir.next, if_neg]
          · rfl
          · rw [e4, h.fs, e3.1]
            cases hm : p.mounted with
            | true => simp only [if_true]; exact fun hh => hk ⟨hm, hh⟩
            | false => simp
        rw [this, if_neg (by simpa using hk)]
        refine ⟨_, rfl, h.fs, h.buf, h.files, ?_⟩
        have := both_set h.dirs d (x := x) (y := k) e3
        have hset : p.dirs.set d k = p.dirs := by
          apply List.ext_getElem?
          intro i
          rw [List.getElem?_set]
          split
          · rename_i hij
            subst hij
            rw [e2]
            have := (List.getElem?_eq_some_iff.1 e2).1
            simp [this]
          · rfl
        rwa [hset] at this
  | entry d =>
    simp only [Fsys.step, Folder.step]
    rcases dir_fs h d with ⟨e1, e2⟩ | ⟨x, k, e1, e2, e3, e4⟩
    · rw [e1, e2]; exact ⟨s, rfl, h⟩
    · rw [e1, e2]
      obtain ⟨f1, f2, -, -, f5⟩ := e3
      cases k with
      | zero =>
        refine ⟨s, ?_, h⟩
        simp only [Dir.entry, f1, ne_eq, not_true_eq_false, false_and, if_false]
        rfl
      | succ k =>
        obtain ⟨a, f, b, g1, g2, g3, -, g5, -, t, g6⟩ := f5 k rfl
        have hlk : l[k]? = some f := by rw [g1, List.getElem?_append_right (by omega), g2]; simp
        refine ⟨s, ?_, ?_⟩
        · simp only [hlk, Dir.entry, f1, e4, h.fs]
          cases p.mounted with
          | true =>
            rw [if_pos ⟨by omega, by simp only [if_true]; omega⟩]
            simp only [if_true, g3, g6, cstrOf_app _ _ g5]
            rfl
          | false => rfl
        · simp only [hlk]
          split <;> exact h
  | rewind d =>
    simp only [Fsys.step, Folder.step]
    rcases dir_fs h d with ⟨e1, e2⟩ | ⟨x, k, e1, e2, e3, e4⟩
    · rw [e1, e2]; exact ⟨s, rfl, h⟩
    · rw [e1, e2]
      exact ⟨_, rfl, h.fs, h.buf, h.files, both_set h.dirs d ⟨rfl, Nat.zero_le _, e3.2.2.1, e3.2.2.2.1, nofun⟩⟩
  | openEntry d m =>
    simp only [Fsys.step, Folder.step]
    rcases dir_fs h d with ⟨e1, e2⟩ | ⟨x, k, e1, e2, e3, e4⟩
    · rw [e1, e2]; exact ⟨s, rfl, h⟩
    · rw [e1, e2]
      obtain ⟨f1, f2, -, -, f5⟩ := e3
      cases k with
      | zero => exact ⟨s, by simp only [Dir.valid, f1]; rfl, h⟩
      | succ k =>
        obtain ⟨a, f, b, g1, g2, g3, -, g5, -, t, g6⟩ := f5 k rfl
        have hlk : l[k]? = some f := by rw [g1, List.getElem?_append_right (by omega), g2]; simp
        have hf : f ∈ l := by rw [g1]; simp
        simp only [hlk, Dir.valid, f1, e4, h.fs, g6, cstrOf_app _ _ g5]
        cases hm : p.mounted with
        | false => exact ⟨s, rfl, h⟩
        | true =>
          have hin : inFolder l f.name = some f := by
            rcases open_folder hi hs hl hshort hr (path := f.name) g5 with ⟨_, y, -, e, ⟨⟨a', b', ea, -⟩, -⟩⟩ | ⟨-, e⟩
            · have hy := List.find?_some e
              have hyl : y ∈ l := List.mem_of_find?_eq_some e
              have hn : f.name = y.name := by
                rcases (by simpa using hy : f.name = y.name ∨ f.name = 47 :: y.name) with h' | h'
                · exact h'
                · exact absurd (by rw [h']; rfl) (hl.relative f hf)
              have : f = y := file_unique hl hf hyl hn
              rw [e, this]
            · have := List.find?_eq_none.1 e f hf
              simp at this
          have hv : (decide (k + 1 ≠ 0 ∧ k + 1 ≤ (if true = true then l.length else 0))) = true := by simp; omega
          rw [hv]
          simp only [if_true, Bool.true_and]
          have := opens_rel hi hs hl hshort hr h (path := f.name) g5 m
          rw [hm, hin, Bool.true_and] at this
          exact this
  | use i op =>
    simp only [Fsys.step, Folder.step]
    rcases both_get h.files i with ⟨e1, e2⟩ | ⟨f, ⟨x, pos⟩, e1, e2, ⟨⟨a, b, g1, g2⟩, g3, g4, g5, g6⟩⟩
    · rw [e1, e2]; exact ⟨s, rfl, h⟩
    · rw [e1, e2]
      obtain ⟨t, ht⟩ := hi.data g1
      obtain ⟨-, b2, -⟩ := fatOf_bounds g1
      have b2 : (fatOf l a x).dataPtr + x.data.length ≤ totalSize l := b2
      have h1 := hi.1
      have hp' := fileStep_pos x.data pos op g6
      have hlen : f.fat.len = x.data.length := by rw [g2]; rfl
      cases op with
      | read al buf n =>
        obtain ⟨b32, r1, r2⟩ := read_ok f x.data t s.buf32 al buf n (by rw [g3, g2]; exact ht) hlen (by rw [g5]; exact g6)
          (by rw [g3]; omega) (by rw [g3, g2]; simp only; omega) hc.1 hc.2 h.buf
        simp only [r1, ok_bind]
        rw [g5]
        exact ⟨_, rfl, h.fs, r2, both_set h.files i ⟨⟨a, b, g1, g2⟩, g3, g4, rfl, hp'⟩, h.dirs⟩
      | seek o w =>
        simp only [seek_ok f x.data o w hlen (by rw [g5]; exact g6) (by omega)]
        rw [g5]
        simp only [fileStep] at hp' ⊢
        by_cases hin : inside x.data (aim x.data pos o w) w = true
        · simp only [hin, if_true] at hp' ⊢
          exact ⟨_, rfl, h.fs, h.buf, both_set h.files i ⟨⟨a, b, g1, g2⟩, g3, g4, rfl, hp'⟩, h.dirs⟩
        · simp only [hin, if_false] at hp' ⊢
          exact ⟨_, rfl, h.fs, h.buf, both_set h.files i ⟨⟨a, b, g1, g2⟩, g3, g4, rfl, hp'⟩, h.dirs⟩
  | position i =>
    refine ⟨s, ?_, h⟩
    simp only [Fsys.step, Folder.step]
    rcases both_get h.files i with ⟨e1, e2⟩ | ⟨f, ⟨x, pos⟩, e1, e2, ⟨⟨a, b, g1, g2⟩, g3, g4, g5, g6⟩⟩
    · rw [e1, e2]; rfl
    · rw [e1, e2]; simp only [g5]; rfl
  | size i =>
    refine ⟨s, ?_, h⟩
    simp only [Fsys.step, Folder.step]
    rcases both_get h.files i with ⟨e1, e2⟩ | ⟨f, ⟨x, pos⟩, e1, e2, ⟨⟨a, b, g1, g2⟩, g3, g4, g5, g6⟩⟩
    · rw [e1, e2]; rfl
    · rw [e1, e2]; simp only [g2]; rfl
  | shortName i =>
    refine ⟨s, ?_, h⟩
    simp only [Fsys.step, Folder.step]
    rcases both_get h.files i with ⟨e1, e2⟩ | ⟨f, ⟨x, pos⟩, e1, e2, ⟨⟨a, b, g1, g2⟩, g3, g4, g5, g6⟩⟩
    · rw [e1, e2]; rfl
    · rw [e1, e2]; simp only [(short_name g4).1]; rfl
  | fullName i =>
    refine ⟨s, ?_, h⟩
    simp only [Fsys.step, Folder.step]
    rcases both_get h.files i with ⟨e1, e2⟩ | ⟨f, ⟨x, pos⟩, e1, e2, ⟨⟨a, b, g1, g2⟩, g3, g4, g5, g6⟩⟩
    · rw [e1, e2]; rfl
    · rw [e1, e2]; simp only [(short_name g4).2]; rfl
  | lastWrite i =>
    refine ⟨s, ?_, h⟩
    simp only [Fsys.step, Folder.step]
    rcases both_get h.files i with ⟨e1, e2⟩ | ⟨f, ⟨x, pos⟩, e1, e2, ⟨⟨a, b, g1, g2⟩, g3, g4, g5, g6⟩⟩
    · rw [e1, e2]; rfl
    · rw [e1, e2]; simp only [g2]; rfl
  | write i x =>
    refine ⟨s, ?_, h⟩
    simp only [Fsys.step, Folder.step]
    rcases both_get h.files i with ⟨e1, e2⟩ | ⟨f, y, e1, e2, -⟩ <;> rw [e1, e2] <;> rfl
  | truncate i x =>
    refine ⟨s, ?_, h⟩
    simp only [Fsys.step, Folder.step]
    rcases both_get h.files i with ⟨e1, e2⟩ | ⟨f, y, e1, e2, -⟩ <;> rw [e1, e2] <;> rfl
  | remove _ => exact ⟨s, rfl, h⟩
  | rename _ _ => exact ⟨s, rfl, h⟩
  | mkdir _ => exact ⟨s, rfl, h⟩
  | rmdir _ => exact ⟨s, rfl, h⟩
  | format => exact ⟨s, rfl, h⟩

theorem run_folder (hi : IsImage l size img) (hs : size < 2147483648) (hl : FileSet l) (hshort : ∀ f ∈ l, f.name.length ≤ 63)
    (hr : Roomy l size) {used : Nat} (hu : Erfs.info ⟨img, l.length⟩ = .ok (size, used)) :
    ∀ (cs : List FsCall) {s : Fsys} {p : Folder}, FsRel l img s p → (∀ c ∈ cs, c.Valid) →
      ∃ s', s.run cs = .ok (p.run l size used 8 cs, s') ∧ s'.fs.img = img
  | [], s, p, h, _ => ⟨s, rfl, by rw [h.fs]⟩
  | c :: r, s, p, h, hv => by
    obtain ⟨s1, e1, e2⟩ := step_folder hi hs hl hshort hr hu h (hv c (by simp))
    obtain ⟨s2, e3, e4⟩ := run_folder hi hs hl hshort hr hu r e2 (fun x hx => hv x (List.mem_cons_of_mem _ hx))
    refine ⟨s2, ?_, e4⟩
    rw [Fsys.run, e1]
    simp only [ok_bind]
    rw [e3]
    rfl

/-- **C122**: whatever a program does with the file system of an image, in any order and with any number of open files and listings, it
is answered as by a folder with these files that never change; the used size is what the builder has announced, without the padding at
the end.  The partition is not changed.

Partial: as for C44, see `c44_refuted_long` and `c44_refuted_tight`. -/
theorem c122_folder_partial (l : List Src) (size o w : Nat) (img : Str) (h : create l size = .image o w img)
    (hs : size < 2147483648) (hl : FileSet l) (hshort : ∀ f ∈ l, f.name.length ≤ 63)
    (hroom : 63 ≤ (l.map (·.data.length)).sum + (size - o)) :
    ∃ used, used ≤ o ∧ o < used + 4 ∧ ∀ (buf32 : Str) (cs : List FsCall), buf32.length = 260 → (∀ c ∈ cs, c.Valid) →
      ∃ s, (Fsys.init img buf32).run cs = .ok ((⟨false, [], []⟩ : Folder).run l size used 8 cs, s) ∧ s.fs.img = img := by
  obtain ⟨hi, rfl⟩ := image_is h
  obtain ⟨used, u1, u2, u3⟩ := info_folder hi (by omega)
  exact ⟨used, u1, u2, fun buf32 cs hb hv => run_folder hi hs hl hshort (roomy h hroom) u3 cs
    (s := Fsys.init img buf32) (p := ⟨false, [], []⟩) ⟨rfl, hb, both_nil, both_nil⟩ hv⟩

theorem begin_img {img : Str} {b : Bool} {fs : Erfs} (h : Erfs.begin img = .ok (b, fs)) : fs.img = img := by
  unfold Erfs.begin at h
  obtain ⟨x, -, h⟩ := bind_ok h
  split at h
  · cases h; rfl
  · split at h <;> (cases h; rfl)

theorem open_img {s s' : Fsys} {path : Str} {m : OpenMode} {a : FsAnswer} (h : s.open path m = .ok (s', a)) : s'.fs = s.fs := by
  unfold Fsys.open at h
  split at h
  · cases h; rfl
  · obtain ⟨x, -, h⟩ := bind_ok h
    split at h <;> (cases h; rfl)

/-- **C122**, for any content of the partition: no call changes it. -/
theorem c122_unchanged {s s' : Fsys} {c : FsCall} {a : FsAnswer} (h : s.step c = .ok (s', a)) : s'.fs.img = s.fs.img := by
  cases c with
  | mount =>
    obtain ⟨⟨b, fs⟩, h1, h⟩ := bind_ok h
    cases h
    have := begin_img h1
    simp only
    split
    · exact this
    · rfl
  | info => obtain ⟨_, _, h⟩ := bind_ok h; cases h; rfl
  | there path => obtain ⟨_, _, h⟩ := bind_ok h; cases h; rfl
  | openFile path m => rw [open_img h]
  | openDir path => simp only [Fsys.step] at h; split at h <;> (cases h; rfl)
  | next d =>
    simp only [Fsys.step] at h
    split at h
    · cases h; rfl
    · obtain ⟨_, _, h⟩ := bind_ok h; cases h; rfl
  | entry d => simp only [Fsys.step] at h; split at h <;> (cases h; rfl)
  | rewind d => simp only [Fsys.step] at h; split at h <;> (cases h; rfl)
  | openEntry d m =>
    simp only [Fsys.step] at h
    split at h
    · cases h; rfl
    · split at h
      · rw [open_img h]
      · cases h; rfl
  | use i op =>
    simp only [Fsys.step] at h
    split at h
    · cases h; rfl
    · split at h
      · obtain ⟨_, _, h⟩ := bind_ok h; cases h; rfl
      · cases h; rfl
  | _ => cases h; rfl

/-- The hypotheses hold for an image of three files. -/
example : ∃ used, used ≤ 104 ∧ 104 < used + 4 ∧ ∀ (buf32 : Str) (cs : List FsCall), buf32.length = 260 → (∀ c ∈ cs, c.Valid) →
    ∃ s, (Fsys.init threeImage buf32).run cs = .ok ((⟨false, [], []⟩ : Folder).run threeFiles 300 used 8 cs, s) ∧ s.fs.img = threeImage :=
  c122_folder_partial threeFiles 300 104 104 threeImage threeImage_is (by decide) threeFiles_set (by decide +kernel) (by decide +kernel)

/-- A program on the image of three files. -/
example : ((Fsys.init threeImage (List.replicate 260 0)).run
    [.there (bs "/ac"), .mount, .there (bs "/ac"), .openDir (bs "/"), .entry 0, .next 0, .next 0, .entry 0, .openEntry 0 ⟨0, 1⟩,
     .use 0 (.read 1 [9, 9] 2), .openFile (bs "ac") ⟨5, 2⟩, .openFile (bs "ac") ⟨0, 1⟩, .use 1 (.read 0 [9] 1), .position 0, .position 1,
     .write 0 [1], .remove (bs "ac"), .unmount, .next 0, .use 0 (.read 0 [9, 9] 2)]).map Prod.fst =
    .ok [.yes false, .yes true, .yes true, .opened (some 0), .entry [] 0 0, .yes true, .yes true, .entry (bs "ac") 3 5,
      .opened (some 0), .file (.got [1, 2] 2), .opened none, .opened (some 1), .file (.got [1] 1), .number 2, .number 1, .number 0,
      .yes false, .yes true, .yes false, .file (.got [3, 9] 1)] := by decide +kernel

end Wifinfo
