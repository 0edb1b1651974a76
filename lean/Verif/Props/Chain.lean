import Verif.Model.Folder
import Verif.Props.Prep
import Verif.Props.Restrict
import Verif.Props.Serve

/-!
# C87: from the sources to the browser

The preparation of the data folder, the builder of images, the file system of the device and its web server
together.
-/

namespace Wifinfo
open Spec

namespace Spec

/-- A folder as the system gives it: each path once, and names as the system allows them. -/
structure Sound (t : Tree) : Prop where
  nodup : (t.map Prod.fst).Nodup
  named : ∀ x ∈ t, x.1 ≠ []
  names : ∀ x ∈ t, ∀ n ∈ x.1, GoodName n

end Spec

/-! ## The data folder is a folder -/

theorem put_keys (t : Tree) (p : FsPath) (n : Node) : (∀ x ∈ t.put p n, x.1 = p ∨ x ∈ t) ∧
    ((t.map Prod.fst).Nodup → ((t.put p n).map Prod.fst).Nodup) := by
  induction t with
  | nil => simp [Tree.put]
  | cons y t ih =>
    obtain ⟨h1, h2⟩ := ih
    unfold Tree.put
    split
    · rename_i hy
      refine ⟨?_, ?_⟩
      · intro x hx
        rcases List.mem_cons.1 hx with rfl | hx
        · exact .inl rfl
        · exact .inr (List.mem_cons_of_mem _ hx)
      · intro h; simpa [hy] using h
    · rename_i hy
      refine ⟨?_, ?_⟩
      · intro x hx
        rcases List.mem_cons.1 hx with rfl | hx
        · exact .inr (List.mem_cons_self ..)
        · exact (h1 x hx).imp id (List.mem_cons_of_mem _)
      · intro h
        rw [List.map_cons, List.nodup_cons] at h ⊢
        refine ⟨?_, h2 h.2⟩
        intro hm
        obtain ⟨x, hx, e⟩ := List.mem_map.1 hm
        rcases h1 x hx with h3 | h3
        · exact hy (e.symm.trans h3)
        · exact h.1 (List.mem_map.2 ⟨x, h3, e⟩)

theorem Spec.Sound.put {t : Tree} (h : Sound t) {p : FsPath} (hp : p ≠ []) (hn : ∀ n ∈ p, GoodName n) (n : Node) :
    Sound (t.put p n) := by
  obtain ⟨h1, h2⟩ := put_keys t p n
  refine ⟨h2 h.nodup, ?_, ?_⟩
  · intro x hx
    rcases h1 x hx with e | e
    · rw [e]; exact hp
    · exact h.named x e
  · intro x hx
    rcases h1 x hx with e | e
    · rw [e]; exact hn
    · exact h.names x e

theorem Spec.Sound.write {t t' : Tree} (h : Sound t) {p : FsPath} (hp : p ≠ []) (hn : ∀ n ∈ p, GoodName n) {c m}
    (hw : t.write p c m = some t') : Sound t' := by
  unfold Tree.write at hw
  split at hw
  · cases hw
  · rw [← Option.some.inj hw]; exact h.put hp hn _

theorem Spec.Sound.mkdirs : ∀ (p : FsPath) {t t' : Tree} {done : FsPath}, Sound t → (∀ n ∈ done ++ p, GoodName n) →
    t.mkdirs done p = some t' → Sound t' := by
  intro p
  induction p with
  | nil => intro t t' done h _ hm; rw [← Option.some.inj hm]; exact h
  | cons a r ih =>
    intro t t' done h hn hm
    have hn' : ∀ n ∈ (done ++ [a]) ++ r, GoodName n := by simpa using hn
    unfold Tree.mkdirs at hm
    split at hm
    · exact ih h hn' hm
    · cases hm
    · exact ih (h.put (by simp) (fun n hn2 => hn' n (List.mem_append_left _ hn2)) _) hn' hm

theorem Spec.Sound.sublist {t t' : Tree} (h : Sound t) (hs : t'.Sublist t) : Sound t' :=
  ⟨h.nodup.sublist (hs.map _), fun x hx => h.named x (hs.mem hx), fun x hx => h.names x (hs.mem hx)⟩

theorem Spec.Sound.clean {src t : Tree} (h : Sound t) : Sound (clean src t) := by
  unfold Wifinfo.clean
  generalize (t.map Prod.fst).filter (stale src) = l
  induction l generalizing t with
  | nil => exact h
  | cons p l ih => exact ih (h.sublist List.filter_sublist)

theorem mem_splitDots {n x : Str} {b : Byte} (hx : x ∈ splitDots n) (hb : b ∈ x) : b ∈ n := by
  induction n generalizing x with
  | nil => simp [splitDots] at hx; subst hx; cases hb
  | cons y r ih =>
    unfold splitDots at hx
    split at hx
    · rcases List.mem_cons.1 hx with rfl | hx
      · cases hb
      · exact List.mem_cons_of_mem _ (ih hx hb)
    · split at hx
      · rename_i z l hz
        rcases List.mem_cons.1 hx with rfl | hx
        · rcases List.mem_cons.1 hb with rfl | hb
          · exact List.mem_cons_self ..
          · exact List.mem_cons_of_mem _ (ih (by rw [hz]; exact List.mem_cons_self ..) hb)
        · exact List.mem_cons_of_mem _ (ih (by rw [hz]; exact List.mem_cons_of_mem _ hx) hb)
      · simp at hx
        subst hx
        simp at hb
        exact hb ▸ List.mem_cons_self ..

theorem good_of_bytes {n : Str} (h0 : n ≠ []) (h : ∀ b ∈ n, b ≠ 0 ∧ b ≠ 47) : GoodName n :=
  ⟨h0, fun hb => (h 0 hb).1 rfl, fun hb => (h 47 hb).2 rfl⟩

theorem good_gz {n : Str} (h : GoodName n) : GoodName (n ++ bs ".gz") := by
  refine good_of_bytes (by simp [h.1]) ?_
  intro b hb
  rcases List.mem_append.1 hb with hb | hb
  · exact ⟨fun e => h.2.1 (e ▸ hb), fun e => h.2.2 (e ▸ hb)⟩
  · have : ∀ b ∈ bs ".gz", b ≠ 0 ∧ b ≠ 47 := by decide +kernel
    exact this b hb

theorem good_restrict {n : Str} (h : GoodName n) : GoodName (restrictName n) := by
  have hn : ∀ b ∈ n, b ≠ 0 ∧ b ≠ 47 := fun b hb => ⟨fun e => h.2.1 (e ▸ hb), fun e => h.2.2 (e ▸ hb)⟩
  have hz : ∀ b ∈ bs ".gz", b ≠ 0 ∧ b ≠ 47 := by decide +kernel
  have hr : ∀ b ∈ bs ".restrict", b ≠ 0 ∧ b ≠ 47 := by decide +kernel
  unfold restrictName
  refine good_of_bytes ?_ ?_
  · intro e
    have := congrArg List.length e
    simp [show (bs ".gz").length = 3 from by decide] at this
  intro b hb
  rcases List.mem_append.1 hb with hb | hb
  · exact hn b (List.mem_of_mem_take hb)
  rcases List.mem_append.1 hb with hb | hb
  · rcases List.mem_append.1 hb with hb | hb
    · exact hr b hb
    · obtain ⟨x, hx, hb⟩ := List.mem_flatten.1 hb
      unfold pySuffixes at hx
      split at hx
      · cases hx
      · obtain ⟨y, hy, rfl⟩ := List.mem_map.1 hx
        rcases List.mem_cons.1 hb with rfl | hb
        · decide
        · exact hn b ((List.dropWhile_sublist _).mem (mem_splitDots (List.mem_of_mem_drop hy) hb))
  · exact hz b hb

theorem Spec.Sound.prepOne {w : Tools} {now p c m} {d d' : Tree} (h : Sound d) (hp : p ≠ []) (hn : ∀ n ∈ p, GoodName n)
    (h1 : prepOne w now p c m d = some d') : Sound d' := by
  have hl : GoodName (p.getLastD []) := by
    rw [List.getLastD_eq_getLast?, List.getLast?_eq_some_getLast hp]
    exact hn _ (List.getLast_mem hp)
  have hi : ∀ n ∈ p.dropLast, GoodName n := fun n h => hn n ((List.dropLast_sublist p).mem h)
  have ha : ∀ x, GoodName x → ∀ n ∈ p.dropLast ++ [x], GoodName n := by
    intro x hx n h
    rcases List.mem_append.1 h with h | h
    · exact hi n h
    · rw [List.mem_singleton.1 h]; exact hx
  unfold Wifinfo.prepOne at h1
  simp only at h1
  split at h1
  · split at h1
    · rw [← Option.some.inj h1]; exact h
    · obtain ⟨d1, g1, g2⟩ := Option.bind_eq_some_iff.1 h1
      have s1 := Sound.mkdirs _ h (by simpa using hi) g1
      obtain ⟨d2, g3, g4⟩ := Option.bind_eq_some_iff.1 g2
      have s2 := s1.write (by simp) (ha _ (good_gz hl)) g3
      split at g4
      · split at g4
        · exact s2.write (by simp) (ha _ (good_restrict hl)) g4
        · rw [← Option.some.inj g4]; exact s2
      · rw [← Option.some.inj g4]; exact s2
  · split at h1
    · rw [← Option.some.inj h1]; exact h
    · obtain ⟨d1, g1, g2⟩ := Option.bind_eq_some_iff.1 h1
      have s1 := Sound.mkdirs _ h (by simpa using hi) g1
      split at g2
      · refine s1.write (by simp) ?_ g2
        intro n h
        rcases List.mem_append.1 h with h | h
        · exact hn n h
        · rw [List.mem_singleton.1 h]; exact hl
      · exact s1.write hp hn g2

theorem Spec.Sound.prepAll {w : Tools} {now} : ∀ (l : Tree) {d d' : Tree}, Sound d → (∀ x ∈ l, x.1 ≠ []) →
    (∀ x ∈ l, ∀ n ∈ x.1, GoodName n) → prepAll w now l d = some d' → Sound d' := by
  intro l
  induction l with
  | nil => intro d d' h _ _ h1; rw [← Option.some.inj h1]; exact h
  | cons x l ih =>
    intro d d' h hp hn h1
    obtain ⟨p, n⟩ := x
    have hp' := fun y hy => hp y (List.mem_cons_of_mem _ hy)
    have hn' := fun y hy => hn y (List.mem_cons_of_mem _ hy)
    cases n with
    | dir => exact ih h hp' hn' h1
    | file c m =>
      obtain ⟨d1, g1, g2⟩ := Option.bind_eq_some_iff.1 h1
      exact ih (h.prepOne (hp _ (List.mem_cons_self ..)) (hn _ (List.mem_cons_self ..)) g1) hp' hn' g2

theorem Spec.Sound.prepare {w : Tools} {now v} {src data data' : Tree} (hs : Sound src) (hd : Sound data)
    (h : prepare w now v src data = some data') : Sound data' := by
  obtain ⟨d1, g1, g2⟩ := Option.bind_eq_some_iff.1 h
  refine (hd.clean.prepAll src hs.named hs.names g1).write (by simp) ?_ g2
  intro n hn
  rw [List.mem_singleton.1 hn]
  exact ⟨by decide, by decide +kernel, by decide +kernel⟩

/-! ## The names of the files -/

theorem posix_inj : ∀ {p q : FsPath}, p ≠ [] → q ≠ [] → (∀ n ∈ p, GoodName n) → (∀ n ∈ q, GoodName n) →
    posix p = posix q → p = q := by
  have key : ∀ {a b x y : Str}, (47 : Byte) ∉ a → (47 : Byte) ∉ b → a ++ 47 :: x = b ++ 47 :: y → a = b ∧ x = y := by
    intro a
    induction a with
    | nil =>
      intro b x y _ hb h
      cases b with
      | nil => exact ⟨rfl, (List.cons.inj h).2⟩
      | cons z b => exact absurd ((List.cons.inj h).1 ▸ List.mem_cons_self ..) hb
    | cons z a ih =>
      intro b x y ha hb h
      cases b with
      | nil => exact absurd ((List.cons.inj h).1 ▸ List.mem_cons_self ..) ha
      | cons z' b =>
        obtain ⟨rfl, h9⟩ := List.cons.inj h
        obtain ⟨rfl, h2⟩ := ih (fun h => ha (List.mem_cons_of_mem _ h)) (fun h => hb (List.mem_cons_of_mem _ h)) h9
        exact ⟨rfl, h2⟩
  intro p
  induction p with
  | nil => intro q hp; exact absurd rfl hp
  | cons a p ih =>
    intro q _ hq hpn hqn h
    cases q with
    | nil => exact absurd rfl hq
    | cons b q =>
      have ha := (hpn a (List.mem_cons_self ..)).2.2
      have hb := (hqn b (List.mem_cons_self ..)).2.2
      cases p with
      | nil =>
        cases q with
        | nil => simpa [posix] using h
        | cons b' q =>
          exfalso; apply ha
          rw [show a = b ++ 47 :: posix (b' :: q) from h]; simp
      | cons a' p =>
        cases q with
        | nil =>
          exfalso; apply hb
          rw [show b = a ++ 47 :: posix (a' :: p) from h.symm]; simp
        | cons b' q =>
          obtain ⟨rfl, h2⟩ := key (x := posix (a' :: p)) (y := posix (b' :: q)) ha hb h
          rw [ih (by simp) (by simp) (fun n hn => hpn n (List.mem_cons_of_mem _ hn))
            (fun n hn => hqn n (List.mem_cons_of_mem _ hn)) h2]

theorem posix_good : ∀ {p : FsPath}, p ≠ [] → (∀ n ∈ p, GoodName n) →
    posix p ≠ [] ∧ NulFree (posix p) ∧ (posix p).head? ≠ some 47 := by
  intro p
  induction p with
  | nil => intro hp; exact absurd rfl hp
  | cons a p ih =>
    intro _ hn
    obtain ⟨h1, h0, h3⟩ := hn a (List.mem_cons_self ..)
    have h2 : NulFree a := fun b hb e => h0 (e ▸ hb)
    have hh : ∀ x : Str, (a ++ x).head? ≠ some 47 := by
      intro x e
      cases a with
      | nil => exact h1 rfl
      | cons y a => exact h3 (Option.some.inj e ▸ List.mem_cons_self ..)
    cases p with
    | nil =>
      have := hh []
      rw [List.append_nil] at this
      exact ⟨h1, h2, this⟩
    | cons b p =>
      obtain ⟨-, g2, -⟩ := ih (by simp) fun n h => hn n (List.mem_cons_of_mem _ h)
      refine ⟨by simp [posix], ?_, hh _⟩
      intro y hy
      rcases List.mem_append.1 hy with hy | hy
      · exact h2 y hy
      · rcases List.mem_cons.1 hy with rfl | hy
        · decide
        · exact g2 y hy

theorem mem_imageFiles {t : Tree} {s : Src} (h : s ∈ imageFiles t) : ∃ p c m, (p, Node.file c m) ∈ t ∧ s = ⟨posix p, c, m⟩ := by
  induction t with
  | nil => cases h
  | cons x t ih =>
    obtain ⟨p, n⟩ := x
    have lift : (∃ p c m, (p, Node.file c m) ∈ t ∧ s = ⟨posix p, c, m⟩) →
        ∃ q c m, (q, Node.file c m) ∈ (p, n) :: t ∧ s = ⟨posix q, c, m⟩ :=
      fun ⟨q, c, m, h, e⟩ => ⟨q, c, m, List.mem_cons_of_mem _ h, e⟩
    cases n with
    | dir => exact lift (ih h)
    | file c m =>
      rw [imageFiles] at h
      split at h
      · exact lift (ih h)
      · rcases List.mem_cons.1 h with h | h
        · exact ⟨p, c, m, List.mem_cons_self .., h⟩
        · exact lift (ih h)

theorem Spec.Sound.fileSet {t : Tree} (h : Sound t) : FileSet (imageFiles t) := by
  refine ⟨?_, ?_, ?_, ?_⟩
  · induction t with
    | nil => simp [imageFiles]
    | cons x t ih =>
      obtain ⟨p, n⟩ := x
      have ih := ih (h.sublist (List.sublist_cons_self ..))
      cases n with
      | dir => exact ih
      | file c m =>
        rw [imageFiles]
        split
        · exact ih
        · rw [List.map_cons, List.nodup_cons]
          refine ⟨?_, ih⟩
          intro hm
          obtain ⟨s, hs, e⟩ := List.mem_map.1 hm
          obtain ⟨q, c', m', hq, rfl⟩ := mem_imageFiles hs
          have hq' := List.mem_cons_of_mem (p, Node.file c m) hq
          have hp' : (p, Node.file c m) ∈ (p, Node.file c m) :: t := List.mem_cons_self ..
          have := posix_inj (h.named _ hq') (h.named _ hp') (h.names _ hq') (h.names _ hp') e
          have hnd := h.nodup
          rw [List.map_cons, List.nodup_cons] at hnd
          exact hnd.1 (List.mem_map.2 ⟨_, hq, this⟩)
  all_goals
    intro s hs
    obtain ⟨p, c, m, hp, rfl⟩ := mem_imageFiles hs
    have := posix_good (h.named _ hp) (h.names _ hp)
  · exact this.1
  · exact this.2.1
  · exact this.2.2

theorem image_of_at {t : Tree} {p : FsPath} {c m} (h : t.at p = some (.file c m))
    (h1 : p.getLastD [] ≠ bs ".DS_Store") (h2 : p.getLastD [] ≠ bs ".git") : ⟨posix p, c, m⟩ ∈ imageFiles t := by
  induction t with
  | nil => cases h
  | cons x t ih =>
    obtain ⟨q, n⟩ := x
    by_cases hq : q = p
    · subst hq
      have hn : n = .file c m := by simpa [Tree.at] using h
      subst hn
      rw [imageFiles, if_neg (by simp only [not_or]; exact ⟨h1, h2⟩)]
      exact List.mem_cons_self ..
    · have h' : Tree.at t p = some (.file c m) := by
        rw [← h]; unfold Tree.at; rw [List.find?_cons_of_neg (by simpa using hq)]
      cases n with
      | dir => exact ih h'
      | file c' m' =>
        rw [imageFiles]
        split
        · exact ih h'
        · exact List.mem_cons_of_mem _ (ih h')

theorem Spec.Tidy.sound {src : Tree} (h : Tidy src) : Sound src := ⟨h.nodup, h.named, h.names⟩

theorem Spec.Prepared.sound {w : Tools} {src data : Tree} (h : Prepared w src data) : Sound data := by
  induction h with
  | first ht h =>
    have h0 : Sound [] := ⟨List.nodup_nil, (by intro x hx; cases hx), (by intro x hx; cases hx)⟩
    exact ht.sound.prepare h0 h
  | next hp ht hd h ih => exact ht.sound.prepare ih h

namespace Spec

/-- What a client receives when asking for a page: the answer is a file of the image, and all of it is the text. -/
def Receives (d : Device) (b : Build) (e : Env) (r : Req) (fs : Erfs) (text : Str) : Prop :=
  ∃ p, d.handle b e r = .ok (d, [.stream p]) ∧ ∀ buf32 ops, buf32.length = 260 → Whole text.length ops →
    fs.sent p buf32 ops = .ok (some text)

end Spec

namespace Spec

/-- An image that the device can read, made of a folder: the names are short enough, and 63 bytes follow the names
(`c80_refuted`). -/
structure FolderFits (data : Tree) (size o : Nat) : Prop where
  small : size < 2147483648
  short : ∀ p c m, (p, Node.file c m) ∈ data → (posix p).length ≤ 63
  room : 63 ≤ ((imageFiles data).map (·.data.length)).sum + (size - o)

end Spec

theorem Spec.FolderFits.usable {data : Tree} {size o : Nat} (h : FolderFits data size o) (hs : Sound data) :
    Usable (imageFiles data) size o := by
  refine ⟨h.small, hs.fileSet, ?_, h.room⟩
  intro s hs
  obtain ⟨p, c, m, hp, rfl⟩ := mem_imageFiles hs
  exact h.short p c m hp

/-- **C87 (partial), full access.** After any number of preparations, the image made of the data folder and mounted
by a device gives to a client with full access the page `index.html` of the sources as it is now, minified and
compressed.

Partial: changed sources are newer than what was prepared (`c86_refuted_date`), the image can be read by the device
(`c80_refuted`). -/
theorem c87_full_partial {w : Tools} {src data : Tree} (hp : Prepared w src data) {size o k : Nat} {img : Str}
    (hi : create (imageFiles data) size = .image o k img) (hf : FolderFits data size o)
    {e : Env} {d : Device} {b : Build} {r : Req} (hr : r.uri = bs "/") (hc : Client d.nv.config r .full)
    {page : Str} {m : Nat} (hs : ([bs "index.html"], Node.file page m) ∈ src) :
    ∃ fs, Erfs.begin img = .ok (true, fs) ∧
      (OnImage e fs → Receives d b e r fs (w.gzip ((w.minify page).getD []))) := by
  obtain ⟨n, hd⟩ := c86_follows_partial hp hs
  rw [show destOf [bs "index.html"] = [bs "index.html.gz"] by decide +kernel,
    show kindOf (List.getLastD [bs "index.html"] []) = .page by decide +kernel] at hd
  have hm := image_of_at hd (by decide +kernel) (by decide +kernel)
  obtain ⟨fs, h1, h2⟩ := c80_home_partial hi (hf.usable hp.sound) (e := e) (b := b) hr hc (by decide)
  exact ⟨fs, h1, fun he => h2 he _ (.compressed hm (show bs "index.html.gz" = _ by decide +kernel))⟩

/-- **C87 (partial), restricted access.** A client with restricted access gets, minified and compressed, the texts
of the page `index.html` of the sources that are not in a private part, and nothing of the private parts.

Partial: as `c87_full_partial`; the page has the mark of the restricted pages (`c87_refuted`). -/
theorem c87_restricted_partial {w : Tools} {src data : Tree} (hp : Prepared w src data) {size o k : Nat} {img : Str}
    (hi : create (imageFiles data) size = .image o k img) (hf : FolderFits data size o)
    {e : Env} {d : Device} {b : Build} {r : Req} (hr : r.uri = bs "/") (hc : Client d.nv.config r .restricted)
    {l : List (Str × Str)} {last : Str} {m : Nat} (hs : ([bs "index.html"], Node.file (pageText l last) m) ∈ src)
    (hm : bs "<!--MAKE_RESTRICT-->" <:+: pageText l last)
    (h1 : ∀ p ∈ l, ¬ bs "<!--RESTRICT_ON-->" <:+: p.1) (h2 : ∀ p ∈ l, ¬ bs "<!--RESTRICT_OFF-->" <:+: p.2)
    (h3 : ∀ a b, last = a ++ (bs "<!--RESTRICT_ON-->" ++ b) → ¬ bs "<!--RESTRICT_OFF-->" <:+: b) :
    ∃ fs, Erfs.begin img = .ok (true, fs) ∧
      (OnImage e fs → Receives d b e r fs (w.gzip ((w.minify (shownText l last)).getD []))) := by
  have hk := c79_sections ((hasText_infix ..).2 hm) h1 h2 h3
  obtain ⟨n, hd⟩ := c86_restricted_partial hp hs (by decide +kernel) (by decide +kernel) hk
  rw [show restrictedOf [bs "index.html"] = [bs "index.restrict.html.gz"] by decide +kernel] at hd
  have hm := image_of_at hd (by decide +kernel) (by decide +kernel)
  obtain ⟨fs, g1, g2⟩ := c80_home_partial hi (hf.usable hp.sound) (e := e) (b := b) hr hc (by decide)
  exact ⟨fs, g1, fun he => g2 he _ (.compressed hm (show bs "index.restrict.html.gz" = _ by decide +kernel))⟩

/-- **C87 (partial), version.** `/version` gives the version of the last preparation. -/
theorem c87_version_partial {w : Tools} {now v} {src old data : Tree} (ht : Tidy src) (ho : Sound old)
    (hp : prepare w now v src old = some data) {size o k : Nat} {img : Str}
    (hi : create (imageFiles data) size = .image o k img) (hf : FolderFits data size o)
    {e : Env} {d : Device} {b : Build} {r : Req} (hr : r.uri = bs "/version") :
    ∃ fs, Erfs.begin img = .ok (true, fs) ∧ (OnImage e fs → Receives d b e r fs v) := by
  obtain ⟨t, -, h2⟩ := Option.bind_eq_some_iff.1 hp
  have hd := at_write h2 [bs "version"]
  rw [if_pos rfl] at hd
  exact c80_version_partial hi (hf.usable (ht.sound.prepare ho hp)) hr
    (image_of_at hd (by decide +kernel) (by decide +kernel)) rfl

/-! ## Cases -/

/-- The image of the first preparation of `sampleSrc`. -/
def chainImage : Str := truncate ((pyWrite (imageFiles sampleData)).getD []) 650

theorem chain_image : create (imageFiles sampleData) 650 = .image 572 572 chainImage := by decide +kernel

/-- `FolderFits`, computed. -/
def fitsCheck (data : Tree) (size o : Nat) : Bool :=
  decide (size < 2147483648) && data.all (fun x => decide ((posix x.1).length ≤ 63)) &&
    decide (63 ≤ ((imageFiles data).map (·.data.length)).sum + (size - o))

theorem fits_of {data : Tree} {size o : Nat} (h : fitsCheck data size o = true) : FolderFits data size o := by
  unfold fitsCheck at h
  rw [Bool.and_eq_true, Bool.and_eq_true, decide_eq_true_eq, decide_eq_true_eq] at h
  refine ⟨h.1.1, ?_, h.2⟩
  intro p c m hp
  simpa using List.all_eq_true.1 h.1.2 _ hp

theorem chain_fits : FolderFits sampleData 650 572 := fits_of (by decide +kernel)

-- `c87_full_partial` and `c87_restricted_partial` on the sample.
example : Prepared sampleTools sampleSrc sampleData ∧
    create (imageFiles sampleData) 650 = .image 572 572 chainImage ∧ FolderFits sampleData 650 572 ∧
    ([bs "index.html"], Node.file (pageText [(bs "<!--MAKE_RESTRICT-->a", bs "secret")] (bs "b")) 5) ∈ sampleSrc ∧
    shownText [(bs "<!--MAKE_RESTRICT-->a", bs "secret")] (bs "b") = bs "<!--MAKE_RESTRICT-->ab" :=
  ⟨sample_prepared, chain_image, chain_fits, by decide +kernel, by decide +kernel⟩

/-- The data folder after the second preparation. -/
def chainData2 : Tree := (prepare sampleTools (fun _ => 30) (bs "1.1") sampleSrc2 sampleData).getD []

/-- **C87** as stated is false: when the page loses its mark, the clients with restricted access still get the
restricted version of the page of before. -/
theorem c87_refuted : ∃ img fs, Prepared sampleTools sampleSrc2 chainData2 ∧
    (∀ c m, ([bs "index.html"], Node.file c m) ∈ sampleSrc2 → c = bs "new") ∧
    create (imageFiles chainData2) 650 = .image 512 512 img ∧ Erfs.begin img = .ok (true, fs) ∧
    ∀ (e : Env) (d : Device) (b : Build) (r : Req), OnImage e fs → r.uri = bs "/" →
      Client d.nv.config r .restricted → Receives d b e r fs (bs "zm<!--MAKE_RESTRICT-->ab") := by
  have hp : Prepared sampleTools sampleSrc2 chainData2 := by
    obtain ⟨data, h1, h2⟩ := sample_second
    rwa [chainData2, h1]
  have hi : create (imageFiles chainData2) 650 =
      .image 512 512 (truncate ((pyWrite (imageFiles chainData2)).getD []) 650) := by decide +kernel
  have hf : FolderFits chainData2 650 512 := fits_of (by decide +kernel)
  have hu := hf.usable hp.sound
  have hm := (image_is hi).1.mount (by have := hu.small; omega)
  refine ⟨_, _, hp, ?_, hi, hm, ?_⟩
  · have : (sampleSrc2.all fun x => match x.2 with
        | .file c _ => decide (x.1 = [bs "index.html"] → c = bs "new")
        | .dir => true) = true := by decide +kernel
    intro c m hc
    simpa using List.all_eq_true.1 this _ hc
  · intro e d b r he hr hc
    obtain ⟨fs, h1, h2⟩ := c80_home_partial hi hu (e := e) (b := b) hr hc (by decide)
    cases mounted_unique hm h1
    have hd : chainData2.at [bs "index.restrict.html.gz"] = some (.file (bs "zm<!--MAKE_RESTRICT-->ab") 10) := by
      decide +kernel
    exact h2 he _ (.compressed (image_of_at hd (by decide +kernel) (by decide +kernel))
      (show bs "index.restrict.html.gz" = _ by decide +kernel))

end Wifinfo
