import Verif.Model.Static
import Verif.Props.Chain

/-!
# C104: the files of the page reach the browser
-/

namespace Wifinfo
open Spec

namespace Spec

/-- The static handlers work on the same file system as the rest. -/
def StaticOn (e : Env) : Prop := ∀ u, e.static u = serveStatic e.fileExists u

/-- A file that everybody may have: in the folders of the fonts, scripts and style sheets, or the icon. -/
inductive PublicFile : FsPath → Prop
  | folder {f : Str} {r : FsPath} : f ∈ [bs "fonts", bs "js", bs "css"] → r ≠ [] → PublicFile (f :: r)
  | icon : PublicFile [bs "favicon.ico"]

end Spec

theorem route_static (cpu : Bool) (st : Str → Option Str) {u : Str}
    (h : u.take 4 ∈ [bs "/fon", bs "/js/", bs "/css", bs "/fav"]) :
    route cpu st .get u = match st u with
      | some p => .static p
      | none => .notFound := by
  have ne : ∀ f : Str, f.take 4 ∉ [bs "/fon", bs "/js/", bs "/css", bs "/fav"] → u ≠ f := by
    intro f hf e
    exact hf (e ▸ h)
  unfold route
  rw [if_neg (fun h => h.elim (ne _ (by decide +kernel)) (ne _ (by decide +kernel))),
    if_neg (fun h => ne _ (by decide +kernel) h.2)]
  iterate 10 rw [if_neg (ne _ (by decide +kernel))]
  rw [if_neg (fun h => ne _ (by decide +kernel) h.1), if_neg (fun h => ne _ (by decide +kernel) h.1),
    if_neg (fun h => ne _ (by decide +kernel) h.1), if_neg (ne _ (by decide +kernel)), if_neg (ne _ (by decide +kernel)),
    if_pos rfl]
  cases st u <;> rfl

theorem posix_cons {f : Str} {r : FsPath} (h : r ≠ []) : posix (f :: r) = f ++ 47 :: posix r := by
  cases r with
  | nil => exact absurd rfl h
  | cons => rfl

theorem posix_head {p : FsPath} (h : PublicFile p) : (47 :: posix p).take 4 ∈ [bs "/fon", bs "/js/", bs "/css", bs "/fav"] := by
  cases h with
  | folder hf hr =>
    rw [posix_cons hr]
    simp only [List.mem_cons, List.not_mem_nil, or_false] at hf
    rcases hf with rfl | rfl | rfl
    · exact List.mem_of_getElem? (i := 0) rfl
    · exact List.mem_of_getElem? (i := 1) rfl
    · exact List.mem_of_getElem? (i := 2) rfl
  | icon => decide +kernel

/-! ## The folders of the data folder -/

namespace Spec

/-- What is above a path that is there is a folder. -/
def FolderTree (t : Tree) : Prop := ∀ q, t.has q = true → ∀ r, r ≠ [] → r ≠ q → r <+: q → t.at r = some .dir

end Spec

theorem has_at {t : Tree} {p : FsPath} : t.has p = true ↔ t.at p ≠ none := by
  unfold Tree.has
  cases t.at p <;> simp

theorem Spec.FolderTree.put {t : Tree} (h : FolderTree t) {p : FsPath} {n : Node} (hp : t.at p ≠ some .dir ∨ n = .dir)
    (ha : ∀ r, r ≠ [] → r ≠ p → r <+: p → t.at r = some .dir) : FolderTree (t.put p n) := by
  intro q hq r h0 h1 h2
  rw [has_at, at_put] at hq
  rw [at_put]
  by_cases hqp : q = p
  · subst hqp
    rw [if_neg h1]; exact ha r h0 h1 h2
  · rw [if_neg hqp] at hq
    have := h q (has_at.2 hq) r h0 h1 h2
    split
    · rename_i e
      rcases hp with hp | rfl
      · exact absurd (e ▸ this) hp
      · rfl
    · exact this

theorem Spec.FolderTree.write {t t' : Tree} (h : FolderTree t) {p : FsPath} {c m} (hw : t.write p c m = some t')
    (ha : ∀ r, r ≠ [] → r ≠ p → r <+: p → t.at r = some .dir) : FolderTree t' := by
  unfold Tree.write at hw
  split at hw
  · cases hw
  · rename_i hd
    rw [← Option.some.inj hw]
    exact h.put (.inl hd) ha

theorem Spec.FolderTree.mkdirs : ∀ (p : FsPath) {t t' : Tree} {done : FsPath}, FolderTree t →
    (∀ r, r ≠ [] → r <+: done → t.at r = some .dir) → t.mkdirs done p = some t' →
    FolderTree t' ∧ ∀ r, r ≠ [] → r <+: done ++ p → t'.at r = some .dir := by
  intro p
  induction p with
  | nil => intro t t' done h hd hm; rw [← Option.some.inj hm, List.append_nil]; exact ⟨h, hd⟩
  | cons a l ih =>
    intro t t' done h hd hm
    have e : done ++ a :: l = (done ++ [a]) ++ l := by simp
    rw [e]
    unfold Tree.mkdirs at hm
    split at hm
    · rename_i ha
      refine ih h ?_ hm
      intro r h0 hr
      rcases List.prefix_concat_iff.1 hr with rfl | hr
      · exact ha
      · exact hd r h0 hr
    · cases hm
    · rename_i ha
      refine ih (h.put (.inr rfl) ?_) ?_ hm
      · intro r h0 h1 hr
        rcases List.prefix_concat_iff.1 hr with hr | hr
        · exact absurd hr h1
        · exact hd r h0 hr
      · intro r h0 hr
        rw [at_put]
        split
        · rfl
        · rename_i h1
          rcases List.prefix_concat_iff.1 hr with hr | hr
          · exact absurd hr h1
          · exact hd r h0 hr

theorem Spec.FolderTree.clean {src t : Tree} (h : FolderTree t) : FolderTree (clean src t) := by
  intro q hq r h0 h1 h2
  rw [has_at] at hq
  unfold Wifinfo.clean at hq ⊢
  rw [foldl_remove] at hq ⊢
  split at hq
  · exact absurd rfl hq
  · rename_i hn
    rw [if_neg (fun ⟨x, hx, hp⟩ => hn ⟨x, hx, hp.trans h2⟩)]
    exact h q (has_at.2 hq) r h0 h1 h2

theorem Spec.FolderTree.prepOne {w : Tools} {now p c m} {d d' : Tree} (h : FolderTree d) (hp : p ≠ [])
    (h1 : prepOne w now p c m d = some d') : FolderTree d' := by
  have hpp : p = p.dropLast ++ [p.getLastD []] := by
    have := List.dropLast_concat_getLast hp
    rw [List.getLastD_eq_getLast?, List.getLast?_eq_some_getLast hp]
    simpa using this.symm
  rcases prepOne_cases hp h1 with ⟨-, rfl⟩ | ⟨-, d1, e1, h2⟩
  · exact h
  obtain ⟨c1, f1⟩ := FolderTree.mkdirs _ h (by intro r h0 hr; exact absurd (List.prefix_nil.1 hr) h0) e1
  rw [List.nil_append] at f1
  have below : ∀ (t : Tree), (∀ r, r ≠ [] → r <+: p.dropLast → t.at r = some .dir) → ∀ (x : Str) (r : FsPath), r ≠ [] →
      r ≠ p.dropLast ++ [x] → r <+: p.dropLast ++ [x] → t.at r = some .dir := by
    intro t f x r h0 h1 hr
    rcases List.prefix_concat_iff.1 hr with hr | hr
    · exact absurd hr h1
    · exact f r h0 hr
  rcases h2 with ⟨-, ⟨hd, h⟩ | ⟨-, h⟩⟩ | ⟨hk, d2, e2, h⟩
  · refine c1.write h ?_
    intro r h0 h1 hr
    rcases List.prefix_concat_iff.1 hr with hr | hr
    · exact absurd hr h1
    by_cases hrp : r = p
    · rw [hrp]; exact hd
    rw [hpp] at hr hrp
    exact below d1 f1 _ r h0 hrp hr
  · rw [hpp] at h
    exact c1.write h (below d1 f1 _)
  · rw [destOf_other hk] at e2
    have c2 := c1.write e2 (below d1 f1 _)
    rcases h with ⟨-, r, -, h⟩ | ⟨-, rfl⟩
    · refine c2.write h (below d2 ?_ _)
      intro x h0 hr
      rw [at_write e2, if_neg]
      · exact f1 x h0 hr
      · intro e
        have := hr.length_le
        rw [e, List.length_append, List.length_singleton] at this
        omega
    · exact c2

theorem Spec.FolderTree.prepAll {w : Tools} {now} : ∀ (l : Tree) {d d' : Tree}, FolderTree d → (∀ x ∈ l, x.1 ≠ []) →
    prepAll w now l d = some d' → FolderTree d' := by
  intro l
  induction l with
  | nil => intro d d' h _ h1; rw [← Option.some.inj h1]; exact h
  | cons x l ih =>
    intro d d' h hp h1
    obtain ⟨p, n⟩ := x
    have hp' := fun y hy => hp y (List.mem_cons_of_mem _ hy)
    cases n with
    | dir => exact ih h hp' h1
    | file c m =>
      obtain ⟨d1, g1, g2⟩ := Option.bind_eq_some_iff.1 h1
      exact ih (h.prepOne (hp _ (List.mem_cons_self ..)) g1) hp' g2

theorem Spec.FolderTree.prepare {w : Tools} {now v} {src data data' : Tree} (hs : Tidy src) (hd : FolderTree data)
    (h : prepare w now v src data = some data') : FolderTree data' := by
  obtain ⟨d1, g1, g2⟩ := Option.bind_eq_some_iff.1 h
  refine (hd.clean.prepAll src hs.named g1).write g2 ?_
  intro r h0 h1 hr
  rcases List.prefix_concat_iff.1 (show r <+: [] ++ [bs "version"] from hr) with hr | hr
  · exact absurd hr h1
  · exact absurd (List.prefix_nil.1 hr) h0

theorem Spec.Prepared.closed {w : Tools} {src data : Tree} (h : Prepared w src data) : FolderTree data := by
  induction h with
  | first ht h => exact FolderTree.prepare ht (by intro q hq; cases hq) h
  | next _ ht _ h ih => exact FolderTree.prepare ht ih h

/-! ## No page and no script is left as it is -/

theorem ends_z {n : Str} (hn : n.getLast? = some 122) {e : String} (he : (bs e).getLast? ≠ some 122) (h0 : bs e ≠ []) :
    ends n e = false := by
  unfold ends
  rw [Bool.and_eq_false_iff]
  right
  cases h : (bs e).isSuffixOf n with
  | false => rfl
  | true =>
    exfalso
    obtain ⟨t, ht⟩ := List.isSuffixOf_iff_suffix.1 h
    rw [← ht, List.getLast?_append] at hn
    cases hx : (bs e).getLast? with
    | none => exact h0 (List.getLast?_eq_none_iff.1 hx)
    | some b => rw [hx] at hn he; exact he hn

theorem kind_z {n : Str} (hn : n.getLast? = some 122) : kindOf n = .plain := by
  unfold kindOf
  rw [ends_z hn (by decide) (by decide), ends_z hn (by decide) (by decide), ends_z hn (by decide) (by decide),
    ends_z hn (by decide) (by decide), ends_z hn (by decide) (by decide)]
  simp

theorem last_gz (a : Str) : (a ++ bs ".gz").getLast? = some 122 := by
  rw [List.getLast?_append, show (bs ".gz").getLast? = some 122 from by decide]
  rfl

theorem kind_gz (a : Str) : kindOf (a ++ bs ".gz") = .plain := kind_z (last_gz a)

theorem getLastD_concat (l : FsPath) (x : Str) : (l ++ [x]).getLastD [] = x := by
  simp [List.getLastD_eq_getLast?]

theorem mayWrite_kind {q x : FsPath} {c : Str} (h : x ∈ mayWrite q c) : kindOf (x.getLastD []) = .plain := by
  unfold mayWrite at h
  rcases List.mem_cons.1 h with rfl | h
  · unfold place
    split
    · rename_i hk; rw [getLastD_concat]; exact hk
    · rw [getLastD_concat]; exact kind_gz _
  · rcases List.mem_append.1 h with h | h
    · split at h
      · rw [List.mem_singleton.1 h]
        unfold restrictedPlace restrictName
        rw [getLastD_concat, ← List.append_assoc, ← List.append_assoc]
        exact kind_gz _
      · cases h
    · split at h
      · rename_i hk
        rw [List.mem_singleton.1 h, getLastD_concat]; exact hk
      · cases h

theorem prepared_kind {w : Tools} {src data : Tree} (h : Prepared w src data) {x : FsPath} {k n}
    (hx : data.at x = some (.file k n)) : kindOf (x.getLastD []) = .plain := by
  have one : ∀ {now v} {src data data' : Tree}, Tidy src → prepare w now v src data = some data' →
      data'.at x = some (.file k n) → kindOf (x.getLastD []) = .plain ∨ data.at x = some (.file k n) := by
    intro now v src data data' ht h hx
    rcases c86_nothing_else ht h hx with rfl | ⟨q, c, m, -, h⟩ | ⟨h, -⟩
    · left; decide +kernel
    · exact .inl (mayWrite_kind h)
    · exact .inr h
  induction h with
  | first ht h => exact (one ht h hx).elim id (fun h => by cases h)
  | next _ ht _ h ih => exact (one ht h hx).elim id ih

/-! ## From the sources to the browser -/

theorem posix_concat : ∀ (l : FsPath) (x y : Str), posix (l ++ [x ++ y]) = posix (l ++ [x]) ++ y := by
  intro l x y
  induction l with
  | nil => rfl
  | cons a l ih =>
    rw [List.cons_append, List.cons_append, posix_cons (by simp), posix_cons (by simp), ih]
    simp

theorem posix_last : ∀ (l : FsPath) (x : Str), x ≠ [] → (posix (l ++ [x])).getLast? = x.getLast? := by
  intro l x hx
  have := posix_concat l [] x
  rw [List.nil_append] at this
  rw [this, List.getLast?_append]
  cases h : x.getLast? with
  | none => exact absurd (List.getLast?_eq_none_iff.1 h) hx
  | some b => rfl

/-- The files of the image, by the paths of the data folder. -/
theorem image_exists {data : Tree} (hs : Sound data) {part : Str} (h : Carries (imageFiles data) part) {e : Env}
    (he : OnImage e ⟨part, (imageFiles data).length⟩) {p : FsPath} (hp : p ≠ []) (hn : ∀ n ∈ p, GoodName n) :
    ((∀ c m, data.at p ≠ some (.file c m)) → e.fileExists (47 :: posix p) = false) := by
  intro ha
  refine file_absent h he (posix_good hp hn).2.1 ?_
  intro f hf hfe
  obtain ⟨q, c, m, hq, rfl⟩ := mem_imageFiles hf
  have := posix_inj (hs.named _ hq) hp (hs.names _ hq) hn hfe
  subst this
  refine ha c m ?_
  unfold Tree.at
  cases hf : List.find? (fun x => decide (x.1 = q)) data with
  | none =>
    exact absurd (List.find?_eq_none.1 hf _ hq) (by simp)
  | some y =>
    have h1 := List.mem_of_find?_eq_some hf
    have h2 : y.1 = q := by simpa using List.find?_some hf
    have : y = (q, .file c m) := by
      obtain ⟨i, hi, rfl⟩ := List.getElem_of_mem h1
      obtain ⟨j, hj, ej⟩ := List.getElem_of_mem hq
      have hij := (List.nodup_iff_pairwise_ne.1 hs.nodup)
      have := (List.getElem_inj (h₀ := by simpa using hi) (h₁ := by simpa using hj) hs.nodup (i := i) (j := j)).1
        (by rw [List.getElem_map, List.getElem_map, ej]; exact h2)
      subst this
      exact ej
    rw [this]; rfl

theorem static_folder {fe : Str → Bool} {f : Str} {r : FsPath} (hf : f ∈ [bs "fonts", bs "js", bs "css"]) (hr : r ≠ [])
    (hd : fe (47 :: f) = false) (hl : (posix (f :: r)).getLast? ≠ some 47) :
    serveStatic fe (47 :: posix (f :: r)) =
      if (bs ".gz").isSuffixOf (47 :: posix (f :: r)) = false ∧ fe (47 :: posix (f :: r)) = false ∧
          fe (47 :: posix (f :: r) ++ bs ".gz") = true then some (47 :: posix (f :: r) ++ bs ".gz")
      else if fe (47 :: posix (f :: r)) then some (47 :: posix (f :: r)) else none := by
  have one : ∀ f : Str, fe (47 :: f) = false → (posix (f :: r)).getLast? ≠ some 47 →
      canServe fe (47 :: f, 47 :: f) (47 :: posix (f :: r)) = true ∧
      serveOne fe (47 :: f, 47 :: f) (47 :: posix (f :: r)) =
        if (bs ".gz").isSuffixOf (47 :: posix (f :: r)) = false ∧ fe (47 :: posix (f :: r)) = false ∧
            fe (47 :: posix (f :: r) ++ bs ".gz") = true then some (47 :: posix (f :: r) ++ bs ".gz")
        else if fe (47 :: posix (f :: r)) then some (47 :: posix (f :: r)) else none := by
    intro f hd hl
    have e : 47 :: posix (f :: r) = (47 :: f) ++ 47 :: posix r := by rw [posix_cons hr]; rfl
    have hl' : (47 :: posix (f :: r)).getLast? ≠ some 47 := by
      rw [List.getLast?_cons]
      intro h
      cases hx : (posix (f :: r)).getLast? with
      | none =>
        rw [List.getLast?_eq_none_iff, posix_cons hr] at hx
        simp at hx
      | some b => rw [hx] at h hl; exact hl h
    constructor
    · unfold canServe
      rw [hd, e]
      simp
    · unfold serveOne
      rw [hd]
      simp only [Bool.false_eq_true, if_false, if_neg hl']
      have e2 : (47 :: f : Str) ++ (47 :: posix (f :: r)).drop (47 :: f : Str).length = 47 :: posix (f :: r) := by
        rw [e, List.drop_left]
      rw [e2]
      split
      · rename_i h; rw [if_pos h.2.2]
      · rfl
  obtain ⟨h1, h2⟩ := one f hd hl
  rw [← h2]
  have skip : ∀ x : Str, x ≠ 47 :: posix (f :: r) → x.isPrefixOf (47 :: posix (f :: r)) = false →
      canServe fe (x, x) (47 :: posix (f :: r)) = false := by
    intro x g1 g2
    unfold canServe
    rw [g2]
    split
    · exact decide_eq_false (Ne.symm g1)
    · rfl
  have ne : ∀ x : Str, x.isPrefixOf (47 :: posix (f :: r)) = false → x ≠ 47 :: posix (f :: r) := by
    intro x h e
    rw [← e, List.isPrefixOf_iff_prefix.2 (List.prefix_refl x)] at h
    cases h
  have skip' : ∀ x : Str, x.isPrefixOf (47 :: posix (f :: r)) = false →
      canServe fe (x, x) (47 :: posix (f :: r)) = false := fun x h => skip x (ne x h) h
  unfold serveStatic staticPaths
  rw [posix_cons hr] at *
  simp only [List.mem_cons, List.not_mem_nil, or_false] at hf
  rcases hf with rfl | rfl | rfl
  · rw [List.find?_cons_of_pos (a := (bs "/fonts", bs "/fonts")) (p := fun h => canServe fe h _) h1]; rfl
  · rw [List.find?_cons_of_neg (by rw [skip' _ rfl]; simp),
      List.find?_cons_of_pos (a := (bs "/js", bs "/js")) (p := fun h => canServe fe h _) h1]; rfl
  · rw [List.find?_cons_of_neg (by rw [skip' _ rfl]; simp), List.find?_cons_of_neg (by rw [skip' _ rfl]; simp),
      List.find?_cons_of_pos (a := (bs "/css", bs "/css")) (p := fun h => canServe fe h _) h1]; rfl

theorem static_icon {fe : Str → Bool} (h : fe (bs "/favicon.ico") = true) :
    serveStatic fe (bs "/favicon.ico") = some (bs "/favicon.ico") := by
  have skip : ∀ x : Str, x ≠ bs "/favicon.ico" → x.isPrefixOf (bs "/favicon.ico") = false →
      canServe fe (x, x) (bs "/favicon.ico") = false := by
    intro x g1 g2
    unfold canServe
    rw [g2]
    split
    · exact decide_eq_false (Ne.symm g1)
    · rfl
  unfold serveStatic staticPaths
  rw [List.find?_cons_of_neg (by rw [skip _ (by decide +kernel) (by decide +kernel)]; simp),
    List.find?_cons_of_neg (by rw [skip _ (by decide +kernel) (by decide +kernel)]; simp),
    List.find?_cons_of_neg (by rw [skip _ (by decide +kernel) (by decide +kernel)]; simp),
    List.find?_cons_of_pos (by unfold canServe; rw [h]; simp)]
  unfold serveOne
  simp only [Option.bind_some, h, if_true]

theorem public_given {w : Tools} {src data : Tree} (hp : Prepared w src data) {img : Str} (hc : Carries (imageFiles data) img)
    {e : Env} {d : Device} {b : Build} {r : Req} {p : FsPath} {c : Str} {m : Nat} (hs : (p, Node.file c m) ∈ src)
    (hpub : PublicFile p) (hx : p.getLastD [] ∉ [bs ".DS_Store", bs ".git"]) (hm : r.method = .get) (hr : r.uri = 47 :: posix p) :
    ∃ fs, Erfs.begin img = .ok (true, fs) ∧
      (OnImage e fs → StaticOn e → Receives d b e r fs (made w (kindOf (p.getLastD [])) c)) := by
  have hsound := hp.sound
  refine ⟨_, hc.mount, fun he hst => ?_⟩
  obtain ⟨n, hd⟩ := c86_follows_partial hp hs
  have hp0 : p ≠ [] := by cases hpub <;> simp
  have hpp : p = p.dropLast ++ [p.getLastD []] := by
    have := List.dropLast_concat_getLast hp0
    rw [List.getLastD_eq_getLast?, List.getLast?_eq_some_getLast hp0]
    simpa using this.symm
  have ht : Tidy src := by cases hp <;> assumption
  have hn := ht.names _ hs
  simp only [List.mem_cons, List.not_mem_nil, or_false, not_or] at hx
  have hlast : GoodName (p.getLastD []) := hn _ (by
    rw [List.getLastD_eq_getLast?, List.getLast?_eq_some_getLast hp0]; exact List.getLast_mem hp0)
  -- where it is in the image
  have hmem : ⟨posix (destOf p), made w (kindOf (p.getLastD [])) c, n⟩ ∈ imageFiles data := by
    refine image_of_at hd ?_ ?_ <;>
    · by_cases hk : kindOf (p.getLastD []) = .plain
      · rw [destOf_plain hp0 hk]; first | exact hx.1 | exact hx.2
      · rw [destOf_other hk, getLastD_concat]
        intro h
        have := congrArg List.getLast? h
        rw [last_gz] at this
        exact absurd this (by decide)
  obtain ⟨g1, g2⟩ := file_sent hc he hmem
  have key : serveStatic e.fileExists (47 :: posix p) = some (47 :: posix (destOf p)) := by
    cases hpub with
    | icon =>
      have hk : destOf [bs "favicon.ico"] = [bs "favicon.ico"] := by decide +kernel
      rw [hk] at g1 ⊢
      exact static_icon (fe := e.fileExists) g1
    | @folder f l hfold hl =>
      have hdir : e.fileExists (47 :: f) = false := by
        refine image_exists hsound hc he (p := [f]) (by simp) ?_ ?_
        · intro x hx
          exact hn x (by rw [List.mem_singleton.1 hx]; exact List.mem_cons_self ..)
        · intro c' m' h'
          have hpre : [f] <+: destOf (f :: l) := by
            unfold destOf
            rw [List.dropLast_cons_of_ne_nil hl]
            unfold place
            split <;> exact ⟨_, rfl⟩
          have hne : [f] ≠ destOf (f :: l) := by
            intro h
            have := congrArg List.length h
            unfold destOf place at this
            rw [List.dropLast_cons_of_ne_nil hl] at this
            split at this <;> simp at this
          have := hp.closed (destOf (f :: l)) (has_at.2 (by rw [hd]; simp)) [f] (by simp) hne hpre
          rw [this] at h'
          cases h'
      have hlast47 : (posix (f :: l)).getLast? ≠ some 47 := by
        rw [hpp, posix_last _ _ hlast.1]
        intro h
        exact hlast.2.2 (List.mem_of_getLast? h)
      rw [static_folder hfold hl hdir hlast47]
      by_cases hk : kindOf ((f :: l).getLastD []) = .plain
      · rw [destOf_plain hp0 hk] at g1 ⊢
        rw [if_neg (by rw [g1]; simp), if_pos g1]
      · have hdest : posix (destOf (f :: l)) = posix (f :: l) ++ bs ".gz" := by
          rw [destOf_other hk, posix_concat, ← hpp]
        rw [hdest] at g1 ⊢
        have habs : e.fileExists (47 :: posix (f :: l)) = false := by
          refine image_exists hsound hc he hp0 hn ?_
          intro c' m' h'
          exact hk (prepared_kind hp h')
        have hgz : (bs ".gz").isSuffixOf (47 :: posix (f :: l)) = false := by
          cases h : (bs ".gz").isSuffixOf (47 :: posix (f :: l)) with
          | false => rfl
          | true =>
            exfalso
            have hz : (47 :: posix (f :: l)).getLast? = some 122 := by
              obtain ⟨t, ht⟩ := List.isSuffixOf_iff_suffix.1 h
              rw [← ht, last_gz]
            refine hk (kind_z ?_)
            rw [← posix_last (f :: l).dropLast _ hlast.1, ← hpp, ← hz, List.getLast?_cons]
            cases hq : (posix (f :: l)).getLast? with
            | none =>
              rw [List.getLast?_eq_none_iff, posix_cons hl] at hq
              simp at hq
            | some b => rfl
        rw [if_pos ⟨hgz, habs, g1⟩]
        rfl
  refine ⟨47 :: posix (destOf p), ?_, g2⟩
  unfold Device.handle
  rw [hm, hr, route_static _ _ (posix_head hpub), hst, key]
  rfl

/-- **C104 (partial).** After any number of changes of the sources and preparations of the data folder, a device with the
image made of this folder gives to any client, with or without credentials, each font, script and style sheet of the sources
and the icon, at its own address and as it is now: compressed or copied, according to its kind.

Partial: changed sources are newer than what was prepared (`c86_refuted_date`), the image can be read by the device
(`c80_refuted`), and the files that the builder of images leaves out. -/
theorem c104_file_partial {w : Tools} {src data : Tree} (hp : Prepared w src data) {size o k : Nat} {img : Str}
    (hi : create (imageFiles data) size = .image o k img) (hf : FolderFits data size o)
    {e : Env} {d : Device} {b : Build} {r : Req} {p : FsPath} {c : Str} {m : Nat} (hs : (p, Node.file c m) ∈ src)
    (hpub : PublicFile p) (hx : p.getLastD [] ∉ [bs ".DS_Store", bs ".git"]) (hm : r.method = .get) (hr : r.uri = 47 :: posix p) :
    ∃ fs, Erfs.begin img = .ok (true, fs) ∧
      (OnImage e fs → StaticOn e → Receives d b e r fs (made w (kindOf (p.getLastD [])) c)) :=
  public_given hp (carries_image hi (hf.usable hp.sound)) hs hpub hx hm hr

/-! ## Nothing else is public -/

theorem static_only {fe : Str → Bool} {u p : Str} (h : serveStatic fe u = some p) :
    fe p = true ∧ ∃ f ∈ [bs "/fonts", bs "/js", bs "/css", bs "/favicon.ico"], f <+: p := by
  obtain ⟨x, hx, h⟩ := Option.bind_eq_some_iff.1 h
  have hm := List.mem_of_find?_eq_some hx
  have hf : x.2 ∈ [bs "/fonts", bs "/js", bs "/css", bs "/favicon.ico"] := by
    have : ∀ x ∈ staticPaths, x.2 ∈ [bs "/fonts", bs "/js", bs "/css", bs "/favicon.ico"] := by decide +kernel
    exact this x hm
  unfold serveOne at h
  split at h
  · rename_i he
    rw [← Option.some.inj h]
    exact ⟨he, _, hf, List.prefix_refl _⟩
  · simp only at h
    generalize (if u.getLast? = some 47 then u ++ bs "index.htm" else u) = v at h
    have hpre : ∀ q : Str, (q = x.2 ++ v.drop x.1.length ++ bs ".gz" ∨ q = x.2 ++ v.drop x.1.length) → x.2 <+: q := by
      rintro q (rfl | rfl)
      · rw [List.append_assoc]; exact List.prefix_append ..
      · exact List.prefix_append ..
    split at h
    · split at h
      · rename_i he
        rw [← Option.some.inj h]
        exact ⟨he, _, hf, hpre _ (.inl rfl)⟩
      · cases h
    · split at h
      · rename_i he
        rw [← Option.some.inj h]
        exact ⟨he, _, hf, hpre _ (.inr rfl)⟩
      · cases h

/-- **C104, nothing else.** On a device with a user name, a client without the right credentials gets no file but the version
and those whose path begins as the folders of the fonts, the scripts and the style sheets or as the icon: neither of the two
home pages.  (At most 255 arguments: `c41_refuted`.) -/
theorem c104_only {b : Build} {d : Device} {user pass : Str} (h : Protected d.nv.config user pass) {r : Req}
    (hr : r.creds user pass = false) (ha : r.args.length ≤ 255) {e : Env} (hst : StaticOn e) {d' l}
    (hh : d.handle b e r = .ok (d', l)) {p : Str} (hp : Eff.stream p ∈ l) :
    p = bs "/version" ∨ (e.fileExists p = true ∧ ∃ f ∈ [bs "/fonts", bs "/js", bs "/css", bs "/favicon.ico"], f <+: p) := by
  obtain ⟨l', h1, -, h2, -⟩ := c39_handlers_partial h h hr hr ha (e := e) (e' := e) (b := b) rfl
  rw [hh] at h1
  cases h1
  rcases h2 with rfl | h2
  · simp at hp
  · cases h2 with
    | heartbeat => simp at hp
    | version => left; simpa using hp
    | unknown => simp at hp
    | file hm hs =>
      right
      rw [Eff.stream.inj (List.mem_singleton.1 hp)]
      rw [hst] at hs
      exact static_only hs

/-! ## Cases -/

/-- There is such a server on any image. -/
theorem static_env (e : Env) (fs : Erfs) : ∃ e', OnImage e' fs ∧ StaticOn e' ∧ e'.sys = e.sys := by
  let fe : Str → Bool := fun p => match fs.open p with
    | .ok r => r.isSome
    | .error _ => false
  refine ⟨{ e with fileExists := fe, static := serveStatic fe }, ?_, fun _ => rfl, rfl⟩
  intro p r hr
  simp only [fe, hr]

-- The files of the sample: a script, a font that is copied, the icon.
example : Prepared sampleTools sampleSrc sampleData ∧
    create (imageFiles sampleData) 650 = .image 572 572 chainImage ∧ FolderFits sampleData 650 572 ∧
    ([bs "js", bs "wifinfo.js"], Node.file (bs "code") 6) ∈ sampleSrc ∧ PublicFile [bs "js", bs "wifinfo.js"] ∧
    47 :: posix [bs "js", bs "wifinfo.js"] = bs "/js/wifinfo.js" ∧
    made sampleTools (kindOf (bs "wifinfo.js")) (bs "code") = bs "zcode" ∧
    ([bs "fonts", bs "glyphicons.woff"], Node.file (bs "f1") 4) ∈ sampleSrc ∧ PublicFile [bs "fonts", bs "glyphicons.woff"] ∧
    made sampleTools (kindOf (bs "glyphicons.woff")) (bs "f1") = bs "f1" ∧
    ([bs "favicon.ico"], Node.file (bs "icon") 5) ∈ sampleSrc ∧ PublicFile [bs "favicon.ico"] :=
  ⟨sample_prepared, chain_image, chain_fits, by decide +kernel, .folder (by decide +kernel) (by simp), by decide +kernel,
    by decide +kernel, by decide +kernel, .folder (by decide +kernel) (by simp), by decide +kernel, by decide +kernel, .icon⟩

-- A page in a folder of scripts, and a file in no folder.
example : serveStatic (fun p => p = bs "/js/index.htm.gz") (bs "/js/") = some (bs "/js/index.htm.gz") ∧
    serveStatic (fun p => p = bs "/index.html.gz") (bs "/index.html") = none ∧
    serveStatic (fun p => p = bs "/js/a.js.gz") (bs "/js/a.js.gz") = some (bs "/js/a.js.gz") := by decide +kernel

/-- The handlers look at the beginning of the address, not at its folders: a file whose name begins with `js` is served
as well. -/
theorem c104_prefix : serveStatic (fun p => p = bs "/jsecret.txt") (bs "/jsecret.txt") = some (bs "/jsecret.txt") := by
  decide +kernel

end Wifinfo
