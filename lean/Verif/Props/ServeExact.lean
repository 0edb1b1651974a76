import Verif.Props.Serve
import Verif.Props.ErfsExact

/-!
# C80, exactly: what a client gets from any image
-/

namespace Wifinfo

namespace Spec

/-- The file that a name leads to in an image: the first one. -/
def Finds (l : List Src) (size : Nat) (p : Str) (s : Src) : Prop :=
  ∃ pre post, l = pre ++ s :: post ∧ LeadsTo l size p pre s ∧ ∀ a g b, pre = a ++ g :: b → ¬ LeadsTo l size p a g

/-- The name leads to no file. -/
def FindsNone (l : List Src) (size : Nat) (p : Str) : Prop := ∀ pre s post, l = pre ++ s :: post → ¬ LeadsTo l size p pre s

/-- What a page is made of on a device: the compressed file if its name leads to one, else the plain one. -/
inductive PageFound (l : List Src) (size : Nat) (page : Str) : Option Src → Prop
  | compressed {s} : Finds l size (page ++ bs ".gz") s → PageFound l size page (some s)
  | plain {s} : FindsNone l size (page ++ bs ".gz") → Finds l size page s → PageFound l size page (some s)
  | missing : FindsNone l size (page ++ bs ".gz") → FindsNone l size page → PageFound l size page none

end Spec
open Spec

/-- A name on a device with an image: whether it is there, and what is sent. -/
theorem found_sent {l : List Src} {size o w : Nat} {img : Str} (h : create l size = .image o w img) (hs : size < 2147483648)
    (hl : FileSet l) {e : Env} {fs : Erfs} (hb : Erfs.begin img = .ok (true, fs)) (he : OnImage e fs) {p : Str} (hp : NulFree p) (hne : p ≠ []) :
    (∃ s, Finds l size p s ∧ e.fileExists (47 :: p) = true ∧ ∀ buf32 ops, buf32.length = 260 → Whole s.data.length ops →
        fs.sent (47 :: p) buf32 ops = .ok (some s.data)) ∨
    (FindsNone l size p ∧ e.fileExists (47 :: p) = false ∧ ∀ buf32 ops, fs.sent (47 :: p) buf32 ops = .ok none) := by
  obtain ⟨fs', h1, h2⟩ := c44_exact l size o w img h hs hl (47 :: p) p
    (by intro b hb; exact (List.mem_cons.1 hb).elim (fun e => by rw [e]; decide) (hp b)) (.inr rfl) hne
  cases mounted_unique hb h1
  rcases h2 with ⟨pre, s, post, f, e1, e2, e3, e4, e5⟩ | ⟨e1, e2⟩
  · refine .inl ⟨s, ⟨pre, post, e1, e2, e3⟩, by rw [he _ _ e4]; rfl, fun buf32 ops hb ho => ?_⟩
    unfold Erfs.sent
    rw [e4]
    simp only [ok_bind]
    rw [e5.2.2.2 buf32 hb ops ho.valid]
    simp only [ok_bind]
    rw [reads_concat _ _ _ ho.read, List.drop_zero, List.take_of_length_le ho.all]
    rfl
  · refine .inr ⟨e1, by rw [he _ _ e2]; rfl, fun buf32 ops => ?_⟩
    unfold Erfs.sent
    rw [e2]
    rfl

theorem finds_unique {l : List Src} {size : Nat} {p : Str} {s s' : Src} (h : Finds l size p s) (h' : Finds l size p s') : s = s' := by
  obtain ⟨a, b, e1, e2, e3⟩ := h
  obtain ⟨a', b', e1', e2', e3'⟩ := h'
  rcases List.append_eq_append_iff.1 (e1.symm.trans e1') with ⟨c, h1, h2⟩ | ⟨c, h1, h2⟩
  · cases c with
    | nil => exact (List.cons.inj h2).1
    | cons x c =>
      obtain ⟨rfl, -⟩ := List.cons.inj h2
      exact absurd e2 (e3' a s c h1)
  · cases c with
    | nil => exact (List.cons.inj h2).1.symm
    | cons x c =>
      obtain ⟨rfl, -⟩ := List.cons.inj h2
      exact absurd e2' (e3 a' s' c h1)

/-- **C80, exactly.**  For every folder put in an image by the builder, names of any length and any room: a client with access who asks for the
home page gets the content, whole, of the first file that the name of the page leads to, compressed first, and the link to the update page
if there is none. -/
theorem c80_exact {l : List Src} {size o w : Nat} {img : Str} (h : create l size = .image o w img) (hs : size < 2147483648)
    (hl : FileSet l) {e : Env} {d : Device} {b : Build} {r : Req} {a : Access} (hr : r.uri = bs "/")
    (hc : Client d.nv.config r a) (ha : a ≠ .none) :
    ∃ fs x, Erfs.begin img = .ok (true, fs) ∧ PageFound l size (homePage a) x ∧ (∀ y, PageFound l size (homePage a) y → y = x) ∧
      (OnImage e fs → match x with
      | some s => ∃ p, d.handle b e r = .ok (d, [.stream p]) ∧ ∀ buf32 ops, buf32.length = 260 →
          Whole s.data.length ops → fs.sent p buf32 ops = .ok (some s.data)
      | none => d.handle b e r = .ok (d, noPage)) := by
  have hnf : NulFree (homePage a) ∧ NulFree (homePage a ++ bs ".gz") := by
    cases a <;> unfold NulFree <;> decide +kernel
  have hlast : (47 :: homePage a).getLast? ≠ some 47 := by cases a <;> decide +kernel
  have hne : homePage a ≠ [] ∧ homePage a ++ bs ".gz" ≠ [] := by cases a <;> decide +kernel
  have hb := (image_is h).1.mount (by omega)
  have onlyOne : ∀ {p s}, Finds l size p s → FindsNone l size p → False := by
    rintro p s ⟨a, b, e1, e2, -⟩ hn
    exact hn a s b e1 e2
  have uniq : ∀ {x y}, PageFound l size (homePage a) x → PageFound l size (homePage a) y → y = x := by
    intro x y hx hy
    cases hx with
    | compressed h1 => cases hy with
      | compressed h2 => rw [finds_unique h1 h2]
      | plain h2 _ => exact (onlyOne h1 h2).elim
      | missing h2 _ => exact (onlyOne h1 h2).elim
    | plain h0 h1 => cases hy with
      | compressed h2 => exact (onlyOne h2 h0).elim
      | plain _ h2 => rw [finds_unique h1 h2]
      | missing _ h2 => exact (onlyOne h1 h2).elim
    | missing h0 h1 => cases hy with
      | compressed h2 => exact (onlyOne h2 h0).elim
      | plain _ h2 => exact (onlyOne h2 h1).elim
      | missing _ _ => rfl
  have he0 : OnImage (imageEnv e ⟨img, l.length⟩) ⟨img, l.length⟩ := by
    intro path r h
    simp only [imageEnv, h]
    cases r <;> rfl
  have some_page : ∃ x, PageFound l size (homePage a) x := by
    rcases found_sent h hs hl hb he0 hnf.2 hne.2 with ⟨s, h1, -⟩ | ⟨h1, -⟩
    · exact ⟨_, .compressed h1⟩
    · rcases found_sent h hs hl hb he0 hnf.1 hne.1 with ⟨s, h2, -⟩ | ⟨h2, -⟩
      · exact ⟨_, .plain h1 h2⟩
      · exact ⟨_, .missing h1 h2⟩
  obtain ⟨x, hx⟩ := some_page
  refine ⟨_, x, hb, hx, fun y hy => uniq hx hy, fun he => ?_⟩
  rcases found_sent h hs hl hb he hnf.2 hne.2 with ⟨s, h1, h2, h3⟩ | ⟨h1, h2, -⟩
  · cases uniq (.compressed h1) hx
    refine ⟨47 :: (homePage a ++ bs ".gz"), home_root hr hc ha (x := some _) ?_, h3⟩
    unfold handleRead
    rw [if_neg hlast, List.cons_append, if_pos h2]
  · rcases found_sent h hs hl hb he hnf.1 hne.1 with ⟨s, h3, h4, h5⟩ | ⟨h3, h4, -⟩
    · cases uniq (.plain h1 h3) hx
      refine ⟨47 :: homePage a, home_root hr hc ha (x := some _) ?_, h5⟩
      unfold handleRead
      rw [if_neg hlast, List.cons_append, h2, h4]
      rfl
    · cases uniq (.missing h1 h3) hx
      refine home_root hr hc ha (x := none) ?_
      unfold handleRead
      rw [if_neg hlast, List.cons_append, h2, h4]
      rfl

/-- **C80, exactly**: `/version` gives everybody the content of the first file that the name leads to, and nothing if there is none. -/
theorem c80_version_exact {l : List Src} {size o w : Nat} {img : Str} (h : create l size = .image o w img) (hs : size < 2147483648)
    (hl : FileSet l) {e : Env} {d : Device} {b : Build} {r : Req} (hr : r.uri = bs "/version") :
    ∃ fs, Erfs.begin img = .ok (true, fs) ∧ d.handle b e r = .ok (d, [.stream (bs "/version")]) ∧
      ((∃ s, Finds l size (bs "version") s ∧ ∀ buf32 ops, buf32.length = 260 → Whole s.data.length ops →
          fs.sent (bs "/version") buf32 ops = .ok (some s.data)) ∨
       (FindsNone l size (bs "version") ∧ ∀ buf32 ops, fs.sent (bs "/version") buf32 ops = .ok none)) := by
  have hb := (image_is h).1.mount (by omega)
  have he0 : OnImage (imageEnv e ⟨img, l.length⟩) ⟨img, l.length⟩ := by
    intro path r h
    simp only [imageEnv, h]
    cases r <;> rfl
  refine ⟨_, hb, by unfold Device.handle; rw [hr, route_version]; rfl, ?_⟩
  have hv : bs "/version" = 47 :: bs "version" := by decide +kernel
  rw [hv]
  rcases found_sent h hs hl hb he0 (p := bs "version") (by unfold NulFree; decide +kernel) (by decide +kernel) with ⟨s, h1, -, h2⟩ | ⟨h1, -, h2⟩
  · exact .inl ⟨s, h1, h2⟩
  · exact .inr ⟨h1, h2⟩

/-- Where no name is longer than 63 bytes, a name leads to no other file than the one of this name. -/
theorem finds_short {l : List Src} {size : Nat} (hshort : ∀ f ∈ l, f.name.length ≤ 63) {p : Str} {s : Src} (hf : Finds l size p s) :
    s ∈ l ∧ s.name = p := by
  obtain ⟨pre, post, e1, e2, -⟩ := hf
  have hm : s ∈ l := by rw [e1]; simp
  have := e2.2.1
  rw [List.take_of_length_le (hshort s hm)] at this
  exact ⟨hm, this⟩

/-- In an image that is too small, the page of the folder is not the one that is found; with room, it is. -/
example : FindsNone [⟨bs "index.html.gz", [], 0⟩] 44 (homePage .full ++ bs ".gz") ∧
    Finds siteFiles 300 (homePage .full ++ bs ".gz") ⟨bs "index.html.gz", bs "<full>", 5⟩ := by
  constructor
  · rintro pre s post e ⟨hx, -⟩
    cases pre with
    | nil => exact absurd hx (by unfold Legible; decide +kernel)
    | cons x pre => simp at e
  · refine ⟨[], siteFiles.drop 1, by decide +kernel, ⟨by unfold Legible; decide +kernel, by decide +kernel, by decide +kernel⟩, ?_⟩
    intro a g b e
    simp at e

end Wifinfo
