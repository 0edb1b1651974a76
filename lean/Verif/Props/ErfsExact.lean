import Verif.Props.Erfs

/-!
# Exactly which files of an image can be opened and which names are listed (C44, C45, C48)
-/

namespace Wifinfo
open Spec

namespace Spec

/-- Where the name of the file that comes after `before` is in the image of `l`: after the header, the hashes, the records and the
names before it, each with its NUL and rounded up. -/
def nameAt (l before : List Src) : Nat :=
  8 + up4 (2 * l.length) + 16 * l.length + (before.map fun f => up4 (f.name.length + 1)).sum

/-- The 63 bytes from the beginning of its name are in the partition. -/
def Legible (l : List Src) (size : Nat) (before : List Src) : Prop := nameAt l before + 63 ≤ size

/-- The name `p` leads to the file `f` that comes after `before`: the first 63 bytes of its name are `p`, with the hash of
the whole name, and these 63 bytes can be read. -/
def LeadsTo (l : List Src) (size : Nat) (p : Str) (before : List Src) (f : Src) : Prop :=
  Legible l size before ∧ f.name.take 63 = p ∧ nameHash f.name = nameHash p

/-- The open file `f` is the source `s`: size, time, name up to 63 bytes, and any sequence of operations. -/
def IsSource (f : File) (s : Src) : Prop :=
  f.fat.len = s.data.length ∧ (f.fat.time : Int) = s.mtime ∧ cstrOf f.name = s.name.take 63 ∧
    ∀ buf32, buf32.length = 260 → ∀ ops, (∀ o ∈ ops, FileOp.Valid o) → f.run buf32 ops = .ok (fileRun s.data 0 ops)

end Spec

theorem nameAt_eq (l before : List Src) (f : Src) : (fatOf l before f).namePtr = nameAt l before := by
  simp only [fatOf, recOf, namesOff, fatOff, namesLen, nameAt, pyAlign_eq, up4]

theorem leads_iff (l : List Src) (size : Nat) (p : Str) (before : List Src) (f : Src) :
    Match l size p before f ↔ LeadsTo l size p before f := by
  rw [Match, nameAt_eq]; rfl

theorem roomy_iff (l : List Src) (size : Nat) :
    Roomy l size ↔ ∀ pre f post, l = pre ++ f :: post → Legible l size pre := by
  constructor
  · intro h pre f post e; have := h pre f post e; rwa [nameAt_eq] at this
  · intro h pre f post e; rw [nameAt_eq]; exact h pre f post e

/-- **C44, C45** (exact, for all images: names of any length, any room).  A path opens the first file that its name leads to, and
that file is its source; if there is none, the path does not open.  (For the empty name, see `c45_refuted_empty`.) -/
theorem c44_exact (l : List Src) (size o w : Nat) (img : Str) (h : create l size = .image o w img)
    (hs : size < 2147483648) (hl : FileSet l) (path p : Str) (hp : NulFree path) (ha : Asks path p) (hne : p ≠ []) :
    ∃ fs, Erfs.begin img = .ok (true, fs) ∧
      ((∃ pre s post f, l = pre ++ s :: post ∧ LeadsTo l size p pre s ∧
          (∀ a g b, pre = a ++ g :: b → ¬ LeadsTo l size p a g) ∧ fs.open path = .ok (some f) ∧ IsSource f s) ∨
        ((∀ pre s post, l = pre ++ s :: post → ¬ LeadsTo l size p pre s) ∧ fs.open path = .ok none)) := by
  obtain ⟨hi, -⟩ := image_is h
  refine ⟨_, hi.mount (by omega), ?_⟩
  rcases open_spec hi (by omega) hl.text p path (asks_nul ha hp) (asks_eq ha) (fun e => absurd e hne) with
    ⟨a, f, b, m, e1, e2, e3, e4, e5⟩ | ⟨e1, e2⟩
  · refine .inl ⟨a, f, b, _, e1, (leads_iff ..).1 e2, fun a' g b' e hm => e3 a' g b' e ((leads_iff ..).2 hm), e5, rfl, ?_, ?_,
      fun buf32 h4 ops hv => opened hi hs e1 m buf32 h4 ops hv⟩
    · obtain ⟨_, -, -, m0⟩ := hi.fat (by omega) e1
      simp only [fatOf, recOf]; omega
    · obtain ⟨-, k1, -, t, k2⟩ := e4
      simp only; rw [k2, cstrOf_app _ _ k1]
  · exact .inr ⟨fun pre s post e hm => e1 pre s post e ((leads_iff ..).2 hm), e2⟩

/-- **C44** (exact, names of at most 63 bytes).  A file can be opened by its name if and only if the 63 bytes from the beginning of
its name are in the partition; what is opened is then this file. -/
theorem c44_opens (l : List Src) (size o w : Nat) (img : Str) (h : create l size = .image o w img)
    (hs : size < 2147483648) (hl : FileSet l) (hshort : ∀ f ∈ l, f.name.length ≤ 63) (pre : List Src) (s : Src)
    (post : List Src) (e : l = pre ++ s :: post) (path : Str) (hp : Asks path s.name) :
    ∃ fs r, Erfs.begin img = .ok (true, fs) ∧ fs.open path = .ok r ∧ (r.isSome ↔ Legible l size pre) ∧
      ∀ f, r = some f → IsSource f s := by
  have hmem : s ∈ l := by rw [e]; simp
  have hnul : NulFree path := by
    rcases hp with ⟨rfl, -⟩ | rfl
    · exact hl.text s hmem
    · intro b hb
      rcases List.mem_cons.1 hb with rfl | hb
      · decide
      · exact hl.text s hmem b hb
  have hone : ∀ a g b, l = a ++ g :: b → g.name = s.name → a = pre ∧ g = s := by
    intro a g b e' hn
    have nd := hl.nodup
    have key : ∀ (l a b pre post : List Src), (l.map (·.name)).Nodup → l = a ++ g :: b → l = pre ++ s :: post → a = pre ∧ g = s := by
      intro l
      induction l with
      | nil => intro a b pre post _ h1; simp at h1
      | cons x l ih =>
        intro a b pre post nd h1 h2
        rw [List.map_cons, List.nodup_cons] at nd
        cases a with
        | nil =>
          simp only [List.nil_append, List.cons.injEq] at h1
          cases pre with
          | nil => simp only [List.nil_append, List.cons.injEq] at h2; exact ⟨rfl, h1.1.symm.trans h2.1⟩
          | cons y pre =>
            simp only [List.cons_append, List.cons.injEq] at h2
            refine absurd ?_ nd.1
            rw [h1.1, hn, h2.2]; simp
        | cons z a =>
          simp only [List.cons_append, List.cons.injEq] at h1
          cases pre with
          | nil =>
            simp only [List.nil_append, List.cons.injEq] at h2
            refine absurd ?_ nd.1
            rw [h2.1, ← hn, h1.2]; simp
          | cons y pre =>
            simp only [List.cons_append, List.cons.injEq] at h2
            obtain ⟨r1, r2⟩ := ih a b pre post nd.2 h1.2 h2.2
            exact ⟨by rw [← h1.1, ← h2.1, r1], r2⟩
    exact key l a b pre post nd e' e
  obtain ⟨fs, h1, h2⟩ := c44_exact l size o w img h hs hl path s.name hnul hp (hl.nonempty s hmem)
  rcases h2 with ⟨a, g, b, f, e1, e2, -, e4, e5⟩ | ⟨e1, e2⟩
  · have hg : g ∈ l := by rw [e1]; simp
    have hn := e2.2.1
    rw [List.take_of_length_le (hshort g hg)] at hn
    obtain ⟨rfl, rfl⟩ := hone a g b e1 hn
    exact ⟨fs, _, h1, e4, ⟨fun _ => e2.1, fun _ => rfl⟩, fun f' hf => by rw [← Option.some.inj hf]; exact e5⟩
  · refine ⟨fs, none, h1, e2, ⟨fun hx => (by cases hx), fun hx => ?_⟩, fun f' hf => by cases hf⟩
    exact absurd ⟨hx, List.take_of_length_le (hshort s hmem), rfl⟩ (e1 pre s post e)

theorem listing_exact (l : List Src) (size : Nat) (hnd : (l.map (·.name)).Nodup) (hne : ∀ f ∈ l, f.name ≠ [])
    (rest : List Src) : ∀ pre u, l = pre ++ rest → (u = [] ∨ u ∈ pre.map (·.name)) →
      listing l size u pre rest = rest.map (fun f => (f.name, f.data.length, f.mtime.toNat)) →
      ∀ a f b, rest = a ++ f :: b → f.name.length ≤ 63 ∧ Legible l size (pre ++ a) := by
  induction rest with
  | nil => intro pre u _ _ _ a f b e; simp at e
  | cons g r ih =>
    intro pre u e hu hlist a f b eq
    simp only [listing, List.map_cons, List.cons.injEq, Prod.mk.injEq, and_true] at hlist
    obtain ⟨hname, hrest⟩ := hlist
    have hg : g ∈ l := by rw [e]; simp
    have hroom : (fatOf l pre g).namePtr + 63 ≤ size := by
      apply Decidable.byContradiction
      intro hr
      rw [if_neg hr] at hname
      rcases hu with rfl | hu
      · exact hne g hg hname.symm
      · rw [e, List.map_append, List.map_cons] at hnd
        exact (List.nodup_append.1 hnd).2.2 _ hu _ (List.mem_cons_self ..) hname
    rw [if_pos hroom] at hname
    have hlen : g.name.length ≤ 63 := by
      have := congrArg List.length hname
      rw [List.length_take] at this; omega
    cases a with
    | nil =>
      simp only [List.nil_append, List.cons.injEq] at eq
      rw [← eq.1, List.append_nil, Legible, ← nameAt_eq l pre g]
      exact ⟨hlen, hroom⟩
    | cons x a =>
      simp only [List.cons_append, List.cons.injEq] at eq
      obtain ⟨rfl, rfl⟩ := eq
      rw [if_pos hroom, hname] at hrest
      have := ih (pre ++ [g]) g.name (by rw [e]; simp) (.inr (by simp)) hrest a f b rfl
      simpa using this

/-- **C48** (exact).  The listing gives every file with its name if and only if all names have at most 63 bytes and the 63 bytes from
the beginning of each are in the partition. -/
theorem c48_exact (l : List Src) (size o w : Nat) (img : Str) (h : create l size = .image o w img)
    (hs : size < 2147483648) (hl : FileSet l) :
    ∃ fs d d' es, Erfs.begin img = .ok (true, fs) ∧ fs.openDir (bs "/") = some d ∧
      Dir.list (l.length + 1) d = .ok (es, d') ∧
      (es = l.map (fun f => (f.name, f.data.length, f.mtime.toNat)) ↔
        ∀ pre f post, l = pre ++ f :: post → f.name.length ≤ 63 ∧ Legible l size pre) := by
  obtain ⟨hi, -⟩ := image_is h
  obtain ⟨d, d', h1, h2, -⟩ := listed hi hs hl.text
  refine ⟨_, d, d', _, hi.mount (by omega), h1, h2, fun he => ?_, fun he => ?_⟩
  · have := listing_exact l size hl.nodup hl.nonempty l [] [] rfl (.inl rfl) he
    simpa using this
  · refine listing_roomy l size ((roomy_iff ..).2 fun pre f post e => (he pre f post e).2) (fun f hf => ?_) l _ _ rfl
    obtain ⟨a, b, e⟩ := List.append_of_mem hf
    exact (he a f b e).1

/-- Three files in an image of 130 bytes: the first name can be read, the others cannot; in 300 bytes all can. -/
example : Legible threeFiles 130 [] ∧ ¬ Legible threeFiles 130 (threeFiles.take 1) ∧ Legible threeFiles 300 (threeFiles.take 2) := by
  unfold Legible; decide +kernel

example : ∃ img, create threeFiles 130 = .image 104 104 img ∧
    (Erfs.open ⟨img, 3⟩ (bs "index.htm")).map Option.isSome = .ok true ∧
    (Erfs.open ⟨img, 3⟩ (bs "ac")).map Option.isSome = .ok false :=
  ⟨truncate ((pyWrite threeFiles).getD []) 130, by decide +kernel, by decide +kernel, by decide +kernel⟩

end Wifinfo
