import Verif.Props.Dump
import Verif.Props.Erfs

/-!
# C97: the files seen from the console
-/

namespace Wifinfo

namespace Spec

/-- A row of the list of files: its number, the name and the size; the size is what follows the last `, size: `. -/
def lsRow (l : Str) : Option (Nat × Str × Nat) :=
  if (bs "FS File: ").isPrefixOf l then
    let r := (l.drop 9).dropWhile (· == 32)
    let i := r.takeWhile digit
    let r := r.drop (i.length + 1)
    let s := (r.reverse.takeWhile digit).reverse
    let r := r.take (r.length - s.length)
    if r.drop (r.length - 8) = bs ", size: " then some (decVal i, r.take (r.length - 8), decVal s) else none
  else none

/-- The list of files: the rows are numbered from 1. -/
def readLs (x : Str) : Option (List (Str × Nat)) := do
  let rows ← (screen x).mapM lsRow
  if rows.map (·.1) = (List.range rows.length).map (· + 1) then some (rows.map (·.2)) else none

end Spec
open Spec

theorem takeWhile_stop {α} {p : α → Bool} {a b : List α} (h : ∀ x ∈ a, p x = true) (hb : ∀ x, b.head? = some x → p x = false) :
    (a ++ b).takeWhile p = a := by
  induction a with
  | nil =>
    cases b with
    | nil => rfl
    | cons x b => simp [List.takeWhile_cons, hb x rfl]
  | cons x a ih =>
    simp only [List.cons_append, List.takeWhile_cons, h x List.mem_cons_self, if_true]
    rw [ih fun y hy => h y (List.mem_cons_of_mem _ hy)]

theorem lsRow_eq (i : Nat) (name : Str) (size : Nat) :
    lsRow (bs "FS File: " ++ padDec i ++ bs " " ++ name ++ bs ", size: " ++ decText size) = some (i, name, size) := by
  obtain ⟨n1, d1, v1, -⟩ := decText_spec i
  obtain ⟨n2, d2, v2, -⟩ := decText_spec size
  have d1 : ∀ x ∈ decText i, digit x = true := List.all_eq_true.1 d1
  have d2 : ∀ x ∈ decText size, digit x = true := List.all_eq_true.1 d2
  have hd : (decText i).head? ≠ some 32 := by
    intro h
    have := d1 32 (List.mem_of_mem_head? h)
    revert this; decide
  have e0 : (padDec i).dropWhile (· == 32) = decText i := by
    have : (decText i).dropWhile (· == 32) = decText i := by
      cases h : decText i with
      | nil => rfl
      | cons x t =>
        rw [h] at hd
        have : (x == 32) = false := beq_false_of_ne fun e => hd (by rw [e]; rfl)
        simp [List.dropWhile_cons, this]
    unfold padDec
    split
    · simp only [List.dropWhile_cons]; exact this
    · exact this
  have e1 : ((padDec i ++ (32 :: (name ++ (bs ", size: " ++ decText size)))).dropWhile (· == 32)) =
      decText i ++ (32 :: (name ++ (bs ", size: " ++ decText size))) := by
    rw [List.dropWhile_append, e0]
    simp [n1]
  have e2 : (decText i ++ (32 :: (name ++ (bs ", size: " ++ decText size)))).takeWhile digit = decText i :=
    takeWhile_stop d1 (by intro x hx; cases hx; decide)
  have e3 : (decText i ++ (32 :: (name ++ (bs ", size: " ++ decText size)))).drop ((decText i).length + 1) =
      name ++ (bs ", size: " ++ decText size) := by
    rw [List.drop_append]
    simp
  have e4 : ((name ++ (bs ", size: " ++ decText size)).reverse.takeWhile digit).reverse = decText size := by
    rw [← List.append_assoc, List.reverse_append, takeWhile_stop (fun x hx => d2 x (List.mem_reverse.1 hx)) ?_, List.reverse_reverse]
    intro x hx
    rw [List.reverse_append, show (bs ", size: ").reverse = 32 :: (bs ", size:").reverse from rfl] at hx
    cases hx; decide
  have e5 : (name ++ (bs ", size: " ++ decText size)).take
      ((name ++ (bs ", size: " ++ decText size)).length - (decText size).length) = name ++ bs ", size: " := by
    rw [← List.append_assoc, List.length_append (bs := decText size), Nat.add_sub_cancel, List.take_left]
  have e6 : (name ++ bs ", size: ").length - 8 = name.length := by
    rw [List.length_append, show (bs ", size: ").length = 8 from rfl]; omega
  have e : bs "FS File: " ++ padDec i ++ bs " " ++ name ++ bs ", size: " ++ decText size =
      bs "FS File: " ++ (padDec i ++ (32 :: (name ++ (bs ", size: " ++ decText size)))) := by
    rw [show bs " " = [32] from rfl]; simp only [List.append_assoc, List.cons_append, List.nil_append]
  unfold lsRow
  rw [e, if_pos (List.isPrefixOf_iff_prefix.2 (List.prefix_append _ _)),
    show (bs "FS File: " ++ (padDec i ++ (32 :: (name ++ (bs ", size: " ++ decText size))))).drop 9 =
      padDec i ++ (32 :: (name ++ (bs ", size: " ++ decText size))) from rfl]
  simp only [e1, e2, e3, e4, e5, e6, List.drop_left, List.take_left, v1, v2, if_true]

theorem linesFrom_lf : ∀ (cur l r : Str), (10 : Byte) ∉ l → (cur ++ l).getLast? ≠ some 13 →
    linesFrom cur (l ++ 10 :: r) = (cur ++ l) :: linesFrom [] r
  | cur, [], r, _, h => by
    rw [List.append_nil] at h
    simp [linesFrom, h]
  | cur, b :: l, r, h, h' => by
    have a : b ≠ 10 := fun e => h (by simp [e])
    have h' : ((cur ++ [b]) ++ l).getLast? ≠ some 13 := by simpa using h'
    rw [List.cons_append, linesFrom, if_neg a, linesFrom_lf _ l r (fun e => h (List.mem_cons_of_mem _ e)) h']
    simp

theorem lsLoop_rows : ∀ (i : Nat) (l : List (Str × Nat)), (∀ f ∈ l, (10 : Byte) ∉ f.1) →
    (screen (lsLoop i l)).mapM lsRow = some (l.zipIdx.map fun p => (i + p.2 + 1, p.1))
  | _, [], _ => rfl
  | i, (name, size) :: l, h => by
    obtain ⟨n2, d2, -⟩ := decText_spec size
    have ih := lsLoop_rows (i + 1) l fun f hf => h f (List.mem_cons_of_mem _ hf)
    have hc : (10 : Byte) ∉ bs "FS File: " ++ padDec (i + 1) ++ bs " " ++ name ++ bs ", size: " ++ decText size := by
      have hp : (10 : Byte) ∉ padDec (i + 1) := by
        unfold padDec
        split
        · rw [List.mem_cons, not_or]; exact ⟨by decide, digits_clean _⟩
        · exact digits_clean _
      simp only [List.mem_append, not_or]
      exact ⟨⟨⟨⟨⟨by decide +kernel, hp⟩, by decide +kernel⟩, h _ List.mem_cons_self⟩, by decide +kernel⟩, digits_clean _⟩
    have hl : (bs "FS File: " ++ padDec (i + 1) ++ bs " " ++ name ++ bs ", size: " ++ decText size).getLast? ≠ some 13 := by
      rw [List.getLast?_append, Option.or_of_isSome (by simp [n2])]
      intro e
      have := List.all_eq_true.1 d2 13 (List.mem_of_getLast? e)
      revert this; decide
    rw [lsLoop, show bs "\n" = [10] from rfl, List.append_assoc (_ ++ decText size), List.cons_append, List.nil_append, screen,
      linesFrom_lf _ _ _ hc (by rw [List.nil_append]; exact hl), ← screen, List.nil_append, List.mapM_cons, lsRow_eq, ih]
    simp only [Option.bind_eq_bind, Option.bind_some, Option.pure_def, List.zipIdx_cons, List.map_cons, Nat.add_zero]
    congr 2
    rw [List.zipIdx_succ, List.map_map]
    apply List.map_congr_left
    intro p _
    simp; omega

/-- **C97**: the list shows every file of the directory with its size, numbered from 1; the names have no line feed. -/
theorem c97_list (files : List (Str × Nat)) (h : ∀ f ∈ files, (10 : Byte) ∉ f.1) : readLs (fsLs files) = some files := by
  unfold readLs fsLs
  rw [lsLoop_rows 0 files h]
  simp only [Option.bind_eq_bind, Option.bind_some, List.map_map, List.length_map, List.length_zipIdx]
  rw [if_pos ?_]
  · congr 1
    exact List.zipIdx_map_fst 0 files
  · rw [List.range_eq_range', ← List.zipIdx_map_snd 0 files, List.map_map]
    apply List.map_congr_left
    intro p _
    simp

example : readLs (fsLs [(bs "index.htm", 13), (bs "a, size: 7", 0), ([], 4294967295)]) =
    some [(bs "index.htm", 13), (bs "a, size: 7", 0), ([], 4294967295)] := by decide +kernel

/-- **C97** with the file system: the list shows the files put in the image, in order.  The conditions are those of C48. -/
theorem c97_image_partial (l : List Src) (size o w : Nat) (img : Str) (h : create l size = .image o w img)
    (hs : size < 2147483648) (hl : FileSet l) (hshort : ∀ f ∈ l, f.name.length ≤ 63)
    (hroom : 63 ≤ (l.map (·.data.length)).sum + (size - o)) (h10 : ∀ f ∈ l, (10 : Byte) ∉ f.name) :
    ∃ fs d es d', Erfs.begin img = .ok (true, fs) ∧ fs.openDir (bs "/") = some d ∧
      Dir.list (l.length + 1) d = .ok (es, d') ∧
      readLs (fsLs (es.map fun e => (e.1, e.2.1))) = some (l.map fun f => (f.name, f.data.length)) := by
  obtain ⟨fs, d, d', h1, h2, h3, -⟩ := c48_listing_partial l size o w img h hs hl hshort hroom
  refine ⟨fs, d, _, d', h1, h2, h3, ?_⟩
  rw [List.map_map, c97_list _ ?_]
  · rfl
  · intro f hf
    obtain ⟨x, hx, rfl⟩ := List.mem_map.1 hf
    exact h10 x hx

/-- **C97**, a name with a line feed can be taken for a file that is not there. -/
theorem c97_refuted : ∃ files : List (Str × Nat), readLs (fsLs files) ≠ some files ∧
    readLs (fsLs files) = some [(bs "a", 1), (bs "b", 2)] :=
  ⟨[(bs "a, size: 1\nFS File:  2 b", 2)], by decide +kernel, by decide +kernel⟩

/-- **C97**, the version: `get ver` shows the first 63 bytes of the file, up to a NUL, and the number of bytes it has read,
without going out of its buffer; a version of at most 63 bytes without NUL is shown whole. -/
theorem c97_version_partial (l : List Src) (size o w : Nat) (img : Str) (h : create l size = .image o w img)
    (hs : size < 2147483648) (hl : FileSet l) (hshort : ∀ f ∈ l, f.name.length ≤ 63)
    (hroom : 63 ≤ (l.map (·.data.length)).sum + (size - o)) (s : Src) (hmem : s ∈ l) (hn : s.name = bs "version")
    (buf32 buf : Str) (a : Nat) (h32 : buf32.length = 260) (hb : buf.length = 64) :
    ∃ fs f, Erfs.begin img = .ok (true, fs) ∧ fs.open (bs "/version") = .ok (some f) ∧
      getVer f buf32 a buf = .ok (bs "read " ++ decText (min 63 s.data.length) ++ bs ", version: '" ++
        (s.data.take 63).takeWhile (· != 0) ++ bs "'\n") := by
  obtain ⟨fs, h1, h2⟩ := c44_read_back_partial l size o w img h hs hl hshort hroom s hmem
  obtain ⟨f, h3, -, -, -, h4⟩ := h2 (bs "/version") (Or.inr (by rw [hn]; rfl))
  refine ⟨fs, f, h1, h3, ?_⟩
  obtain ⟨-, h5⟩ := h4 buf32 h32
  have h5 := h5 [.read a buf 63] (by simp [FileOp.Valid, hb])
  unfold getVer
  rw [hb, show 64 - 1 = 63 from rfl]
  simp only [File.run, fileRun, fileStep, List.drop_zero] at h5
  cases e : f.read buf32 a buf 63 with
  | error _ => rw [e] at h5; cases h5
  | ok r =>
    obtain ⟨f', b', buf', n⟩ := r
    rw [e] at h5
    simp only [ok_bind, pure_ok, Except.ok.injEq, List.cons.injEq, Prod.mk.injEq, FileRes.got.injEq, List.length_take] at h5
    obtain ⟨⟨⟨rfl, rfl⟩, -⟩, -⟩ := h5
    simp only [ok_bind, pure_ok]
    have hlen : (s.data.take 63).length = min 63 s.data.length := List.length_take
    have hd : (buf.drop (min 63 s.data.length)) ≠ [] := by
      intro e; have := congrArg List.length e; rw [List.length_drop, hb] at this; simp at this; omega
    have key : cstrOf ((s.data.take 63 ++ buf.drop (min 63 s.data.length)).set (min 63 s.data.length) 0) =
        (s.data.take 63).takeWhile (· != 0) := by
      rw [List.set_append_right _ _ (by omega), hlen, Nat.sub_self]
      cases hx : buf.drop (min 63 s.data.length) with
      | nil => exact absurd hx hd
      | cons x t =>
        rw [List.set_cons_zero]
        unfold cstrOf
        rw [List.takeWhile_append]
        split
        · rename_i hh
          simp
          exact ((List.takeWhile_sublist _).eq_of_length hh).symm
        · rfl
    rw [if_pos (by rw [List.length_append, List.length_drop, hlen, hb]; omega), key]

/-- An image with a version. -/
example : let l : List Src := [⟨bs "version", bs "1.2.3", 0⟩, ⟨bs "index.htm", bs "<html></html>", 0⟩]
    FileSet l ∧ (∃ w img, create l 300 = .image 88 w img) ∧ (∀ f ∈ l, f.name.length ≤ 63 ∧ (10 : Byte) ∉ f.name) ∧
      63 ≤ (l.map (·.data.length)).sum + (300 - 88) := by
  refine ⟨⟨by decide +kernel, by decide +kernel, by unfold NulFree; decide +kernel, by decide +kernel⟩, ?_, by decide +kernel,
    by decide⟩
  exact ⟨88, truncate ((pyWrite [⟨bs "version", bs "1.2.3", 0⟩, ⟨bs "index.htm", bs "<html></html>", 0⟩]).getD []) 300,
    by decide +kernel⟩

end Wifinfo
