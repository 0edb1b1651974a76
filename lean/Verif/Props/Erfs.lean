import Verif.Proofs.ErfsFile

/-!
# The file system: what is put in an image is what the device serves (C44–C49, C66–C68)

The theorems go from the files given to the builder to what the reader gives on the device; partitions are
smaller than 2 GiB (they are at most 16 MiB on the device).
-/

namespace Wifinfo
open Spec

/-- What a directory can contain: distinct relative paths. -/
structure FileSet (l : List Src) : Prop where
  nodup : (l.map (·.name)).Nodup
  nonempty : ∀ f ∈ l, f.name ≠ []
  text : ∀ f ∈ l, NulFree f.name
  relative : ∀ f ∈ l, f.name.head? ≠ some 47

theorem image_is {l : List Src} {size o w : Nat} {img : Str} (h : create l size = .image o w img) :
    IsImage l size img ∧ o = totalSize l := by
  obtain ⟨h1, h2, -, b, hb, h3⟩ := (create_image ..).1 h
  exact ⟨⟨h1, b, hb, _, List.length_replicate .., h3⟩, h2⟩

theorem sum_le_datasLen (l : List Src) : (l.map (·.data.length)).sum ≤ datasLen l := by
  induction l with
  | nil => exact Nat.le_refl _
  | cons f r ih =>
    have e : datasLen (f :: r) = pyAlign f.data.length + datasLen r := by simp [datasLen]
    rw [e, List.map_cons, List.sum_cons, pyAlign_eq]; omega

theorem roomy' {l : List Src} {size : Nat} {img : Str} (h : IsImage l size img)
    (hr : 63 ≤ (l.map (·.data.length)).sum + (size - totalSize l)) : Roomy l size := by
  obtain ⟨h1, -⟩ := h
  intro pre f post e
  have := (fatOf_bounds e).1
  have := sum_le_datasLen l
  omega

theorem roomy {l : List Src} {size o w : Nat} {img : Str} (h : create l size = .image o w img)
    (hr : 63 ≤ (l.map (·.data.length)).sum + (size - o)) : Roomy l size := by
  obtain ⟨hi, rfl⟩ := image_is h
  exact roomy' hi hr

/-- The name that a path asks for. -/
def Asks (path p : Str) : Prop := (path = p ∧ p.head? ≠ some 47) ∨ path = 47 :: p

theorem asks_eq {path p : Str} (h : Asks path p) : p = skipSlash path := by
  rcases h with ⟨rfl, h⟩ | rfl
  · cases path with
    | nil => rfl
    | cons b r =>
      have : b ≠ 47 := fun hb => h (by rw [hb]; rfl)
      simp [skipSlash, this]
  · simp [skipSlash]

theorem asks_nul {path p : Str} (h : Asks path p) (hp : NulFree path) : NulFree p := by
  rcases h with ⟨rfl, -⟩ | rfl
  · exact hp
  · exact fun b hb => hp b (List.mem_cons_of_mem _ hb)

/-- An open file of an image does what a file with the content of its source does. -/
theorem opened {l : List Src} {size : Nat} {img : Str} (h : IsImage l size img) (hs : size < 2147483648)
    {a b : List Src} {f : Src} (e : l = a ++ f :: b) (m : Str) (buf32 : Str) (h4 : buf32.length = 260)
    (ops : List FileOp) (hv : ∀ o ∈ ops, o.Valid) :
    File.run ⟨⟨img, l.length⟩, fatOf l a f, m, 0⟩ buf32 ops = .ok (fileRun f.data 0 ops) := by
  obtain ⟨t, ht⟩ := h.data e
  have hl := h.length
  obtain ⟨-, b2, -⟩ := fatOf_bounds e
  have := h.1
  exact run_ok ⟨img, l.length⟩ (fatOf l a f) m f.data t ht rfl (by simp only; omega) (by simp only; omega) ops 0
    buf32 (by omega) h4 hv

/-- Every file of a partition that begins with an image. -/
theorem read_back {l : List Src} {size : Nat} {img : Str} (hi : IsImage l size img)
    (hs : size < 2147483648) (hl : FileSet l) (hshort : ∀ f ∈ l, f.name.length ≤ 63)
    (hr : Roomy l size) (s : Src) (hmem : s ∈ l) :
    ∃ fs, Erfs.begin img = .ok (true, fs) ∧ ∀ path, Asks path s.name → ∃ f, fs.open path = .ok (some f) ∧
      f.fat.len = s.data.length ∧ (f.fat.time : Int) = s.mtime ∧ cstrOf f.name = s.name ∧
      ∀ buf32, buf32.length = 260 →
        (∀ a, ∃ f' b, f.read buf32 a (List.replicate s.data.length 0) s.data.length =
          .ok (f', b, s.data, s.data.length)) ∧
        ∀ ops, (∀ o ∈ ops, FileOp.Valid o) → f.run buf32 ops = .ok (fileRun s.data 0 ops) := by
  refine ⟨_, hi.mount (by omega), fun path hp => ?_⟩
  have hne := hl.nonempty s hmem
  rcases open_spec hi (by omega) hl.text s.name path (hl.text s hmem) (asks_eq hp) (fun e => absurd e hne) with
    ⟨a, f, b, m, e1, e2, -, e4, e5⟩ | ⟨e1, -⟩
  · -- it is the file
    have hf : f ∈ l := by rw [e1]; simp
    have hn : f.name = s.name := by
      have := e2.2.1; rwa [List.take_of_length_le (hshort f hf)] at this
    have hfs : f = s := by
      have nd := hl.nodup
      rw [e1, List.map_append, List.map_cons] at nd
      rw [e1] at hmem
      have nd1 := List.nodup_append.1 nd
      rcases List.mem_append.1 hmem with hx | hx
      · exact absurd hn.symm (nd1.2.2 _ (List.mem_map_of_mem hx) _ (List.mem_cons_self ..))
      · rcases List.mem_cons.1 hx with rfl | hx
        · rfl
        · have := (List.nodup_cons.1 nd1.2.1).1
          exact absurd (hn ▸ List.mem_map_of_mem hx) this
    subst hfs
    obtain ⟨-, k1, -, t, k2⟩ := e4
    obtain ⟨_, -, -, m0⟩ := hi.fat (by omega) e1
    refine ⟨_, e5, rfl, ?_, ?_, fun buf32 h4 => ⟨fun al => ?_, fun ops hv => opened hi hs e1 m buf32 h4 ops hv⟩⟩
    · simp only [fatOf, recOf]; omega
    · simp only; rw [k2, cstrOf_app _ _ k1, List.take_of_length_le (hshort f hf)]
    · obtain ⟨t', ht'⟩ := hi.data e1
      have hlen := hi.length
      obtain ⟨-, b2, -⟩ := fatOf_bounds e1
      have := hi.1
      obtain ⟨b32, r1, -⟩ := read_ok ⟨⟨img, l.length⟩, fatOf l a f, m, 0⟩ f.data t' buf32 al
        (List.replicate f.data.length 0) f.data.length ht' rfl (Nat.zero_le _) (by simp only; omega)
        (by simp only; omega) (by simp) (by simp; omega) h4
      simp only [List.drop_zero, List.take_length] at r1
      rw [List.drop_of_length_le (by simp), List.append_nil] at r1
      exact ⟨_, _, r1⟩
  · obtain ⟨a, b, e⟩ := List.append_of_mem hmem
    exact absurd ⟨hr _ _ _ e, List.take_of_length_le (hshort s hmem), rfl⟩ (e1 a s b e)

/-- **C44.**  Every file can be opened by its name, with or without a leading slash, and then has its size,
time, name and content, whatever the buffer alignment; any sequence of operations on it gives what a file
with that content gives.

Partial: the names have at most 63 bytes, and at least 63 bytes of contents or free space follow the names.
The builder does not check this, see `c44_refuted_long` and `c44_refuted_tight`. -/
theorem c44_read_back_partial (l : List Src) (size o w : Nat) (img : Str) (h : create l size = .image o w img)
    (hs : size < 2147483648) (hl : FileSet l) (hshort : ∀ f ∈ l, f.name.length ≤ 63)
    (hroom : 63 ≤ (l.map (·.data.length)).sum + (size - o)) (s : Src) (hmem : s ∈ l) :
    ∃ fs, Erfs.begin img = .ok (true, fs) ∧ ∀ path, Asks path s.name → ∃ f, fs.open path = .ok (some f) ∧
      f.fat.len = s.data.length ∧ (f.fat.time : Int) = s.mtime ∧ cstrOf f.name = s.name ∧
      ∀ buf32, buf32.length = 260 →
        (∀ a, ∃ f' b, f.read buf32 a (List.replicate s.data.length 0) s.data.length =
          .ok (f', b, s.data, s.data.length)) ∧
        ∀ ops, (∀ o ∈ ops, FileOp.Valid o) → f.run buf32 ops = .ok (fileRun s.data 0 ops) :=
  read_back (image_is h).1 hs hl hshort (roomy h hroom) s hmem

/-- Three files, two of them with the same hash, in an image of 300 bytes. -/
def threeFiles : List Src :=
  [⟨bs "index.htm", bs "<html></html>", 1600000000⟩, ⟨bs "ac", [1, 2, 3], 5⟩, ⟨bs "ba", [], 7⟩]

theorem threeFiles_set : FileSet threeFiles where
  nodup := by decide +kernel
  nonempty := by decide +kernel
  text := by
    unfold NulFree
    decide +kernel
  relative := by decide +kernel

/-- The image of these files. -/
def threeImage : Str := truncate ((pyWrite threeFiles).getD []) 300

theorem threeImage_is : create threeFiles 300 = .image 104 104 threeImage := by decide +kernel

/-- The hypotheses of the theorems below hold for a concrete image with a collision. -/
example : nameHash (bs "ac") = nameHash (bs "ba") ∧ (∀ f ∈ threeFiles, f.name.length ≤ 63) ∧
    63 ≤ (threeFiles.map (·.data.length)).sum + (300 - 104) := by decide +kernel

example : (Erfs.open ⟨threeImage, 3⟩ (bs "/ba")).map (fun f => f.map fun f => (f.fat.len, f.fat.time)) =
    .ok (some (0, 7)) := by decide +kernel

/-- C44 fails when nothing follows the names: an image with one empty file that fills the partition. -/
theorem c44_refuted_tight : ∃ img, create [⟨bs "a", [], 0⟩] 32 = .image 32 32 img ∧
    (Erfs.open ⟨img, 1⟩ (bs "a")).map Option.isSome = .ok false :=
  ⟨truncate ((pyWrite [⟨bs "a", [], 0⟩]).getD []) 32, by decide +kernel, by decide +kernel⟩

/-- A name of 64 bytes. -/
def longName : Str := List.replicate 64 97

/-- C44 fails for a name of 64 bytes. -/
theorem c44_refuted_long : ∃ img, create [⟨longName, bs "x", 0⟩] 300 = .image 100 100 img ∧
    (Erfs.open ⟨img, 1⟩ longName).map Option.isSome = .ok false :=
  ⟨truncate ((pyWrite [⟨longName, bs "x", 0⟩]).getD []) 300, by decide +kernel, by decide +kernel⟩

theorem absent {l : List Src} {size : Nat} {img : Str} (hi : IsImage l size img)
    (hs : size < 2147483648) (hl : FileSet l) (path p : Str) (hp : NulFree path) (ha : Asks path p)
    (hne : p ≠ [] ∨ Roomy l size) :
    ∃ fs, Erfs.begin img = .ok (true, fs) ∧ ∃ r, fs.open path = .ok r ∧
      (r.isSome → ∃ f ∈ l, p = f.name.take 63 ∧ nameHash f.name = nameHash p) := by
  refine ⟨_, hi.mount (by omega), ?_⟩
  rcases open_spec hi (by omega) hl.text p path (asks_nul ha hp) (asks_eq ha)
    (fun e => hne.resolve_left (fun hn => hn e)) with ⟨a, f, b, m, e1, e2, -, e4, e5⟩ | ⟨-, e2⟩
  · exact ⟨_, e5, fun _ => ⟨f, by rw [e1]; simp, e2.2.1.symm, e2.2.2⟩⟩
  · exact ⟨_, e2, fun h => absurd h (by simp)⟩

/-- **C45** (general form).  A path opens only if it is the beginning, up to 63 bytes, of the name of a file
with the same hash. -/
theorem c45_opened (l : List Src) (size o w : Nat) (img : Str) (h : create l size = .image o w img)
    (hs : size < 2147483648) (hl : FileSet l) (path p : Str) (hp : NulFree path) (ha : Asks path p)
    (hne : p ≠ [] ∨ 63 ≤ (l.map (·.data.length)).sum + (size - o)) :
    ∃ fs, Erfs.begin img = .ok (true, fs) ∧ ∃ r, fs.open path = .ok r ∧
      (r.isSome → ∃ f ∈ l, p = f.name.take 63 ∧ nameHash f.name = nameHash p) :=
  absent (image_is h).1 hs hl path p hp ha (hne.imp id (roomy h))

/-- **C45.**  Opening a name that is not in the image fails, even with the same hash.

Partial: the names have at most 63 bytes (`c45_refuted`) and the name asked is not empty, or 63 bytes of
contents or free space follow the names (`c45_refuted_empty`). -/
theorem c45_absent_partial (l : List Src) (size o w : Nat) (img : Str) (h : create l size = .image o w img)
    (hs : size < 2147483648) (hl : FileSet l) (hshort : ∀ f ∈ l, f.name.length ≤ 63) (path p : Str)
    (hp : NulFree path) (ha : Asks path p) (hne : p ≠ [] ∨ 63 ≤ (l.map (·.data.length)).sum + (size - o))
    (habs : ∀ f ∈ l, f.name ≠ p) :
    ∃ fs, Erfs.begin img = .ok (true, fs) ∧ fs.open path = .ok none := by
  obtain ⟨fs, h1, r, h2, h3⟩ := c45_opened l size o w img h hs hl path p hp ha hne
  refine ⟨fs, h1, ?_⟩
  cases r with
  | none => exact h2
  | some f =>
    obtain ⟨g, hg, e, -⟩ := h3 rfl
    rw [List.take_of_length_le (hshort g hg)] at e
    exact absurd e.symm (habs g hg)

/-- A name with the hash of a file and that is not in the image. -/
example : nameHash [98, 97] = nameHash [96, 101] ∧ (∀ f ∈ threeFiles, f.name ≠ [96, 101]) ∧
    Asks (47 :: [96, 101]) [96, 101] := ⟨by decide +kernel, by decide +kernel, .inr rfl⟩

/-- C45 fails with a name of 64 bytes: its first 63 bytes open it. -/
theorem c45_refuted : ∃ img, create [⟨longName, bs "x", 0⟩] 300 = .image 100 100 img ∧
    (Erfs.open ⟨img, 1⟩ (List.replicate 63 97)).map Option.isSome = .ok true :=
  ⟨truncate ((pyWrite [⟨longName, bs "x", 0⟩]).getD []) 300, by decide +kernel, by decide +kernel⟩

/-- C45 fails for the empty name: in a full partition, `/` opens a file whose hash is zero. -/
theorem c45_refuted_empty : ∃ img, create [⟨bs "qxfcigpnion", [7], 0⟩] 44 = .image 44 44 img ∧
    (Erfs.open ⟨img, 1⟩ (bs "/")).map (fun f => f.map fun f => f.fat.len) = .ok (some 1) :=
  ⟨truncate ((pyWrite [⟨bs "qxfcigpnion", [7], 0⟩]).getD []) 44, by decide +kernel, by decide +kernel⟩

/-! ## Reading and seeking -/

/-- The bytes a read gives. -/
def bytesRead : FileRes → Str
  | .got buf n => buf.take n
  | .sought _ => []

/-- The size a read asks for. -/
def askedSize : FileOp → Nat
  | .read _ _ n => n
  | .seek _ _ => 0

/-- A read. -/
def IsRead : FileOp → Prop
  | .read _ _ _ => True
  | .seek _ _ => False

theorem reads_concat (content : Str) (ops : List FileOp) : ∀ pos, (∀ o ∈ ops, IsRead o) →
    ((fileRun content pos ops).flatMap fun r => bytesRead r.1) =
      (content.drop pos).take (ops.map askedSize).sum := by
  induction ops with
  | nil => intro pos _; simp [fileRun]
  | cons o r ih =>
    intro pos h
    cases o with
    | seek o w => exact (h _ (List.mem_cons_self ..)).elim
    | read a buf n =>
      have := ih (pos + ((content.drop pos).take n).length) fun x hx => h x (List.mem_cons_of_mem _ hx)
      have hb : ∀ b k, bytesRead (.got b k) = b.take k := fun _ _ => rfl
      simp only [fileRun, fileStep, List.flatMap_cons, hb, List.map_cons, List.sum_cons, askedSize]
      rw [this, List.take_append_of_le_length (Nat.le_refl _), List.take_length, List.length_take, List.length_drop,
        ← List.drop_drop, List.take_add]
      by_cases hq : n ≤ content.length - pos
      · rw [Nat.min_eq_left hq]
      · rw [List.drop_of_length_le (i := n) (by rw [List.length_drop]; omega),
          List.drop_of_length_le (i := min n _) (by rw [List.length_drop]; omega)]

/-- **C46.**  Any sequence of reads of a file that has been opened: the bytes given, one after the other, are
the beginning of the file, as long as all the sizes asked; each read gives what it asks or what remains, and
leaves the rest of its buffer as it was.  The buffers can have any alignment. -/
theorem c46_reads (l : List Src) (size o w : Nat) (img : Str) (h : create l size = .image o w img)
    (hs : size < 2147483648) (hl : FileSet l) (path p : Str) (hp : NulFree path) (ha : Asks path p)
    (hne : p ≠ []) (fs : Erfs) (hm : Erfs.begin img = .ok (true, fs)) (f : File)
    (hf : fs.open path = .ok (some f)) :
    ∃ s ∈ l, p = s.name.take 63 ∧ ∀ buf32, buf32.length = 260 → ∀ ops, (∀ o ∈ ops, FileOp.Valid o) →
      (∀ o ∈ ops, IsRead o) → ∃ rs, f.run buf32 ops = .ok rs ∧
        (rs.flatMap fun r => bytesRead r.1) = s.data.take (ops.map askedSize).sum ∧
        ∀ before a buf n after, ops = before ++ .read a buf n :: after →
          rs[before.length]? = some
            (let done := min (before.map askedSize).sum s.data.length
             let k := min n (s.data.length - done)
             (.got ((s.data.drop done).take k ++ buf.drop k) k, done + k)) := by
  obtain ⟨hi, -⟩ := image_is h
  have hm' := hi.mount (by omega)
  rw [hm] at hm'
  have efs : fs = ⟨img, l.length⟩ := (Prod.mk.inj (Except.ok.inj hm')).2
  subst efs
  rcases open_spec hi (by omega) hl.text p path (asks_nul ha hp) (asks_eq ha)
    (fun e => absurd e hne) with ⟨a, s, b, m, e1, e2, -, e4, e5⟩ | ⟨-, e2⟩
  · rw [hf] at e5
    have ef : f = ⟨⟨img, l.length⟩, fatOf l a s, m, 0⟩ := Option.some.inj (Except.ok.inj e5)
    subst ef
    refine ⟨s, by rw [e1]; simp, e2.2.1.symm, fun buf32 h4 ops hv hr => ⟨_, opened hi hs e1 m buf32 h4 ops hv,
      by rw [reads_concat _ _ _ hr, List.drop_zero], ?_⟩⟩
    have key : ∀ (before : List FileOp) (pos : Nat), pos ≤ s.data.length → ∀ a buf n after,
        (∀ o ∈ before, IsRead o) →
        (fileRun s.data pos (before ++ .read a buf n :: after))[before.length]? = some
          (let done := min (pos + (before.map askedSize).sum) s.data.length
           let k := min n (s.data.length - done)
           (.got ((s.data.drop done).take k ++ buf.drop k) k, done + k)) := by
      intro before
      induction before with
      | nil =>
        intro pos hpos a buf n after _
        have e : min pos s.data.length = pos := Nat.min_eq_left hpos
        have e' : ((s.data.drop pos).take n).length = min n (s.data.length - pos) := by
          rw [List.length_take, List.length_drop]
        have e'' : (s.data.drop pos).take (min n (s.data.length - pos)) = (s.data.drop pos).take n := by
          by_cases hq : n ≤ s.data.length - pos
          · rw [Nat.min_eq_left hq]
          · rw [List.take_of_length_le (i := n) (by rw [List.length_drop]; omega),
              List.take_of_length_le (by rw [List.length_drop]; omega)]
        simp only [List.nil_append, fileRun, fileStep, List.length_nil, List.getElem?_cons_zero, List.map_nil,
          List.sum_nil, Nat.add_zero, e, e', e'']
      | cons x r ih =>
        intro pos hpos a buf n after hb
        cases x with
        | seek o w => exact (hb _ (List.mem_cons_self ..)).elim
        | read a' buf' n' =>
          have hq : ((s.data.drop pos).take n').length = min n' (s.data.length - pos) := by
            rw [List.length_take, List.length_drop]
          have := ih (pos + ((s.data.drop pos).take n').length) (by omega) a buf n after
            fun x hx => hb x (List.mem_cons_of_mem _ hx)
          simp only [List.cons_append, fileRun, fileStep, List.length_cons, List.getElem?_cons_succ, this,
            List.map_cons, List.sum_cons, askedSize]
          have : min (pos + ((s.data.drop pos).take n').length + (r.map askedSize).sum) s.data.length =
              min (pos + (n' + (r.map askedSize).sum)) s.data.length := by rw [hq]; omega
          rw [this]
    intro before a' buf n after e
    rw [e]
    have := key before 0 (Nat.zero_le _) a' buf n after fun o ho => hr o (by rw [e]; simp [ho])
    simpa using this
  · rw [hf] at e2; cases e2

/-- **C47.**  Any sequence of reads and seeks: the position stays in the file, a seek succeeds exactly if its
target is inside, the end being allowed only from the end, and a seek that fails does not move. -/
theorem c47_seeks (l : List Src) (size o w : Nat) (img : Str) (h : create l size = .image o w img)
    (hs : size < 2147483648) (hl : FileSet l) (path p : Str) (hp : NulFree path) (ha : Asks path p)
    (hne : p ≠ []) (fs : Erfs) (hm : Erfs.begin img = .ok (true, fs)) (f : File)
    (hf : fs.open path = .ok (some f)) :
    ∃ s ∈ l, p = s.name.take 63 ∧ f.pos = 0 ∧ f.fat.len = s.data.length ∧
      ∀ buf32, buf32.length = 260 → ∀ ops, (∀ o ∈ ops, FileOp.Valid o) →
        ∃ rs, f.run buf32 ops = .ok rs ∧ rs = fileRun s.data 0 ops ∧ rs.length = ops.length ∧ (∀ r ∈ rs, r.2 ≤ s.data.length) ∧
        ∀ before x y after, rs = before ++ x :: y :: after → ∀ o wh,
          ops[before.length + 1]? = some (.seek o wh) →
            y = if inside s.data (aim s.data x.2 o wh) wh then (.sought true, (aim s.data x.2 o wh).toNat)
              else (.sought false, x.2) := by
  obtain ⟨hi, -⟩ := image_is h
  have hm' := hi.mount (by omega)
  rw [hm] at hm'
  have efs : fs = ⟨img, l.length⟩ := (Prod.mk.inj (Except.ok.inj hm')).2
  subst efs
  rcases open_spec hi (by omega) hl.text p path (asks_nul ha hp) (asks_eq ha)
    (fun e => absurd e hne) with ⟨a, s, b, m, e1, e2, -, e4, e5⟩ | ⟨-, e2⟩
  · rw [hf] at e5
    have ef : f = ⟨⟨img, l.length⟩, fatOf l a s, m, 0⟩ := Option.some.inj (Except.ok.inj e5)
    subst ef
    refine ⟨s, by rw [e1]; simp, e2.2.1.symm, rfl, rfl, fun buf32 h4 ops hv =>
      ⟨_, opened hi hs e1 m buf32 h4 ops hv, rfl, ?_, ?_, ?_⟩⟩
    · have : ∀ (ops : List FileOp) pos, (fileRun s.data pos ops).length = ops.length := by
        intro ops
        induction ops with
        | nil => intro _; rfl
        | cons x r ih => intro pos; simp only [fileRun, List.length_cons, ih]
      exact this ops 0
    · have : ∀ (ops : List FileOp) pos, pos ≤ s.data.length → ∀ r ∈ fileRun s.data pos ops, r.2 ≤ s.data.length := by
        intro ops
        induction ops with
        | nil => intro _ _ r hr; cases hr
        | cons x r ih =>
          intro pos hpos r hr
          have := fileStep_pos s.data pos x hpos
          rcases List.mem_cons.1 hr with rfl | hr
          · exact this
          · exact ih _ this _ hr
      exact this ops 0 (Nat.zero_le _)
    · have : ∀ (before : List (FileRes × Nat)) (ops : List FileOp) (pos : Nat) x y after,
          fileRun s.data pos ops = before ++ x :: y :: after → ∀ o wh,
          ops[before.length + 1]? = some (.seek o wh) → y = fileStep s.data x.2 (.seek o wh) := by
        intro before
        induction before with
        | nil =>
          intro ops pos x y after e o wh ho
          cases ops with
          | nil => cases e
          | cons o1 r =>
            cases r with
            | nil => simp at ho
            | cons o2 r =>
              simp only [List.length_nil, Nat.zero_add, List.getElem?_cons_succ, List.getElem?_cons_zero,
                Option.some.injEq] at ho
              subst ho
              simp only [fileRun, List.nil_append, List.cons.injEq] at e
              obtain ⟨rfl, rfl, -⟩ := e
              rfl
        | cons z before ih =>
          intro ops pos x y after e o wh ho
          cases ops with
          | nil => cases e
          | cons o1 r =>
            simp only [fileRun, List.cons_append, List.cons.injEq] at e
            exact ih r _ x y after e.2 o wh (by simpa using ho)
      intro before x y after e o wh ho
      exact this before ops 0 x y after e o wh ho
  · rw [hf] at e2; cases e2

/-- Reads and seeks on the file `ac`: move to 1, read, ask too far, go to the end. -/
example : ((do
    match ← Erfs.open ⟨threeImage, 3⟩ (bs "ac") with
    | none => pure []
    | some f =>
      f.run (List.replicate 260 0)
        [.seek 1 .start, .read 2 [9, 9, 9] 3, .seek 1 .here, .seek 4294967295 .here, .seek 0 .finish]) :
      Res (List (FileRes × Nat))) =
    .ok [(.sought true, 1), (.got [2, 3, 9] 2, 3), (.sought false, 3), (.sought true, 2), (.sought true, 3)] := by
  decide +kernel

/-! ## Listing -/

theorem listing_roomy (l : List Src) (size : Nat) (h : Roomy l size) (hshort : ∀ f ∈ l, f.name.length ≤ 63)
    (rest : List Src) : ∀ pre u, l = pre ++ rest →
      listing l size u pre rest = rest.map fun f => (f.name, f.data.length, f.mtime.toNat) := by
  induction rest with
  | nil => intro _ _ _; rfl
  | cons f r ih =>
    intro pre u e
    have hf : f ∈ l := by rw [e]; simp
    simp only [listing, List.map_cons]
    rw [if_pos (h _ _ _ e), List.take_of_length_le (hshort f hf), ih _ _ (by rw [e]; simp)]

theorem listing_rest (l : List Src) (size : Nat) (rest : List Src) : ∀ pre u,
    (listing l size u pre rest).map (·.2) = rest.map fun f => (f.data.length, f.mtime.toNat) := by
  induction rest with
  | nil => intro _ _; rfl
  | cons f r ih =>
    intro pre u
    simp only [listing, List.map_cons, ih]

/-- Listing an image, and listing it again. -/
theorem listed {l : List Src} {size : Nat} {img : Str} (hi : IsImage l size img) (hs : size < 2147483648)
    (hn : ∀ f ∈ l, NulFree f.name) : ∃ d d', Erfs.openDir ⟨img, l.length⟩ (bs "/") = some d ∧
      Dir.list (l.length + 1) d = .ok (listing l size [] [] l, d') ∧ d'.next = .ok (false, d') ∧
      ∃ d'' u, Dir.list (l.length + 1) d'.rewind = .ok (listing l size u [] l, d'') := by
  refine ⟨⟨⟨img, l.length⟩, 0, ⟨0, 0, 0, 0⟩, List.replicate 64 0⟩, ?_⟩
  obtain ⟨d', h1, h2, h3, ⟨u, h4⟩, h5⟩ := list_spec hi (by omega) hn l []
    ⟨⟨img, l.length⟩, 0, ⟨0, 0, 0, 0⟩, List.replicate 64 0⟩ [] rfl rfl rfl nameHas_zero rfl (l.length + 1) (by omega)
  refine ⟨d', by simp [Erfs.openDir], h1, ?_, ?_⟩
  · rw [Dir.next, if_neg (by rw [h2, h3]; simp)]; rfl
  · obtain ⟨d'', g1, -⟩ := list_spec hi (by omega) hn l [] d'.rewind u rfl h2 rfl h4 h5 (l.length + 1) (by omega)
    exact ⟨d'', u, g1⟩

/-- **C48.**  Listing the root gives the name, size and time of every file once, in the order of the image, and
ends; after a rewind the listing is the same.

Partial: as for C44. -/
theorem c48_listing_partial (l : List Src) (size o w : Nat) (img : Str) (h : create l size = .image o w img)
    (hs : size < 2147483648) (hl : FileSet l) (hshort : ∀ f ∈ l, f.name.length ≤ 63)
    (hroom : 63 ≤ (l.map (·.data.length)).sum + (size - o)) :
    ∃ fs d d', Erfs.begin img = .ok (true, fs) ∧ fs.openDir (bs "/") = some d ∧
      Dir.list (l.length + 1) d = .ok (l.map fun f => (f.name, f.data.length, f.mtime.toNat), d') ∧
      d'.next = .ok (false, d') ∧
      ∃ d'', Dir.list (l.length + 1) d'.rewind =
        .ok (l.map fun f => (f.name, f.data.length, f.mtime.toNat), d'') := by
  obtain ⟨hi, -⟩ := image_is h
  obtain ⟨d, d', h1, h2, h3, d'', u, h4⟩ := listed hi hs hl.text
  have hr := roomy h hroom
  rw [listing_roomy l size hr hshort l _ _ rfl] at h2 h4
  exact ⟨_, d, d', hi.mount (by omega), h1, h2, h3, d'', h4⟩

/-- C48, without condition on the names and the free space: the number of files, the sizes and the times. -/
theorem c48_sizes (l : List Src) (size o w : Nat) (img : Str) (h : create l size = .image o w img)
    (hs : size < 2147483648) (hl : FileSet l) :
    ∃ fs d d' es, Erfs.begin img = .ok (true, fs) ∧ fs.openDir (bs "/") = some d ∧
      Dir.list (l.length + 1) d = .ok (es, d') ∧
      es.map (·.2) = l.map (fun f => (f.data.length, f.mtime.toNat)) ∧ d'.next = .ok (false, d') := by
  obtain ⟨hi, -⟩ := image_is h
  obtain ⟨d, d', h1, h2, h3, -⟩ := listed hi hs hl.text
  exact ⟨_, d, d', _, hi.mount (by omega), h1, h2, listing_rest .., h3⟩

/-- The listing of the three files. -/
example : (do
    match Erfs.openDir ⟨threeImage, 3⟩ (bs "/") with
    | none => pure []
    | some d => do pure (← Dir.list 4 d).1) =
    .ok [(bs "index.htm", 13, 1600000000), (bs "ac", 3, 5), (bs "ba", 0, 7)] := by decide +kernel

/-- C48 fails when nothing follows the names: the second file is listed with the name of the first. -/
theorem c48_refuted : ∃ img, create [⟨bs "a", [], 0⟩, ⟨List.replicate 59 98, [], 0⟩, ⟨bs "c", [], 0⟩] 132 =
      .image 132 132 img ∧
    (do
      match Erfs.openDir ⟨img, 3⟩ (bs "/") with
      | none => pure []
      | some d => do pure (← Dir.list 4 d).1) =
      .ok [(bs "a", 0, 0), (List.replicate 59 98, 0, 0), (List.replicate 59 98, 0, 0)] :=
  ⟨truncate ((pyWrite [⟨bs "a", [], 0⟩, ⟨List.replicate 59 98, [], 0⟩, ⟨bs "c", [], 0⟩]).getD []) 132,
    by decide +kernel, by decide +kernel⟩

/-! ## The builder -/

/-- The next multiple of four. -/
def up4 (n : Nat) : Nat := (n + 3) / 4 * 4

/-- The room a set of files takes: the header, two bytes per file rounded up, sixteen bytes per file, the
names with their NUL, the contents, each rounded up. -/
def occupied (l : List Src) : Nat :=
  8 + up4 (2 * l.length) + 16 * l.length + (l.map fun f => up4 (f.name.length + 1)).sum +
    (l.map fun f => up4 f.data.length).sum

theorem occupied_eq (l : List Src) : totalSize l = occupied l := by
  rw [totalSize_eq]
  simp only [namesOff, fatOff, occupied, namesLen, datasLen, pyAlign_eq, up4]

/-- **C49.**  The image has the size asked, and the announced occupied size is what has been written. -/
theorem c49_size (l : List Src) (size o w : Nat) (img : Str) (h : create l size = .image o w img) :
    img.length = size ∧ o = occupied l ∧ w = occupied l ∧ occupied l ≤ size := by
  obtain ⟨h1, h2, h3, h4⟩ := (create_image ..).1 h
  rw [← occupied_eq]
  exact ⟨(image_is h).1.length, h2, h3, h1⟩

/-- C49: the builder refuses with "FS too small" exactly the sets that do not fit, and tells what is missing. -/
theorem c49_refused (l : List Src) (size m : Nat) :
    create l size = .tooSmall m ↔ size < occupied l ∧ m = occupied l - size := by
  rw [← occupied_eq]
  unfold create
  by_cases h : totalSize l > size
  · simp only [if_pos h, Built.tooSmall.injEq]
    constructor
    · intro h'; exact ⟨h, h'.symm⟩
    · intro h'; exact h'.2.symm
  · simp only [if_neg h]
    constructor
    · intro h'; split at h' <;> cases h'
    · intro h'; exact absurd h'.1 h

/-- C49: a set that fits gives an image, except if the format cannot hold it: more than 65535 files or a time
that is not a 32-bit number. -/
theorem c49_accepted (l : List Src) (size : Nat) (hs : size < 4294967296) :
    (∃ o w img, create l size = .image o w img) ↔ occupied l ≤ size ∧ l.length < 65536 ∧
      ∀ f ∈ l, 0 ≤ f.mtime ∧ f.mtime < 4294967296 := by
  constructor
  · rintro ⟨o, w, img, h⟩
    obtain ⟨h1, -, -, b, hb, -⟩ := (create_image ..).1 h
    obtain ⟨hc, x, hx, -⟩ := (pyWrite_eq ..).1 hb
    exact ⟨occupied_eq l ▸ h1, hc, pyFat_times _ _ _ _ hx⟩
  · rintro ⟨h1, h2, h3⟩
    rw [← occupied_eq] at h1
    have ht := totalSize_eq l
    obtain ⟨x, hx⟩ := pyFat_isSome l (namesOff l.length) (namesOff l.length + namesLen l) (by omega) (by omega) h3
    exact ⟨_, _, _, (create_image ..).2 ⟨h1, rfl, rfl, _, (pyWrite_eq ..).2 ⟨h2, x, hx, rfl⟩, rfl⟩⟩

example : create threeFiles 103 = .tooSmall 1 ∧ occupied threeFiles = 104 := by decide +kernel

/-! ## The size shown -/

/-- **C66.**  The device shows the size of the partition and, as used, the end of the last content: the size
announced by the builder without the padding at the end. -/
theorem c66_info (l : List Src) (size o w : Nat) (img : Str) (h : create l size = .image o w img)
    (hs : size < 4294967296) : ∃ fs used, Erfs.begin img = .ok (true, fs) ∧ fs.info = .ok (size, used) ∧
      used ≤ o ∧ o < used + 4 ∧ used ≤ size := by
  obtain ⟨hi, rfl⟩ := image_is h
  have hl := hi.length
  refine ⟨⟨img, l.length⟩, ?_⟩
  rw [hi.mount hs]
  rcases List.eq_nil_or_concat l with rfl | ⟨pre, f, e⟩
  · refine ⟨8, rfl, ?_, by decide, by decide, ?_⟩
    · simp [Erfs.info, hl, pure_ok]
    · have := hi.1; have : totalSize [] = 8 := by decide
      omega
  · rw [List.concat_eq_append] at e
    obtain ⟨b, hb, hb', -⟩ := hi.fat hs e
    have hlen : l.length = pre.length + 1 := by rw [e]; simp
    have hnum : l.length - 1 = pre.length := by omega
    obtain ⟨-, b2, -⟩ := fatOf_bounds e
    have h1 := hi.1
    have a2 : datasLen l = datasLen pre + pyAlign f.data.length := by
      rw [e, datasLen_append]; simp [datasLen]
    have a3 := pyAlign_eq f.data.length
    have a4 := totalSize_eq l
    have a5 : (fatOf l pre f).dataPtr = namesOff l.length + namesLen l + datasLen pre := rfl
    have a6 : (fatOf l pre f).len = f.data.length := rfl
    refine ⟨(fatOf l pre f).dataPtr + f.data.length, rfl, ?_, b2, by omega, by omega⟩
    rw [Erfs.info, if_pos (by simp only; omega)]
    have hfat : (Erfs.fatAddr ⟨img, l.length⟩) = fatOff l.length := rfl
    simp only [hnum]
    rw [hfat, halInto_some hb]
    simp only [ok_bind, hb', a6, pure_ok, hl]
    rw [add32, Nat.mod_eq_of_lt (by omega)]

example : Erfs.info ⟨threeImage, 3⟩ = .ok (300, 104) := by decide +kernel

end Wifinfo
