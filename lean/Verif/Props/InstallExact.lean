import Verif.Props.Install
import Verif.Props.Flashing
import Verif.Props.FsApi
import Verif.Props.Ls
import Verif.Props.ErfsExact

/-!
# C97, C98, C118, C122, exactly: which folders can be put on a device
-/

namespace Wifinfo

namespace Spec

/-- A device can read all the names of a folder in a partition: they have at most 63 bytes, and the 63 bytes from the beginning of each
are in the partition. -/
def Readable (l : List Src) (size : Nat) : Prop :=
  ∀ pre f post, l = pre ++ f :: post → f.name.length ≤ 63 ∧ Legible l size pre

end Spec
open Spec

theorem readable_carries {l : List Src} {part : Str} (hi : IsImage l part.length part) (hs : part.length < 2147483648)
    (hl : FileSet l) (hr : Readable l part.length) : Carries l part := by
  refine ⟨hi, hs, hl, fun f hf => ?_, (roomy_iff ..).2 fun pre f post e => (hr pre f post e).2⟩
  obtain ⟨a, b, e⟩ := List.append_of_mem hf
  exact (hr a f b e).1

/-- What the partition holds after an image of any size was written to its beginning. -/
theorem image_longer {l : List Src} {size o w : Nat} {img part : Str} (h : create l size = .image o w img)
    (hp : img <+: part) : IsImage l part.length part := by
  obtain ⟨⟨h1, b, hb, z, hz, rfl⟩, rfl⟩ := image_is h
  obtain ⟨t, rfl⟩ := hp
  have hl : b.length = totalSize l := by rw [totalSize_eq, pyWrite_length l b hb]
  refine ⟨by simp only [List.length_append]; omega, b, hb, z ++ t, ?_, List.append_assoc ..⟩
  simp only [List.length_append]; omega

/-- A device is a site of the folder exactly if it can read the names. -/
theorem site_iff {l : List Src} {part : Str} (hi : IsImage l part.length part) (hs : part.length < 2147483648) (hl : FileSet l)
    (b : Build) (d : Device) {e : Env} (he : OnImage e ⟨part, l.length⟩) :
    Site l ⟨part, l.length⟩ b d e ↔ Readable l part.length := by
  constructor
  · intro h
    obtain ⟨dir, dir', h1, h2⟩ := h.list
    obtain ⟨dir2, dir2', g1, g2, -⟩ := listed hi hs hl.text
    rw [h1] at g1
    cases g1
    rw [h2] at g2
    have := (Prod.mk.inj (Except.ok.inj g2)).1
    have := listing_exact l part.length hl.nodup hl.nonempty l [] [] rfl (.inl rfl) this.symm
    simpa [Readable] using this
  · intro h
    exact carries_site (readable_carries hi hs hl h) b d he

/-- **C98, exactly.**  The image of any folder, made for any size that fits and sent whole in any pieces: the updater says `OK`, the partition
mounts, and the pages, the version, the files and the list are those of the folder if and only if the device can read all the names in its
partition. -/
theorem c98_exact {b : Build} {l : List Src} {size o w : Nat} {img : Str} (h : create l size = .image o w img)
    (hs : b.fsSize < 2147483648) (hl : FileSet l) (d : Device) (r : Req) (name : Str) (hn : bs "fs.bin" <:+: name) (len : Nat)
    (x : Bool) (chunks : List Str) (hc : chunks.flatten = img) (ys : List Bool) (hy : ys.length = chunks.length)
    (old : Str) (ho : old.length = b.fsSize) :
    ∃ d' es, d.run b (sending r name len x chunks ys) = .ok (d', es) ∧ .send 200 (bs "OK") ∈ es.flatten ∧
      target es.flatten = some true ∧
      ∀ part, Updated old es.flatten part → ∃ fs, Erfs.begin part = .ok (true, fs) ∧
        ∀ d2 e, OnImage e fs → (Site l fs b d2 e ↔ Readable l b.fsSize) := by
  obtain ⟨d', h1, -, -, -, -, -, -⟩ := c73_complete b d r name len chunks x ys hy
  refine ⟨d', _, h1, ?_, ?_, ?_⟩
  · simp
  · simp [target, hn]
  · intro part hp
    have h3 := hp.files (by simp [target, hn])
    rw [written_sent, hc] at h3
    have hi := image_longer h h3
    have hlen : part.length = b.fsSize := by rw [hp.size, ho]
    refine ⟨_, hi.mount (by omega), fun d2 e he => ?_⟩
    rw [site_iff hi (by omega) hl b d2 he, hlen]

/-- **C118, exactly.**  After the two commands of the README the files of the board are those of the folder if and only if the device can read
all the names in the partition. -/
theorem c118_exact {mb : Nat} (h : mb = 1 ∨ mb = 4) {size o w : Nat} {l : List Src} {img : Str}
    (hs : pySize (recipeFor mb).size = some size) (hc : create l size = .image o w img) (hl : FileSet l)
    (prog : Str) (hp : prog.length ≤ (filesAt mb).start) (flash : Nat → Byte) (after : Nat → Byte)
    (ho : after = writeFlash (writeFlash flash 0 prog) (recipeFor mb).address img ∨
      after = writeFlash (writeFlash flash (recipeFor mb).address img) 0 prog) :
    ∃ fs, Erfs.begin (boardFiles after mb) = .ok (true, fs) ∧
      ∀ b d e, OnImage e fs → (Site l fs b d e ↔ Readable l (filesAt mb).len) := by
  obtain ⟨hlen, -, k2, -⟩ := recipe_done h hs hc prog hp flash after ho
  rw [k2]
  have hi := image_longer hc (List.prefix_refl _)
  have hsm : img.length < 2147483648 := by rw [hlen]; rcases h with rfl | rfl <;> decide
  refine ⟨_, hi.mount (by omega), fun b d e he => ?_⟩
  rw [site_iff hi hsm hl b d he, hlen]

theorem listing_clean (l : List Src) (size : Nat) (rest : List Src) : ∀ pre u, (∀ f ∈ rest, (10 : Byte) ∉ f.name) → (10 : Byte) ∉ u →
    ∀ x ∈ listing l size u pre rest, (10 : Byte) ∉ x.1 := by
  induction rest with
  | nil => intro pre u _ _ x hx; cases hx
  | cons f r ih =>
    intro pre u h hu x hx
    have hv : (10 : Byte) ∉ (if (fatOf l pre f).namePtr + 63 ≤ size then f.name.take 63 else u) := by
      split
      · exact fun hm => h f (List.mem_cons_self ..) (List.mem_of_mem_take hm)
      · exact hu
    simp only [listing] at hx
    rcases List.mem_cons.1 hx with rfl | hx
    · exact hv
    · exact ih _ _ (fun g hg => h g (List.mem_cons_of_mem _ hg)) hv x hx

/-- **C97, exactly.**  The list of the console shows the files of the folder if and only if the device can read all the names (for names without
a line feed). -/
theorem c97_exact (l : List Src) (size o w : Nat) (img : Str) (h : create l size = .image o w img)
    (hs : size < 2147483648) (hl : FileSet l) (h10 : ∀ f ∈ l, (10 : Byte) ∉ f.name) :
    ∃ fs d es d', Erfs.begin img = .ok (true, fs) ∧ fs.openDir (bs "/") = some d ∧
      Dir.list (l.length + 1) d = .ok (es, d') ∧
      (readLs (fsLs (es.map fun e => (e.1, e.2.1))) = some (l.map fun f => (f.name, f.data.length)) ↔ Readable l size) := by
  obtain ⟨hi, -⟩ := image_is h
  obtain ⟨d, d', h1, h2, -⟩ := listed hi hs hl.text
  refine ⟨_, d, _, d', hi.mount (by omega), h1, h2, ?_⟩
  rw [c97_list]
  · constructor
    · intro he
      have he := Option.some.inj he
      have hfull : listing l size [] [] l = l.map (fun f => (f.name, f.data.length, f.mtime.toNat)) := by
        have hr := listing_rest l size l [] []
        apply List.ext_getElem?
        intro i
        have e1 := congrArg (·[i]?) he
        have e2 := congrArg (·[i]?) hr
        simp only [List.getElem?_map] at e1 e2 ⊢
        cases hx : (listing l size [] [] l)[i]? with
        | none =>
          rw [hx] at e1
          cases hy : l[i]? with
          | none => rfl
          | some y => rw [hy] at e1; cases e1
        | some x =>
          rw [hx] at e1 e2
          cases hy : l[i]? with
          | none => rw [hy] at e1; cases e1
          | some y =>
            rw [hy] at e1 e2
            simp only [Option.map_some, Option.some.injEq, Prod.mk.injEq] at e1 e2 ⊢
            obtain ⟨x1, x2, x3⟩ := x
            simp only [Prod.mk.injEq] at e1 e2 ⊢
            exact ⟨e1.1, e2⟩
      have := listing_exact l size hl.nodup hl.nonempty l [] [] rfl (.inl rfl) hfull
      simpa [Readable] using this
    · intro hr
      rw [listing_roomy l size ((roomy_iff ..).2 fun pre f post e => (hr pre f post e).2) (fun f hf => by
        obtain ⟨a, b, e⟩ := List.append_of_mem hf
        exact (hr a f b e).1) l _ _ rfl]
      simp
  · intro f hf
    obtain ⟨x, hx, rfl⟩ := List.mem_map.1 hf
    exact listing_clean l size l [] [] h10 (by simp) x hx

theorem readable_of_opens {l : List Src} {size : Nat} (hl : FileSet l)
    (h : ∀ s ∈ l, ∃ pre f post, l = pre ++ f :: post ∧ LeadsTo l size s.name pre f) : Readable l size := by
  have hshort : ∀ s ∈ l, s.name.length ≤ 63 := by
    intro s hs
    obtain ⟨_, f, _, _, _, e, _⟩ := h s hs
    have := congrArg List.length e
    rw [List.length_take] at this
    omega
  intro pre s post e
  have hs : s ∈ l := by rw [e]; simp
  refine ⟨hshort s hs, ?_⟩
  obtain ⟨a, f, b, e1, hx, e2, -⟩ := h s hs
  have hf : f ∈ l := by rw [e1]; simp
  rw [List.take_of_length_le (hshort f hf)] at e2
  suffices a = pre by rw [← this]; exact hx
  have nd := hl.nodup
  rcases List.append_eq_append_iff.1 (e1.symm.trans e) with ⟨c, h1, h2⟩ | ⟨c, h1, h2⟩
  · cases c with
    | nil => rw [h1, List.append_nil]
    | cons x c =>
      obtain ⟨rfl, -⟩ := List.cons.inj h2
      rw [e, h1, List.map_append, List.map_cons] at nd
      refine absurd e2 ((List.nodup_append.1 nd).2.2 f.name ?_ s.name (List.mem_cons_self ..))
      simp
  · cases c with
    | nil => rw [h1, List.append_nil]
    | cons x c =>
      obtain ⟨rfl, -⟩ := List.cons.inj h2
      rw [e1, h1, List.map_append, List.map_cons] at nd
      refine absurd e2.symm ((List.nodup_append.1 nd).2.2 s.name ?_ f.name (List.mem_cons_self ..))
      simp

/-- **C122, exactly.**  A program is answered as by the folder, whatever it does, if and only if the device can read all the names. -/
theorem c122_exact (l : List Src) (size o w : Nat) (img : Str) (h : create l size = .image o w img)
    (hs : size < 2147483648) (hl : FileSet l) :
    ∃ used, used ≤ o ∧ o < used + 4 ∧
      ((∀ (buf32 : Str) (cs : List FsCall), buf32.length = 260 → (∀ c ∈ cs, c.Valid) →
        ∃ s, (Fsys.init img buf32).run cs = .ok ((⟨false, [], []⟩ : Folder).run l size used 8 cs, s)) ↔ Readable l size) := by
  have hc := h
  obtain ⟨hi, rfl⟩ := image_is h
  obtain ⟨used, u1, u2, u3⟩ := info_folder hi (by omega)
  refine ⟨used, u1, u2, ?_, ?_⟩
  · intro ha
    refine readable_of_opens hl fun s hsl => ?_
    have hnul := hl.text s hsl
    obtain ⟨s', h1⟩ := ha (List.replicate 260 0) [.mount, .there (47 :: s.name)] (List.length_replicate ..) (by
      intro c hm
      rcases List.mem_cons.1 hm with rfl | hm
      · trivial
      · rw [List.mem_singleton.1 hm]
        intro h0
        rcases List.mem_cons.1 h0 with h0 | h0
        · exact absurd h0 (by decide)
        · exact hnul 0 h0 rfl)
    obtain ⟨fs, g1, g2⟩ := c44_exact l size _ w img hc hs hl (47 :: s.name) s.name
      (by intro b hb; exact (List.mem_cons.1 hb).elim (fun e => by rw [e]; decide) (hnul b)) (.inr rfl) (hl.nonempty s hsl)
    rcases g2 with ⟨pre, f, post, _, e1, e2, -⟩ | ⟨-, g2⟩
    · exact ⟨pre, f, post, e1, e2⟩
    · exfalso
      have hf : (inFolder l (47 :: s.name)).isSome = true := by
        unfold inFolder
        rw [List.find?_isSome]
        exact ⟨s, hsl, by simp⟩
      simp only [Fsys.run, Fsys.step, Fsys.init, g1, ok_bind, pure_ok, if_true, g2, Folder.run, Folder.step, hf, Bool.and_self,
        Except.ok.injEq, Prod.mk.injEq, List.cons.injEq, FsAnswer.yes.injEq] at h1
      exact absurd h1.1.2.1 (by simp)
  · intro hr buf32 cs hb hv
    have hshort : ∀ f ∈ l, f.name.length ≤ 63 := fun f hf => by
      obtain ⟨a, b, e⟩ := List.append_of_mem hf
      exact (hr a f b e).1
    obtain ⟨s, h1, -⟩ := run_folder hi hs hl hshort ((roomy_iff ..).2 fun pre f post e => (hr pre f post e).2) u3 cs
      (s := Fsys.init img buf32) (p := ⟨false, [], []⟩) ⟨rfl, hb, both_nil, both_nil⟩ hv
    exact ⟨s, h1⟩

/-- Three files: not readable in 130 bytes, readable in 300. -/
example : FileSet threeFiles ∧ (∃ img, create threeFiles 130 = .image 104 104 img) ∧ ¬ Readable threeFiles 130 ∧ Readable threeFiles 300 := by
  refine ⟨by constructor <;> (try unfold NulFree) <;> decide +kernel, ⟨truncate ((pyWrite threeFiles).getD []) 130, by decide +kernel⟩, fun h => ?_, ?_⟩
  · exact absurd (h (threeFiles.take 1) (threeFiles[1]'(by decide +kernel)) (threeFiles.drop 2) (by decide +kernel)).2 (by unfold Legible; decide +kernel)
  · intro pre f post e
    have hf : f ∈ threeFiles := by rw [e]; simp
    refine ⟨?_, ?_⟩
    · have : ∀ f ∈ threeFiles, f.name.length ≤ 63 := by decide +kernel
      exact this f hf
    · have hlen : pre.length < 3 := by have := congrArg List.length e; simp [show threeFiles.length = 3 from by decide +kernel] at this; omega
      have hpre : pre = threeFiles.take pre.length := by rw [e]; simp
      rw [hpre]
      have : ∀ n < 3, Legible threeFiles 300 (threeFiles.take n) := by unfold Legible; decide +kernel
      exact this _ hlen

end Wifinfo
