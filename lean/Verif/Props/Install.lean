import Verif.Props.PowerCut
import Verif.Props.Serve
import Verif.Props.Upload

/-!
# C98: a new file system takes the place of the old one

From the folder to the client through the web: the image made by the builder is posted to `/update`, the device
restarts and mounts what it has received.  The updater is a part of the library of the ESP8266; what is expected of it
is stated in `Spec.Updated`.
-/

namespace Wifinfo
open Spec

namespace Spec

/-- Where an upload goes: to the files (`true`) or to the program. -/
def target : List Eff → Option Bool
  | [] => none
  | .updBegin _ fs :: _ => some fs
  | _ :: r => target r

/-- What the updater does with the partition of the files during an accepted upload: the bytes received stand at its
beginning, what follows is not known (old files, erased flash); an upload of a program leaves it as it was. -/
structure Updated (old : Str) (l : List Eff) (part : Str) : Prop where
  size : part.length = old.length
  files : target l = some true → written l <+: part
  program : target l = some false → part = old

/-- A file is received in pieces, the updater is content with everything. -/
def sending (r : Req) (name : Str) (len : Nat) (x : Bool) (chunks : List Str) (ys : List Bool) : List Event :=
  .upload r (.start name len true x) ::
    (List.zipWith (fun c y => Event.upload r (.write c true y)) chunks ys ++ [.upload r (.fin true)])

/-- A site: what clients get from a device whose files are those of `l`. -/
structure Site (l : List Src) (fs : Erfs) (b : Build) (d : Device) (e : Env) : Prop where
  /-- the home page of a client -/
  home : ∀ r a, r.uri = bs "/" → Client d.nv.config r a → a ≠ .none → ∀ x, PageFile l (homePage a) x →
    match x with
    | some s => ∃ p, d.handle b e r = .ok (d, [.stream p]) ∧ ∀ buf32 ops, buf32.length = 260 →
        Whole s.data.length ops → fs.sent p buf32 ops = .ok (some s.data)
    | none => d.handle b e r = .ok (d, noPage)
  /-- the version -/
  version : ∀ r, r.uri = bs "/version" → ∀ s ∈ l, s.name = bs "version" → ∃ p, d.handle b e r = .ok (d, [.stream p]) ∧
    ∀ buf32 ops, buf32.length = 260 → Whole s.data.length ops → fs.sent p buf32 ops = .ok (some s.data)
  /-- every file is there -/
  there : ∀ s ∈ l, e.fileExists (47 :: s.name) = true ∧ ∀ buf32 ops, buf32.length = 260 → Whole s.data.length ops →
    fs.sent (47 :: s.name) buf32 ops = .ok (some s.data)
  /-- no other file is there -/
  gone : ∀ n, NulFree n → (∀ s ∈ l, s.name ≠ n) → e.fileExists (47 :: n) = false
  /-- the list of the files -/
  list : ∃ dir dir', fs.openDir (bs "/") = some dir ∧
    Dir.list (l.length + 1) dir = .ok (l.map fun f => (f.name, f.data.length, f.mtime.toNat), dir')

end Spec

theorem carries_site {l : List Src} {part : Str} (h : Carries l part) (b : Build) (d : Device) {e : Env}
    (he : OnImage e ⟨part, l.length⟩) : Site l ⟨part, l.length⟩ b d e where
  home _ _ hr hc ha := home_given h hr hc ha he
  version _ hr _ hs hn := version_given h hr hs hn he
  there _ hs := file_sent h he hs
  gone _ hn ha := file_absent h he hn ha
  list := by
    obtain ⟨dir, dir', h1, h2, -⟩ := listed h.image h.small h.set.text
    rw [listing_roomy l _ h.room h.short l _ _ rfl] at h2
    exact ⟨dir, dir', h1, h2⟩

/-- A partition that begins with an image made for a smaller one. -/
theorem carries_longer {l : List Src} {size o w : Nat} {img part : Str} (h : create l size = .image o w img)
    (hp : img <+: part) (hu : Usable l part.length o) : Carries l part := by
  obtain ⟨⟨h1, b, hb, z, hz, rfl⟩, rfl⟩ := image_is h
  obtain ⟨t, rfl⟩ := hp
  have hl : b.length = totalSize l := by rw [totalSize_eq, pyWrite_length l b hb]
  have hi : IsImage l (b ++ z ++ t).length (b ++ z ++ t) := by
    refine ⟨by simp only [List.length_append]; omega, b, hb, z ++ t, ?_, List.append_assoc ..⟩
    simp only [List.length_append]; omega
  exact ⟨hi, hu.small, hu.set, hu.short, roomy' hi hu.room⟩

theorem written_sent (n : Nat) (fs : Bool) (chunks : List Str) :
    written ([Eff.updBegin n fs] :: (chunks.map (fun c => [Eff.updWrite c]) ++
      [[.updEnd true, .send 200 (bs "OK")]])).flatten = chunks.flatten := by
  induction chunks with
  | nil => rfl
  | cons c r ih =>
    simp only [written, List.map_cons, List.cons_append, List.flatten_cons, List.flatMap_cons, List.flatMap_append,
      List.nil_append, List.flatMap_nil, List.append_nil] at ih ⊢
    rw [ih]

/-- **C98.**  An image of the builder, made for this partition or for a smaller one, is posted to `/update` under a name
with `fs.bin`, in any pieces, and the updater is content: the answer is `OK`; and the partition then mounts and gives
exactly the files of the folder, whatever it held before and whatever follows the image: the home page of each client,
the version, every file and no other, the list.  This holds for any device with this partition, so for this one after
its restart.

Partial as C44: names of at most 63 bytes, 63 bytes of contents or free space. -/
theorem c98_files_partial {b : Build} {l : List Src} {size o w : Nat} {img : Str} (h : create l size = .image o w img)
    (hu : Usable l b.fsSize o) (d : Device) (r : Req) (name : Str) (hn : bs "fs.bin" <:+: name) (len : Nat) (x : Bool)
    (chunks : List Str) (hc : chunks.flatten = img) (ys : List Bool) (hy : ys.length = chunks.length)
    (old : Str) (ho : old.length = b.fsSize) :
    ∃ d' es, d.run b (sending r name len x chunks ys) = .ok (d', es) ∧ .send 200 (bs "OK") ∈ es.flatten ∧
      target es.flatten = some true ∧
      (∀ e r', r'.uri = bs "/update" → r'.method = .post → Client d.nv.config r' .full →
        d'.handle b e r' = .ok (d', [.restartSoon])) ∧
      ∀ part, Updated old es.flatten part → ∃ fs, Erfs.begin part = .ok (true, fs) ∧
        ∀ d2 e, OnImage e fs → Site l fs b d2 e := by
  obtain ⟨d', h1, -, -, -, -, -, h2⟩ := c73_complete b d r name len chunks x ys hy
  refine ⟨d', _, h1, ?_, ?_, h2, ?_⟩
  · simp
  · simp [target, hn]
  · intro part hp
    have h3 := hp.files (by simp [target, hn])
    rw [written_sent, hc] at h3
    have h4 := carries_longer h h3 (by rw [hp.size, ho]; exact hu)
    exact ⟨_, h4.mount, fun d2 e he => carries_site h4 b d2 he⟩

/-- **C98**, an upload of a program: the files stay. -/
theorem c98_program (b : Build) (d : Device) (r : Req) (name : Str) (hn : ¬ bs "fs.bin" <:+: name) (len : Nat) (x : Bool)
    (chunks : List Str) (ys : List Bool) (hy : ys.length = chunks.length) (old : Str) :
    ∃ d' es, d.run b (sending r name len x chunks ys) = .ok (d', es) ∧ .send 200 (bs "OK") ∈ es.flatten ∧
      target es.flatten = some false ∧ ∀ part, Updated old es.flatten part → part = old := by
  obtain ⟨d', h1, -⟩ := c73_complete b d r name len chunks x ys hy
  refine ⟨d', _, h1, ?_, ?_, fun part hp => hp.program ?_⟩
  · simp
  · simp [target, hn]
  · simp [target, hn]

theorem install_snoc {b : Build} : ∀ (evs : List Event) {d d' : Device} {es} (ev : Event) {d''} {l}, d.run b evs = .ok (d', es) →
    d'.step b ev = .ok (d'', l) → d.run b (evs ++ [ev]) = .ok (d'', es ++ [l]) := by
  intro evs
  induction evs with
  | nil =>
    intro d d' es ev d'' l h1 h2
    obtain ⟨rfl, rfl⟩ := Prod.mk.inj (Except.ok.inj h1)
    simp only [List.nil_append, Device.run, h2, ok_bind]
    rfl
  | cons ev r ih =>
    intro d d' es ev' d'' l h1 h2
    obtain ⟨⟨d1, l1⟩, h3, h1⟩ := bind_ok h1
    obtain ⟨⟨d2, ls⟩, h4, h1⟩ := bind_ok h1
    obtain ⟨rfl, rfl⟩ := Prod.mk.inj (Except.ok.inj h1)
    simp only [List.cons_append, Device.run, h3, ih ev' h4 h2, ok_bind]
    rfl

/-- **C98**, the settings: an upload and the restart after it keep every setting of a device whose settings were in the
flash. -/
theorem c98_settings {b : Build} {f m a p} {d0 d : Device} {evs : List Event} {es}
    (h0 : Device.boot b f m a p .ok .ok .ok = .ok d0) (h : d0.run b evs = .ok (d, es))
    (hw : ∀ ev ∈ evs, FlashWorks ev) (r : Req) (name : Str) (len : Nat) (x : Bool)
    (chunks : List Str) (ys : List Bool) (hy : ys.length = chunks.length)
    (mem : Vector (Option Byte) MAX_FRAME_SIZE) (ssid psk : Str) (k1 k2 k3 : Commit)
    (hs : ("ssid", .text (some [])) ∉ settings d.nv.config ∨ ssid = []) :
    ∃ d' es', d.run b (sending r name len x chunks ys ++ [.boot none mem ssid psk k1 k2 k3]) = .ok (d', es') ∧
      settings d'.nv.config = settings d.nv.config := by
  obtain ⟨d1, h1, -, h2, -⟩ := c73_complete b d r name len chunks x ys hy
  have app : ∀ (evs : List Event) {d0 d : Device} {es} {evs' : List Event} {d1 es'}, d0.run b evs = .ok (d, es) →
      d.run b evs' = .ok (d1, es') → d0.run b (evs ++ evs') = .ok (d1, es ++ es') := by
    intro evs
    induction evs with
    | nil =>
      intro d0 d es evs' d1 es' h1 h2
      obtain ⟨rfl, rfl⟩ := Prod.mk.inj (Except.ok.inj h1)
      exact h2
    | cons ev r ih =>
      intro d0 d es evs' d1 es' h1 h2
      obtain ⟨⟨d2, l1⟩, h3, h1⟩ := bind_ok h1
      obtain ⟨⟨d3, ls⟩, h4, h1⟩ := bind_ok h1
      obtain ⟨rfl, rfl⟩ := Prod.mk.inj (Except.ok.inj h1)
      simp only [List.cons_append, Device.run, h3, ih h4 h2, ok_bind]
      rfl
  have hw' : ∀ ev ∈ evs ++ sending r name len x chunks ys, FlashWorks ev := by
    intro ev he
    rcases List.mem_append.1 he with he | he
    · exact hw ev he
    · have : ∃ u, ev = .upload r u := by
        rcases List.mem_cons.1 he with rfl | he
        · exact ⟨_, rfl⟩
        · rcases List.mem_append.1 he with he | he
          · rw [← List.map_uncurry_zip_eq_zipWith] at he
            obtain ⟨⟨c, y⟩, -, rfl⟩ := List.mem_map.1 he
            exact ⟨_, rfl⟩
          · exact ⟨_, List.mem_singleton.1 he⟩
      obtain ⟨u, rfl⟩ := this
      trivial
  obtain ⟨d', h3, h4, -⟩ := c91_power_cut h0 (app evs h h1) hw' mem ssid psk k1 k2 k3
  rw [h2] at h4
  exact ⟨d', _, install_snoc _ _ h1 h3, h4 hs⟩

/-- A partition of 400 bytes whose old content is not an image; the image of 300 bytes arrives in two pieces. -/
example (iso : Nat → Str) (d : Device) (r : Req) : Usable siteFiles 400 136 ∧
    [siteImage.take 7, siteImage.drop 7].flatten = siteImage ∧ ∃ d' es, Device.run ⟨⟨iso, 0⟩, false, 400⟩ d
      (sending r (bs "erfs.bin") 512 false [siteImage.take 7, siteImage.drop 7] [true, false]) = .ok (d', es) ∧
    Updated (List.replicate 400 7) es.flatten (siteImage ++ List.replicate 100 7) ∧
    ¬ Updated (List.replicate 400 7) es.flatten (List.replicate 400 7) := by
  obtain ⟨hi, hu⟩ := siteFiles_usable
  have hf : [siteImage.take 7, siteImage.drop 7].flatten = siteImage := by simp
  have hl : siteImage.length = 300 := (image_is hi).1.length
  refine ⟨⟨by decide, hu.set, hu.short, by decide +kernel⟩, hf, ?_⟩
  obtain ⟨d', h1, -⟩ := c73_complete ⟨⟨iso, 0⟩, false, 400⟩ d r (bs "erfs.bin") 512 [siteImage.take 7, siteImage.drop 7] false
    [true, false] rfl
  refine ⟨d', _, h1, ⟨?_, fun _ => ?_, fun h => ?_⟩, fun h => ?_⟩
  · rw [List.length_append, hl, List.length_replicate, List.length_replicate]
  · rw [written_sent, hf]; exact List.prefix_append ..
  · simp only [List.flatten_cons, List.cons_append, target, Option.some.injEq, decide_eq_false_iff_not] at h
    exact absurd (by decide +kernel) h
  · have h2 := h.files (by
      simp only [List.flatten_cons, List.cons_append, target, Option.some.injEq, decide_eq_true_eq]
      decide +kernel)
    rw [written_sent, hf] at h2
    obtain ⟨t, ht⟩ := h2
    have h3 := congrArg List.head? ht
    have h4 : siteImage.head? = some 69 := by decide +kernel
    rw [List.head?_append, h4, List.head?_replicate] at h3
    simp at h3

/-- **C98** as stated is false: in a partition filled by its image, a page without content is not found (C80). -/
theorem c98_refuted : ∃ img, create [⟨bs "index.html.gz", [], 0⟩] 44 = .image 44 44 img ∧
    ∀ (b : Build) (d : Device) (r : Req) (name : Str) (len : Nat) (x y : Bool), b.fsSize = 44 → bs "fs.bin" <:+: name →
      ∃ d' es, d.run b (sending r name len x [img] [y]) = .ok (d', es) ∧ .send 200 (bs "OK") ∈ es.flatten ∧
        ∀ old part, old.length = 44 → Updated old es.flatten part → Erfs.begin part = .ok (true, ⟨part, 1⟩) ∧
          ∀ (d2 : Device) (e : Env), OnImage e ⟨part, 1⟩ → ∀ r' : Req, r'.uri = bs "/" → Client d2.nv.config r' .full →
            d2.handle b e r' = .ok (d2, noPage) := by
  obtain ⟨img, h1, h2, h3⟩ := c80_refuted
  refine ⟨img, h1, fun b d r name len x y hb hn => ?_⟩
  obtain ⟨d', h4, -⟩ := c73_complete b d r name len [img] x [y] rfl
  refine ⟨d', _, h4, by simp, fun old part ho hp => ?_⟩
  have h5 := hp.files (by simp [target, hn])
  rw [written_sent] at h5
  have : part = img := by
    have hl : img.length = 44 := (image_is h1).1.length
    have := hp.size
    simp only [List.flatten_cons, List.flatten_nil, List.append_nil] at h5
    exact (h5.eq_of_length (by omega)).symm
  subst this
  exact ⟨h2, fun d2 e he r' hr hc => h3 e d2 b r' he hr hc⟩

end Wifinfo
