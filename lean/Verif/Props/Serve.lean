import Verif.Props.Erfs
import Verif.Props.Web

/-!
# C80: from the folder to the client

The builder of images, the file system of the device and its web server together.
-/

namespace Wifinfo
open Spec

/-- The web server works on a mounted image: `WIFINFO_FS.exists` is `exists` of ERFS.cpp:303-307. -/
def OnImage (e : Env) (fs : Erfs) : Prop := ∀ path r, fs.open path = .ok r → e.fileExists path = r.isSome

/-- What a client receives of `server.streamFile`: the file is opened and read from its beginning by the reads
`ops` (the library takes the sizes and the buffers that it likes). -/
def Erfs.sent (fs : Erfs) (path buf32 : Str) (ops : List FileOp) : Res (Option Str) := do
  match ← fs.open path with
  | none => pure none
  | some f =>
    let rs ← f.run buf32 ops
    pure (some (rs.flatMap fun r => bytesRead r.1))

/-- Reads of a whole file. -/
structure Whole (n : Nat) (ops : List FileOp) : Prop where
  valid : ∀ o ∈ ops, FileOp.Valid o
  read : ∀ o ∈ ops, IsRead o
  all : n ≤ (ops.map askedSize).sum

/-- An image that a device can use: what `c44_read_back_partial` asks for. -/
structure Usable (l : List Src) (size o : Nat) : Prop where
  small : size < 2147483648
  set : FileSet l
  short : ∀ f ∈ l, f.name.length ≤ 63
  room : 63 ≤ (l.map (·.data.length)).sum + (size - o)

theorem mounted_unique {img : Str} {fs fs' : Erfs} (h : Erfs.begin img = .ok (true, fs))
    (h' : Erfs.begin img = .ok (true, fs')) : fs = fs' := by
  rw [h] at h'
  exact (Prod.mk.inj (Except.ok.inj h')).2

/-- A partition that begins with a usable image of the folder, whatever comes after. -/
structure Carries (l : List Src) (part : Str) : Prop where
  image : IsImage l part.length part
  small : part.length < 2147483648
  set : FileSet l
  short : ∀ f ∈ l, f.name.length ≤ 63
  room : Roomy l part.length

theorem Carries.mount {l : List Src} {part : Str} (h : Carries l part) : Erfs.begin part = .ok (true, ⟨part, l.length⟩) :=
  h.image.mount (by have := h.small; omega)

theorem carries_image {l : List Src} {size o w : Nat} {img : Str} (h : create l size = .image o w img)
    (hu : Usable l size o) : Carries l img := by
  have hl := (image_is h).1.length
  exact ⟨by rw [hl]; exact (image_is h).1, by rw [hl]; exact hu.small, hu.set, hu.short, by rw [hl]; exact roomy h hu.room⟩

/-- A file of the folder is there, and sent whole. -/
theorem file_sent {l : List Src} {part : Str} (h : Carries l part) {e : Env} (he : OnImage e ⟨part, l.length⟩)
    {s : Src} (hs : s ∈ l) : e.fileExists (47 :: s.name) = true ∧
      ∀ buf32 ops, buf32.length = 260 → Whole s.data.length ops →
        Erfs.sent ⟨part, l.length⟩ (47 :: s.name) buf32 ops = .ok (some s.data) := by
  obtain ⟨fs', h1, h2⟩ := read_back h.image h.small h.set h.short h.room s hs
  cases mounted_unique h.mount h1
  obtain ⟨f, h3, -, -, -, h4⟩ := h2 (47 :: s.name) (.inr rfl)
  refine ⟨by rw [he _ _ h3]; rfl, fun buf32 ops hb ho => ?_⟩
  unfold Erfs.sent
  rw [h3]
  simp only [ok_bind]
  rw [(h4 buf32 hb).2 ops ho.valid]
  simp only [ok_bind]
  rw [reads_concat _ _ _ ho.read, List.drop_zero, List.take_of_length_le ho.all]
  rfl

/-- A file that is not in the folder is not there. -/
theorem file_absent {l : List Src} {part : Str} (h : Carries l part) {e : Env} (he : OnImage e ⟨part, l.length⟩)
    {n : Str} (hn : NulFree n) (ha : ∀ f ∈ l, f.name ≠ n) : e.fileExists (47 :: n) = false := by
  obtain ⟨fs', h1, r, h2, h3⟩ := absent h.image h.small h.set (47 :: n) n
    (by intro b hb; exact (List.mem_cons.1 hb).elim (fun e => by rw [e]; decide) (hn b)) (.inr rfl)
    (.inr h.room)
  cases mounted_unique h.mount h1
  rw [he _ _ h2]
  cases r with
  | none => rfl
  | some f =>
    obtain ⟨g, hg, e, -⟩ := h3 rfl
    rw [List.take_of_length_le (h.short g hg)] at e
    exact absurd e.symm (ha g hg)

/-- The file that a page is made of: compressed, else plain. -/
inductive PageFile (l : List Src) (page : Str) : Option Src → Prop
  | compressed {s} : s ∈ l → s.name = page ++ bs ".gz" → PageFile l page (some s)
  | plain {s} : (∀ f ∈ l, f.name ≠ page ++ bs ".gz") → s ∈ l → s.name = page → PageFile l page (some s)
  | missing : (∀ f ∈ l, f.name ≠ page ++ bs ".gz") → (∀ f ∈ l, f.name ≠ page) → PageFile l page none

/-- The home page of a client. -/
def homePage : Access → Str
  | .restricted => bs "index.restrict.html"
  | _ => bs "index.html"

theorem home_root {d : Device} {b : Build} {e : Env} {r : Req} {a : Access} (hu : r.uri = bs "/")
    (hc : Client d.nv.config r a) (ha : a ≠ .none) {x : Option (List Eff)}
    (hx : handleRead e (47 :: homePage a) = x) : d.handle b e r = .ok (d, x.getD noPage) := by
  have e1 : bs "/index.restrict.html" = 47 :: homePage .restricted := by decide +kernel
  have e2 : bs "/index.html" = 47 :: homePage .full := by decide +kernel
  unfold Device.handle
  rw [hu, route_root]
  simp only [handleRoot, client_auth hc, ok_bind, e1, e2]
  cases a with
  | none => exact absurd rfl ha
  | restricted => simp only [hx]; cases x <;> rfl
  | full => simp only [hx]; cases x <;> rfl

/-- The home page that a device gives on a partition. -/
theorem home_given {l : List Src} {part : Str} (h : Carries l part) {e : Env} {d : Device} {b : Build} {r : Req} {a : Access}
    (hr : r.uri = bs "/") (hc : Client d.nv.config r a) (ha : a ≠ .none) (he : OnImage e ⟨part, l.length⟩) :
    ∀ x, PageFile l (homePage a) x →
      match x with
      | some s => ∃ p, d.handle b e r = .ok (d, [.stream p]) ∧ ∀ buf32 ops, buf32.length = 260 →
          Whole s.data.length ops → Erfs.sent ⟨part, l.length⟩ p buf32 ops = .ok (some s.data)
      | none => d.handle b e r = .ok (d, noPage) := by
  intro x hx
  have hnf : NulFree (homePage a) ∧ NulFree (homePage a ++ bs ".gz") := by
    cases a <;> unfold NulFree <;> decide +kernel
  have hl : (47 :: homePage a).getLast? ≠ some 47 := by cases a <;> decide +kernel
  cases hx with
  | compressed hs hn =>
    rename_i s
    obtain ⟨h1, h2⟩ := file_sent h he hs
    rw [hn] at h1 h2
    refine ⟨47 :: (homePage a ++ bs ".gz"), home_root hr hc ha (x := some _) ?_, h2⟩
    unfold handleRead
    rw [if_neg hl, List.cons_append, if_pos h1]
  | plain hz hs hn =>
    rename_i s
    obtain ⟨h1, h2⟩ := file_sent h he hs
    rw [hn] at h1 h2
    refine ⟨47 :: homePage a, home_root hr hc ha (x := some _) ?_, h2⟩
    unfold handleRead
    rw [if_neg hl, List.cons_append, file_absent h he hnf.2 hz, h1]
    rfl
  | missing hz hp =>
    refine home_root hr hc ha (x := none) ?_
    unfold handleRead
    rw [if_neg hl, List.cons_append, file_absent h he hnf.2 hz, file_absent h he hnf.1 hp]
    rfl

/-- **C80 (partial).**  For every folder put in an image by the builder, the device that has mounted this image
answers a client who asks for the home page with the content of the page of the folder, whole, and the same for
`/version`: the page of restricted clients is `index.restrict.html`, the other is `index.html`, the compressed
file goes first.  Without the page the answer is the link to the update page.

Missing with respect to the property as stated: names of more than 63 bytes and images with less than 63 bytes
after the names, for which it is false (`c80_refuted`). -/
theorem c80_home_partial {l : List Src} {size o w : Nat} {img : Str} (h : create l size = .image o w img)
    (hu : Usable l size o) {e : Env} {d : Device} {b : Build} {r : Req} {a : Access} (hr : r.uri = bs "/")
    (hc : Client d.nv.config r a) (ha : a ≠ .none) :
    ∃ fs, Erfs.begin img = .ok (true, fs) ∧ (OnImage e fs → ∀ x, PageFile l (homePage a) x →
      match x with
      | some s => ∃ p, d.handle b e r = .ok (d, [.stream p]) ∧ ∀ buf32 ops, buf32.length = 260 →
          Whole s.data.length ops → fs.sent p buf32 ops = .ok (some s.data)
      | none => d.handle b e r = .ok (d, noPage)) := by
  have hh := carries_image h hu
  exact ⟨_, hh.mount, fun he => home_given hh hr hc ha he⟩

/-- The page file is determined by the folder: `c80_home_partial` covers every case. -/
theorem c80_page (l : List Src) (page : Str) : ∃ x, PageFile l page x := by
  by_cases h1 : ∃ s ∈ l, s.name = page ++ bs ".gz"
  · obtain ⟨s, h, e⟩ := h1
    exact ⟨_, .compressed h e⟩
  · have h1 : ∀ f ∈ l, f.name ≠ page ++ bs ".gz" := fun f hf e => h1 ⟨f, hf, e⟩
    by_cases h2 : ∃ s ∈ l, s.name = page
    · obtain ⟨s, h, e⟩ := h2
      exact ⟨_, .plain h1 h e⟩
    · exact ⟨_, .missing h1 fun f hf e => h2 ⟨f, hf, e⟩⟩

theorem route_version (cpu : Bool) (st : Str → Option Str) (m : Method) :
    route cpu st m (bs "/version") = .version := by
  unfold route
  rw [if_neg (by decide +kernel), if_neg (fun h => absurd h.2 (by decide +kernel)), if_neg (by decide +kernel),
    if_neg (by decide +kernel), if_neg (by decide +kernel), if_neg (by decide +kernel), if_neg (by decide +kernel),
    if_neg (by decide +kernel), if_neg (by decide +kernel), if_neg (by decide +kernel), if_neg (by decide +kernel),
    if_neg (by decide +kernel), if_neg (fun h => absurd h.1 (by decide +kernel)),
    if_neg (fun h => absurd h.1 (by decide +kernel)), if_neg (fun h => absurd h.1 (by decide +kernel)),
    if_neg (by decide +kernel), if_pos rfl]

theorem version_given {l : List Src} {part : Str} (h : Carries l part) {e : Env} {d : Device} {b : Build} {r : Req}
    (hr : r.uri = bs "/version") {s : Src} (hs : s ∈ l) (hn : s.name = bs "version") (he : OnImage e ⟨part, l.length⟩) :
    ∃ p, d.handle b e r = .ok (d, [.stream p]) ∧ ∀ buf32 ops, buf32.length = 260 → Whole s.data.length ops →
      Erfs.sent ⟨part, l.length⟩ p buf32 ops = .ok (some s.data) := by
  obtain ⟨-, h2⟩ := file_sent h he hs
  rw [hn] at h2
  refine ⟨bs "/version", ?_, h2⟩
  unfold Device.handle
  rw [hr, route_version]
  rfl

/-- **C80 (partial).**  `/version` gives the content of the file `version`, to everybody. -/
theorem c80_version_partial {l : List Src} {size o w : Nat} {img : Str} (h : create l size = .image o w img)
    (hu : Usable l size o) {e : Env} {d : Device} {b : Build} {r : Req} (hr : r.uri = bs "/version") {s : Src}
    (hs : s ∈ l) (hn : s.name = bs "version") :
    ∃ fs, Erfs.begin img = .ok (true, fs) ∧ (OnImage e fs → ∃ p, d.handle b e r = .ok (d, [.stream p]) ∧
      ∀ buf32 ops, buf32.length = 260 → Whole s.data.length ops → fs.sent p buf32 ops = .ok (some s.data)) := by
  have hh := carries_image h hu
  exact ⟨_, hh.mount, fun he => version_given hh hr hs hn he⟩

/-- A folder with a home page for each kind of client. -/
def siteFiles : List Src :=
  [⟨bs "index.html.gz", bs "<full>", 5⟩, ⟨bs "index.restrict.html.gz", bs "<restricted>", 6⟩,
   ⟨bs "version", bs "v1", 7⟩]

def siteImage : Str := truncate ((pyWrite siteFiles).getD []) 300

theorem siteFiles_usable : create siteFiles 300 = .image 136 136 siteImage ∧ Usable siteFiles 300 136 :=
  ⟨by decide +kernel, by decide, ⟨by decide +kernel, by decide +kernel, by unfold NulFree; decide +kernel, by decide +kernel⟩,
    by decide +kernel, by decide +kernel⟩

example : PageFile siteFiles (homePage .full) (some ⟨bs "index.html.gz", bs "<full>", 5⟩) ∧
    PageFile siteFiles (homePage .restricted) (some ⟨bs "index.restrict.html.gz", bs "<restricted>", 6⟩) ∧
    Whole 12 [.read 1 (List.replicate 7 0) 7, .read 2 (List.replicate 7 0) 7] :=
  ⟨.compressed (by decide +kernel) (by decide +kernel), .compressed (by decide +kernel) (by decide +kernel),
    ⟨by simp [FileOp.Valid], by simp [IsRead], by decide⟩⟩

/-- An environment on an image. -/
def imageEnv (e : Env) (fs : Erfs) : Env :=
  { e with fileExists := fun path => match fs.open path with
      | .ok (some _) => true
      | _ => false }

example (e : Env) (fs : Erfs) : OnImage (imageEnv e fs) fs := by
  intro path r h
  simp only [imageEnv, h]
  cases r <;> rfl

/-- **C80** as stated is false: the builder accepts a folder with an empty page, in an image of the size that
is needed, and the device does not find the page. -/
theorem c80_refuted : ∃ img, create [⟨bs "index.html.gz", [], 0⟩] 44 = .image 44 44 img ∧
    Erfs.begin img = .ok (true, ⟨img, 1⟩) ∧
    ∀ (e : Env) (d : Device) (b : Build) (r : Req), OnImage e ⟨img, 1⟩ → r.uri = bs "/" →
      Client d.nv.config r .full → d.handle b e r = .ok (d, noPage) := by
  refine ⟨truncate ((pyWrite [⟨bs "index.html.gz", [], 0⟩]).getD []) 44, by decide +kernel,
    (image_is (l := [⟨bs "index.html.gz", [], 0⟩]) (size := 44) (o := 44) (w := 44) (by decide +kernel)).1.mount (by decide), ?_⟩
  intro e d b r he hr hc
  have h1 : (Erfs.open ⟨truncate ((pyWrite [⟨bs "index.html.gz", [], 0⟩]).getD []) 44, 1⟩
      (bs "/index.html.gz")).map Option.isSome = .ok false := by decide +kernel
  have h2 : (Erfs.open ⟨truncate ((pyWrite [⟨bs "index.html.gz", [], 0⟩]).getD []) 44, 1⟩
      (bs "/index.html")).map Option.isSome = .ok false := by decide +kernel
  have key : ∀ fs p, (Erfs.open fs p).map Option.isSome = .ok false → fs.open p = .ok none := by
    intro fs p h
    cases ho : fs.open p with
    | error x => rw [ho] at h; cases h
    | ok y =>
      rw [ho] at h
      cases y with
      | none => rfl
      | some f => cases Except.ok.inj h
  refine home_root hr hc (by decide) (x := none) ?_
  unfold handleRead
  rw [if_neg (by decide +kernel), show (47 :: homePage .full) ++ bs ".gz" = bs "/index.html.gz" by decide +kernel,
    show 47 :: homePage .full = bs "/index.html" by decide +kernel, he _ _ (key _ _ h1), he _ _ (key _ _ h2)]
  rfl

end Wifinfo
