import Verif.Model.Version
import Verif.Props.ChainExact
import Verif.Props.Ls
import Verif.Props.Table
import Verif.Props.SysJson

/-!
# C133: the version that is shown tells the commit
-/

namespace Wifinfo

namespace Spec

/-- A digit of a commit. -/
def CommitDigit (c : Byte) : Prop := (48 ≤ c ∧ c ≤ 57) ∨ (97 ≤ c ∧ c ≤ 102)

instance (c : Byte) : Decidable (CommitDigit c) := by unfold CommitDigit; infer_instance

/-- A commit as git writes it. -/
def IsCommit (h : Str) : Prop := h ≠ [] ∧ ∀ c ∈ h, CommitDigit c

/-- Somebody who reads `v` knows the commit. -/
def TellsCommit (v h : Str) : Prop := IsCommit h ∧ (bs "-g" ++ h) <:+ v

/-- The kind of a name: no blank, no slash. -/
def IsKind (k : Str) : Prop := k ≠ [] ∧ ∀ c ∈ k, 97 ≤ c ∧ c ≤ 122

end Spec
open Spec

theorem digit_not_blank : ∀ c : Byte, CommitDigit c → pyBlank c = false := by
  apply byte_all; decide +kernel

theorem letter_facts : ∀ c : Byte, 97 ≤ c ∧ c ≤ 122 → pyBlank c = false ∧ c ≠ 47 := by
  apply byte_all; decide +kernel

theorem strip_line {s : Str} {a z : Byte} {m : Str} (h : s = a :: (m ++ [z])) (ha : pyBlank a = false) (hz : pyBlank z = false) :
    pyStrip (s ++ bs "\n") = s := by
  subst h
  have e1 : (a :: (m ++ [z]) ++ bs "\n").dropWhile pyBlank = a :: (m ++ [z]) ++ bs "\n" := by
    rw [List.cons_append, List.dropWhile_cons, ha]; rfl
  have e2 : (a :: (m ++ [z]) ++ bs "\n").reverse = 10 :: z :: (m.reverse ++ [a]) := by
    rw [show bs "\n" = [10] from by decide]; simp
  unfold pyStrip
  rw [e1, e2, List.dropWhile_cons, show pyBlank 10 = true from by decide, if_pos rfl, List.dropWhile_cons, hz, if_neg (by simp)]
  simp

theorem fromSlash_cut {k r : Str} (h : (47 : Byte) ∉ k) : fromSlash (k ++ 47 :: r) = some r := by
  induction k with
  | nil => rfl
  | cons c k ih =>
    rw [List.cons_append, fromSlash, if_neg (by intro e; exact h (by rw [e]; exact List.mem_cons_self))]
    exact ih fun hm => h (List.mem_cons_of_mem _ hm)

theorem fromSlash_none {k : Str} (h : (47 : Byte) ∉ k) : fromSlash k = none := by
  induction k with
  | nil => rfl
  | cons c k ih =>
    rw [fromSlash, if_neg (by intro e; exact h (by rw [e]; exact List.mem_cons_self))]
    exact ih fun hm => h (List.mem_cons_of_mem _ hm)

/-- **C133, the text.**  For every branch, tag or other name: the version is the name, the number of commits since, and the commit. -/
theorem c133_text {kind name commit : Str} {ahead : Nat} {var : Option Str} (hk : IsKind kind) (hc : IsCommit commit) :
    getVersion (some (Described.named kind name ahead commit).text) var =
      some (name ++ bs "-" ++ decText ahead ++ bs "-g" ++ commit) := by
  obtain ⟨hk0, hk1⟩ := hk
  obtain ⟨hc0, hc1⟩ := hc
  obtain ⟨a, k, rfl⟩ : ∃ a k, kind = a :: k := by
    cases kind with
    | nil => exact absurd rfl hk0
    | cons a k => exact ⟨a, k, rfl⟩
  obtain ⟨c, z, rfl⟩ : ∃ c z, commit = c ++ [z] := by
    rcases List.eq_nil_or_concat commit with h | ⟨c, z, h⟩
    · exact absurd h hc0
    · exact ⟨c, z, by rw [h, List.concat_eq_append]⟩
  have h1 := strip_line (s := (a :: k) ++ bs "/" ++ name ++ bs "-" ++ decText ahead ++ bs "-g" ++ (c ++ [z])) (a := a) (z := z)
    (m := k ++ bs "/" ++ name ++ bs "-" ++ decText ahead ++ bs "-g" ++ c) (by simp) (letter_facts a (hk1 a List.mem_cons_self)).1
    (digit_not_blank z (hc1 z (by simp)))
  simp only [getVersion, Described.text]
  rw [h1]
  have e : (a :: k) ++ bs "/" ++ name ++ bs "-" ++ decText ahead ++ bs "-g" ++ (c ++ [z]) =
      (a :: k) ++ 47 :: (name ++ bs "-" ++ decText ahead ++ bs "-g" ++ (c ++ [z])) := by
    rw [show bs "/" = [47] from by decide]; simp
  rw [e, fromSlash_cut]
  intro hm
  exact (letter_facts 47 (hk1 47 hm)).2 rfl

example : getVersion (some (bs "heads/feature/leds-0-g02fa9c2\n")) none = some (bs "feature/leds-0-g02fa9c2") := by decide +kernel

theorem digit_not_g : ∀ c : Byte, CommitDigit c → c ≠ 103 := by apply byte_all; decide +kernel

/-- **C133, readers.**  A text tells one commit at most: who reads a version knows the commit of it, and no other. -/
theorem c133_commit {v h h' : Str} (h1 : TellsCommit v h) (h2 : TellsCommit v h') : h = h' := by
  obtain ⟨⟨-, a1⟩, x, rfl⟩ := h1
  obtain ⟨⟨-, a2⟩, y, e⟩ := h2
  have e : y ++ [45, 103] ++ h' = x ++ [45, 103] ++ h := by
    rw [show [45, 103] = bs "-g" from by decide]; simpa using e
  have cut : ∀ (h x y h' : Str), (∀ c ∈ h, CommitDigit c) → (∀ c ∈ h', CommitDigit c) → h.length ≤ h'.length →
      y ++ [45, 103] ++ h' = x ++ [45, 103] ++ h → h = h' := by
    intro h x y h' a1 a2 hl e
    have hsuf : h <:+ h' := List.suffix_of_suffix_length_le (l₃ := y ++ [45, 103] ++ h') ⟨x ++ [45, 103], e.symm⟩ ⟨y ++ [45, 103], rfl⟩ hl
    obtain ⟨p, rfl⟩ := hsuf
    rcases List.eq_nil_or_concat p with rfl | ⟨p', z, rfl⟩
    · rfl
    · have e' : (y ++ [45, 103] ++ p') ++ [z] = (x ++ [45]) ++ [103] := by
        apply List.append_cancel_right (bs := h)
        simpa using e
      have := List.append_inj' e' rfl
      have hz : z = 103 := by simpa using this.2
      exact absurd hz (digit_not_g z (a2 z (by simp)))
  rcases Nat.le_total h.length h'.length with hl | hl
  · exact cut h x y h' a1 a2 hl e
  · exact (cut h' y x h a2 a1 hl e.symm).symm

theorem named_tells {name commit : Str} {ahead : Nat} (hc : IsCommit commit) :
    TellsCommit (name ++ bs "-" ++ decText ahead ++ bs "-g" ++ commit) commit :=
  ⟨hc, name ++ bs "-" ++ decText ahead, by simp⟩

example : TellsCommit (bs "v1.0-g-12-g02fa9c2") (bs "02fa9c2") :=
  named_tells (name := bs "v1.0-g") (ahead := 12) ⟨by decide, by decide +kernel⟩

/-- **C133, from git to the browser.**  The data folder is prepared from a repository where a name leads to the commit, and its image is
installed: whatever the folder was before, `/version` answers everybody with a text that tells the commit. -/
theorem c133_page_partial {w : Tools} {now : FsPath → Nat} {kind name commit v : Str} {ahead : Nat} {var : Option Str}
    (hk : IsKind kind) (hc : IsCommit commit) (hv : getVersion (some (Described.named kind name ahead commit).text) var = some v)
    {src old data : Tree} (ht : Tidy src) (ho : Sound old) (hp : prepare w now v src old = some data) {size o k : Nat} {img : Str}
    (hi : create (imageFiles data) size = .image o k img) (hf : FolderFits data size o)
    {e : Env} {d : Device} {b : Build} {r : Req} (hr : r.uri = bs "/version") :
    TellsCommit v commit ∧ ∃ fs, Erfs.begin img = .ok (true, fs) ∧ (OnImage e fs → Receives d b e r fs v) := by
  rw [c133_text hk hc] at hv
  cases hv
  exact ⟨named_tells hc, c87_version_partial ht ho hp hi hf hr⟩

/-- The sample folder, prepared on a branch. -/
def versionData : Tree := (prepare sampleTools (fun _ => 10) (bs "dev/leds-3-g02fa9c2") sampleSrc []).getD []

-- `c133_page_partial` and `c133_console_partial` on the sample.
example : IsKind (bs "heads") ∧ IsCommit (bs "02fa9c2") ∧
    getVersion (some (Described.named (bs "heads") (bs "dev/leds") 3 (bs "02fa9c2")).text) none = some (bs "dev/leds-3-g02fa9c2") ∧
    prepare sampleTools (fun _ => 10) (bs "dev/leds-3-g02fa9c2") sampleSrc [] = some versionData ∧ Tidy sampleSrc ∧ Sound [] ∧
    (∃ o k img, create (imageFiles versionData) 700 = .image o k img ∧ FolderFits versionData 700 o) := by
  refine ⟨⟨by decide, by decide +kernel⟩, ⟨by decide, by decide +kernel⟩, by decide +kernel, ?_, sample_tidy.1, ?_, ?_⟩
  · have h : (prepare sampleTools (fun _ => 10) (bs "dev/leds-3-g02fa9c2") sampleSrc []).isSome = true := by decide +kernel
    obtain ⟨d, hd⟩ := Option.isSome_iff_exists.1 h
    rw [versionData, hd]; rfl
  · exact ⟨List.nodup_nil, (by intro x hx; cases hx), (by intro x hx; cases hx)⟩
  · exact ⟨588, 588, truncate ((pyWrite (imageFiles versionData)).getD []) 700, by decide +kernel, fits_of (by decide +kernel)⟩

/-- What the image of a prepared folder shows on the console. -/
theorem console_version {w : Tools} {now : FsPath → Nat} {v : Str} {src old data : Tree} (ht : Tidy src) (ho : Sound old)
    (hp : prepare w now v src old = some data) {size o k : Nat} {img : Str}
    (hi : create (imageFiles data) size = .image o k img) (hf : FolderFits data size o) {buf32 buf : Str} {a : Nat}
    (h32 : buf32.length = 260) (hb : buf.length = 64) :
    ∃ fs f, Erfs.begin img = .ok (true, fs) ∧ fs.open (bs "/version") = .ok (some f) ∧
      getVer f buf32 a buf = .ok (bs "read " ++ decText (min 63 v.length) ++ bs ", version: '" ++
        (v.take 63).takeWhile (· != 0) ++ bs "'\n") := by
  obtain ⟨t, -, h2⟩ := Option.bind_eq_some_iff.1 hp
  have hd := at_write h2 [bs "version"]
  rw [if_pos rfl] at hd
  have hu := hf.usable (ht.sound.prepare ho hp)
  exact c97_version_partial _ size o k img hi hu.small hu.set hu.short hu.room _
    (image_of_at hd (by decide +kernel) (by decide +kernel)) rfl buf32 buf a h32 hb

theorem takeWhile_nonzero {v : Str} (h : (0 : Byte) ∉ v) : v.takeWhile (· != 0) = v := by
  induction v with
  | nil => rfl
  | cons c v ih =>
    have hc : (c != 0) = true := by
      simp only [bne_iff_ne, ne_eq]
      intro e; exact h (by rw [e]; exact List.mem_cons_self)
    rw [List.takeWhile_cons, hc, if_pos rfl, ih fun hm => h (List.mem_cons_of_mem _ hm)]

theorem version_nonzero {name commit : Str} {ahead : Nat} (hc : IsCommit commit) (hn : (0 : Byte) ∉ name) :
    (0 : Byte) ∉ name ++ bs "-" ++ decText ahead ++ bs "-g" ++ commit := by
  simp only [List.mem_append, not_or]
  refine ⟨⟨⟨⟨hn, by decide⟩, ?_⟩, by decide⟩, ?_⟩
  · intro hm
    have := decText_bytes ahead 0 hm
    exact absurd this (by decide)
  · intro hm
    exact absurd (hc.2 0 hm) (by decide)

/-- **C133, the console.**  `get ver` prints the whole version, if it is of at most 63 bytes (git allows no NUL in a name). -/
theorem c133_console_partial {w : Tools} {now : FsPath → Nat} {name commit v : Str} {ahead : Nat} (hc : IsCommit commit)
    (hn : (0 : Byte) ∉ name) (hv : v = name ++ bs "-" ++ decText ahead ++ bs "-g" ++ commit) (hlen : v.length ≤ 63)
    {src old data : Tree} (ht : Tidy src) (ho : Sound old) (hp : prepare w now v src old = some data) {size o k : Nat} {img : Str}
    (hi : create (imageFiles data) size = .image o k img) (hf : FolderFits data size o) {buf32 buf : Str} {a : Nat}
    (h32 : buf32.length = 260) (hb : buf.length = 64) :
    TellsCommit v commit ∧ ∃ fs f, Erfs.begin img = .ok (true, fs) ∧ fs.open (bs "/version") = .ok (some f) ∧
      getVer f buf32 a buf = .ok (bs "read " ++ decText v.length ++ bs ", version: '" ++ v ++ bs "'\n") := by
  obtain ⟨fs, f, h1, h2, h3⟩ := console_version ht ho hp hi hf (a := a) h32 hb
  subst hv
  refine ⟨named_tells hc, fs, f, h1, h2, ?_⟩
  rw [h3, List.take_of_length_le hlen, takeWhile_nonzero (version_nonzero hc hn), Nat.min_eq_right hlen]

theorem dec_plain : ∀ c : Byte, digit c = true → plain c = true := by apply byte_all; decide +kernel

theorem commit_plain : ∀ c : Byte, CommitDigit c → plain c = true := by apply byte_all; decide +kernel

/-- **C133, the firmware.**  The version of the firmware is the same text (`WIFINFO_VERSION`, line 167), in the table of the system: there as it
is, if the name has none of the characters that JSON has to escape (and no other text of the table has). -/
theorem c133_firmware_partial {name commit v : Str} {ahead : Nat} (hc : IsCommit commit)
    (hv : v = name ++ bs "-" ++ decText ahead ++ bs "-g" ++ commit) {e : SysEnv} (he : PlainEnv { e with version := [] })
    (hev : e.version = v) (hn : Plain name) (h0 : e.fsTotal ≠ 0) {c : Config} {ssid : Str} (hs : HasText c.ssid ssid) (hp : Plain ssid)
    (sse : Sse) :
    ∃ j rows, sysInfoJson e c sse false = .ok j ∧ parseJson j = some (jsonTable rows) ∧
      (bs "WifInfo Version (Firmware)", JVal.str v) ∈ rows := by
  have pv : Plain v := by
    subst hv
    intro x hx
    simp only [List.mem_append] at hx
    rcases hx with (((hx | hx) | hx) | hx) | hx
    · exact hn x hx
    · revert x; decide
    · exact dec_plain x (decText_bytes ahead x hx)
    · revert x; decide
    · exact commit_plain x (hc.2 x hx)
  have pe : PlainEnv e := by
    subst hev
    constructor
    case version => exact pv
    all_goals first | exact he.timestamp | exact he.mac | exact he.built | exact he.flags | exact he.sdk | exact he.flashSize |
      exact he.sketchSize | exact he.flashFree | exact he.ramFree | exact he.fsTotalText | exact he.fsUsedText | exact he.remote
  obtain ⟨j, rows, h1, h2, h3⟩ := c61_system_partial pe h0 hs sse false
  refine ⟨j, rows, h1, h3.2 (fun _ _ => hp), h2.mem_iff.2 ?_⟩
  subst hev
  simp [privateRows]

/-- **C133, the variable.**  Without git the version is that of the variable of the environment; with git the variable is not looked at. -/
theorem c133_variable (out v : Str) (var : Option Str) :
    getVersion none (some v) = some v ∧ getVersion (some out) var = getVersion (some out) none := ⟨rfl, rfl⟩

/-! ## What is wrong -/

/-- **C133 is false: a commit without a name.**  No branch and no tag leads to the commit (a checkout of one commit, say): the preparation
stops with an exception, for every commit. -/
theorem c133_refuted_alone {commit : Str} (hc : IsCommit commit) (var : Option Str) :
    getVersion (some (Described.alone commit).text) var = none := by
  have no : (47 : Byte) ∉ commit := fun hm => absurd (hc.2 47 hm) (by decide)
  have hs : pyStrip (commit ++ bs "\n") = commit := by
    obtain ⟨hc0, hc1⟩ := hc
    rcases List.eq_nil_or_concat commit with rfl | ⟨c, z, rfl⟩
    · exact absurd rfl hc0
    · rw [List.concat_eq_append] at hc1 ⊢
      cases c with
      | nil =>
        have hz := digit_not_blank z (hc1 z (by simp))
        simp only [pyStrip, List.nil_append, show bs "\n" = [10] from by decide, List.dropWhile_cons, hz,
          Bool.false_eq_true, if_false, List.reverse_cons, List.reverse_nil, List.cons_append,
          show pyBlank 10 = true from by decide, if_true]
      | cons a m =>
        exact strip_line (a := a) (z := z) (m := m) (by simp) (digit_not_blank a (hc1 a (by simp))) (digit_not_blank z (hc1 z (by simp)))
  simp only [getVersion, Described.text]
  rw [hs]
  exact fromSlash_none no

/-- **C133 is false: the sources without git.**  Whatever they are (an archive of a release, say): the version is the same, and tells no
commit. -/
theorem c133_refuted_archive : getVersion none none = some (bs "develop") ∧ ∀ h, ¬ TellsCommit (bs "develop") h := by
  refine ⟨rfl, fun h => ?_⟩
  rintro ⟨-, x, e⟩
  have hm : (103 : Byte) ∈ bs "develop" := by rw [← e]; simp [show bs "-g" = [45, 103] from by decide]
  exact absurd hm (by decide)

/-- **C133 is false: long names.**  On the console, whatever the commit: with a name of 63 bytes or more it is not told, all the versions of
the branch look the same. -/
theorem c133_refuted_console {w : Tools} {now : FsPath → Nat} {name commit v : Str} {ahead : Nat} (hn : 63 ≤ name.length)
    (hv : v = name ++ bs "-" ++ decText ahead ++ bs "-g" ++ commit)
    {src old data : Tree} (ht : Tidy src) (ho : Sound old) (hp : prepare w now v src old = some data) {size o k : Nat} {img : Str}
    (hi : create (imageFiles data) size = .image o k img) (hf : FolderFits data size o) {buf32 buf : Str} {a : Nat}
    (h32 : buf32.length = 260) (hb : buf.length = 64) :
    ∃ fs f, Erfs.begin img = .ok (true, fs) ∧ fs.open (bs "/version") = .ok (some f) ∧
      getVer f buf32 a buf = .ok (bs "read 63, version: '" ++ (name.take 63).takeWhile (· != 0) ++ bs "'\n") := by
  obtain ⟨fs, f, h1, h2, h3⟩ := console_version ht ho hp hi hf (a := a) h32 hb
  refine ⟨fs, f, h1, h2, ?_⟩
  have hl : 63 ≤ v.length := by subst hv; simp only [List.length_append]; omega
  have ht : v.take 63 = name.take 63 := by
    subst hv
    simp only [List.append_assoc]
    rw [List.take_append_of_le_length hn]
  rw [h3, ht, Nat.min_eq_left hl]
  rw [show bs "read " ++ decText 63 ++ bs ", version: '" = bs "read 63, version: '" from by decide +kernel]

end Wifinfo
