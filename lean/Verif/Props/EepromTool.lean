import Verif.Model.EepromTool
import Verif.Props.Backup

/-!
# C115: the backup of the settings is in the file that was asked for
-/

namespace Wifinfo
namespace Spec

/-- The line by which `esptool.py` tells the size of the flash. -/
def sizeLine : Str := bs "Detected flash size: "

/-- The characters of a word. -/
def wordChars : Str := bs "ABCDEFGHIJKLMNOPQRSTUVWXYZabcdefghijklmnopqrstuvwxyz0123456789_"

/-- A text is a line with a size, from here. -/
def SizeAt (s w : Str) : Prop := w ≠ [] ∧ (∀ b ∈ w, b ∈ wordChars) ∧ ∃ post, s = sizeLine ++ (w ++ [10]) ++ post

/-- The first size that a text tells: before it there is none. -/
def FirstSize (out w : Str) : Prop :=
  ∃ pre s, out = pre ++ s ∧ SizeAt s w ∧ ∀ pre' s' w', out = pre' ++ s' → SizeAt s' w' → pre.length ≤ pre'.length

/-- The board has a flash of `mb` megabytes, of the sizes of the boards of the project (platformio.ini:22-23, 41-42), and `esptool.py`
tells it, once. -/
def Reports (t : Esptool) (mb : Nat) : Prop :=
  ∃ pre post, t.flashId = pre ++ sizeLine ++ (decText mb ++ bs "MB\n") ++ post ∧ ¬ sizeLine <:+: pre ++ sizeLine.dropLast

/-- Where the settings are in a flash of `mb` megabytes: the SDK has the last four sectors of 4096 bytes, the settings are in the one
before. -/
def settingsAt (mb : Nat) : Nat := mb * 1048576 - 5 * 4096

/-- The settings of a board. -/
def boardSettings (flash : Nat → Byte) (mb : Nat) : Arr 1024 := Vector.ofFn fun i => flash (settingsAt mb + i)

/-- PyYAML writes a dictionary in a way that it reads back as what it was. -/
def FaithfulYaml (y : Yaml) : Prop := ∀ l, y.load (y.dump l) = parseJson (jsonDump l)

/-- The extensions for which the tool has a format, in the way `read` knows them. -/
def TextName (name : Str) : Prop := ∃ a e, name = a ++ e ∧ a ≠ [] ∧ a.getLast? ≠ some 47 ∧ e ∈ [bs ".json", bs ".yaml", bs ".yml"]

/-- The name of a raw file, with any case. -/
def RawName (name : Str) : Prop := ∃ a e, name = a ++ e ∧ a ≠ [] ∧ a.getLast? ≠ some 47 ∧
  e ∈ [bs ".bin", bs ".biN", bs ".bIn", bs ".bIN", bs ".Bin", bs ".BiN", bs ".BIn", bs ".BIN"]

end Spec
open Spec

/-! ## Lemmas -/

theorem sizeHere_spec {s w : Str} (h : sizeHere s = some w) : ∃ post, s = sizeLine ++ (w ++ [10]) ++ post := by
  unfold sizeHere at h
  split at h
  · rename_i hp
    obtain ⟨t, rfl⟩ := List.isPrefixOf_iff_prefix.1 hp
    simp only [List.drop_left] at h
    split at h
    · rename_i hw
      cases h
      have e := List.takeWhile_append_dropWhile (p := isWord) (l := t)
      have e2 : t.drop (t.takeWhile isWord).length = t.dropWhile isWord := by
        have : ∀ a b : Str, a ++ b = t → t.drop a.length = b := by rintro a b rfl; simp
        exact this _ _ e
      rw [e2] at hw
      cases hd : t.dropWhile isWord with
      | nil => rw [hd] at hw; simp at hw
      | cons x r =>
        rw [hd] at hw
        simp only [List.head?_cons, Option.some.injEq] at hw
        refine ⟨r, ?_⟩
        rw [List.append_assoc, List.append_assoc]
        congr 1
        rw [← hw.2.symm] at hd
        conv => lhs; rw [← e, hd]
        rfl
    · cases h
  · cases h

theorem findSize_spec : ∀ {s w : Str}, findSize s = some w → ∃ pre post, s = pre ++ sizeLine ++ (w ++ [10]) ++ post
  | [], _, h => by cases h
  | b :: r, w, h => by
    unfold findSize at h
    split at h
    · rename_i hs
      cases h
      obtain ⟨post, e⟩ := sizeHere_spec hs
      exact ⟨[], post, by rw [e]; simp⟩
    · obtain ⟨pre, post, e⟩ := findSize_spec h
      exact ⟨b :: pre, post, by rw [e]; simp⟩

theorem sizeHere_line {w : Str} (h0 : w ≠ []) (h : w.all isWord = true) (post : Str) :
    sizeHere (sizeLine ++ (w ++ [10]) ++ post) = some w := by
  have e1 : (w ++ [10] ++ post).takeWhile isWord = w := by
    rw [List.append_assoc, List.takeWhile_append_of_pos (by simpa using h)]
    simp [isWord]
  unfold sizeHere
  rw [if_pos (List.isPrefixOf_iff_prefix.2 ⟨w ++ [10] ++ post, by simp [sizeLine]⟩)]
  have e2 : (sizeLine ++ (w ++ [10]) ++ post).drop (bs "Detected flash size: ").length = w ++ [10] ++ post := by
    rw [List.append_assoc]; exact List.drop_left
  simp only [e2, e1]
  rw [if_pos]
  refine ⟨h0, ?_⟩
  simp

theorem findSize_line {w : Str} (h0 : w ≠ []) (h : w.all isWord = true) (post : Str) : ∀ pre,
    ¬ sizeLine <:+: pre ++ sizeLine.dropLast → findSize (pre ++ sizeLine ++ (w ++ [10]) ++ post) = some w
  | [], _ => by
    have := sizeHere_line h0 h post
    have e : ([] : Str) ++ sizeLine ++ (w ++ [10]) ++ post = 68 :: (bs "etected flash size: " ++ (w ++ [10]) ++ post) := by
      rw [show sizeLine = 68 :: bs "etected flash size: " by decide]; rfl
    rw [List.nil_append] at e ⊢
    rw [e] at this ⊢
    unfold findSize
    rw [this]
  | b :: pre, hn => by
    have ih := findSize_line h0 h post pre (fun hi => hn (hi.trans ⟨[b], [], by simp⟩))
    show findSize (b :: (pre ++ sizeLine ++ (w ++ [10]) ++ post)) = some w
    unfold findSize
    have : sizeHere (b :: (pre ++ sizeLine ++ (w ++ [10]) ++ post)) = none := by
      unfold sizeHere
      rw [if_neg]
      intro hp
      have hp := List.isPrefixOf_iff_prefix.1 hp
      apply hn
      have hq : b :: pre ++ sizeLine.dropLast <+: b :: (pre ++ sizeLine ++ (w ++ [10]) ++ post) := by
        refine ⟨[32] ++ (w ++ [10]) ++ post, ?_⟩
        have : sizeLine = sizeLine.dropLast ++ [32] := by decide
        conv => rhs; rw [this]
        simp
      exact (List.prefix_of_prefix_length_le hp hq (by
        rw [show (bs "Detected flash size: ").length = 21 by decide, List.length_append, show sizeLine.dropLast.length = 20 by decide]
        simp)).isInfix
    rw [this]
    exact ih

theorem base_reports {t : Esptool} {mb : Nat} (hm : mb = 1 ∨ mb = 4) (h : Reports t mb) :
    eepromBase t.flashId = some (settingsAt mb) := by
  obtain ⟨pre, post, e, hn⟩ := h
  have e2 : decText mb ++ bs "MB\n" = (decText mb ++ bs "MB") ++ [10] := by rw [List.append_assoc]; rfl
  unfold eepromBase
  rw [e, e2, findSize_line _ _ _ _ hn]
  · rcases hm with rfl | rfl <;> decide
  · rcases hm with rfl | rfl <;> decide
  · rcases hm with rfl | rfl <;> decide

theorem readFlash_settings (flash : Nat → Byte) (mb : Nat) :
    readFlash flash (settingsAt mb) 0x400 = (boardSettings flash mb).toList := by
  apply List.ext_getElem
  · simp [readFlash]
  · intro i h1 h2
    simp [readFlash, boardSettings]

theorem writeFlash_settings (flash : Nat → Byte) (mb : Nat) (g : Arr 1024) :
    boardSettings (writeFlash flash (settingsAt mb) g.toList) mb = g := by
  apply Vector.ext
  intro i hi
  simp [boardSettings, writeFlash, hi]

theorem writeFlash_sector (flash : Nat → Byte) (base : Nat) {image : Str} (h : image.length = 1024) (a : Nat)
    (ha : ¬ (base ≤ a ∧ a < base + 4096)) : writeFlash flash base image a = flash a := by
  unfold writeFlash
  rw [h, if_neg (by omega), if_neg (by omega)]

theorem suffix_of {a e : Str} (ha : a ≠ []) (hl : a.getLast? ≠ some 47) (he : e ≠ []) (h47 : 47 ∉ e) (h46 : 46 ∉ e) :
    fileSuffix (a ++ 46 :: e) = 46 :: e := by
  obtain ⟨a', x, rfl⟩ : ∃ a' x, a = a' ++ [x] := ⟨a.dropLast, a.getLast ha, (List.dropLast_concat_getLast ha).symm⟩
  have hx : x ≠ 47 := by simpa using hl
  have e1 : (a' ++ [x] ++ 46 :: e).reverse = e.reverse ++ (46 :: x :: a'.reverse) := by simp
  unfold fileSuffix
  rw [e1, List.takeWhile_append_of_pos (fun y hy => by
    have : y ≠ 47 := fun h => h47 (by rw [← h]; simpa using hy)
    simpa using this)]
  rw [List.takeWhile_cons_of_pos (by decide), List.takeWhile_cons_of_pos (by simpa using hx)]
  dsimp only
  rw [List.takeWhile_append_of_pos (fun y hy => by
    have : y ≠ 46 := fun h => h46 (by rw [← h]; simpa using hy)
    simpa using this), List.takeWhile_cons_of_neg (by decide), List.append_nil, List.reverse_reverse]
  rw [if_pos]
  refine ⟨by simpa using he, ?_⟩
  simp

theorem suffix_ext {a e : Str} (ha : a ≠ []) (hl : a.getLast? ≠ some 47)
    (he : e.head? = some 46 ∧ e.tail ≠ [] ∧ 47 ∉ e.tail ∧ 46 ∉ e.tail) : fileSuffix (a ++ e) = e := by
  obtain ⟨h1, h2, h3, h4⟩ := he
  cases e with
  | nil => cases h1
  | cons x e =>
    simp only [List.head?_cons, Option.some.injEq] at h1
    subst h1
    exact suffix_of ha hl h2 h3 h4

theorem suffix_text {name : Str} (h : TextName name) : fileSuffix name ∈ [bs ".json", bs ".yaml", bs ".yml"] := by
  obtain ⟨a, e, rfl, h1, h2, h3⟩ := h
  have he : fileSuffix (a ++ e) = e := by
    apply suffix_ext h1 h2
    simp only [List.mem_cons, List.not_mem_nil, or_false] at h3
    rcases h3 with rfl | rfl | rfl <;> decide
  rw [he]
  exact h3

theorem suffix_raw {name : Str} (h : RawName name) : pyLower (fileSuffix name) = bs ".bin" ∧
    fileSuffix name ∉ [bs ".json", bs ".yaml", bs ".yml"] := by
  obtain ⟨a, e, rfl, h1, h2, h3⟩ := h
  simp only [List.mem_cons, List.not_mem_nil, or_false] at h3
  rcases h3 with rfl | rfl | rfl | rfl | rfl | rfl | rfl | rfl <;>
    (rw [suffix_ext h1 h2 (by decide)]; decide)

theorem configOf_backup (image : Str) : toolBackup image = (configOf image).map jsonDump := by
  unfold toolBackup configOf
  cases readEeprom image with
  | none => rfl
  | some p =>
    obtain ⟨l, crc⟩ := p
    simp only [Option.bind_eq_bind, Option.bind_some]
    cases decodeAll l <;> rfl

theorem configOf_length {image : Str} {l : List (String × PyVal)} (h : configOf image = some l) : image.length = 1024 := by
  false_or_by_contra
  rename_i hn
  unfold configOf readEeprom at h
  simp only [if_pos hn, Option.bind_eq_bind, Option.bind_none] at h
  cases h

theorem imageOf_length {v : Option JVal} {image : Str} (h : imageOf v = some image) : image.length = 1024 := by
  unfold imageOf at h
  split at h
  · split at h
    · unfold writeEeprom at h
      simp only [Option.bind_eq_bind, Option.bind_eq_some_iff] at h
      obtain ⟨_, _, _, _, _, _, _, _, _, _, h⟩ := h
      split at h
      · cases h
      · cases h
        rename_i hn
        simpa using hn
    · cases h
  · cases h

/-- What a successful `read` leaves in the file. -/
def readContent (y : Yaml) (name image : Str) (l : List (String × PyVal)) : Str :=
  if fileSuffix name = bs ".yaml" ∨ fileSuffix name = bs ".yml" then y.dump l
  else if fileSuffix name = bs ".json" then jsonDump l else image

theorem toolRead_ok (y : Yaml) {t : Esptool} (hw : t.works = true) {mb : Nat} (hm : mb = 1 ∨ mb = 4) (hr : Reports t mb)
    (name : Str) (w : Bench) {l : List (String × PyVal)} (hl : configOf (boardSettings w.flash mb).toList = some l) :
    toolRead y t name w = (w.put name (readContent y name (boardSettings w.flash mb).toList l), .saved) := by
  unfold toolRead readContent
  rw [base_reports hm hr]
  simp only [hw, if_true, readFlash_settings, hl]
  by_cases h1 : fileSuffix name = bs ".yaml" ∨ fileSuffix name = bs ".yml"
  · simp [h1]
  · by_cases h2 : fileSuffix name = bs ".json"
    · simp [h1, h2]
    · simp [h1, h2]

theorem toolWrite_ok (y : Yaml) {t : Esptool} (hw : t.works = true) {mb : Nat} (hm : mb = 1 ∨ mb = 4) (hr : Reports t mb)
    {name : Str} {w : Bench} {content : Str} (hf : w.files name = some content) {g : Arr 1024}
    (hg : (pyLower (fileSuffix name) = bs ".bin" ∧ content = g.toList ∧ (configOf content).isSome) ∨
      (fileSuffix name = bs ".json" ∧ imageOf (parseJson content) = some g.toList) ∨
      ((fileSuffix name = bs ".yaml" ∨ fileSuffix name = bs ".yml") ∧ imageOf (y.load content) = some g.toList)) :
    toolWrite y t name true w = ({ w with flash := writeFlash w.flash (settingsAt mb) g.toList }, .written) := by
  unfold toolWrite
  rw [hf, base_reports hm hr]
  rcases hg with ⟨h1, rfl, h2⟩ | ⟨h1, h2⟩ | ⟨h1, h2⟩
  · obtain ⟨l, hl⟩ := Option.isSome_iff_exists.1 h2
    simp [h1, hl, hw]
  · have e : pyLower (bs ".json") = bs ".json" := by decide
    have e1 : ¬ bs ".json" = bs ".bin" := by decide
    simp [h1, h2, hw, e, e1]
  · have e : pyLower (bs ".yaml") = bs ".yaml" := by decide
    have e1 : ¬ bs ".yaml" = bs ".bin" := by decide
    have e2 : ¬ bs ".yaml" = bs ".json" := by decide
    have e' : pyLower (bs ".yml") = bs ".yml" := by decide
    have e1' : ¬ bs ".yml" = bs ".bin" := by decide
    have e2' : ¬ bs ".yml" = bs ".json" := by decide
    rcases h1 with h1 | h1 <;> simp [h1, h2, hw, e, e1, e2, e', e1', e2']

/-! ## C115 -/

/-- **C115 (partial).** The settings of a board, saved by `read` in a file with an extension of the tool, and put on another board by
`write`: the tool says that they are saved, no other file changes, and the other board starts with the settings of the first.  Missing
with respect to the property as stated: `esptool.py` works, the stored texts are in UTF-8, and the name has one of these extensions. -/
theorem c115_restore_partial {y : Yaml} (hy : FaithfulYaml y) {t t' : Esptool} (hw : t.works = true) (hw' : t'.works = true)
    {mb mb' : Nat} (hm : mb = 1 ∨ mb = 4) (hm' : mb' = 1 ∨ mb' = 4) (hr : Reports t mb) (hr' : Reports t' mb')
    {name : Str} (hn : TextName name ∨ RawName name) (w : Bench) (flash' : Nat → Byte)
    (ha : Accepted (boardSettings w.flash mb)) (hu : StoredUtf8 (boardSettings w.flash mb).toList) :
    ∃ w1 w2, toolRead y t name w = (w1, .saved) ∧ w1.flash = w.flash ∧ (∀ n, n ≠ name → w1.files n = w.files n) ∧
      toolWrite y t' name true { files := w1.files, flash := flash' } = (w2, .written) ∧ w2.files = w1.files ∧
      Accepted (boardSettings w2.flash mb') ∧
      ∀ id k1 k2 id' k1' k2', ∃ s s', Nv.configSetup (boardSettings w.flash mb) id k1 k2 = .ok s ∧
        Nv.configSetup (boardSettings w2.flash mb') id' k1' k2' = .ok s' ∧ settings s'.config = settings s.config := by
  obtain ⟨file, hfile⟩ := Option.isSome_iff_exists.1 ((c94_exact _).2 hu)
  obtain ⟨g, g1, g2, g3⟩ := c94_restore_partial _ ha hfile
  rw [configOf_backup, Option.map_eq_some_iff] at hfile
  obtain ⟨l, hl, rfl⟩ := hfile
  have hread := toolRead_ok y hw hm hr name w hl
  have hput : ∀ c, (w.put name c).files name = some c := fun c => by simp [Bench.put]
  have hoth : ∀ c n, n ≠ name → (w.put name c).files n = w.files n := fun c n h => by simp [Bench.put, h]
  have himg : imageOf (parseJson (jsonDump l)) = some g.toList := g1
  rcases hn with hn | hn
  · have hs := suffix_text hn
    have hwr := toolWrite_ok (w := { files := (w.put name (readContent y name (boardSettings w.flash mb).toList l)).files, flash := flash' })
      (name := name) y hw' hm' hr' (hput _) (g := g) (by
        right
        simp only [List.mem_cons, List.not_mem_nil, or_false] at hs
        rcases hs with hs | hs | hs
        · left
          refine ⟨hs, ?_⟩
          have : readContent y name (boardSettings w.flash mb).toList l = jsonDump l := by
            unfold readContent
            rw [hs, if_neg (by decide), if_pos rfl]
          rw [this, himg]
        · right
          refine ⟨Or.inl hs, ?_⟩
          have : readContent y name (boardSettings w.flash mb).toList l = y.dump l := by
            unfold readContent
            rw [hs, if_pos (by decide)]
          rw [this, hy, himg]
        · right
          refine ⟨Or.inr hs, ?_⟩
          have : readContent y name (boardSettings w.flash mb).toList l = y.dump l := by
            unfold readContent
            rw [hs, if_pos (by decide)]
          rw [this, hy, himg])
    refine ⟨_, _, hread, rfl, hoth _, hwr, rfl, ?_⟩
    dsimp only
    rw [writeFlash_settings]
    exact ⟨g2, g3⟩
  · obtain ⟨hs1, hs2⟩ := suffix_raw hn
    simp only [List.mem_cons, List.not_mem_nil, or_false, not_or] at hs2
    have hc : readContent y name (boardSettings w.flash mb).toList l = (boardSettings w.flash mb).toList := by
      unfold readContent
      rw [if_neg (by simp [hs2]), if_neg hs2.1]
    rw [hc] at hread
    have hwr := toolWrite_ok (w := { files := (w.put name (boardSettings w.flash mb).toList).files, flash := flash' })
      (name := name) y hw' hm' hr' (hput _) (g := boardSettings w.flash mb) (Or.inl ⟨hs1, rfl, by rw [hl]; rfl⟩)
    refine ⟨_, _, hread, rfl, hoth _, hwr, rfl, ?_⟩
    dsimp only
    rw [writeFlash_settings]
    refine ⟨ha, fun id k1 k2 id' k1' k2' => ?_⟩
    rw [accepted_iff] at ha
    exact ⟨_, _, configSetup_valid ha _ _ _, configSetup_valid ha _ _ _, rfl⟩

/-- **C115**, a file written by hand: when the tool says that it has written the settings, the board then starts with those that the
file tells. -/
theorem c115_written (y : Yaml) {t : Esptool} (hw : t.works = true) {mb : Nat} (hm : mb = 1 ∨ mb = 4) (hr : Reports t mb)
    {a : Str} (h1 : a ≠ []) (h2 : a.getLast? ≠ some 47) {agreed : Bool} {w w' : Bench} {content : Str}
    (hf : w.files (a ++ bs ".json") = some content) (h : toolWrite y t (a ++ bs ".json") agreed w = (w', .written))
    {l : List (Str × JVal)} (hl : parseJson content = some (.obj l)) {conf : ToolConf} (hc : ToldBy l conf)
    (hs : ∀ n ∈ switchNames, conf.num n ≤ 1) :
    Accepted (boardSettings w'.flash mb) ∧
      ∀ id k1 k2, ∃ s, Nv.configSetup (boardSettings w'.flash mb) id k1 k2 = .ok s ∧ settings s.config = conf.settings := by
  have e0 := suffix_ext (e := bs ".json") h1 h2 (by decide)
  have e1 : pyLower (bs ".json") = bs ".json" := by decide
  have e2 : ¬ bs ".json" = bs ".bin" := by decide
  unfold toolWrite at h
  rw [hf, base_reports hm hr, e0, e1] at h
  simp only [if_neg e2, if_true, hw] at h
  cases hi : imageOf (parseJson content) with
  | none => rw [hi] at h; cases h
  | some image =>
    rw [hi] at h
    cases agreed with
    | false => cases h
    | true =>
      obtain ⟨g, rfl, g2, g3⟩ := c94_file (show toolRestore content = some image from hi) hl hc hs
      have := congrArg (·.1.flash) h
      simp only [if_true] at this
      rw [← this, writeFlash_settings]
      exact ⟨g2, g3⟩

/-- **C115**, the address: the tool only ever uses the sector of the settings of a board whose size was told. -/
theorem c115_address {out : Str} {base : Nat} (h : eepromBase out = some base) :
    ∃ mb pre post, (mb = 1 ∨ mb = 4) ∧ out = pre ++ sizeLine ++ (decText mb ++ bs "MB\n") ++ post ∧ base = settingsAt mb := by
  unfold eepromBase at h
  split at h
  · cases h
  · rename_i m hm
    obtain ⟨pre, post, e⟩ := findSize_spec hm
    split at h
    · cases h
      rename_i h4
      subst h4
      exact ⟨4, pre, post, Or.inr rfl, by rw [e]; rfl, by decide⟩
    · split at h
      · cases h
        rename_i h1
        subst h1
        exact ⟨1, pre, post, Or.inl rfl, by rw [e]; rfl, by decide⟩
      · cases h

theorem isWord_eq : ∀ b : Byte, isWord b = true ↔ b ∈ wordChars := byte_all (by decide +kernel)

theorem sizeHere_iff {s w : Str} : sizeHere s = some w ↔ SizeAt s w := by
  constructor
  · intro h
    refine ⟨?_, ?_, sizeHere_spec h⟩
    · intro hw
      subst hw
      unfold sizeHere at h
      split at h
      · dsimp only at h
        split at h
        · rename_i hw
          exact absurd (Option.some.inj h) hw.1
        · cases h
      · cases h
    · unfold sizeHere at h
      split at h
      · dsimp only at h
        split at h
        · cases h
          intro b hb
          refine (isWord_eq b).1 ?_
          have := List.all_takeWhile (p := isWord) (l := s.drop (bs "Detected flash size: ").length)
          exact List.all_eq_true.1 this b hb
        · cases h
      · cases h
  · rintro ⟨h0, h1, post, rfl⟩
    exact sizeHere_line h0 (List.all_eq_true.2 fun b hb => (isWord_eq b).2 (h1 b hb)) post

theorem findSize_iff : ∀ {s w : Str}, findSize s = some w ↔ FirstSize s w
  | [], w => by
    constructor
    · exact fun h => nomatch h
    · rintro ⟨pre, s, e, ⟨_, _, post, rfl⟩, _⟩
      have := congrArg List.length e
      simp at this
  | b :: r, w => by
    unfold findSize
    cases h : sizeHere (b :: r) with
    | some w0 =>
      constructor
      · intro e
        cases e
        exact ⟨[], b :: r, rfl, sizeHere_iff.1 h, fun _ _ _ _ _ => Nat.zero_le _⟩
      · rintro ⟨pre, s, e, hs, first⟩
        have := first [] (b :: r) w0 rfl (sizeHere_iff.1 h)
        obtain rfl := List.length_eq_zero_iff.1 (Nat.le_zero.1 this)
        rw [List.nil_append] at e
        subst e
        rw [sizeHere_iff.2 hs] at h
        exact h.symm
    | none =>
      have none0 : ∀ {pre s w}, b :: r = pre ++ s → SizeAt s w → ∃ p, pre = b :: p ∧ r = p ++ s := by
        intro pre s w e hs
        cases pre with
        | nil =>
          rw [List.nil_append] at e
          subst e
          rw [sizeHere_iff.2 hs] at h
          cases h
        | cons x p =>
          obtain ⟨rfl, e2⟩ := List.cons.inj e
          exact ⟨p, rfl, e2⟩
      show findSize r = some w ↔ _
      rw [findSize_iff (s := r)]
      constructor
      · rintro ⟨pre, s, e, hs, first⟩
        refine ⟨b :: pre, s, by rw [e]; rfl, hs, ?_⟩
        intro pre' s' w' e' hs'
        obtain ⟨p, rfl, e2⟩ := none0 e' hs'
        exact Nat.succ_le_succ (first p s' w' e2 hs')
      · rintro ⟨pre, s, e, hs, first⟩
        obtain ⟨p, rfl, e2⟩ := none0 e hs
        refine ⟨p, s, e2, hs, ?_⟩
        intro pre' s' w' e' hs'
        exact Nat.le_of_succ_le_succ (first (b :: pre') s' w' (by rw [e']; rfl) hs')

/-- **C115**, exactly where the tool looks for the settings: it finds the address if and only if the first size that `esptool.py` tells is
that of a board of the project. -/
theorem c115_address_exact {out : Str} {base : Nat} : eepromBase out = some base ↔
    ∃ mb, (mb = 1 ∨ mb = 4) ∧ FirstSize out (decText mb ++ bs "MB") ∧ base = settingsAt mb := by
  have m4 : decText 4 ++ bs "MB" = bs "4MB" := by decide
  have m1 : decText 1 ++ bs "MB" = bs "1MB" := by decide
  unfold eepromBase
  constructor
  · intro h
    split at h
    · cases h
    · rename_i m hm
      have hm := findSize_iff.1 hm
      split at h
      · cases h
        rename_i h4
        subst h4
        exact ⟨4, .inr rfl, by rw [m4]; exact hm, by decide⟩
      · split at h
        · cases h
          rename_i h1
          subst h1
          exact ⟨1, .inl rfl, by rw [m1]; exact hm, by decide⟩
        · cases h
  · rintro ⟨mb, hmb, hf, hb⟩
    rw [findSize_iff.2 hf, hb]
    rcases hmb with rfl | rfl <;> decide

/-- **C115**, what is not touched: reading changes no byte of the board and no other file; writing changes no file, and no byte of the
board unless the user agreed and the tool says that it is written, and then only in the sector of the settings. -/
theorem c115_untouched (y : Yaml) (t : Esptool) (name : Str) (w : Bench) :
    (toolRead y t name w).1.flash = w.flash ∧ (∀ n, n ≠ name → (toolRead y t name w).1.files n = w.files n) ∧
    ∀ agreed, (toolWrite y t name agreed w).1.files = w.files ∧
      ∀ a, (toolWrite y t name agreed w).1.flash a ≠ w.flash a → agreed = true ∧ t.works = true ∧
        (toolWrite y t name agreed w).2 = .written ∧
        ∃ mb, (mb = 1 ∨ mb = 4) ∧ settingsAt mb ≤ a ∧ a < settingsAt mb + 4096 := by
  refine ⟨?_, ?_, ?_⟩
  · unfold toolRead
    split
    · rfl
    · dsimp only
      split
      · split <;> rfl
      · split <;> rfl
  · intro n hn
    unfold toolRead
    split
    · rfl
    · dsimp only
      split
      · split <;> simp [Bench.put, hn]
      · split <;> simp [Bench.put, hn]
  · intro agreed
    unfold toolWrite
    split
    · exact ⟨rfl, fun a h => absurd rfl h⟩
    · dsimp only
      split
      · exact ⟨rfl, fun a h => absurd rfl h⟩
      · rename_i content _ image he
        have hlen : image.length = 1024 := by
          split at he
          · split at he
            · cases he
            · cases he
              rename_i hl
              exact configOf_length hl
          · split at he
            · split at he
              · cases he
              · cases he
                rename_i hl
                exact imageOf_length hl
            · split at he
              · split at he
                · cases he
                · cases he
                  rename_i hl
                  exact imageOf_length hl
              · cases he
        split
        · exact ⟨rfl, fun a h => absurd rfl h⟩
        · rename_i base hb
          obtain ⟨mb, pre, post, hm, -, hbase⟩ := c115_address hb
          rw [hbase]
          cases agreed
          · exact ⟨rfl, fun a h => absurd rfl h⟩
          · cases hw : t.works
            · exact ⟨rfl, fun a h => absurd rfl h⟩
            · simp only [if_true]
              refine ⟨trivial, fun a h => ⟨trivial, trivial, trivial, mb, hm, ?_⟩⟩
              false_or_by_contra
              rename_i hc
              exact h (writeFlash_sector _ _ hlen a hc)

/-- **C115 (partial)**, what the file is: when `esptool.py` works and the tool says that the settings are saved, the file with the name
`something.json` is the backup of C94, and a raw file has the bytes of the settings.  Missing with respect to the property as stated:
without the hypothesis that `esptool.py` works, it is false (`c115_refuted_stale`). -/
theorem c115_saved_partial (y : Yaml) {t : Esptool} (hw : t.works = true) {name : Str} {w w1 : Bench}
    (h : toolRead y t name w = (w1, .saved)) : ∃ mb file, (mb = 1 ∨ mb = 4) ∧ w1.files name = some file ∧
      (∀ a, a ≠ [] → a.getLast? ≠ some 47 → name = a ++ bs ".json" → toolBackup (boardSettings w.flash mb).toList = some file) ∧
      (RawName name → file = (boardSettings w.flash mb).toList) := by
  unfold toolRead at h
  split at h
  · cases h
  · rename_i base hb
    obtain ⟨mb, pre, post, hm, -, hbase⟩ := c115_address hb
    rw [hbase] at h
    simp only [hw, if_true, readFlash_settings] at h
    by_cases hs : (fileSuffix name = bs ".yaml" ∨ fileSuffix name = bs ".yml") ∨ fileSuffix name = bs ".json"
    · rw [if_pos hs] at h
      split at h
      · cases h
      · rename_i l hl
        cases h
        refine ⟨mb, _, hm, by simp [Bench.put]; rfl, ?_, ?_⟩
        · rintro a h1 h2 rfl
          have e := suffix_ext (e := bs ".json") h1 h2 (by decide)
          rw [if_neg (by rw [e]; decide), configOf_backup, hl]
          rfl
        · intro hr
          have := (suffix_raw hr).2
          simp only [List.mem_cons, List.not_mem_nil, or_false, not_or] at this
          rcases hs with (hs | hs) | hs
          · exact absurd hs this.2.1
          · exact absurd hs this.2.2
          · exact absurd hs this.1
    · rw [if_neg hs] at h
      cases h
      refine ⟨mb, _, hm, by simp [Bench.put], ?_, fun _ => rfl⟩
      rintro a h1 h2 rfl
      exact absurd (Or.inr (suffix_ext (e := bs ".json") h1 h2 (by decide))) hs

/-- **C115**, `conv`: a raw file, with or without bytes after the 1024 of the settings, is converted to these bytes and to the JSON of
C94; the JSON that `read` made of settings is converted to an
image with which a board starts with these settings. -/
theorem c115_conv (y : Yaml) (f : Arr 1024) (more a : Str) (h1 : a ≠ []) (h2 : a.getLast? ≠ some 47) :
    toolConv y (a ++ bs ".bin") (f.toList ++ more) .bin = some f.toList ∧
    toolConv y (a ++ bs ".bin") (f.toList ++ more) .json = (toolBackup f.toList).map (· ++ [10]) ∧
    (Accepted f → ∀ file, toolBackup f.toList = some file → ∃ g : Arr 1024,
      toolConv y (a ++ bs ".json") file .bin = some g.toList ∧ Accepted g ∧
      ∀ id k1 k2 id' k1' k2', ∃ s s', Nv.configSetup f id k1 k2 = .ok s ∧ Nv.configSetup g id' k1' k2' = .ok s' ∧
        settings s'.config = settings s.config) := by
  have e1 := suffix_ext (e := bs ".bin") h1 h2 (by decide)
  have e2 := suffix_ext (e := bs ".json") h1 h2 (by decide)
  have n1 : ¬ bs ".bin" = bs ".json" := by decide
  have n2 : ¬ bs ".bin" = bs ".yaml" := by decide
  have n3 : ¬ bs ".bin" = bs ".yml" := by decide
  have ht : (f.toList ++ more).take 1024 = f.toList := by
    rw [List.take_append_of_le_length (by simp), List.take_of_length_le (by simp)]
  refine ⟨?_, ?_, ?_⟩
  · unfold toolConv
    simp [e1, n1, n2, n3, ht]
  · unfold toolConv
    rw [configOf_backup]
    simp [e1, n1, n2, n3, ht, Function.comp_def]
  · intro ha file hf
    obtain ⟨g, g1, g2, g3⟩ := c94_restore_partial f ha hf
    refine ⟨g, ?_, g2, g3⟩
    unfold toolConv
    have : imageOf (parseJson file) = some g.toList := g1
    simp [e2, this]

/-- **C115**, `conv`: a raw file that is too short gives nothing. -/
theorem c115_conv_short (y : Yaml) (file a : Str) (k : ConvFormat) (h1 : a ≠ []) (h2 : a.getLast? ≠ some 47)
    (hs : file.length < 1024) : toolConv y (a ++ bs ".bin") file k = none := by
  have e1 := suffix_ext (e := bs ".bin") h1 h2 (by decide)
  have n1 : ¬ bs ".bin" = bs ".json" := by decide
  have n2 : ¬ bs ".bin" = bs ".yaml" := by decide
  have n3 : ¬ bs ".bin" = bs ".yml" := by decide
  have hl : (file.take 1024).length ≠ 1024 := by rw [List.length_take]; omega
  unfold toolConv
  simp only [e1, n1, n2, n3, or_false, if_false, if_pos hl]
  rfl

/-! ## Where the property fails -/

/-- `esptool.py` that finds a board of four megabytes and then loses it. -/
def lostTool : Esptool := ⟨bs "Manufacturer: 20\nDetected flash size: 4MB\nHard resetting\n", false⟩

/-- `esptool.py` that works. -/
def goodTool : Esptool := { lostTool with works := true }

theorem lost_reports : Reports lostTool 4 :=
  ⟨bs "Manufacturer: 20\n", bs "Hard resetting\n", by decide +kernel, by decide +kernel⟩

theorem good_reports : Reports goodTool 4 := lost_reports

/-- **C115** as stated is false: when `esptool.py` fails, `read -o config.bin` says `Configuration sauvée` and leaves the file as it was,
that is without a file or with the settings of another day or of another board. -/
theorem c115_refuted_stale (y : Yaml) (w : Bench) : toolRead y lostTool (bs "config.bin") w = (w, .saved) := by
  unfold toolRead
  rw [base_reports (Or.inr rfl) lost_reports]
  rfl

/-- **C115** as stated is false: when `esptool.py` fails, `read -o config.json` empties the previous backup. -/
theorem c115_refuted_lost (y : Yaml) (w : Bench) :
    toolRead y lostTool (bs "config.json") w = (w.put (bs "config.json") [], .failed) := by
  unfold toolRead
  rw [base_reports (Or.inr rfl) lost_reports]
  rfl

theorem pyLower_eq (s : Str) : pyLower s = s.map Spec.lower := rfl

theorem lower_lower : ∀ b : Byte, Spec.lower (Spec.lower b) = Spec.lower b := byte_all (by decide +kernel)

theorem lower_keeps : ∀ b : Byte, (Spec.lower b = 46 → b = 46) ∧ (Spec.lower b = 47 → b = 47) := byte_all (by decide +kernel)

/-- **C115**, the names: `write` makes no difference between the cases of the letters of an extension. -/
theorem c115_case (y : Yaml) (t : Esptool) (a e : Str) (h1 : a ≠ []) (h2 : a.getLast? ≠ some 47) (he : e ≠ []) (h47 : 47 ∉ e)
    (h46 : 46 ∉ e) (agreed : Bool) (w : Bench) (hw : w.files (a ++ 46 :: e) = w.files (a ++ 46 :: e.map Spec.lower)) :
    toolWrite y t (a ++ 46 :: e) agreed w = toolWrite y t (a ++ 46 :: e.map Spec.lower) agreed w := by
  have e1 := suffix_of h1 h2 he h47 h46
  have e2 := suffix_of (e := e.map Spec.lower) h1 h2 (by simpa using he)
    (by intro h; obtain ⟨b, hb, hl⟩ := List.mem_map.1 h; exact h47 ((lower_keeps b).2 hl ▸ hb))
    (by intro h; obtain ⟨b, hb, hl⟩ := List.mem_map.1 h; exact h46 ((lower_keeps b).1 hl ▸ hb))
  have e3 : pyLower (46 :: e) = pyLower (46 :: e.map Spec.lower) := by
    simp only [pyLower_eq, List.map_cons, List.map_map]
    congr 1
    apply List.map_congr_left
    intro b _
    exact (lower_lower b).symm
  unfold toolWrite
  rw [hw, e1, e2, e3]

example : bs "CONFIG.YAML" = bs "CONFIG" ++ 46 :: bs "YAML" ∧ bs "CONFIG" ++ 46 :: (bs "YAML").map Spec.lower = bs "CONFIG.yaml" := by
  decide +kernel

/-- **C115** as stated is false: `read` looks at the case of the extension.  `read -o CONFIG.JSON` says that the settings are saved, and the
file has the raw bytes. -/
theorem c115_refuted_case (y : Yaml) (w : Bench) : ∃ w1, toolRead y goodTool (bs "CONFIG.JSON") w = (w1, .saved) ∧
    w1.files (bs "CONFIG.JSON") = some (boardSettings w.flash 4).toList := by
  have e : fileSuffix (bs "CONFIG.JSON") = bs ".JSON" := by decide
  have e1 : toolRead y goodTool (bs "CONFIG.JSON") w =
      (w.put (bs "CONFIG.JSON") (boardSettings w.flash 4).toList, .saved) := by
    unfold toolRead
    rw [base_reports (Or.inr rfl) good_reports, ← readFlash_settings, e]
    rfl
  exact ⟨_, e1, by simp [Bench.put]⟩

/-- **C115** as stated is false: `read -o config.dat` says that the settings are saved, and `write -i config.dat` refuses the file for its
name. -/
theorem c115_refuted_name (y : Yaml) (w : Bench) : ∃ w1, toolRead y goodTool (bs "config.dat") w = (w1, .saved) ∧
    w1.files (bs "config.dat") = some (boardSettings w.flash 4).toList ∧
    toolWrite y goodTool (bs "config.dat") true w1 = (w1, .refused) := by
  have e : fileSuffix (bs "config.dat") = bs ".dat" := by decide
  have e1 : toolRead y goodTool (bs "config.dat") w =
      (w.put (bs "config.dat") (boardSettings w.flash 4).toList, .saved) := by
    unfold toolRead
    rw [base_reports (Or.inr rfl) good_reports, ← readFlash_settings, e]
    rfl
  refine ⟨_, e1, by simp [Bench.put], ?_⟩
  unfold toolWrite
  rw [e]
  have h1 : ¬ pyLower (bs ".dat") = bs ".bin" := by decide
  have h2 : ¬ pyLower (bs ".dat") = bs ".json" := by decide
  have h3 : ¬ pyLower (bs ".dat") = bs ".yaml" := by decide
  have h4 : ¬ pyLower (bs ".dat") = bs ".yml" := by decide
  simp [Bench.put, h1, h2, h3, h4]

/-- **C115** as stated is false: a board that the web page configured, of which `read -o config.bin` copies every byte, and to which
`write -i config.bin` refuses to put them back: the tool decodes the texts in order to print them. -/
theorem c115_refuted_raw (y : Yaml) : ∃ (s s' : Nv) (a : Args) (w w1 : Bench), NvReach s ∧ s.handleForm a false .ok = .ok (s', 200) ∧
    boardSettings w.flash 4 = s'.ee.flash ∧ toolRead y goodTool (bs "config.bin") w = (w1, .saved) ∧
    w1.files (bs "config.bin") = some s'.ee.flash.toList ∧ toolWrite y goodTool (bs "config.bin") true w1 = (w1, .failed) := by
  obtain ⟨s, s', a, h1, _, _, h2, _, h3⟩ := c94_refuted
  obtain ⟨w, hb⟩ : ∃ w : Bench, boardSettings w.flash 4 = s'.ee.flash :=
    ⟨{ files := fun _ => none, flash := writeFlash (fun _ => 0) (settingsAt 4) s'.ee.flash.toList }, writeFlash_settings (fun _ => 0) 4 s'.ee.flash⟩
  have hc : configOf s'.ee.flash.toList = none := by
    rw [configOf_backup, Option.map_eq_none_iff] at h3
    exact h3
  have e : fileSuffix (bs "config.bin") = bs ".bin" := by decide
  have e1 : toolRead y goodTool (bs "config.bin") w = (w.put (bs "config.bin") s'.ee.flash.toList, .saved) := by
    unfold toolRead
    rw [base_reports (Or.inr rfl) good_reports, ← hb, ← readFlash_settings, e]
    rfl
  refine ⟨s, s', a, w, w.put (bs "config.bin") s'.ee.flash.toList, h1, h2, hb, e1, by simp [Bench.put], ?_⟩
  unfold toolWrite
  rw [e]
  have h1 : pyLower (bs ".bin") = bs ".bin" := by decide
  simp [Bench.put, h1, hc]

/-! ## Concrete cases -/

/-- Names with the extensions of the tool. -/
example : TextName (bs "/home/me/config.yaml") ∧ TextName (bs "a.b.json") ∧ RawName (bs "dir.x/CONFIG.BIN") ∧
    fileSuffix (bs "dir.json/config") = [] ∧ fileSuffix (bs ".json") = [] ∧ fileSuffix (bs "config.JSON") = bs ".JSON" :=
  ⟨⟨bs "/home/me/config", bs ".yaml", by decide, by decide, by decide, by decide⟩,
   ⟨bs "a.b", bs ".json", by decide, by decide, by decide, by decide⟩,
   ⟨bs "dir.x/CONFIG", bs ".BIN", by decide, by decide, by decide, by decide⟩, by decide, by decide, by decide⟩

/-- A board with settings that are accepted and in UTF-8, and a faithful YAML. -/
example : ∃ (y : Yaml) (w : Bench), FaithfulYaml y ∧ Accepted (boardSettings w.flash 4) ∧ StoredUtf8 (boardSettings w.flash 4).toList ∧
    goodTool.works = true ∧ Reports goodTool 4 := by
  obtain ⟨s0, h0⟩ := boot_ok blankFlash 0xABCDEF .ok .ok
  obtain ⟨s', c, h1, h2, h3, h4⟩ := form_flash (s := s0) (a := [(bs "save", []), (bs "username", accentHost)]) (by decide)
  refine ⟨⟨jsonDump, parseJson⟩, ⟨fun _ => none, writeFlash (fun _ => 0) (settingsAt 4) s'.ee.flash.toList⟩, fun _ => rfl, ?_, ?_, rfl,
    good_reports⟩
  · rw [writeFlash_settings, h2]; exact accepted_image c
  · rw [writeFlash_settings, h2, eepromImage_toList]
    intro l crc hl n b hb
    rw [readEeprom_bytes] at hl
    cases hl
    have := h4 n b hb
    rw [h3] at this
    have hall : ∀ p ∈ postedPrivate [(bs "save", []), (bs "username", accentHost)] ++
        postedPublic [(bs "save", []), (bs "username", accentHost)],
        (match p.2 with | .text (some t) => (pyDecode t).isSome | _ => true) = true := by decide +kernel
    exact pyDecode_isSome.1 (hall _ this)

/-- The addresses. -/
example : settingsAt 4 = 0x3FB000 ∧ settingsAt 1 = 0xFB000 ∧ eepromBase (bs "Detected flash size: 2MB\n") = none := by decide

/-- Where the tool looks on a board with a flash of four megabytes. -/
example : ∃ mb, (mb = 1 ∨ mb = 4) ∧ FirstSize goodTool.flashId (decText mb ++ bs "MB") ∧ settingsAt 4 = settingsAt mb :=
  c115_address_exact.1 (base_reports (Or.inr rfl) good_reports)

end Wifinfo
