import Verif.Model.Flashing
import Verif.Props.EepromTool
import Verif.Props.Install
import Verif.Props.Web

/-!
# C118: the installation of the README gives the pages and keeps the settings
-/

namespace Wifinfo
open Spec

namespace Spec

/-- A part of the flash. -/
structure Partition where
  start : Nat
  len : Nat

/-- Where the program of a board with `mb` megabytes of flash looks for its files (linker scripts `1m192` and `4m1m`). -/
def filesAt (mb : Nat) : Partition := if mb = 1 then ⟨0xCB000, 192 * 1024⟩ else ⟨0x300000, 1000 * 1024⟩

/-- The files that a board finds. -/
def boardFiles (flash : Nat → Byte) (mb : Nat) : Str := readFlash flash (filesAt mb).start (filesAt mb).len

end Spec

/-- The commands of the README for a board. -/
def recipeFor (mb : Nat) : Recipe := if mb = 1 then recipe1 else recipe4

/-! ## The size argument -/

theorem pyInt_num {a : Str} (h : a ≠ []) (hn : numeral a = true) : pyInt a = some (decVal a) := by
  unfold pyInt
  rw [if_pos ⟨h, hn⟩]

theorem pyInt_some {a : Str} {n : Nat} (h : pyInt a = some n) : a ≠ [] ∧ numeral a = true ∧ n = decVal a := by
  unfold pyInt at h
  split at h
  · rename_i hc; exact ⟨hc.1, hc.2, (Option.some.inj h).symm⟩
  · cases h

/-- **C118**, the size: a number of bytes, of kilobytes (`k` or `K`) or of megabytes (`m` or `M`). -/
theorem c118_size (s : Str) (n : Nat) : pySize s = some n ↔
    ∃ a : Str, a ≠ [] ∧ numeral a = true ∧
      ((s = a ∧ n = decVal a) ∨ ((s = a ++ bs "k" ∨ s = a ++ bs "K") ∧ n = 1024 * decVal a) ∨
        ((s = a ++ bs "m" ∨ s = a ++ bs "M") ∧ n = 1024 * (1024 * decVal a))) := by
  have hk : bs "k" = [107] := by decide
  have hK : bs "K" = [75] := by decide
  have hm : bs "m" = [109] := by decide
  have hM : bs "M" = [77] := by decide
  rw [hk, hK, hm, hM]
  constructor
  · intro h
    unfold pySize at h
    cases hl : s.getLast? with
    | none => rw [hl] at h; cases h
    | some c =>
      rw [hl] at h
      dsimp only at h
      obtain ⟨t, rfl⟩ := List.getLast?_eq_some_iff.1 hl
      rw [List.dropLast_concat] at h
      split at h
      · rename_i hc
        obtain ⟨v, hv, rfl⟩ := Option.map_eq_some_iff.1 h
        obtain ⟨h1, h2, rfl⟩ := pyInt_some hv
        refine ⟨t, h1, h2, .inr (.inl ⟨?_, Nat.mul_comm _ _⟩)⟩
        rcases hc with rfl | rfl
        · exact .inl rfl
        · exact .inr rfl
      split at h
      · rename_i hc
        obtain ⟨v, hv, rfl⟩ := Option.map_eq_some_iff.1 h
        obtain ⟨h1, h2, rfl⟩ := pyInt_some hv
        refine ⟨t, h1, h2, .inr (.inr ⟨?_, by omega⟩)⟩
        rcases hc with rfl | rfl
        · exact .inl rfl
        · exact .inr rfl
      · obtain ⟨h1, h2, rfl⟩ := pyInt_some h
        exact ⟨_, h1, h2, .inl ⟨rfl, rfl⟩⟩
  · rintro ⟨a, h1, h2, h⟩
    rcases h with ⟨rfl, rfl⟩ | ⟨h, rfl⟩ | ⟨h, rfl⟩
    · obtain ⟨t, c, rfl⟩ : ∃ t c, s = t ++ [c] := ⟨s.dropLast, s.getLast h1, (List.dropLast_concat_getLast h1).symm⟩
      have hc : digit c = true := List.all_eq_true.1 h2 c (by simp)
      have n1 : ¬ (c = 107 ∨ c = 75) := by rintro (rfl | rfl) <;> revert hc <;> decide
      have n2 : ¬ (c = 109 ∨ c = 77) := by rintro (rfl | rfl) <;> revert hc <;> decide
      unfold pySize
      rw [List.getLast?_concat]
      dsimp only
      rw [if_neg n1, if_neg n2, pyInt_num h1 h2]
    · unfold pySize
      rcases h with rfl | rfl
      all_goals
        rw [List.getLast?_concat, List.dropLast_concat, pyInt_num h1 h2]
        simp [Nat.mul_comm]
    · unfold pySize
      rcases h with rfl | rfl
      all_goals
        rw [List.getLast?_concat, List.dropLast_concat, pyInt_num h1 h2]
        simp
        omega

/-- The sizes of the README are those of the partitions, and the addresses too. -/
theorem recipe_fits {mb : Nat} (h : mb = 1 ∨ mb = 4) :
    pySize (recipeFor mb).size = some (filesAt mb).len ∧ (recipeFor mb).address = (filesAt mb).start := by
  rcases h with rfl | rfl <;> decide +kernel

/-! ## Writing the flash -/

theorem readFlash_written (flash : Nat → Byte) (base : Nat) (img : Str) : readFlash (writeFlash flash base img) base img.length = img := by
  unfold readFlash
  apply List.ext_getElem
  · simp
  · intro i h1 h2
    have hi : i < img.length := h2
    simp only [List.getElem_map, List.getElem_range]
    unfold writeFlash
    rw [if_pos ⟨by omega, by omega⟩, Nat.add_sub_cancel_left, List.getD_eq_getElem?_getD, List.getElem?_eq_getElem hi]
    rfl

theorem readFlash_congr {f g : Nat → Byte} {base n : Nat} (h : ∀ a, base ≤ a → a < base + n → f a = g a) :
    readFlash f base n = readFlash g base n := by
  unfold readFlash
  apply List.map_congr_left
  intro i hi
  exact h _ (by omega) (by have := List.mem_range.1 hi; omega)

/-- What is written stays in its sectors. -/
theorem writeFlash_other (flash : Nat → Byte) {base stop : Nat} {img : Str} (hb : base % 4096 = 0) (hs : stop % 4096 = 0)
    (hl : base + img.length ≤ stop) (a : Nat) (ha : a < base ∨ stop ≤ a) : writeFlash flash base img a = flash a := by
  unfold writeFlash
  rw [if_neg (by omega), if_neg (by omega)]

theorem settings_eq {f g : Nat → Byte} {mb : Nat} (h : ∀ i, i < 1024 → f (settingsAt mb + i) = g (settingsAt mb + i)) :
    boardSettings f mb = boardSettings g mb := by
  apply Vector.ext
  intro i hi
  unfold boardSettings
  rw [Vector.getElem_ofFn, Vector.getElem_ofFn]
  exact h i hi

theorem settings_same {f : Nat → Byte} {mb : Nat} {c : Byte} (h : ∀ i, i < 1024 → f (settingsAt mb + i) = c) :
    boardSettings f mb = Vector.replicate 1024 c := by
  apply Vector.ext
  intro i hi
  unfold boardSettings
  rw [Vector.getElem_ofFn, Vector.getElem_replicate]
  exact h i hi

/-- The board after the two commands of the README. -/
theorem recipe_done {mb : Nat} (h : mb = 1 ∨ mb = 4) {size o w : Nat} {l : List Src} {img : Str}
    (hs : pySize (recipeFor mb).size = some size) (hc : create l size = .image o w img)
    (prog : Str) (hp : prog.length ≤ (filesAt mb).start) (flash : Nat → Byte) (after : Nat → Byte)
    (ho : after = writeFlash (writeFlash flash 0 prog) (recipeFor mb).address img ∨
      after = writeFlash (writeFlash flash (recipeFor mb).address img) 0 prog) :
    img.length = (filesAt mb).len ∧ readFlash after 0 prog.length = prog ∧ boardFiles after mb = img ∧
      ∀ a, settingsAt mb ≤ a → after a = flash a := by
  obtain ⟨h1, h2⟩ := recipe_fits h
  rw [hs] at h1
  have h1 := Option.some.inj h1
  have hlen : img.length = (filesAt mb).len := by
    obtain ⟨⟨i1, b, hb, z, hz, rfl⟩, rfl⟩ := image_is hc
    have hl : b.length = totalSize l := by rw [totalSize_eq, pyWrite_length l b hb]
    simp only [List.length_append]
    omega
  have hstart : (filesAt mb).start % 4096 = 0 ∧ (filesAt mb).len % 4096 = 0 ∧ (filesAt mb).start + (filesAt mb).len ≤ settingsAt mb ∧
      settingsAt mb % 4096 = 0 := by
    rcases h with rfl | rfl <;> decide
  obtain ⟨g1, g2, g3, g4⟩ := hstart
  rw [h2] at ho
  have hend : ((filesAt mb).start + (filesAt mb).len) % 4096 = 0 := by omega
  refine ⟨hlen, ?_⟩
  rcases ho with rfl | rfl
  · refine ⟨?_, ?_, fun a ha => ?_⟩
    · rw [readFlash_congr (g := writeFlash flash 0 prog), readFlash_written]
      intro a _ ha
      exact writeFlash_other _ g1 hend (by omega) a (.inl (by omega))
    · unfold boardFiles
      rw [← hlen, readFlash_written]
    · rw [writeFlash_other _ g1 hend (by omega) a (.inr (by omega)), writeFlash_other _ (by rfl) g1 (by omega) a (.inr (by omega))]
  · refine ⟨?_, ?_, fun a ha => ?_⟩
    · exact readFlash_written _ 0 prog
    · unfold boardFiles
      rw [readFlash_congr (g := writeFlash flash (filesAt mb).start img), ← hlen, readFlash_written]
      intro a ha _
      exact writeFlash_other _ (by rfl) g1 (by omega) a (.inr ha)
    · rw [writeFlash_other _ (by rfl) g1 (by omega) a (.inr (by omega)), writeFlash_other _ g1 hend (by omega) a (.inr (by omega))]

/-- **C118** in part: after the two commands of the README, in any order, on a board with any content, the program is there, the
files are those of the folder, and neither the settings nor what follows them were touched.

Partial as C44: names of at most 63 bytes, 63 bytes of contents or free space. -/
theorem c118_installed_partial {mb : Nat} (h : mb = 1 ∨ mb = 4) {size o w : Nat} {l : List Src} {img : Str}
    (hs : pySize (recipeFor mb).size = some size) (hc : create l size = .image o w img) (hu : Usable l size o)
    (prog : Str) (hp : prog.length ≤ (filesAt mb).start) (flash : Nat → Byte) (after : Nat → Byte)
    (ho : after = writeFlash (writeFlash flash 0 prog) (recipeFor mb).address img ∨
      after = writeFlash (writeFlash flash (recipeFor mb).address img) 0 prog) :
    readFlash after 0 prog.length = prog ∧
      (∃ fs, Erfs.begin (boardFiles after mb) = .ok (true, fs) ∧ ∀ b d e, OnImage e fs → Site l fs b d e) ∧
      (∀ a, settingsAt mb ≤ a → after a = flash a) ∧ boardSettings after mb = boardSettings flash mb := by
  obtain ⟨-, k1, k2, k3⟩ := recipe_done h hs hc prog hp flash after ho
  refine ⟨k1, ?_, k3, ?_⟩
  · rw [k2]
    have hh := carries_image hc hu
    exact ⟨_, hh.mount, fun b d e he => carries_site hh b d he⟩
  · exact settings_eq fun i hi => k3 _ (by omega)

/-- **C118** for the default size of the tool is false: the image of 1 MB is longer than the partition of a board with 4 MB, and
writing it replaces the settings by something that is not accepted: the device starts with the factory settings. -/
theorem c118_refuted_default {size o w : Nat} {l : List Src} {img : Str} (hs : pySize defaultSize = some size)
    (hc : create l size = .image o w img) (ho : o ≤ 1000 * 1024) (flash : Nat → Byte) :
    ¬ Accepted (boardSettings (writeFlash flash (filesAt 4).start img) 4) := by
  have hsz : size = 1048576 := by
    have : pySize defaultSize = some 1048576 := by decide +kernel
    rw [this] at hs
    exact (Option.some.inj hs).symm
  subst hsz
  obtain ⟨i1, i2, -, b, hb, rfl⟩ := (create_image ..).1 hc
  have hl : b.length = totalSize l := by rw [totalSize_eq, pyWrite_length l b hb]
  have hz : boardSettings (writeFlash flash (filesAt 4).start (b ++ zeros (1048576 - totalSize l))) 4 = Vector.replicate 1024 0 := by
    apply settings_same
    intro i hi
    have e1 : (filesAt 4).start = 3145728 := rfl
    have e2 : settingsAt 4 = 4173824 := rfl
    unfold writeFlash
    rw [e1, e2, if_pos (by simp only [List.length_append, zeros, List.length_replicate]; omega),
      List.getD_eq_getElem?_getD, List.getElem?_append_right (by omega), zeros, List.getElem?_replicate, if_pos (by omega)]
    rfl
  rw [accepted_iff, hz, Vector.toList_replicate]
  exact crc_zeros 1024 0xFFFF (by decide)

/-! ## Cases -/

example {mb : Nat} (h : mb = 1 ∨ mb = 4) : ∃ size img, pySize (recipeFor mb).size = some size ∧
    create siteFiles size = .image 136 136 img ∧ Usable siteFiles size 136 := by
  have hb := siteFiles_usable
  obtain ⟨_, _, _, b, h1, h2⟩ := (create_image ..).1 hb.1
  have ht : totalSize siteFiles = 136 := by decide +kernel
  refine ⟨(filesAt mb).len, _, (recipe_fits h).1, (create_image ..).2 ⟨?_, ht.symm, ht.symm, b, h1, rfl⟩,
    ?_, hb.2.set, hb.2.short, ?_⟩ <;> rw [show (filesAt mb).len = if mb = 1 then 196608 else 1024000 by unfold filesAt; split <;> rfl]
  · rw [ht]; split <;> decide
  · split <;> decide
  · split <;> decide

example : pySize (bs "192k") = some 196608 ∧ pySize (bs "1M") = some 1048576 ∧ pySize (bs "4096") = some 4096 ∧ pySize (bs "k") = none ∧
    pySize [] = none := by decide +kernel

end Wifinfo
