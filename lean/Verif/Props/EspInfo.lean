import Verif.Model.EspInfo
import Verif.Props.Show
import Verif.Props.Time

/-!
# C142: what `esp` lists can be read back
-/

namespace Wifinfo
namespace Spec

/-- What a line of the list tells. -/
inductive InfoVal
  | num (n : Nat)
  | hex (n : Nat)
  | text (s : Str)

/-- The number that hexadecimal digits denote. -/
def hexRead : Nat → Str → Option Nat
  | a, [] => some a
  | a, b :: r => match hexVal b with
    | some d => hexRead (16 * a + d) r
    | none => none

/-- How it is written. -/
def InfoVal.written : InfoVal → Str → Prop
  | .num n, s => Decimal s n
  | .hex n, s => ∃ r, s = bs "0x" ++ r ∧ r ≠ [] ∧ hexRead 0 r = some n
  | .text t, s => s = t

/-- What is before the colon of a line, without the spaces before it. -/
def infoName (l : Str) : Str := ((l.takeWhile (· != 58)).reverse.dropWhile (· == 32)).reverse

/-- What is after a name in the list: the line with this name, after the colon and the space. -/
def infoRead (text : Str) (name : Str) : Option Str :=
  ((screen text).find? fun l => infoName l == name).map fun l => (l.dropWhile (· != 58)).drop 2

/-- What the list must tell; the places in the flash are counted from its start, where 0x40200000 is in memory, and the settings have one
sector of 4096 bytes. -/
def infoTells (e : EspEnv) : List (String × InfoVal) :=
  [("ChipId", .hex e.chipId.toNat),
   ("CpuFreqMHz", .num e.cpuMhz.toNat),
   ("Vcc", .num e.vcc.toNat),
   ("ResetReason", .text e.resetReason),
   ("ResetInfo", .text e.resetInfo),
   ("SdkVersion", .text e.sdkVersion),
   ("CoreVersion", .text e.coreVersion),
   ("FullVersion", .text e.fullVersion),
   ("SketchSize", .num e.sketchSize.toNat),
   ("FreeSketchSpace", .num e.freeSketch.toNat),
   ("FlashChipRealSize", .num e.flashReal.toNat),
   ("checkFlashConfig", .num e.flashOk.toNat),
   ("FlashChipVendorId", .hex e.vendorId.toNat),
   ("EEPROM_start", .hex (e.eepromStart.toNat - 0x40200000)),
   ("EEPROM_end", .hex (e.eepromStart.toNat - 0x40200000 + 4096)),
   ("FS_start", .hex (e.fsStart.toNat - 0x40200000)),
   ("FS_end", .hex (e.fsEnd.toNat - 0x40200000)),
   ("FreeHeap", .num e.freeHeap.toNat),
   ("MaxFreeBlockSize", .num e.maxBlock.toNat),
   ("HeapFragmentation", .num e.fragmentation.toNat),
   ("FS totalBytes", .num e.fsTotal.toNat),
   ("FS usedBytes", .num e.fsUsed.toNat),
   ("FS blockSize", .num e.fsBlock.toNat),
   ("FS pageSize", .num e.fsPage.toNat),
   ("FS maxOpenFiles", .num e.fsOpen.toNat),
   ("FS maxPathLength", .num e.fsPath.toNat),
   ("WiFi status", .num e.status.toNat),
   ("WiFi mode", .num e.mode.toNat),
   ("localIP", .text e.localIp),
   ("hostname", .text e.hostname),
   ("softAPIP", .text e.softApIp),
   ("Persistent", .num e.persistent.toNat)]

/-- The texts are on one line, and the addresses are in the flash. -/
structure PlainEsp (e : EspEnv) : Prop where
  texts : ∀ t ∈ [e.resetReason, e.resetInfo, e.sdkVersion, e.coreVersion, e.fullVersion, e.localIp, e.hostname, e.softApIp],
    (10 : Byte) ∉ t ∧ (13 : Byte) ∉ t
  eeprom : 0x40200000 ≤ e.eepromStart.toNat ∧ e.eepromStart.toNat + 4096 < 2 ^ 32
  fs : 0x40200000 ≤ e.fsStart.toNat ∧ 0x40200000 ≤ e.fsEnd.toNat

end Spec
open Spec

/-! ## Lemmas -/

theorem linesFrom_info : ∀ (l cur r : Str), (13 : Byte) ∉ cur → (10 : Byte) ∉ l → (13 : Byte) ∉ l →
    linesFrom cur (l ++ 10 :: r) = (cur ++ l) :: linesFrom [] r
  | [], cur, r, hc, _, _ => by
    have : cur.getLast? ≠ some 13 := fun h => hc (List.mem_of_getLast? h)
    simp [linesFrom, this]
  | b :: l, cur, r, hc, h, h' => by
    have a : b ≠ 10 := fun e => h (by simp [e])
    have a' : (13 : Byte) ≠ b := fun e => h' (by simp [e])
    rw [List.cons_append, linesFrom, if_neg a, linesFrom_info l _ r (by simp [hc, a']) (fun e => h (List.mem_cons_of_mem _ e))
      fun e => h' (List.mem_cons_of_mem _ e)]
    simp

/-- The lines of the list: a caption and a value. -/
def infoRows (e : EspEnv) : List (String × Str) :=
  [("ChipId      : 0x", hex06 e.chipId),
   ("CpuFreqMHz  : ", decText e.cpuMhz.toNat),
   ("Vcc         : ", decText e.vcc.toNat),
   ("ResetReason : ", e.resetReason),
   ("ResetInfo   : ", e.resetInfo),
   ("SdkVersion  : ", e.sdkVersion),
   ("CoreVersion : ", e.coreVersion),
   ("FullVersion : ", e.fullVersion),
   ("SketchSize        : ", decText e.sketchSize.toNat),
   ("FreeSketchSpace   : ", decText e.freeSketch.toNat),
   ("FlashChipRealSize : ", decText e.flashReal.toNat),
   ("checkFlashConfig  : ", decText e.flashOk.toNat),
   ("FlashChipVendorId : 0x", hexShort e.vendorId),
   ("EEPROM_start      : 0x", hex08 (e.eepromStart - 0x40200000)),
   ("EEPROM_end        : 0x", hex08 (e.eepromStart - 0x40200000 + 4096)),
   ("FS_start          : 0x", hex08 (e.fsStart - 0x40200000)),
   ("FS_end            : 0x", hex08 (e.fsEnd - 0x40200000)),
   ("FreeHeap          : ", decText e.freeHeap.toNat),
   ("MaxFreeBlockSize  : ", decText e.maxBlock.toNat),
   ("HeapFragmentation : ", decText e.fragmentation.toNat),
   ("FS totalBytes    : ", decText e.fsTotal.toNat),
   ("FS usedBytes     : ", decText e.fsUsed.toNat),
   ("FS blockSize     : ", decText e.fsBlock.toNat),
   ("FS pageSize      : ", decText e.fsPage.toNat),
   ("FS maxOpenFiles  : ", decText e.fsOpen.toNat),
   ("FS maxPathLength : ", decText e.fsPath.toNat),
   ("WiFi status : ", decText e.status.toNat),
   ("WiFi mode   : ", decText e.mode.toNat),
   ("localIP     : ", e.localIp),
   ("hostname    : ", e.hostname),
   ("softAPIP    : ", e.softApIp),
   ("Persistent  : ", decText e.persistent.toNat)]

/-- The captions. -/
def infoCaptions : List String :=
  ["ChipId      : 0x", "CpuFreqMHz  : ", "Vcc         : ", "ResetReason : ", "ResetInfo   : ", "SdkVersion  : ", "CoreVersion : ", "FullVersion : ", "SketchSize        : ", "FreeSketchSpace   : ", "FlashChipRealSize : ", "checkFlashConfig  : ", "FlashChipVendorId : 0x", "EEPROM_start      : 0x", "EEPROM_end        : 0x", "FS_start          : 0x", "FS_end            : 0x", "FreeHeap          : ", "MaxFreeBlockSize  : ", "HeapFragmentation : ", "FS totalBytes    : ", "FS usedBytes     : ", "FS blockSize     : ", "FS pageSize      : ", "FS maxOpenFiles  : ", "FS maxPathLength : ", "WiFi status : ", "WiFi mode   : ", "localIP     : ", "hostname    : ", "softAPIP    : ", "Persistent  : "]

theorem espInfo_rows (e : EspEnv) : espInfo e = (infoRows e).flatMap fun p => infoLine p.1 p.2 := by
  unfold espInfo infoRows
  simp only [List.flatMap_cons, List.flatMap_nil]
  rw [List.append_nil]
  simp only [List.append_assoc]

theorem screen_rows : ∀ L : List (String × Str), (∀ p ∈ L, (10 : Byte) ∉ bs p.1 ++ p.2 ∧ (13 : Byte) ∉ bs p.1 ++ p.2) →
    screen (L.flatMap fun p => infoLine p.1 p.2) = L.map fun p => bs p.1 ++ p.2
  | [], _ => rfl
  | p :: L, h => by
    have ih := screen_rows L fun q hq => h q (List.mem_cons_of_mem _ hq)
    obtain ⟨h1, h2⟩ := h p List.mem_cons_self
    rw [List.flatMap_cons, List.map_cons, ← ih, infoLine, List.append_assoc, List.singleton_append, screen,
      linesFrom_info _ _ _ (by simp) h1 h2]
    rfl

theorem takeWhile_colon {a : Str} (t : Str) (h : (58 : Byte) ∈ a) : (a ++ t).takeWhile (· != 58) = a.takeWhile (· != 58) := by
  induction a with
  | nil => simp at h
  | cons b a ih =>
    by_cases hb : b = 58
    · subst hb; rfl
    · have : (58 : Byte) ∈ a := by simpa [Ne.symm hb] using h
      rw [List.cons_append, List.takeWhile_cons, List.takeWhile_cons, ih this]

theorem dropWhile_colon {a : Str} (t : Str) (h : (58 : Byte) ∈ a) : (a ++ t).dropWhile (· != 58) = a.dropWhile (· != 58) ++ t := by
  induction a with
  | nil => simp at h
  | cons b a ih =>
    by_cases hb : b = 58
    · subst hb; rfl
    · have : (58 : Byte) ∈ a := by simpa [Ne.symm hb] using h
      rw [List.cons_append, List.dropWhile_cons, List.dropWhile_cons, ih this]
      simp [hb]

theorem find_row {L : List (String × Str)} (hc : ∀ p ∈ L, (58 : Byte) ∈ bs p.1) (hn : (L.map fun p => infoName (bs p.1)).Nodup)
    {p : String × Str} (hp : p ∈ L) :
    (L.map fun p => bs p.1 ++ p.2).find? (fun l => infoName l == infoName (bs p.1)) = some (bs p.1 ++ p.2) := by
  have name : ∀ q ∈ L, infoName (bs q.1 ++ q.2) = infoName (bs q.1) := fun q hq => by
    unfold infoName; rw [takeWhile_colon _ (hc q hq)]
  induction L with
  | nil => simp at hp
  | cons q L ih =>
    rw [List.map_cons, List.find?_cons, name q List.mem_cons_self]
    rw [List.map_cons, List.nodup_cons] at hn
    rcases List.mem_cons.1 hp with rfl | hp
    · simp
    · have hne : infoName (bs q.1) ≠ infoName (bs p.1) := fun h => hn.1 (List.mem_map.2 ⟨p, hp, h.symm⟩)
      rw [beq_false_of_ne hne]
      exact ih (fun r hr => hc r (List.mem_cons_of_mem _ hr)) hn.2 hp fun r hr => name r (List.mem_cons_of_mem _ hr)

theorem captions_fine : (∀ c ∈ infoCaptions, (58 : Byte) ∈ bs c ∧ (10 : Byte) ∉ bs c ∧ (13 : Byte) ∉ bs c ∧
    2 ≤ ((bs c).dropWhile (· != 58)).length) ∧ (infoCaptions.map fun c => infoName (bs c)).Nodup := by decide +kernel

theorem rows_captions (e : EspEnv) : (infoRows e).map Prod.fst = infoCaptions := rfl

/-! ### Hexadecimal -/

theorem hexRead_append : ∀ (a : Str) (n m : Nat) (b : Str), hexRead n a = some m → hexRead n (a ++ b) = hexRead m b
  | [], n, m, b, h => by obtain rfl := Option.some.inj h; rfl
  | x :: a, n, m, b, h => by
    simp only [List.cons_append, hexRead] at h ⊢
    split at h
    · exact hexRead_append a _ m b h
    · exact nomatch h

theorem lowHex_val {k : Nat} (h : k < 16) : hexVal (lowHex k) = some k := by
  have : ∀ k : Fin 16, hexVal (lowHex k.val) = some k.val := by decide
  exact this ⟨k, h⟩

theorem hexDigit_read {k : Nat} (h : k < 16) : hexVal (hexDigit k) = some k := by
  have : ∀ k : Fin 16, hexVal (hexDigit k.val) = some k.val := by decide
  exact this ⟨k, h⟩

theorem lowHex4_read (a : Nat) {n : Nat} (h : n < 65536) : hexRead a (lowHex4 n) = some (65536 * a + n) := by
  simp only [lowHex4, hexRead, lowHex_val (Nat.mod_lt _ (by decide : 0 < 16))]
  congr 1
  omega

theorem hex08_read (v : UInt32) : hexRead 0 (hex08 v) = some v.toNat := by
  have hv : v.toNat < 2 ^ 32 := v.toNat_lt
  unfold hex08
  rw [hexRead_append _ _ _ _ (lowHex4_read 0 (by omega)), lowHex4_read _ (by omega)]
  congr 1
  omega

theorem hexRead_zeros : ∀ s : Str, hexRead 0 (s.dropWhile (· == 48)) = hexRead 0 s
  | [] => rfl
  | b :: s => by
    by_cases hb : b = 48
    · subst hb
      exact hexRead_zeros s
    · rw [List.dropWhile_cons_of_neg (by simp [hb])]

theorem hexShort_read (v : UInt32) : hexShort v ≠ [] ∧ hexRead 0 (hexShort v) = some v.toNat := by
  have h := hex08_read v
  rw [← hexRead_zeros] at h
  unfold hexShort
  split
  · next e => rw [e] at h; exact ⟨by simp, h⟩
  · next e => rw [e] at h; exact ⟨by simp, h⟩

theorem hex06_read (v : UInt32) : hex06 v ≠ [] ∧ hexRead 0 (hex06 v) = some v.toNat := by
  have hv : v.toNat < 2 ^ 32 := v.toNat_lt
  have hd : ∀ k, hexVal (hexDigit (v.toNat / 16 ^ k % 16)) = some (v.toNat / 16 ^ k % 16) := fun k => hexDigit_read (Nat.mod_lt _ (by decide))
  unfold hex06
  dsimp only
  split
  · refine ⟨by simp, ?_⟩
    simp only [hexRead, hd]
    congr 1
    omega
  · split
    · refine ⟨by simp, ?_⟩
      simp only [hexRead, hd]
      congr 1
      omega
    · refine ⟨by simp, ?_⟩
      simp only [hexRead, hd]
      congr 1
      omega

/-- A text of decimal or hexadecimal digits is on one line. -/
theorem hex_clean : ∀ {s : Str} {n m : Nat}, hexRead n s = some m → (10 : Byte) ∉ s ∧ (13 : Byte) ∉ s
  | [], _, _, _ => by simp
  | b :: s, n, m, h => by
    simp only [hexRead] at h
    split at h
    · next d hd =>
      obtain ⟨h1, h2⟩ := hex_clean h
      have b1 : b ≠ 10 := fun e => by rw [e, show hexVal 10 = none by decide] at hd; exact nomatch hd
      have b2 : b ≠ 13 := fun e => by rw [e, show hexVal 13 = none by decide] at hd; exact nomatch hd
      simp [h1, h2, Ne.symm b1, Ne.symm b2]
    · exact nomatch h

theorem dec_clean (n : Nat) : (10 : Byte) ∉ decText n ∧ (13 : Byte) ∉ decText n := by
  constructor <;> (intro h; exact absurd (decText_bytes n _ h) (by decide))

theorem decText_decimal (n : Nat) : Decimal (decText n) n := by
  obtain ⟨h1, h2, h3, h4⟩ := decText_spec n
  exact ⟨h1, h2, h4, h3⟩

theorem rows_clean {e : EspEnv} (he : PlainEsp e) : ∀ p ∈ infoRows e, (10 : Byte) ∉ p.2 ∧ (13 : Byte) ∉ p.2 := by
  have ht := he.texts
  simp only [List.forall_mem_cons] at ht
  obtain ⟨t1, t2, t3, t4, t5, t6, t7, t8, _⟩ := ht
  simp only [infoRows, List.forall_mem_cons]
  refine ⟨hex_clean (hex06_read _).2, dec_clean _, dec_clean _, t1, t2, t3, t4, t5, dec_clean _, dec_clean _, dec_clean _, dec_clean _, hex_clean (hexShort_read _).2, hex_clean (hex08_read _), hex_clean (hex08_read _), hex_clean (hex08_read _), hex_clean (hex08_read _), dec_clean _, dec_clean _, dec_clean _, dec_clean _, dec_clean _, dec_clean _, dec_clean _, dec_clean _, dec_clean _, dec_clean _, dec_clean _, t6, t7, t8, dec_clean _, nofun⟩

theorem read_row {e : EspEnv} (he : PlainEsp e) {s : String} {t : Str} (h : (s, t) ∈ infoRows e) :
    infoRead (espInfo e) (infoName (bs s)) = some (((bs s).dropWhile (· != 58)).drop 2 ++ t) := by
  obtain ⟨f1, f2⟩ := captions_fine
  have cap : ∀ p ∈ infoRows e, p.1 ∈ infoCaptions := fun p hp => by rw [← rows_captions e]; exact List.mem_map_of_mem hp
  have hn : ((infoRows e).map fun p => infoName (bs p.1)).Nodup := by
    rw [show ((infoRows e).map fun p => infoName (bs p.1)) = ((infoRows e).map Prod.fst).map fun c => infoName (bs c) by
      rw [List.map_map]; rfl, rows_captions]
    exact f2
  have hf := find_row (fun p hp => (f1 _ (cap p hp)).1) hn h
  unfold infoRead
  rw [espInfo_rows, screen_rows]
  · rw [hf, Option.map_some, dropWhile_colon _ (f1 _ (cap _ h)).1, List.drop_append_of_le_length (f1 _ (cap _ h)).2.2.2]
  · intro p hp
    obtain ⟨_, g1, g2, _⟩ := f1 _ (cap p hp)
    obtain ⟨g3, g4⟩ := rows_clean he p hp
    simp [g1, g2, g3, g4]

theorem flash_place {v : UInt32} (h : 0x40200000 ≤ v.toNat) : (v - 0x40200000).toNat = v.toNat - 0x40200000 :=
  UInt32.toNat_sub_of_le _ _ (UInt32.le_iff_toNat_le.2 h)

/-! ## C142 -/

/-- **C142.** Each thing that the command `esp` lists can be read back: it is on the line that has its name, and what is written there is its
value; for the settings and the file system, the places in the flash. -/
theorem c142_info {e : EspEnv} (he : PlainEsp e) : ∀ p ∈ infoTells e, ∃ s, infoRead (espInfo e) (bs p.1) = some s ∧ p.2.written s := by
  have num : ∀ {s : String} {c : String} {n : Nat}, (s, decText n) ∈ infoRows e → infoName (bs s) = bs c →
      ((bs s).dropWhile (· != 58)).drop 2 = [] → ∃ t, infoRead (espInfo e) (bs c) = some t ∧ (InfoVal.num n).written t := by
    intro s c n h hc h0
    refine ⟨_, by rw [← hc]; exact read_row he h, ?_⟩
    rw [h0]
    exact decText_decimal n
  have text : ∀ {s : String} {c : String} {x : Str}, (s, x) ∈ infoRows e → infoName (bs s) = bs c →
      ((bs s).dropWhile (· != 58)).drop 2 = [] → ∃ t, infoRead (espInfo e) (bs c) = some t ∧ (InfoVal.text x).written t := by
    intro s c n h hc h0
    refine ⟨_, by rw [← hc]; exact read_row he h, ?_⟩
    rw [h0]
    rfl
  have hex : ∀ {s : String} {c : String} {x : Str} {n : Nat}, (s, x) ∈ infoRows e → infoName (bs s) = bs c →
      ((bs s).dropWhile (· != 58)).drop 2 = bs "0x" → x ≠ [] → hexRead 0 x = some n →
      ∃ t, infoRead (espInfo e) (bs c) = some t ∧ (InfoVal.hex n).written t := by
    intro s c x n h hc h0 hx hr
    refine ⟨_, by rw [← hc]; exact read_row he h, ?_⟩
    rw [h0]
    exact ⟨x, rfl, hx, hr⟩
  have ne8 : ∀ v : UInt32, hex08 v ≠ [] := fun v => by simp [hex08, lowHex4]
  have place : ∀ {v : UInt32}, 0x40200000 ≤ v.toNat → hexRead 0 (hex08 (v - 0x40200000)) = some (v.toNat - 0x40200000) := by
    intro v h
    rw [hex08_read, flash_place h]
  have place' : hexRead 0 (hex08 (e.eepromStart - 0x40200000 + 4096)) = some (e.eepromStart.toNat - 0x40200000 + 4096) := by
    have h2 := he.eeprom.2
    rw [hex08_read, UInt32.toNat_add, flash_place he.eeprom.1, show (4096 : UInt32).toNat = 4096 from rfl,
      Nat.mod_eq_of_lt (by omega)]
  simp only [infoTells, List.forall_mem_cons]
  refine ⟨?_, ?_, ?_, ?_, ?_, ?_, ?_, ?_, ?_, ?_, ?_, ?_, ?_, ?_, ?_, ?_, ?_, ?_, ?_, ?_, ?_, ?_, ?_, ?_, ?_, ?_, ?_, ?_, ?_, ?_, ?_, ?_, nofun⟩
  · exact hex (s := "ChipId      : 0x") (List.mem_of_getElem? (i := 0) rfl) (by decide +kernel) (by decide +kernel) (hex06_read _).1 (hex06_read _).2
  · exact num (s := "CpuFreqMHz  : ") (List.mem_of_getElem? (i := 1) rfl) (by decide +kernel) (by decide +kernel)
  · exact num (s := "Vcc         : ") (List.mem_of_getElem? (i := 2) rfl) (by decide +kernel) (by decide +kernel)
  · exact text (s := "ResetReason : ") (List.mem_of_getElem? (i := 3) rfl) (by decide +kernel) (by decide +kernel)
  · exact text (s := "ResetInfo   : ") (List.mem_of_getElem? (i := 4) rfl) (by decide +kernel) (by decide +kernel)
  · exact text (s := "SdkVersion  : ") (List.mem_of_getElem? (i := 5) rfl) (by decide +kernel) (by decide +kernel)
  · exact text (s := "CoreVersion : ") (List.mem_of_getElem? (i := 6) rfl) (by decide +kernel) (by decide +kernel)
  · exact text (s := "FullVersion : ") (List.mem_of_getElem? (i := 7) rfl) (by decide +kernel) (by decide +kernel)
  · exact num (s := "SketchSize        : ") (List.mem_of_getElem? (i := 8) rfl) (by decide +kernel) (by decide +kernel)
  · exact num (s := "FreeSketchSpace   : ") (List.mem_of_getElem? (i := 9) rfl) (by decide +kernel) (by decide +kernel)
  · exact num (s := "FlashChipRealSize : ") (List.mem_of_getElem? (i := 10) rfl) (by decide +kernel) (by decide +kernel)
  · exact num (s := "checkFlashConfig  : ") (List.mem_of_getElem? (i := 11) rfl) (by decide +kernel) (by decide +kernel)
  · exact hex (s := "FlashChipVendorId : 0x") (List.mem_of_getElem? (i := 12) rfl) (by decide +kernel) (by decide +kernel) (hexShort_read _).1 (hexShort_read _).2
  · exact hex (s := "EEPROM_start      : 0x") (List.mem_of_getElem? (i := 13) rfl) (by decide +kernel) (by decide +kernel) (ne8 _) (place he.eeprom.1)
  · exact hex (s := "EEPROM_end        : 0x") (List.mem_of_getElem? (i := 14) rfl) (by decide +kernel) (by decide +kernel) (ne8 _) place'
  · exact hex (s := "FS_start          : 0x") (List.mem_of_getElem? (i := 15) rfl) (by decide +kernel) (by decide +kernel) (ne8 _) (place he.fs.1)
  · exact hex (s := "FS_end            : 0x") (List.mem_of_getElem? (i := 16) rfl) (by decide +kernel) (by decide +kernel) (ne8 _) (place he.fs.2)
  · exact num (s := "FreeHeap          : ") (List.mem_of_getElem? (i := 17) rfl) (by decide +kernel) (by decide +kernel)
  · exact num (s := "MaxFreeBlockSize  : ") (List.mem_of_getElem? (i := 18) rfl) (by decide +kernel) (by decide +kernel)
  · exact num (s := "HeapFragmentation : ") (List.mem_of_getElem? (i := 19) rfl) (by decide +kernel) (by decide +kernel)
  · exact num (s := "FS totalBytes    : ") (List.mem_of_getElem? (i := 20) rfl) (by decide +kernel) (by decide +kernel)
  · exact num (s := "FS usedBytes     : ") (List.mem_of_getElem? (i := 21) rfl) (by decide +kernel) (by decide +kernel)
  · exact num (s := "FS blockSize     : ") (List.mem_of_getElem? (i := 22) rfl) (by decide +kernel) (by decide +kernel)
  · exact num (s := "FS pageSize      : ") (List.mem_of_getElem? (i := 23) rfl) (by decide +kernel) (by decide +kernel)
  · exact num (s := "FS maxOpenFiles  : ") (List.mem_of_getElem? (i := 24) rfl) (by decide +kernel) (by decide +kernel)
  · exact num (s := "FS maxPathLength : ") (List.mem_of_getElem? (i := 25) rfl) (by decide +kernel) (by decide +kernel)
  · exact num (s := "WiFi status : ") (List.mem_of_getElem? (i := 26) rfl) (by decide +kernel) (by decide +kernel)
  · exact num (s := "WiFi mode   : ") (List.mem_of_getElem? (i := 27) rfl) (by decide +kernel) (by decide +kernel)
  · exact text (s := "localIP     : ") (List.mem_of_getElem? (i := 28) rfl) (by decide +kernel) (by decide +kernel)
  · exact text (s := "hostname    : ") (List.mem_of_getElem? (i := 29) rfl) (by decide +kernel) (by decide +kernel)
  · exact text (s := "softAPIP    : ") (List.mem_of_getElem? (i := 30) rfl) (by decide +kernel) (by decide +kernel)
  · exact num (s := "Persistent  : ") (List.mem_of_getElem? (i := 31) rfl) (by decide +kernel) (by decide +kernel)

/-- A module with 4 MB of flash: the hypotheses are met, and the list tells that the settings are at 0x003FB000. -/
def sampleEsp : EspEnv :=
  { chipId := 0x123456, cpuMhz := 80, vcc := 65535, resetReason := bs "Power on", resetInfo := bs "flag: 0", sdkVersion := bs "2.2.2-dev(38a443e)",
    coreVersion := bs "2_7_1", fullVersion := bs "SDK:2.2.2-dev(38a443e)/Core:2.7.1", sketchSize := 414176, freeSketch := 1679360,
    flashReal := 4194304, flashOk := true, vendorId := 0xC8, eepromStart := 0x405FB000, fsStart := 0x40500000, fsEnd := 0x405FA000,
    freeHeap := 34816, maxBlock := 30000, fragmentation := 3, fsTotal := 957314, fsUsed := 197537, fsBlock := 8192, fsPage := 256, fsOpen := 5,
    fsPath := 32, status := 3, mode := 1, localIp := bs "192.168.1.20", hostname := bs "WifInfo-123456", softApIp := bs "0.0.0.0",
    persistent := true }

example : PlainEsp sampleEsp where
  texts := by decide +kernel
  eeprom := by decide
  fs := by decide

example : infoRead (espInfo sampleEsp) (bs "EEPROM_start") = some (bs "0x003fb000") ∧
    infoRead (espInfo sampleEsp) (bs "FullVersion") = some (bs "SDK:2.2.2-dev(38a443e)/Core:2.7.1") ∧
    infoRead (espInfo sampleEsp) (bs "FlashChipVendorId") = some (bs "0xc8") := by decide +kernel

end Wifinfo
