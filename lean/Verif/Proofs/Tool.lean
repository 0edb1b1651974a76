import Verif.Proofs.Config

/-!
# Lemmas on the external EEPROM tool
-/

namespace Wifinfo
open Spec

theorem unpack_s {n : Nat} {a r : Str} {fs : List Fmt} (h : a.length = n) :
    unpackFrom (.s n :: fs) (a ++ r) = (unpackFrom fs r).map (Py.bytes a :: ·) := by
  rw [unpackFrom]
  rw [if_pos (by simp; omega), List.drop_left' h, List.take_left' h]

theorem le_u16le (v : UInt16) : le (u16le v) = v.toNat := by
  have hv := UInt16.toNat_lt v
  simp only [le, u16le, toNat_ofNat_mod]
  rw [show v.toNat / 256 = v.toNat / 256 % 256 by omega, toNat_ofNat_mod]
  omega

theorem le_u32le (v : UInt32) : le (u32le v) = v.toNat := by
  have hv := UInt32.toNat_lt v
  simp only [le, u32le, toNat_ofNat_mod]
  rw [show v.toNat / 16777216 = v.toNat / 16777216 % 256 by omega, toNat_ofNat_mod]
  omega

theorem unpack_H {v : UInt16} {r : Str} {fs : List Fmt} :
    unpackFrom (.H :: fs) (u16le v ++ r) = (unpackFrom fs r).map (Py.int v.toNat :: ·) := by
  rw [unpackFrom]
  rw [if_pos (by simp [u16le_length]), List.drop_left' (u16le_length v), List.take_left' (u16le_length v),
    le_u16le]

theorem unpack_H_last {v : UInt16} : unpackFrom [.H] (u16le v) = some [Py.int v.toNat] := by
  have := @unpack_H v [] []
  rw [List.append_nil] at this
  rw [this]; rfl

theorem unpack_I {v : UInt32} {r : Str} {fs : List Fmt} :
    unpackFrom (.I :: fs) (u32le v ++ r) = (unpackFrom fs r).map (Py.int v.toNat :: ·) := by
  rw [unpackFrom]
  rw [if_pos (by simp [u32le_length]), List.drop_left' (u32le_length v), List.take_left' (u32le_length v),
    le_u32le]

theorem unpack_B {v : UInt8} {r : Str} {fs : List Fmt} :
    unpackFrom (.B :: fs) ([v] ++ r) = (unpackFrom fs r).map (Py.int v.toNat :: ·) := by
  rw [unpackFrom]
  rw [if_pos (by simp)]
  simp [le]

theorem unpack_nil {r : Str} : unpackFrom [] r = some [] := rfl

theorem and_one (n : Nat) : n &&& 1 = n % 2 := Nat.and_one_is_mod n

theorem flag_bits : ∀ f : Fin 256, f.val &&& 1 = f.val % 2 ∧ (f.val &&& 2) >>> 1 = f.val / 2 % 2 ∧
    (f.val &&& 4) >>> 2 = f.val / 4 % 2 ∧ (f.val &&& 128) >>> 7 = f.val / 128 % 2 := by decide +kernel

/-- What the tool reads in the image of a configuration. -/
def toolReads (c : Config) : List (String × Py) :=
  [("ssid", .bytes (rstrip c.ssid.toList)), ("psk", .bytes (rstrip c.psk.toList)),
   ("host", .bytes (rstrip c.host.toList)), ("ap_psk", .bytes (rstrip c.apPsk.toList)),
   ("ota_auth", .bytes (rstrip c.otaAuth.toList)), ("ota_port", .int c.otaPort.toNat),
   ("username", .bytes (rstrip c.username.toList)), ("password", .bytes (rstrip c.password.toList)),
   ("sse_freq", .int c.sseFreq.toNat), ("cfg_led_tinfo", .int (c.options.toNat % 2)),
   ("emon_host", .bytes (rstrip c.emoncms.host.toList)), ("emon_port", .int c.emoncms.port.toNat),
   ("emon_url", .bytes (rstrip c.emoncms.url.toList)),
   ("emon_apikey", .bytes (rstrip c.emoncms.apikey.toList)),
   ("emon_node", .int c.emoncms.node.toNat), ("emon_freq", .int c.emoncms.freq.toNat),
   ("jdom_host", .bytes (rstrip c.jeedom.host.toList)), ("jdom_port", .int c.jeedom.port.toNat),
   ("jdom_url", .bytes (rstrip c.jeedom.url.toList)),
   ("jdom_apikey", .bytes (rstrip c.jeedom.apikey.toList)),
   ("jdom_adco", .bytes (rstrip c.jeedom.adco.toList)), ("jdom_freq", .int c.jeedom.freq.toNat),
   ("httpreq_host", .bytes (rstrip c.httpreq.host.toList)),
   ("httpreq_port", .int c.httpreq.port.toNat),
   ("httpreq_url", .bytes (rstrip c.httpreq.url.toList)),
   ("httpreq_use_post", .int (c.httpreq.flags.toNat / 128 % 2)),
   ("httpreq_freq", .int c.httpreq.freq.toNat),
   ("httpreq_trigger_ptec", .int (c.httpreq.flags.toNat / 2 % 2)),
   ("httpreq_trigger_adps", .int (c.httpreq.flags.toNat % 2)),
   ("httpreq_trigger_seuils", .int (c.httpreq.flags.toNat / 4 % 2)),
   ("httpreq_seuil_bas", .int c.httpreq.seuilBas.toNat),
   ("httpreq_seuil_haut", .int c.httpreq.seuilHaut.toNat)]

theorem readEeprom_bytes (c : Config) : readEeprom c.bytes = some (toolReads c, c.crc.toNat) := by
  have h0 : unpackFrom [.s 33, .s 65, .s 17, .s 65, .s 65, .I, .H, .H, .s 32, .s 32, .s 65, .s 128,
      .s 256, .s 256, .H] c.bytes = some [.bytes c.ssid.toList, .bytes c.psk.toList,
        .bytes c.host.toList, .bytes c.apPsk.toList, .bytes c.otaAuth.toList, .int c.options.toNat,
        .int c.otaPort.toNat, .int c.sseFreq.toNat, .bytes c.username.toList,
        .bytes c.password.toList, .bytes c.filler.toList, .bytes c.emoncms.bytes,
        .bytes c.jeedom.bytes, .bytes c.httpreq.bytes, .int c.crc.toNat] := by
    unfold Config.bytes
    rw [unpack_s (by simp), unpack_s (by simp), unpack_s (by simp), unpack_s (by simp),
      unpack_s (by simp), unpack_I, unpack_H, unpack_H, unpack_s (by simp), unpack_s (by simp),
      unpack_s (by simp), unpack_s (EmoncmsConfig.bytes_length _), unpack_s (JeedomConfig.bytes_length _),
      unpack_s (HttpreqConfig.bytes_length _), unpack_H_last]
    rfl
  have h1 : unpackFrom [.s 33, .s 33, .s 33, .H, .B, .I] c.emoncms.bytes =
      some [.bytes c.emoncms.host.toList, .bytes c.emoncms.apikey.toList,
        .bytes c.emoncms.url.toList, .int c.emoncms.port.toNat, .int c.emoncms.node.toNat,
        .int c.emoncms.freq.toNat] := by
    unfold EmoncmsConfig.bytes
    rw [unpack_s (by simp), unpack_s (by simp), unpack_s (by simp), unpack_H, unpack_B, unpack_I, unpack_nil]
    rfl
  have h2 : unpackFrom [.s 33, .s 49, .s 65, .s 13, .H, .I] c.jeedom.bytes =
      some [.bytes c.jeedom.host.toList, .bytes c.jeedom.apikey.toList,
        .bytes c.jeedom.url.toList, .bytes c.jeedom.adco.toList, .int c.jeedom.port.toNat,
        .int c.jeedom.freq.toNat] := by
    unfold JeedomConfig.bytes
    rw [unpack_s (by simp), unpack_s (by simp), unpack_s (by simp), unpack_s (by simp), unpack_H,
      unpack_I, unpack_nil]
    rfl
  have h3 : unpackFrom [.s 33, .s 151, .H, .I, .B, .H, .H] c.httpreq.bytes =
      some [.bytes c.httpreq.host.toList, .bytes c.httpreq.url.toList, .int c.httpreq.port.toNat,
        .int c.httpreq.freq.toNat, .int c.httpreq.flags.toNat, .int c.httpreq.seuilHaut.toNat,
        .int c.httpreq.seuilBas.toNat] := by
    unfold HttpreqConfig.bytes
    rw [unpack_s (by simp), unpack_s (by simp), unpack_H, unpack_I, unpack_B, unpack_H, unpack_H,
      unpack_nil]
    rfl
  obtain ⟨f1, f2, f3, f4⟩ := flag_bits ⟨c.httpreq.flags.toNat, UInt8.toNat_lt _⟩
  simp only [] at f1 f2 f3 f4
  unfold readEeprom
  rw [if_neg (by simp [Config.bytes_length])]
  simp only [h0, h1, h2, h3, Option.bind_eq_bind, Option.bind_some, f2, f3, f4, and_one]
  rfl

/-! ## Trailing NULs -/

theorem rstrip_append (t : Str) (n : Nat) (h : t.getLast? ≠ some 0) :
    rstrip (t ++ List.replicate n 0) = t := by
  unfold rstrip
  rw [List.reverse_append, List.reverse_replicate]
  have e : (List.replicate n (0 : Byte) ++ t.reverse).dropWhile (· == 0) = t.reverse.dropWhile (· == 0) := by
    induction n with
    | zero => rfl
    | succ n ih => rw [List.replicate_succ]; exact ih
  rw [e]
  have e2 : t.reverse.dropWhile (· == 0) = t.reverse := by
    cases h3 : t.reverse with
    | nil => rfl
    | cons b r =>
      have h4 : t = r.reverse ++ [b] := by
        have := congrArg List.reverse h3
        simpa using this
      rw [List.dropWhile_cons_of_neg]
      intro h5
      apply h
      have h6 : b = 0 := by simpa using h5
      rw [h4, h6]; simp
  rw [e2, List.reverse_reverse]

theorem rstrip_split (x : Str) : ∃ n, x = rstrip x ++ List.replicate n 0 := by
  have h : ∀ y : Str, ∃ n, y = List.replicate n 0 ++ y.dropWhile (· == 0) := by
    intro y
    induction y with
    | nil => exact ⟨0, rfl⟩
    | cons b y ih =>
      by_cases hb : b = 0
      · obtain ⟨n, hn⟩ := ih
        refine ⟨n + 1, ?_⟩
        subst hb
        rw [List.dropWhile_cons_of_pos (by simp), List.replicate_succ, List.cons_append, ← hn]
      · refine ⟨0, ?_⟩
        rw [List.dropWhile_cons_of_neg (by simpa using hb)]; rfl
  obtain ⟨n, hn⟩ := h x.reverse
  refine ⟨n, ?_⟩
  have := congrArg List.reverse hn
  rw [List.reverse_reverse, List.reverse_append, List.reverse_replicate] at this
  exact this

/-- Up to the first NUL, stripping makes no difference. -/
theorem rstrip_takeWhile (x : Str) : (rstrip x).takeWhile (· != 0) = x.takeWhile (· != 0) := by
  obtain ⟨n, hn⟩ := rstrip_split x
  conv => rhs; rw [hn]
  generalize rstrip x = y
  induction y with
  | nil => cases n <;> simp [List.replicate_succ]
  | cons b y ih =>
    by_cases hb : b = 0
    · simp [hb]
    · rw [List.cons_append, List.takeWhile_cons_of_pos (by simpa using hb),
        List.takeWhile_cons_of_pos (by simpa using hb), ih]

/-! ## The tool's checksum -/

theorem toolCrc_eq (x : Str) : toolCrc x = (crcOf x).toNat := by
  have hs : ∀ c : UInt16, (if c.toNat % 2 = 1 then (c.toNat >>> 1) ^^^ 0xA001 else c.toNat >>> 1) =
      (crcBit c).toNat := by
    intro c
    rw [crcBit_toNat]; rfl
  have hb : ∀ (c : UInt16) (a : Byte),
      (List.range 8).foldl (fun crc _ => if crc % 2 = 1 then (crc >>> 1) ^^^ 0xA001 else crc >>> 1)
        (c.toNat ^^^ a.toNat) = (crc16Update c a).toNat := by
    intro c a
    rw [crc16Update_eq, ← toUInt16_toNat a, ← UInt16.toNat_xor]
    generalize c ^^^ a.toUInt16 = d
    simp only [show List.range 8 = [0, 1, 2, 3, 4, 5, 6, 7] from rfl, List.foldl_cons, List.foldl_nil, hs]
    rfl
  have h : ∀ (x : Str) (c : UInt16), x.foldl (fun crc a =>
    (List.range 8).foldl (fun crc _ => if crc % 2 = 1 then (crc >>> 1) ^^^ 0xA001 else crc >>> 1)
      (crc ^^^ a.toNat)) c.toNat = (x.foldl crc16Update c).toNat := by
    intro x
    induction x with
    | nil => intro c; rfl
    | cons a x ih => intro c; simp only [List.foldl_cons]; rw [hb, ih]
  exact h x 0xFFFF

/-! ## Images written by the tool -/

/-- A Python `bytes` packed in `n` bytes. -/
def padArr (n : Nat) (b : Str) : Arr n := Vector.ofFn fun i => b.getD i.val 0

theorem padArr_toList (n : Nat) (b : Str) :
    (padArr n b).toList = b.take n ++ List.replicate (n - b.length) 0 := by
  apply List.ext_getElem
  · simp; omega
  · intro i h1 h2
    have hi : i < n := by simpa using h1
    simp only [padArr, Vector.getElem_toList, Vector.getElem_ofFn, List.getElem_append,
      List.getElem_take, List.getElem_replicate, List.getD_eq_getElem?_getD, List.length_take]
    by_cases c1 : i < b.length
    · rw [dif_pos (by omega), List.getElem?_eq_getElem c1]; rfl
    · rw [dif_neg (by omega), List.getElem?_eq_none (by omega)]; rfl

theorem take_takeWhile_comm (p : Byte → Bool) (b : Str) : ∀ k, (b.take k).takeWhile p = (b.takeWhile p).take k := by
  induction b with
  | nil => intro k; simp
  | cons a b ih =>
    intro k
    cases k with
    | zero => simp
    | succ k =>
      rw [List.take_succ_cons]
      by_cases h : p a = true
      · rw [List.takeWhile_cons_of_pos h, List.takeWhile_cons_of_pos h, ih, List.take_succ_cons]
      · rw [List.takeWhile_cons_of_neg h, List.takeWhile_cons_of_neg h]; rfl

theorem takeWhile_append_nul (x r : Str) : (x ++ 0 :: r).takeWhile (· != 0) = x.takeWhile (· != 0) := by
  induction x with
  | nil => simp
  | cons b x ih =>
    by_cases h : b = 0
    · simp [h]
    · rw [List.cons_append, List.takeWhile_cons_of_pos (by simpa using h),
        List.takeWhile_cons_of_pos (by simpa using h), ih]

theorem padArr_text {n k : Nat} (b : Str) (hk : k + 1 = n) :
    Setting.text (textOf ((padArr n b).setNul k).toList) = cutText b k := by
  have e : ((padArr n b).setNul k).toList = b.take k ++ 0 :: List.replicate (k - b.length) 0 := by
    rw [show (0 : Byte) :: List.replicate (k - b.length) 0 = List.replicate (k - b.length + 1) 0 by
        rw [List.replicate_succ]]
    apply List.ext_getElem
    · simp; omega
    · intro i h1 h2
      have hi : i < n := by simpa using h1
      simp only [setNul_toList, List.getElem_set, padArr, Vector.getElem_toList, Vector.getElem_ofFn,
        List.getElem_append, List.getElem_take, List.getElem_replicate, List.getD_eq_getElem?_getD,
        List.length_take]
      by_cases c0 : k = i
      · rw [if_pos c0, dif_neg (by omega)]
      · rw [if_neg c0]
        by_cases c1 : i < b.length
        · rw [dif_pos (by omega), List.getElem?_eq_getElem c1]; rfl
        · rw [dif_neg (by omega), List.getElem?_eq_none (by omega)]; rfl
  rw [e, cutText, textOf, if_pos (by simp), takeWhile_append_nul, take_takeWhile_comm]

theorem packItem_s (n : Nat) (b : Str) : packItem (.s n) (.bytes b) = some (padArr n b).toList := by
  rw [padArr_toList]; rfl

theorem ofNat_mod (n : Nat) : UInt8.ofNat (n % 256) = UInt8.ofNat n := by
  apply UInt8.toNat_inj.1
  rw [UInt8.toNat_ofNat', UInt8.toNat_ofNat']
  exact Nat.mod_mod _ _

theorem packItem_H {n : Nat} (h : n < 65536) : packItem .H (.int n) = some (u16le (UInt16.ofNat n)) := by
  rw [packItem, if_pos h, u16le, UInt16.toNat_ofNat', Nat.mod_eq_of_lt h, ofNat_mod]

theorem packItem_I {n : Nat} (h : n < 4294967296) : packItem .I (.int n) = some (u32le (UInt32.ofNat n)) := by
  rw [packItem, if_pos h, u32le, UInt32.toNat_ofNat', Nat.mod_eq_of_lt h, ofNat_mod, ofNat_mod, ofNat_mod]

theorem packItem_B {n : Nat} (h : n < 256) : packItem .B (.int n) = some [UInt8.ofNat n] := by
  rw [packItem, if_pos h]

theorem padArr_full {n : Nat} {b : Str} (h : b.length = n) : (padArr n b).toList = b := by
  rw [padArr_toList, h, Nat.sub_self, List.replicate_zero, List.append_nil, List.take_of_length_le (by omega)]

theorem padArr_le {n k : Nat} {b : Str} (h : b.length + k = n) :
    (padArr n b).toList = b ++ List.replicate k 0 := by
  rw [padArr_toList, List.take_of_length_le (by omega), show n - b.length = k by omega]

/-- The switches byte. -/
def toolFlags (c : ToolConf) : Nat :=
  c.num "httpreq_trigger_adps" ||| c.num "httpreq_trigger_ptec" <<< 1
    ||| c.num "httpreq_trigger_seuils" <<< 2 ||| c.num "httpreq_use_post" <<< 7

theorem toolFlags_bits {c : ToolConf} (h : c.Valid) :
    toolFlags c < 256 ∧ toolFlags c % 2 = c.num "httpreq_trigger_adps" ∧
    toolFlags c / 2 % 2 = c.num "httpreq_trigger_ptec" ∧
    toolFlags c / 4 % 2 = c.num "httpreq_trigger_seuils" ∧
    toolFlags c / 128 % 2 = c.num "httpreq_use_post" := by
  have t : ∀ a b d e : Fin 2, let f := a.val ||| b.val <<< 1 ||| d.val <<< 2 ||| e.val <<< 7
    f < 256 ∧ f % 2 = a.val ∧ f / 2 % 2 = b.val ∧ f / 4 % 2 = d.val ∧ f / 128 % 2 = e.val := by decide
  have h1 := h.switch "httpreq_trigger_adps" (by decide)
  have h2 := h.switch "httpreq_trigger_ptec" (by decide)
  have h3 := h.switch "httpreq_trigger_seuils" (by decide)
  have h4 := h.switch "httpreq_use_post" (by decide)
  exact t ⟨_, Nat.lt_succ_of_le h1⟩ ⟨_, Nat.lt_succ_of_le h2⟩ ⟨_, Nat.lt_succ_of_le h3⟩
    ⟨_, Nat.lt_succ_of_le h4⟩

/-- The configuration the tool's image stands for, before the checksum. -/
def toolConfig (c : ToolConf) : Config :=
  { ssid := padArr 33 (c.text "ssid"), psk := padArr 65 (c.text "psk"),
    host := padArr 17 (c.text "host"), apPsk := padArr 65 (c.text "ap_psk"),
    otaAuth := padArr 65 (c.text "ota_auth"), options := UInt32.ofNat (c.num "cfg_led_tinfo"),
    otaPort := UInt16.ofNat (c.num "ota_port"), sseFreq := UInt16.ofNat (c.num "sse_freq"),
    username := padArr 32 (c.text "username"), password := padArr 32 (c.text "password"),
    filler := padArr 65 [],
    emoncms :=
      { host := padArr 33 (c.text "emon_host"), apikey := padArr 33 (c.text "emon_apikey"),
        url := padArr 33 (c.text "emon_url"), port := UInt16.ofNat (c.num "emon_port"),
        node := UInt8.ofNat (c.num "emon_node"), freq := UInt32.ofNat (c.num "emon_freq"),
        filler := padArr 22 [] },
    jeedom :=
      { host := padArr 33 (c.text "jdom_host"), apikey := padArr 49 (c.text "jdom_apikey"),
        url := padArr 65 (c.text "jdom_url"), adco := padArr 13 (c.text "jdom_adco"),
        port := UInt16.ofNat (c.num "jdom_port"), freq := UInt32.ofNat (c.num "jdom_freq"),
        usePost := 0, filler := padArr 89 [] },
    httpreq :=
      { host := padArr 33 (c.text "httpreq_host"), url := padArr 151 (c.text "httpreq_url"),
        port := UInt16.ofNat (c.num "httpreq_port"), freq := UInt32.ofNat (c.num "httpreq_freq"),
        flags := UInt8.ofNat (toolFlags c), seuilHaut := UInt16.ofNat (c.num "httpreq_seuil_haut"),
        seuilBas := UInt16.ofNat (c.num "httpreq_seuil_bas"), filler := padArr 61 [] },
    crc := 0 }

theorem pack_nil : pack [] = some [] := rfl

theorem pack_cons {f : Fmt} {v : Py} {r : List (Fmt × Py)} {a b : Str} (h : packItem f v = some a)
    (h2 : pack r = some b) : pack ((f, v) :: r) = some (a ++ b) := by
  rw [pack, h, h2]; rfl

theorem writeEeprom_eq {c : ToolConf} (h : c.Valid) :
    writeEeprom c = some (toolConfig c).stamp.bytes := by
  have p (n : String) (hn : n ∈ ["ota_port", "sse_freq", "emon_port", "jdom_port", "httpreq_port",
    "httpreq_seuil_bas", "httpreq_seuil_haut"] := by decide) := packItem_H (h.port n hn)
  have q (n : String) (hn : n ∈ ["emon_freq", "jdom_freq", "httpreq_freq"] := by decide) :=
    packItem_I (h.freq n hn)
  have hled := h.switch "cfg_led_tinfo" (by decide)
  obtain ⟨hf, -⟩ := toolFlags_bits h
  have h1 : pack [(.s 33, .bytes (c.text "emon_host")), (.s 33, .bytes (c.text "emon_apikey")),
      (.s 33, .bytes (c.text "emon_url")), (.H, .int (c.num "emon_port")),
      (.B, .int (c.num "emon_node")), (.I, .int (c.num "emon_freq"))] = some _ :=
    pack_cons (packItem_s _ _) (pack_cons (packItem_s _ _) (pack_cons (packItem_s _ _)
      (pack_cons (p _) (pack_cons (packItem_B h.node) (pack_cons (q _) pack_nil)))))
  have h2 : pack [(.s 33, .bytes (c.text "jdom_host")), (.s 49, .bytes (c.text "jdom_apikey")),
      (.s 65, .bytes (c.text "jdom_url")), (.s 13, .bytes (c.text "jdom_adco")),
      (.H, .int (c.num "jdom_port")), (.I, .int (c.num "jdom_freq"))] = some _ :=
    pack_cons (packItem_s _ _) (pack_cons (packItem_s _ _) (pack_cons (packItem_s _ _)
      (pack_cons (packItem_s _ _) (pack_cons (p _) (pack_cons (q _) pack_nil)))))
  have h3 : pack [(.s 33, .bytes (c.text "httpreq_host")), (.s 151, .bytes (c.text "httpreq_url")),
      (.H, .int (c.num "httpreq_port")), (.I, .int (c.num "httpreq_freq")),
      (.B, .int (toolFlags c)), (.H, .int (c.num "httpreq_seuil_haut")),
      (.H, .int (c.num "httpreq_seuil_bas"))] = some _ :=
    pack_cons (packItem_s _ _) (pack_cons (packItem_s _ _) (pack_cons (p _) (pack_cons (q _)
      (pack_cons (packItem_B hf) (pack_cons (p _) (pack_cons (p _) pack_nil))))))
  have z : ∀ k, (padArr k []).toList = List.replicate k 0 := by
    intro k; rw [padArr_toList]; simp
  have e : ∀ k1 k2 k3 : Str, k1.length + 22 = 128 → k2.length + 90 = 256 → k3.length + 61 = 256 →
      k1 ++ List.replicate 22 0 = (toolConfig c).emoncms.bytes →
      k2 ++ List.replicate 90 0 = (toolConfig c).jeedom.bytes →
      k3 ++ List.replicate 61 0 = (toolConfig c).httpreq.bytes →
      pack [(.s 33, .bytes (c.text "ssid")), (.s 65, .bytes (c.text "psk")),
      (.s 17, .bytes (c.text "host")), (.s 65, .bytes (c.text "ap_psk")),
      (.s 65, .bytes (c.text "ota_auth")), (.I, .int (c.num "cfg_led_tinfo")),
      (.H, .int (c.num "ota_port")), (.H, .int (c.num "sse_freq")),
      (.s 32, .bytes (c.text "username")), (.s 32, .bytes (c.text "password")), (.s 65, .bytes []),
      (.s 128, .bytes k1), (.s 256, .bytes k2), (.s 256, .bytes k3)] =
        some ((toolConfig c).bytes.take 1022) := by
    intro k1 k2 k3 l1 l2 l3 e1 e2 e3
    have h4 : pack [(.s 33, .bytes (c.text "ssid")), (.s 65, .bytes (c.text "psk")),
      (.s 17, .bytes (c.text "host")), (.s 65, .bytes (c.text "ap_psk")),
      (.s 65, .bytes (c.text "ota_auth")), (.I, .int (c.num "cfg_led_tinfo")),
      (.H, .int (c.num "ota_port")), (.H, .int (c.num "sse_freq")),
      (.s 32, .bytes (c.text "username")), (.s 32, .bytes (c.text "password")), (.s 65, .bytes []),
      (.s 128, .bytes k1), (.s 256, .bytes k2), (.s 256, .bytes k3)] = some _ :=
    pack_cons (packItem_s _ _) (pack_cons (packItem_s _ _) (pack_cons (packItem_s _ _)
      (pack_cons (packItem_s _ _) (pack_cons (packItem_s _ _) (pack_cons (packItem_I (by omega))
      (pack_cons (p _) (pack_cons (p _) (pack_cons (packItem_s _ _) (pack_cons (packItem_s _ _)
      (pack_cons (packItem_s _ _) (pack_cons (packItem_s _ _) (pack_cons (packItem_s _ _)
      (pack_cons (packItem_s _ _) pack_nil)))))))))))))
    rw [h4, padArr_le l1, padArr_le l2, padArr_le l3, e1, e2, e3]
    have := Config.bytes_crc (toolConfig c) 0
    refine congrArg some (List.append_cancel_right (bs := u16le 0) ?_)
    rw [← this]
    simp only [Config.bytes, List.append_assoc, List.append_nil, toolConfig]
  unfold writeEeprom
  simp only [Option.bind_eq_bind]
  rw [h1, Option.bind_some, h2, Option.bind_some, show (c.num "httpreq_trigger_adps" |||
    c.num "httpreq_trigger_ptec" <<< 1 ||| c.num "httpreq_trigger_seuils" <<< 2 |||
    c.num "httpreq_use_post" <<< 7) = toolFlags c from rfl, h3, Option.bind_some, e, Option.bind_some]
  · rw [toolCrc_eq, show pack [(Fmt.H, Py.int (crcOf ((toolConfig c).bytes.take 1022)).toNat)] = some _
      from pack_cons (packItem_H (UInt16.toNat_lt _)) pack_nil, Option.bind_some, List.append_nil,
      UInt16.ofNat_toNat]
    have e2 : (toolConfig c).bytes.take 1022 ++ u16le (crcOf ((toolConfig c).bytes.take 1022)) =
        (toolConfig c).stamp.bytes := (Config.bytes_crc (toolConfig c) _).symm
    rw [e2, if_neg (by simp [Config.bytes_length])]
  · simp [u16le_length, u32le_length]
  · simp [u16le_length, u32le_length]
  · simp [u16le_length, u32le_length]
  · simp only [EmoncmsConfig.bytes, toolConfig, List.append_assoc, List.nil_append, z]
  · simp only [JeedomConfig.bytes, toolConfig, List.append_assoc, List.nil_append, z]
    rfl
  · simp only [HttpreqConfig.bytes, toolConfig, List.append_assoc, List.nil_append, z]

theorem toolConfig_settings {c : ToolConf} (h : c.Valid) :
    settings (toolConfig c).stamp.securize = c.settings := by
  have p (n : String) (hn : n ∈ ["ota_port", "sse_freq", "emon_port", "jdom_port", "httpreq_port",
    "httpreq_seuil_bas", "httpreq_seuil_haut"] := by decide) : (UInt16.ofNat (c.num n)).toNat = c.num n := by
    rw [UInt16.toNat_ofNat']; exact Nat.mod_eq_of_lt (h.port n hn)
  have q (n : String) (hn : n ∈ ["emon_freq", "jdom_freq", "httpreq_freq"] := by decide) :
      (UInt32.ofNat (c.num n)).toNat = c.num n := by
    rw [UInt32.toNat_ofNat']; exact Nat.mod_eq_of_lt (h.freq n hn)
  have hn : (UInt8.ofNat (c.num "emon_node")).toNat = c.num "emon_node" := by
    rw [UInt8.toNat_ofNat']; exact Nat.mod_eq_of_lt h.node
  have hled := h.switch "cfg_led_tinfo" (by decide)
  have hl : (UInt32.ofNat (c.num "cfg_led_tinfo")).toNat % 2 = c.num "cfg_led_tinfo" := by
    rw [UInt32.toNat_ofNat']; omega
  obtain ⟨f0, f1, f2, f3, f4⟩ := toolFlags_bits h
  have hf : (UInt8.ofNat (toolFlags c)).toNat = toolFlags c := by
    rw [UInt8.toNat_ofNat']; exact Nat.mod_eq_of_lt f0
  simp only [settings, privateSettings, publicSettings, Config.securize, Config.stamp, toolConfig,
    ToolConf.settings, padArr_text _ rfl, hn, hl, hf, f1, f2, f3, f4, List.cons_append, List.nil_append,
    p "ota_port", p "sse_freq", p "emon_port", p "jdom_port", p "httpreq_port", p "httpreq_seuil_bas",
    p "httpreq_seuil_haut", q "emon_freq", q "jdom_freq", q "httpreq_freq"]

end Wifinfo
