import Verif.Model.Config
import Verif.Model.Store
import Verif.Proofs.Queries
import Verif.Spec.Settings
import Verif.Proofs.Crc

/-!
# Lemmas on the configuration block: (de)serialisation, saving, reading
-/

namespace Wifinfo

/-! ## Serialisation round trips -/

theorem sliceAt_toList (x : Str) (off n : Nat) (h : off + n ≤ x.length) :
    (sliceAt x off n).toList = (x.drop off).take n := by
  apply List.ext_getElem
  · simp; omega
  · intro i h1 h2
    simp only [Vector.length_toList] at h1
    simp [sliceAt, List.getD_eq_getElem?_getD, List.getElem?_eq_getElem (show off + i < x.length by omega)]

theorem sliceAt_right (p r : Str) (off n : Nat) (h : p.length ≤ off) :
    sliceAt (p ++ r) off n = sliceAt r (off - p.length) n := by
  apply Vector.ext
  intro i hi
  simp only [sliceAt, Vector.getElem_ofFn, List.getD_eq_getElem?_getD]
  rw [List.getElem?_append_right (by omega)]
  congr 2; omega

theorem sliceAt_here {n} (a : Arr n) (r : Str) : sliceAt (a.toList ++ r) 0 n = a := by
  apply Vector.ext
  intro i hi
  simp only [sliceAt, Vector.getElem_ofFn, List.getD_eq_getElem?_getD, Nat.zero_add]
  rw [List.getElem?_append_left (by simpa using hi)]
  simp [hi]

theorem sliceAt_all {n} (a : Arr n) : sliceAt a.toList 0 n = a := by
  have := sliceAt_here a []
  rwa [List.append_nil] at this

theorem u8At_right (p r : Str) (off : Nat) (h : p.length ≤ off) :
    u8At (p ++ r) off = u8At r (off - p.length) := by
  simp only [u8At, List.getD_eq_getElem?_getD]
  rw [List.getElem?_append_right (by omega)]

theorem u16At_right (p r : Str) (off : Nat) (h : p.length ≤ off) :
    u16At (p ++ r) off = u16At r (off - p.length) := by
  simp only [u16At, List.getD_eq_getElem?_getD]
  rw [List.getElem?_append_right (by omega), List.getElem?_append_right (by omega)]
  congr 6; omega

theorem u32At_right (p r : Str) (off : Nat) (h : p.length ≤ off) :
    u32At (p ++ r) off = u32At r (off - p.length) := by
  simp only [u32At, List.getD_eq_getElem?_getD]
  rw [List.getElem?_append_right (by omega), List.getElem?_append_right (by omega),
    List.getElem?_append_right (by omega), List.getElem?_append_right (by omega)]
  rw [show off + 1 - p.length = off - p.length + 1 by omega,
    show off + 2 - p.length = off - p.length + 2 by omega,
    show off + 3 - p.length = off - p.length + 3 by omega]

theorem u8At_here (v : UInt8) (r : Str) : u8At ([v] ++ r) 0 = v := rfl

theorem toNat_ofNat_mod (n : Nat) : (UInt8.ofNat (n % 256)).toNat = n % 256 := by
  rw [UInt8.toNat_ofNat']; exact Nat.mod_mod _ _

theorem u16At_here (v : UInt16) (r : Str) : u16At (u16le v ++ r) 0 = v := by
  have hv := UInt16.toNat_lt v
  apply UInt16.toNat_inj.1
  simp only [u16At, u16le, List.cons_append, List.nil_append, List.getD_cons_zero, List.getD_cons_succ,
    Nat.zero_add, toNat_ofNat_mod, UInt16.toNat_ofNat']
  rw [show v.toNat / 256 = v.toNat / 256 % 256 by omega, toNat_ofNat_mod]
  omega

theorem u16At_all (v : UInt16) : u16At (u16le v) 0 = v := by
  have := u16At_here v []
  rwa [List.append_nil] at this

theorem u32At_here (v : UInt32) (r : Str) : u32At (u32le v ++ r) 0 = v := by
  have hv := UInt32.toNat_lt v
  apply UInt32.toNat_inj.1
  simp only [u32At, u32le, List.cons_append, List.nil_append, List.getD_cons_zero, List.getD_cons_succ,
    Nat.zero_add, toNat_ofNat_mod, UInt32.toNat_ofNat']
  rw [show v.toNat / 16777216 = v.toNat / 16777216 % 256 by omega, toNat_ofNat_mod]
  omega

theorem u16le_length (v : UInt16) : (u16le v).length = 2 := rfl
theorem u32le_length (v : UInt32) : (u32le v).length = 4 := rfl

theorem EmoncmsConfig.bytes_length (e : EmoncmsConfig) : e.bytes.length = 128 := by
  simp [EmoncmsConfig.bytes, u16le_length, u32le_length]

theorem JeedomConfig.bytes_length (e : JeedomConfig) : e.bytes.length = 256 := by
  simp [JeedomConfig.bytes, u16le_length, u32le_length]

theorem HttpreqConfig.bytes_length (e : HttpreqConfig) : e.bytes.length = 256 := by
  simp [HttpreqConfig.bytes, u16le_length, u32le_length]

theorem Config.bytes_length (c : Config) : c.bytes.length = 1024 := by
  simp [Config.bytes, u16le_length, u32le_length, EmoncmsConfig.bytes_length,
    JeedomConfig.bytes_length, HttpreqConfig.bytes_length]

theorem Config.ofBytes_bytes (c : Config) : Config.ofBytes c.bytes = c := by
  obtain ⟨ssid, psk, host, apPsk, otaAuth, options, otaPort, sseFreq, username, password, filler,
    ⟨e1, e2, e3, e4, e5, e6, e7⟩, ⟨j1, j2, j3, j4, j5, j6, j7, j8⟩,
    ⟨h1, h2, h3, h4, h5, h6, h7, h8⟩, crc⟩ := c
  simp (disch := (first | (simp only [Vector.length_toList, u16le_length, u32le_length, List.length_singleton] <;> decide) | fail)) only [Config.ofBytes, Config.bytes, EmoncmsConfig.bytes,
    JeedomConfig.bytes, HttpreqConfig.bytes, List.append_assoc, sliceAt_here, sliceAt_right,
    u8At_right, u16At_right, u32At_right, u8At_here, u16At_here, u32At_here, u16At_all,
    Vector.length_toList, u16le_length, u32le_length, List.length_singleton, Nat.reduceSub, Nat.sub_self]

theorem take_drop_join (x : Str) (o n m o' : Nat) (h : o' = o + n) :
    (x.drop o).take n ++ (x.drop o').take m = (x.drop o).take (n + m) := by
  subst h
  rw [List.take_add, List.drop_drop]

theorem take_drop_join2 (x : Str) (o n m o' : Nat) (r : Str) (h : o' = o + n) :
    (x.drop o).take n ++ ((x.drop o').take m ++ r) = (x.drop o).take (n + m) ++ r := by
  rw [← List.append_assoc, take_drop_join x o n m o' h]

theorem ofNat_toNat8 (b : Byte) : UInt8.ofNat b.toNat = b := by
  apply UInt8.toNat_inj.1
  rw [UInt8.toNat_ofNat']
  exact Nat.mod_eq_of_lt (UInt8.toNat_lt b)

theorem u16le_u16At (x : Str) (off : Nat) (h : off + 2 ≤ x.length) :
    u16le (u16At x off) = (x.drop off).take 2 := by
  have e : (x.drop off).take 2 = [x[off]'(by omega), x[off + 1]'(by omega)] := by
    rw [List.drop_eq_getElem_cons (by omega), List.drop_eq_getElem_cons (by omega)]
    rfl
  rw [e]
  have h0 := UInt8.toNat_lt (x[off]'(by omega))
  have h1 := UInt8.toNat_lt (x[off + 1]'(by omega))
  simp only [u16le, u16At, List.getD_eq_getElem?_getD, List.getElem?_eq_getElem (show off < x.length by omega),
    List.getElem?_eq_getElem (show off + 1 < x.length by omega), Option.getD_some, UInt16.toNat_ofNat']
  generalize x[off]'(by omega) = a at *
  generalize x[off + 1]'(by omega) = b at *
  rw [show (a.toNat + 256 * b.toNat) % 2 ^ 16 % 256 = a.toNat by omega,
    show (a.toNat + 256 * b.toNat) % 2 ^ 16 / 256 = b.toNat by omega, ofNat_toNat8, ofNat_toNat8]

theorem u32le_u32At (x : Str) (off : Nat) (h : off + 4 ≤ x.length) :
    u32le (u32At x off) = (x.drop off).take 4 := by
  have e : (x.drop off).take 4 = [x[off]'(by omega), x[off + 1]'(by omega), x[off + 2]'(by omega),
      x[off + 3]'(by omega)] := by
    rw [List.drop_eq_getElem_cons (by omega), List.drop_eq_getElem_cons (by omega),
      List.drop_eq_getElem_cons (by omega), List.drop_eq_getElem_cons (by omega)]
    rfl
  rw [e]
  have h0 := UInt8.toNat_lt (x[off]'(by omega))
  have h1 := UInt8.toNat_lt (x[off + 1]'(by omega))
  have h2 := UInt8.toNat_lt (x[off + 2]'(by omega))
  have h3 := UInt8.toNat_lt (x[off + 3]'(by omega))
  simp only [u32le, u32At, List.getD_eq_getElem?_getD, List.getElem?_eq_getElem (show off < x.length by omega),
    List.getElem?_eq_getElem (show off + 1 < x.length by omega),
    List.getElem?_eq_getElem (show off + 2 < x.length by omega),
    List.getElem?_eq_getElem (show off + 3 < x.length by omega), Option.getD_some, UInt32.toNat_ofNat']
  generalize x[off]'(by omega) = a at *
  generalize x[off + 1]'(by omega) = b at *
  generalize x[off + 2]'(by omega) = c at *
  generalize x[off + 3]'(by omega) = d at *
  generalize hn : (a.toNat + 256 * b.toNat + 65536 * c.toNat + 16777216 * d.toNat) % 2 ^ 32 = n
  rw [show n % 256 = a.toNat by omega, show n / 256 % 256 = b.toNat by omega,
    show n / 65536 % 256 = c.toNat by omega, show n / 16777216 = d.toNat by omega,
    ofNat_toNat8, ofNat_toNat8, ofNat_toNat8, ofNat_toNat8]

theorem singleton_u8At (x : Str) (off : Nat) (h : off + 1 ≤ x.length) :
    [u8At x off] = (x.drop off).take 1 := by
  rw [List.drop_eq_getElem_cons (by omega), u8At, List.getD_eq_getElem?_getD,
    List.getElem?_eq_getElem (show off < x.length by omega)]
  rfl

theorem Config.bytes_ofBytes (x : Str) (h : x.length = 1024) : (Config.ofBytes x).bytes = x := by
  simp only [Config.ofBytes, Config.bytes, EmoncmsConfig.bytes, JeedomConfig.bytes,
    HttpreqConfig.bytes, List.append_assoc]
  simp (disch := omega) only [sliceAt_toList, u16le_u16At, u32le_u32At, singleton_u8At]
  simp (disch := rfl) only [take_drop_join, Nat.reduceAdd]
  rw [List.drop_zero, List.take_of_length_le (by omega)]

/-! ## Saving and reading -/

theorem eepromImage_toList (c : Config) : (eepromImage c).toList = c.bytes := by
  apply List.ext_getElem
  · simp [Config.bytes_length]
  · intro i h1 h2
    simp [eepromImage, List.getD_eq_getElem?_getD, List.getElem?_eq_getElem h2]

/-- The body of the image: everything but the checksum. -/
theorem Config.bytes_crc (c : Config) (v : UInt16) :
    { c with crc := v }.bytes = c.bytes.take 1022 ++ u16le v := by
  have e : ∀ v : UInt16, { c with crc := v }.bytes = c.bytes.take 1022 ++ u16le v := by
    intro v
    have h1 : ∃ p : Str, p.length = 1022 ∧ ∀ w, { c with crc := w }.bytes = p ++ u16le w := by
      refine ⟨c.ssid.toList ++ (c.psk.toList ++ (c.host.toList ++ (c.apPsk.toList ++ (c.otaAuth.toList ++
        (u32le c.options ++ (u16le c.otaPort ++ (u16le c.sseFreq ++ (c.username.toList ++
          (c.password.toList ++ (c.filler.toList ++ (c.emoncms.bytes ++ (c.jeedom.bytes ++
            c.httpreq.bytes)))))))))))), ?_, ?_⟩
      · simp [u16le_length, u32le_length, EmoncmsConfig.bytes_length,
          JeedomConfig.bytes_length, HttpreqConfig.bytes_length]
      · intro w
        simp only [Config.bytes, List.append_assoc]
    obtain ⟨p, hp, hw⟩ := h1
    have h2 := hw c.crc
    rw [hw v, show c.bytes = p ++ u16le c.crc from h2, List.take_left' hp]
  exact e v

/-- The checksum `config_save` computes. -/
def Config.sum (c : Config) : UInt16 := crcOf (c.bytes.take 1022)

/-- The configuration with its checksum updated. -/
def Config.stamp (c : Config) : Config := { c with crc := c.sum }

theorem Config.crcOf_stamp (c : Config) : crcOf c.stamp.bytes = 0 := by
  show crcOf { c with crc := c.sum }.bytes = 0
  rw [Config.bytes_crc]
  exact crc_residue _

theorem Nv.configSave_eq (s : Nv) (k : Commit) :
    s.configSave k = ({ config := s.config.stamp.securize,
                        ee := { s.ee with ram := eepromImage s.config.stamp }.commit k }, true) := by
  unfold Nv.configSave
  have hr : ∀ (e : Eeprom) (k : Commit), (e.commit k).ram = e.ram := by
    intro e k; cases k <;> rfl
  simp only [Nv.configRead, hr]
  have h0 : { s.config with crc := crcOf (s.config.bytes.take (CONFIG_SIZE - 2)) } = s.config.stamp := rfl
  rw [h0, eepromImage_toList, Config.crcOf_stamp, Config.ofBytes_bytes]
  rfl

/-! ## Texts -/

open Spec

theorem cstrOf_nulFree (s : Str) : NulFree (cstrOf s) := by
  have h : ∀ b ∈ s.takeWhile (· != 0), (b != 0) = true := List.all_eq_true.1 List.all_takeWhile
  intro b hb
  simpa using h b hb

theorem NulFree.take {s : Str} (h : NulFree s) (n : Nat) : NulFree (s.take n) :=
  fun b hb => h b (List.mem_of_mem_take hb)

theorem takeWhile_nulFree {t : Str} (h : NulFree t) (r : Str) :
    (t ++ 0 :: r).takeWhile (· != 0) = t := by
  rw [List.takeWhile_append_of_pos (by intro b hb; simpa using h b hb)]
  simp

theorem textOf_append {t : Str} (h : NulFree t) (r : Str) : textOf (t ++ 0 :: r) = some t := by
  unfold textOf
  rw [if_pos (by simp), takeWhile_nulFree h]

/-- A text splits at its terminator. -/
theorem split_nul {x : Str} (h : (0 : Byte) ∈ x) : ∃ t r, NulFree t ∧ x = t ++ 0 :: r := by
  induction x with
  | nil => simp at h
  | cons b x ih =>
    by_cases hb : b = 0
    · exact ⟨[], x, by simp [NulFree], by simp [hb]⟩
    · obtain ⟨t, r, h1, h2⟩ := ih (by simpa [Ne.symm hb] using h)
      refine ⟨b :: t, r, ?_, by simp [h2]⟩
      intro c hc
      rcases List.mem_cons.1 hc with h3 | h3
      · rw [h3]; exact hb
      · exact h1 c h3

theorem strncpyS_toList {n} (dest : Arr n) (src : Str) (k : Nat) (hk : k < n) :
    ∃ a, strncpyS dest src k = .ok a ∧
      a.toList = (cstrOf src).take k ++ (0 :: (List.replicate (k - (cstrOf src).length) 0 ++
        dest.toList.drop (k + 1))) := by
  refine ⟨_, by rw [strncpyS, if_pos hk], ?_⟩
  generalize cstrOf src = t
  rw [show (0 : Byte) :: (List.replicate (k - t.length) 0 ++ dest.toList.drop (k + 1)) =
    List.replicate (k - t.length + 1) 0 ++ dest.toList.drop (k + 1) by
      rw [List.replicate_succ]; rfl]
  apply List.ext_getElem
  · simp; omega
  · intro i h1 h2
    have hi : i < n := by simpa using h1
    simp only [Vector.getElem_toList, Vector.getElem_ofFn]
    simp only [List.getElem_append, List.length_take, List.length_replicate, List.getElem_take, List.getElem_replicate,
      List.getElem_drop, Vector.getElem_toList, List.getD_eq_getElem?_getD]
    by_cases c1 : i < k
    · rw [if_pos c1]
      by_cases c2 : i < t.length
      · rw [dif_pos (by omega), List.getElem?_eq_getElem c2]; rfl
      · rw [dif_neg (by omega), dif_pos (by omega), List.getElem?_eq_none (by omega)]; rfl
    · rw [if_neg c1, dif_neg (by omega)]
      by_cases c2 : i = k
      · rw [if_pos c2, dif_pos (by omega)]
      · rw [if_neg c2, dif_neg (by omega)]
        simp only [Fin.getElem_fin]
        congr 1; omega

theorem strncpyS_text {n} (dest : Arr n) (src : Str) (k : Nat) (hk : k < n) :
    ∃ a, strncpyS dest src k = .ok a ∧ textOf a.toList = some ((cstrOf src).take k) := by
  obtain ⟨a, h1, h2⟩ := strncpyS_toList dest src k hk
  exact ⟨a, h1, by rw [h2, textOf_append ((cstrOf_nulFree src).take k)]⟩

theorem strcpyP_toList {n} (dest : Arr n) (src : Str) (hk : src.length < n) :
    ∃ a, strcpyP dest src = .ok a ∧ a.toList = src ++ 0 :: dest.toList.drop (src.length + 1) := by
  refine ⟨_, by rw [strcpyP, if_pos hk], ?_⟩
  apply List.ext_getElem
  · simp; omega
  · intro i h1 h2
    have hi : i < n := by simpa using h1
    simp only [Vector.getElem_toList, Vector.getElem_ofFn, List.getElem_append, List.getElem_cons,
      List.getElem_drop, List.getD_eq_getElem?_getD]
    by_cases c1 : i < src.length
    · rw [if_pos c1, dif_pos c1, List.getElem?_eq_getElem c1]; rfl
    · rw [if_neg c1, dif_neg c1]
      by_cases c2 : i = src.length
      · rw [if_pos c2, dif_pos (by omega)]
      · rw [if_neg c2, dif_neg (by omega)]
        simp only [Fin.getElem_fin]
        congr 1; omega

theorem setNul_toList {n} (a : Arr n) (i : Nat) : (a.setNul i).toList = a.toList.set i 0 := by
  simp [Arr.setNul]

theorem setNul_mem {n} (a : Arr n) (i : Nat) (h : i < n) : (0 : Byte) ∈ (a.setNul i).toList := by
  rw [setNul_toList]
  exact List.mem_set (l := a.toList) (by simpa using h) 0

theorem setNul_idem {n} (a : Arr n) (i : Nat) : (a.setNul i).setNul i = a.setNul i := by
  apply Vector.toList_inj.1
  simp [setNul_toList]

theorem textOf_setNul {n} (a : Arr n) (i : Nat) (hi : i + 1 = n) (h : (0 : Byte) ∈ a.toList) :
    textOf (a.setNul i).toList = textOf a.toList := by
  rw [setNul_toList]
  obtain ⟨t, r, h1, h2⟩ := split_nul h
  have hl : a.toList.length = n := by simp
  rw [h2] at hl ⊢
  simp only [List.length_append, List.length_cons] at hl
  by_cases hr : i = t.length
  · rw [hr, List.set_append_right _ _ (Nat.le_refl _), Nat.sub_self, List.set_cons_zero]
  · obtain ⟨j, hj⟩ : ∃ j, i - t.length = j + 1 := ⟨i - t.length - 1, by omega⟩
    rw [List.set_append_right _ _ (by omega), hj, List.set_cons_succ, textOf_append h1, textOf_append h1]

/-! ## `securize` -/

theorem Config.securize_idem (c : Config) : c.securize.securize = c.securize := by
  simp only [Config.securize, setNul_idem]

theorem textOf_ne_none {x : Str} : textOf x ≠ none ↔ (0 : Byte) ∈ x := by
  unfold textOf; split <;> simp_all

/-- The texts of the configuration are terminated (all sixteen). -/
theorem terminated_iff (c : Config) : Terminated c ↔
    (0 : Byte) ∈ c.ssid.toList ∧ (0 : Byte) ∈ c.psk.toList ∧ (0 : Byte) ∈ c.host.toList ∧
    (0 : Byte) ∈ c.apPsk.toList ∧ (0 : Byte) ∈ c.otaAuth.toList ∧ (0 : Byte) ∈ c.username.toList ∧
    (0 : Byte) ∈ c.password.toList ∧ (0 : Byte) ∈ c.emoncms.host.toList ∧
    (0 : Byte) ∈ c.emoncms.url.toList ∧ (0 : Byte) ∈ c.emoncms.apikey.toList ∧
    (0 : Byte) ∈ c.jeedom.host.toList ∧ (0 : Byte) ∈ c.jeedom.url.toList ∧
    (0 : Byte) ∈ c.jeedom.apikey.toList ∧ (0 : Byte) ∈ c.jeedom.adco.toList ∧
    (0 : Byte) ∈ c.httpreq.host.toList ∧ (0 : Byte) ∈ c.httpreq.url.toList := by
  simp only [Terminated, settings, privateSettings, publicSettings, List.cons_append, List.nil_append,
    List.forall_mem_cons, ne_eq, Setting.text.injEq, reduceCtorEq, not_false_eq_true, true_and,
    List.not_mem_nil, false_implies, implies_true, and_true]
  simp only [← ne_eq, textOf_ne_none]

theorem Config.securize_terminated (c : Config) : Terminated c.securize := by
  rw [terminated_iff]
  refine ⟨?_, ?_, ?_, ?_, ?_, ?_, ?_, ?_, ?_, ?_, ?_, ?_, ?_, ?_, ?_, ?_⟩ <;>
    exact setNul_mem _ _ (by decide)

theorem Config.securize_private {c : Config} (h : Terminated c) :
    privateSettings c.securize = privateSettings c := by
  rw [terminated_iff] at h
  obtain ⟨h1, h2, h3, h4, h5, h6, h7, -⟩ := h
  simp only [privateSettings, Config.securize]
  rw [textOf_setNul _ _ rfl h1, textOf_setNul _ _ rfl h2, textOf_setNul _ _ rfl h3,
    textOf_setNul _ _ rfl h4, textOf_setNul _ _ rfl h5, textOf_setNul _ _ rfl h6,
    textOf_setNul _ _ rfl h7]

theorem Config.securize_public {c : Config} (h : Terminated c) :
    publicSettings c.securize = publicSettings c := by
  rw [terminated_iff] at h
  obtain ⟨-, -, -, -, -, -, -, h1, h2, h3, h4, h5, h6, h7, h8, h9⟩ := h
  simp only [publicSettings, Config.securize]
  rw [textOf_setNul _ _ rfl h1, textOf_setNul _ _ rfl h2, textOf_setNul _ _ rfl h3,
    textOf_setNul _ _ rfl h4, textOf_setNul _ _ rfl h5, textOf_setNul _ _ rfl h6,
    textOf_setNul _ _ rfl h7, textOf_setNul _ _ rfl h8, textOf_setNul _ _ rfl h9]

theorem Config.securize_settings {c : Config} (h : Terminated c) :
    settings c.securize = settings c := by
  rw [settings, Config.securize_private h, Config.securize_public h]; rfl

theorem Config.stamp_settings (c : Config) : settings c.stamp = settings c := rfl
theorem Config.stamp_terminated {c : Config} (h : Terminated c) : Terminated c.stamp := h

/-! ## Boot -/

theorem eepromImage_ofBytes (f : Arr 1024) : eepromImage (Config.ofBytes f.toList) = f := by
  apply Vector.toList_inj.1
  rw [eepromImage_toList, Config.bytes_ofBytes _ (by simp)]

/-- Boot from a valid image. -/
theorem configSetup_valid {f : Arr 1024} (h : crcOf f.toList = 0) (id : UInt32) (k1 k2 : Commit) :
    Nv.configSetup f id k1 k2 =
      .ok { config := (Config.ofBytes f.toList).securize, ee := { ram := f, flash := f } } := by
  unfold Nv.configSetup Nv.configRead
  simp [h]

theorem configSetup_image (c : Config) (id : UInt32) (k1 k2 : Commit) :
    Nv.configSetup (eepromImage c.stamp) id k1 k2 =
      .ok { config := c.stamp.securize,
            ee := { ram := eepromImage c.stamp, flash := eepromImage c.stamp } } := by
  rw [configSetup_valid (by rw [eepromImage_toList, Config.crcOf_stamp]), eepromImage_toList,
    Config.ofBytes_bytes]

/-! ## Form values -/

theorem getArg_eq (a : Args) (name : String) : getArg a name = posted a name := by
  unfold getArg posted
  rw [List.head?_filter]
  have e : (fun p : Str × Str => p.1 == bs name) = fun p => decide (p.1 = bs name) := by
    funext p
    by_cases h : p.1 = bs name <;> simp [h]
  rw [e]
  cases h : a.find? fun p => decide (p.1 = bs name) <;> simp

theorem hasArg_eq (a : Args) (name : String) : hasArg a name = isPosted a name := by
  unfold hasArg isPosted
  rw [Bool.eq_iff_iff]
  simp

theorem isSpace_eq : isSpace = blank := by
  funext b
  have h : ∀ b : Fin 256, isSpace (UInt8.ofNat b.val) = blank (UInt8.ofNat b.val) := by decide +kernel
  have := h ⟨b.toNat, UInt8.toNat_lt b⟩
  simpa only [ofNat_toNat8] using this

theorem strtolDigits_eq (r : Str) : ∀ acc, strtolDigits acc r =
    (r.takeWhile digit).foldl (fun a b => 10 * a + (b.toNat - 48)) acc := by
  induction r with
  | nil => intro acc; rfl
  | cons b r ih =>
    intro acc
    have hd : (decide (48 ≤ b) && decide (b ≤ 57)) = digit b := by
      simp only [digit, UInt8.le_iff_toNat_le]; rfl
    rw [strtolDigits, hd, List.takeWhile_cons]
    cases digit b
    · rfl
    · simp only [if_true]
      rw [ih]; rfl

theorem toInt_eq (s : Str) :
    toInt s = min (max (leadingInt s) (-2147483648)) 2147483647 := by
  unfold toInt leadingInt
  rw [isSpace_eq]
  generalize s.dropWhile blank = r
  have e : ∀ r : Str, strtolDigits 0 r = decVal (r.takeWhile digit) := fun r => strtolDigits_eq r 0
  split
  · rename_i r
    rw [e]
    simp only [List.head?_cons, true_or, if_true, List.tail_cons]
    generalize decVal _ = n
    omega
  · rename_i r
    rw [e]
    have h1 : ¬((43 : Byte) :: r).head? = some 45 := by simp
    simp only []
    rw [if_neg h1, if_pos (show _ ∨ ((43 : Byte) :: r).head? = some 43 from Or.inr rfl), List.tail_cons]
    generalize decVal _ = n
    omega
  · rename_i h1 h2
    rw [e]
    have h3 : ¬r.head? = some 45 := by
      intro h
      cases r with
      | nil => simp at h
      | cons b r =>
        simp only [List.head?_cons, Option.some.injEq] at h
        exact h1 r (by rw [h])
    have h4 : ¬r.head? = some 43 := by
      intro h
      cases r with
      | nil => simp at h
      | cons b r =>
        simp only [List.head?_cons, Option.some.injEq] at h
        exact h2 r (by rw [h])
    simp only []
    rw [if_neg h3, if_neg (by simp [h3, h4])]
    generalize decVal _ = n
    omega

theorem validateInt_eq (v : Str) (hi d : Nat) (h : hi < 2147483647) :
    validateInt v 0 hi d = (inRange v hi d : Nat) := by
  unfold validateInt inRange
  simp only []
  rw [toInt_eq]
  generalize leadingInt v = z
  by_cases h1 : 0 ≤ z ∧ z ≤ hi
  · rw [if_pos (by omega), if_pos h1]; omega
  · rw [if_neg (by omega), if_neg h1]

theorem inRange_le (v : Str) {hi d : Nat} (h : d ≤ hi) : inRange v hi d ≤ hi := by
  unfold inRange
  split
  · rename_i h1; omega
  · exact h

theorem toU16_nat {n : Nat} (h : n ≤ 65535) : (toU16 (n : Int)).toNat = n := by
  unfold toU16
  rw [UInt16.toNat_ofNat']; omega

theorem toU8_nat {n : Nat} (h : n ≤ 255) : (toU8 (n : Int)).toNat = n := by
  unfold toU8
  rw [UInt8.toNat_ofNat']; omega

theorem toU32_nat {n : Nat} (h : n < 4294967296) : (toU32 (n : Int)).toNat = n := by
  unfold toU32
  rw [UInt32.toNat_ofNat']; omega

theorem validate16 (a : Args) (name : String) (hi d : Nat) (hh : hi ≤ 65535) (hd : d ≤ hi) :
    (toU16 (validateInt (getArg a name) 0 hi d)).toNat = inRange (posted a name) hi d := by
  rw [validateInt_eq _ _ _ (by omega), getArg_eq, toU16_nat (Nat.le_trans (inRange_le _ hd) hh)]

theorem validate8 (a : Args) (name : String) (hi d : Nat) (hh : hi ≤ 255) (hd : d ≤ hi) :
    (toU8 (validateInt (getArg a name) 0 hi d)).toNat = inRange (posted a name) hi d := by
  rw [validateInt_eq _ _ _ (by omega), getArg_eq, toU8_nat (Nat.le_trans (inRange_le _ hd) hh)]

theorem validate32 (a : Args) (name : String) (hi d : Nat) (hh : hi ≤ 1000000) (hd : d ≤ hi) :
    (toU32 (validateInt (getArg a name) 0 hi d)).toNat = inRange (posted a name) hi d := by
  have := inRange_le (posted a name) hd
  rw [validateInt_eq _ _ _ (by omega), getArg_eq, toU32_nat (by omega)]

theorem strncpyS_arg {n} (dest : Arr n) (a : Args) (name : String) (k : Nat) (hk : k < n) :
    ∃ x, strncpyS dest (getArg a name) k = .ok x ∧
      Setting.text (textOf x.toList) = cutText (posted a name) k := by
  obtain ⟨x, h1, h2⟩ := strncpyS_text dest (getArg a name) k hk
  refine ⟨x, h1, ?_⟩
  rw [h2, getArg_eq]; rfl

theorem Config.formFull_ok (c : Config) (a : Args) : ∃ c', c.formFull a = .ok c' ∧
    privateSettings c' = postedPrivate a ∧ c'.emoncms = c.emoncms ∧ c'.jeedom = c.jeedom ∧
    c'.httpreq = c.httpreq := by
  obtain ⟨x1, e1, t1⟩ := strncpyS_arg c.ssid a "ssid" 32 (by decide)
  obtain ⟨x2, e2, t2⟩ := strncpyS_arg c.psk a "psk" 64 (by decide)
  obtain ⟨x3, e3, t3⟩ := strncpyS_arg c.host a "host" 16 (by decide)
  obtain ⟨x4, e4, t4⟩ := strncpyS_arg c.apPsk a "ap_psk" 64 (by decide)
  obtain ⟨x5, e5, t5⟩ := strncpyS_arg c.otaAuth a "ota_auth" 64 (by decide)
  obtain ⟨x6, e6, t6⟩ := strncpyS_arg c.username a "username" 31 (by decide)
  obtain ⟨x7, e7, t7⟩ := strncpyS_arg c.password a "password" 31 (by decide)
  have n1 := validate16 a "ota_port" 65535 8266 (by decide) (by decide)
  refine ⟨{ c with
      ssid := x1, psk := x2, host := x3, apPsk := x4, otaAuth := x5,
      otaPort := toU16 (validateInt (getArg a "ota_port") 0 65535 8266), username := x6,
      password := x7 },
    by simp only [Config.formFull, e1, e2, e3, e4, e5, e6, e7, ok_bind, pure_ok], ?_, rfl, rfl, rfl⟩
  simp only [privateSettings, postedPrivate, t1, t2, t3, t4, t5, t6, t7]
  rw [← n1]; rfl

/-- What a form post makes of the settings of the emoncms block. -/
theorem EmoncmsConfig.form_ok (e : EmoncmsConfig) (a : Args) : ∃ e', e.form a = .ok e' ∧
    Setting.text (textOf e'.host.toList) = cutText (posted a "emon_host") 32 ∧
    e'.port.toNat = inRange (posted a "emon_port") 65535 80 ∧
    Setting.text (textOf e'.url.toList) = cutText (posted a "emon_url") 32 ∧
    Setting.text (textOf e'.apikey.toList) = cutText (posted a "emon_apikey") 32 ∧
    e'.node.toNat = inRange (posted a "emon_node") 255 0 ∧
    e'.freq.toNat = inRange (posted a "emon_freq") 86400 0 := by
  obtain ⟨x1, e1, t1⟩ := strncpyS_arg e.host a "emon_host" 32 (by decide)
  obtain ⟨x2, e2, t2⟩ := strncpyS_arg e.url a "emon_url" 32 (by decide)
  obtain ⟨x3, e3, t3⟩ := strncpyS_arg e.apikey a "emon_apikey" 32 (by decide)
  refine ⟨_, by simp only [EmoncmsConfig.form, e1, e2, e3, ok_bind, pure_ok]; rfl,
    t1, ?_, t2, t3, ?_, ?_⟩
  · exact validate16 a "emon_port" 65535 80 (by decide) (by decide)
  · exact validate8 a "emon_node" 255 0 (by decide) (by decide)
  · exact validate32 a "emon_freq" 86400 0 (by decide) (by decide)

/-- What a form post makes of the settings of the Jeedom block. -/
theorem JeedomConfig.form_ok (j : JeedomConfig) (a : Args) : ∃ j', j.form a = .ok j' ∧
    Setting.text (textOf j'.host.toList) = cutText (posted a "jdom_host") 32 ∧
    j'.port.toNat = inRange (posted a "jdom_port") 65535 80 ∧
    Setting.text (textOf j'.url.toList) = cutText (posted a "jdom_url") 64 ∧
    Setting.text (textOf j'.apikey.toList) = cutText (posted a "jdom_apikey") 48 ∧
    Setting.text (textOf j'.adco.toList) = cutText (posted a "jdom_adco") 12 ∧
    j'.freq.toNat = inRange (posted a "jdom_freq") 86400 0 := by
  obtain ⟨x1, e1, t1⟩ := strncpyS_arg j.host a "jdom_host" 32 (by decide)
  obtain ⟨x2, e2, t2⟩ := strncpyS_arg j.url a "jdom_url" 64 (by decide)
  obtain ⟨x3, e3, t3⟩ := strncpyS_arg j.apikey a "jdom_apikey" 48 (by decide)
  obtain ⟨x4, e4, t4⟩ := strncpyS_arg j.adco a "jdom_adco" 12 (by decide)
  refine ⟨_, by simp only [JeedomConfig.form, e1, e2, e3, e4, ok_bind, pure_ok]; rfl,
    t1, ?_, t2, t3, t4, ?_⟩
  · exact validate16 a "jdom_port" 65535 80 (by decide) (by decide)
  · exact validate32 a "jdom_freq" 86400 0 (by decide) (by decide)

theorem setFlag_bits : ∀ (f : Fin 256) (b1 b2 b3 b4 : Bool),
    let g := (setFlag (setFlag (setFlag (setFlag (UInt8.ofNat f.val) 128 b1) 1 b2) 2 b3) 4 b4).toNat
    g / 128 % 2 = (if b1 then 1 else 0) ∧ g % 2 = (if b2 then 1 else 0) ∧
    g / 2 % 2 = (if b3 then 1 else 0) ∧ g / 4 % 2 = (if b4 then 1 else 0) := by decide +kernel

/-- What a form post makes of the settings of the HTTP request block. -/
theorem HttpreqConfig.form_ok (h : HttpreqConfig) (a : Args) : ∃ h', h.form a = .ok h' ∧
    Setting.text (textOf h'.host.toList) = cutText (posted a "httpreq_host") 32 ∧
    h'.port.toNat = inRange (posted a "httpreq_port") 65535 80 ∧
    Setting.text (textOf h'.url.toList) = cutText (posted a "httpreq_url") 150 ∧
    Setting.num (h'.flags.toNat / 128 % 2) = flag (isPosted a "httpreq_use_post") ∧
    h'.freq.toNat = inRange (posted a "httpreq_freq") 86400 0 ∧
    Setting.num (h'.flags.toNat / 2 % 2) = flag (isPosted a "httpreq_trigger_ptec") ∧
    Setting.num (h'.flags.toNat % 2) = flag (isPosted a "httpreq_trigger_adps") ∧
    Setting.num (h'.flags.toNat / 4 % 2) = flag (isPosted a "httpreq_trigger_seuils") ∧
    h'.seuilBas.toNat = inRange (posted a "httpreq_seuil_bas") 20000 0 ∧
    h'.seuilHaut.toNat = inRange (posted a "httpreq_seuil_haut") 20000 0 := by
  obtain ⟨x1, e1, t1⟩ := strncpyS_arg h.host a "httpreq_host" 32 (by decide)
  obtain ⟨x2, e2, t2⟩ := strncpyS_arg h.url a "httpreq_url" 150 (by decide)
  obtain ⟨f1, f2, f3, f4⟩ := setFlag_bits ⟨h.flags.toNat, UInt8.toNat_lt _⟩
    (isPosted a "httpreq_use_post") (isPosted a "httpreq_trigger_adps")
    (isPosted a "httpreq_trigger_ptec") (isPosted a "httpreq_trigger_seuils")
  rw [ofNat_toNat8] at f1 f2 f3 f4
  refine ⟨_, by simp only [HttpreqConfig.form, e1, e2, ok_bind, pure_ok, hasArg_eq]; rfl,
    t1, ?_, t2, congrArg Setting.num f1, ?_, congrArg Setting.num f3, congrArg Setting.num f2,
    congrArg Setting.num f4, ?_, ?_⟩
  · exact validate16 a "httpreq_port" 65535 80 (by decide) (by decide)
  · exact validate32 a "httpreq_freq" 86400 0 (by decide) (by decide)
  · exact validate16 a "httpreq_seuil_bas" 20000 0 (by decide) (by decide)
  · exact validate16 a "httpreq_seuil_haut" 20000 0 (by decide) (by decide)

/-- The effect of a form post on the settings, before the save. -/
theorem handleForm_ok (s : Nv) (a : Args) (restricted : Bool) (k : Commit)
    (h : isPosted a "save" = true) : ∃ c : Config,
      s.handleForm a restricted k = .ok ((Nv.configSave { s with config := c } k).1, 200) ∧
      publicSettings c = postedPublic a ∧
      privateSettings c = (if restricted then privateSettings s.config else postedPrivate a) := by
  have hc : ∃ c, (if restricted then pure s.config else s.config.formFull a : Res Config) = .ok c ∧
      privateSettings c = (if restricted then privateSettings s.config else postedPrivate a) := by
    cases restricted
    · obtain ⟨c, h1, h2, _⟩ := s.config.formFull_ok a
      exact ⟨c, h1, h2⟩
    · exact ⟨s.config, rfl, rfl⟩
  obtain ⟨c, hc1, hc2⟩ := hc
  obtain ⟨e, he, e1, e2, e3, e4, e5, e6⟩ := c.emoncms.form_ok a
  obtain ⟨j, hj, j1, j2, j3, j4, j5, j6⟩ := c.jeedom.form_ok a
  obtain ⟨r, hr, r1, r2, r3, r4, r5, r6, r7, r8, r9, r10⟩ := c.httpreq.form_ok a
  have hsse := validate16 a "sse_freq" 360 0 (by decide) (by decide)
  refine ⟨{ c with
      sseFreq := toU16 (validateInt (getArg a "sse_freq") 0 360 0),
      options := if isPosted a "cfg_led_tinfo" then 0 ||| 1 else 0,
      emoncms := e, jeedom := j, httpreq := r }, ?_, ?_, hc2⟩
  · unfold Nv.handleForm
    rw [hasArg_eq, if_pos h, hc1]
    simp only [hasArg_eq, he, hj, hr, ok_bind, pure_ok, Nv.configSave_eq, if_true]
  · simp only [publicSettings, postedPublic, e1, e2, e3, e4, e5, e6, j1, j2, j3, j4, j5, j6, r1, r2,
      r3, r4, r5, r6, r7, r8, r9, r10]
    have ho : Setting.num ((if isPosted a "cfg_led_tinfo" then 0 ||| 1 else 0 : UInt32).toNat % 2) =
        flag (isPosted a "cfg_led_tinfo") := by
      cases isPosted a "cfg_led_tinfo" <;> rfl
    rw [ho]
    rw [show (validateInt (getArg a "sse_freq") 0 360 0) =
      (validateInt (getArg a "sse_freq") 0 (360 : Nat) (0 : Nat)) from rfl, hsse]

/-! ## Factory reset -/

theorem bs_nulFree_of {s : Str} (h : s.all (· != 0) = true) : NulFree s := by
  intro b hb
  have := List.all_eq_true.1 h b hb
  simpa using this

theorem strcpyP_text {n} (dest : Arr n) (src : Str) (hk : src.length < n)
    (h : src.all (· != 0) = true) :
    ∃ a, strcpyP dest src = .ok a ∧ textOf a.toList = some src := by
  obtain ⟨a, h1, h2⟩ := strcpyP_toList dest src hk
  exact ⟨a, h1, by rw [h2, textOf_append (bs_nulFree_of h)]⟩

theorem hexDigit_ne : ∀ n : Fin 16, hexDigit n.val ≠ 0 := by decide

theorem hexDigit_mod (m : Nat) : hexDigit (m % 16) ≠ 0 :=
  hexDigit_ne ⟨m % 16, Nat.mod_lt _ (by decide)⟩

theorem hex06_facts (v : UInt32) : (hex06 v).length ≤ 8 ∧ (hex06 v).all (· != 0) = true := by
  unfold hex06
  simp only []
  split
  · simp [hexDigit_mod]
  · split <;> simp [hexDigit_mod]

/-- The default host name. -/
def defaultHost (id : UInt32) : Str := bs "WifInfo-" ++ hex06 id

theorem textOf_zero (n : Nat) (h : 0 < n) (off : Nat) : textOf (sliceAt [] off n).toList = some [] := by
  cases n with
  | zero => omega
  | succ n =>
    have : (sliceAt [] off (n + 1)).toList = [] ++ 0 :: (sliceAt [] (off + 1) n).toList := by
      apply List.ext_getElem
      · simp
      · intro i h1 h2
        cases i <;> simp [sliceAt]
    rw [this, textOf_append (by simp [NulFree])]

theorem configReset_ok (s : Nv) (id : UInt32) (k : Commit) : ∃ c : Config,
    s.configReset id k = .ok (Nv.configSave { s with config := c } k).1 ∧
    settings c = factory (defaultHost id) := by
  obtain ⟨hl, hz⟩ := hex06_facts id
  obtain ⟨x1, e1, t1⟩ := strcpyP_text Config.zero.host (bs "WifInfo-" ++ hex06 id)
    (by rw [List.length_append, show (bs "WifInfo-").length = 8 from rfl]; omega)
    (by rw [List.all_append, hz]; rfl)
  obtain ⟨x2, e2, t2⟩ := strcpyP_text Config.zero.otaAuth (bs "OTA_WifInfo") (by decide) (by decide)
  obtain ⟨x3, e3, t3⟩ := strcpyP_text Config.zero.emoncms.host (bs "emoncms.org") (by decide) (by decide)
  obtain ⟨x4, e4, t4⟩ := strcpyP_text Config.zero.emoncms.url (bs "/input/post.json") (by decide) (by decide)
  obtain ⟨x5, e5, t5⟩ := strcpyP_text Config.zero.jeedom.host (bs "") (by decide) (by decide)
  obtain ⟨x6, e6, t6⟩ := strcpyP_text Config.zero.jeedom.url
    (bs "/plugins/teleinfo/core/php/jeeTeleinfo.php") (by decide) (by decide)
  obtain ⟨x7, e7, t7⟩ := strcpyP_text Config.zero.jeedom.adco (bs "") (by decide) (by decide)
  obtain ⟨x8, e8, t8⟩ := strcpyP_text Config.zero.httpreq.host (bs "") (by decide) (by decide)
  obtain ⟨x9, e9, t9⟩ := strcpyP_text Config.zero.httpreq.url
    (bs "/json.htm?type=command&param=udevice&idx=1&nvalue=0&svalue=$HCHP;$HCHC;0;0;$PAPP;0")
    (by decide) (by decide)
  refine ⟨{ Config.zero with
    host := x1, otaAuth := x2, otaPort := 8266, sseFreq := 10,
    emoncms := { Config.zero.emoncms with host := x3, port := 80, url := x4 },
    jeedom := { Config.zero.jeedom with host := x5, port := 80, url := x6, adco := x7 },
    httpreq := { Config.zero.httpreq with host := x8, port := 80, url := x9 } }, ?_, ?_⟩
  · simp only [Nv.configReset, e1, e2, e3, e4, e5, e6, e7, e8, e9, ok_bind, pure_ok]
  · have z1 : textOf Config.zero.ssid.toList = some (bs "") := textOf_zero 33 (by decide) 0
    have z2 : textOf Config.zero.psk.toList = some (bs "") := textOf_zero 65 (by decide) 33
    have z3 : textOf Config.zero.apPsk.toList = some (bs "") := textOf_zero 65 (by decide) 115
    have z4 : textOf Config.zero.username.toList = some (bs "") := textOf_zero 32 (by decide) 253
    have z5 : textOf Config.zero.password.toList = some (bs "") := textOf_zero 32 (by decide) 285
    have z6 : textOf Config.zero.emoncms.apikey.toList = some (bs "") := textOf_zero 33 (by decide) 415
    have z7 : textOf Config.zero.jeedom.apikey.toList = some (bs "") := textOf_zero 49 (by decide) 543
    simp only [settings, privateSettings, publicSettings, factory, t1, t2, t3, t4, t5, t6, t7, t8, t9,
      z1, z2, z3, z4, z5, z6, z7]
    rfl

/-- Boot from an invalid image. -/
theorem configSetup_invalid {f : Arr 1024} (h : crcOf f.toList ≠ 0) (id : UInt32) (k1 k2 : Commit) :
    ∃ c : Config, settings c = factory (defaultHost id) ∧
      ∃ fl, Nv.configSetup f id k1 k2 =
        .ok { config := c.stamp.securize, ee := ({ ram := eepromImage c.stamp, flash := fl } : Eeprom).commit k2 } := by
  obtain ⟨c, h1, h2⟩ := configReset_ok
    { config := Config.zero, ee := { ram := f, flash := f } } id k1
  have ht : Terminated c := by
    unfold Terminated; rw [h2]
    simp [factory]
  refine ⟨c.stamp.securize, ?_, ?_⟩
  · rw [Config.securize_settings (Config.stamp_terminated ht), Config.stamp_settings, h2]
  · rw [Nv.configSave_eq] at h1
    unfold Nv.configSetup Nv.configRead
    simp only [h, ne_eq, not_false_eq_true, if_true, Bool.false_eq_true, if_false]
    rw [h1]
    simp only [ok_bind, Nv.configSave_eq, pure_ok]
    exact ⟨_, rfl⟩

end Wifinfo
