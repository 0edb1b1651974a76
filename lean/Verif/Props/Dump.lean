import Verif.Props.Show

/-!
# C96: the dump of the console
-/

namespace Wifinfo

namespace Spec

/-- The value of an upper-case hexadecimal digit. -/
def upHex (b : Byte) : Option Nat :=
  if 48 ≤ b.toNat ∧ b.toNat ≤ 57 then some (b.toNat - 48)
  else if 65 ≤ b.toNat ∧ b.toNat ≤ 70 then some (b.toNat - 55)
  else none

/-- The number written with hexadecimal digits. -/
def hexNumber (s : Str) : Option Nat := s.foldlM (fun n b => (upHex b).map (16 * n + ·)) 0

/-- Pairs of digits, each followed by a blank. -/
def hexBytes : Str → Option Str
  | [] => some []
  | a :: b :: 32 :: r => do
    let v ← hexNumber [a, b]
    let t ← hexBytes r
    some (UInt8.ofNat v :: t)
  | _ => none

/-- A row of a dump: an address of four digits, a colon between blanks, bytes. -/
def dumpRow (l : Str) : Option (List (Byte × Nat)) := do
  let a ← hexNumber (l.take 4)
  if (l.drop 4).take 3 ≠ bs " : " then none
  let t ← hexBytes (l.drop 7)
  some (t.zipIdx a)

/-- The bytes and their addresses in a dump; empty lines do not count. -/
def readDump (x : Str) : Option (List (Byte × Nat)) :=
  (((screen x).filter (· ≠ [])).mapM dumpRow).map List.flatten

end Spec
open Spec

theorem upHex_digit : ∀ n < 16, upHex (hexDigit n) = some n := by decide +kernel

theorem hexNumber_02 (b : Byte) : hexNumber (hex02 b) = some b.toNat := by
  have h1 := upHex_digit (b.toNat / 16) (by have := b.toNat_lt; omega)
  have h2 := upHex_digit (b.toNat % 16) (by omega)
  simp [hexNumber, hex02, h1, h2]
  omega

theorem hexNumber_04 {n : Nat} (h : n < 65536) : hexNumber (hex04 n) = some n := by
  have h1 := upHex_digit (n / 4096 % 16) (by omega)
  have h2 := upHex_digit (n / 256 % 16) (by omega)
  have h3 := upHex_digit (n / 16 % 16) (by omega)
  have h4 := upHex_digit (n % 16) (by omega)
  simp [hexNumber, hex04, h1, h2, h3, h4]
  omega

/-- The bytes of a row. -/
def rowBytes (x : Str) : Str := x.flatMap fun b => hex02 b ++ bs " "

theorem hexBytes_row : ∀ x : Str, hexBytes (rowBytes x) = some x
  | [] => rfl
  | b :: x => by
    have e : rowBytes (b :: x) = hexDigit (b.toNat / 16) :: hexDigit (b.toNat % 16) :: 32 :: rowBytes x := rfl
    have h := hexNumber_02 b
    unfold hex02 at h
    rw [e, hexBytes, h, hexBytes_row x]
    simp

theorem dumpRow_eq {n : Nat} (h : n < 65536) (x : Str) :
    dumpRow (hex04 n ++ bs " : " ++ rowBytes x) = some (x.zipIdx n) := by
  have e1 : (hex04 n ++ bs " : " ++ rowBytes x).take 4 = hex04 n := rfl
  have e2 : ((hex04 n ++ bs " : " ++ rowBytes x).drop 4).take 3 = bs " : " := rfl
  have e3 : (hex04 n ++ bs " : " ++ rowBytes x).drop 7 = rowBytes x := rfl
  unfold dumpRow
  rw [e1, e2, e3, hexNumber_04 h, hexBytes_row]
  simp

theorem hexDigit_lf {n : Nat} (h : n < 16) : hexDigit n ≠ 10 := by
  revert n; decide +kernel

theorem row_clean (n : Nat) (x : Str) : (10 : Byte) ∉ hex04 n ++ bs " : " ++ rowBytes x := by
  have h0 : ∀ k : Nat, hexDigit (k % 16) ≠ 10 := fun k => hexDigit_lf (by omega)
  have h1 : (10 : Byte) ∉ hex04 n := by
    simp only [hex04, List.mem_cons, List.not_mem_nil, or_false, not_or]
    exact ⟨(h0 _).symm, (h0 _).symm, (h0 _).symm, (h0 _).symm⟩
  have h2 : (10 : Byte) ∉ rowBytes x := by
    intro hm
    obtain ⟨b, -, hb⟩ := List.mem_flatMap.1 hm
    have a := hexDigit_lf (n := b.toNat / 16) (by have := b.toNat_lt; omega)
    have c := hexDigit_lf (n := b.toNat % 16) (by omega)
    simp only [hex02, List.cons_append, List.nil_append, List.mem_cons] at hb
    rcases hb with hb | hb | hb
    · exact a hb.symm
    · exact c hb.symm
    · revert hb; decide +kernel
  have h3 : (10 : Byte) ∉ bs " : " := by decide +kernel
  simp only [List.mem_append, not_or]
  exact ⟨⟨h1, h3⟩, h2⟩

/-- The rest of a row. -/
theorem dumpLoop_row (per i : Nat) : ∀ (x r : Str) (j : Nat), 0 < j → j + x.length = per → x ≠ [] →
    dumpLoop per i j (x ++ r) = rowBytes x ++ 13 :: 10 :: dumpLoop per (i + x.length) 0 r := by
  intro x
  induction x generalizing i with
  | nil => intro r j _ _ h; exact absurd rfl h
  | cons b x ih =>
    intro r j hj hl _
    rw [List.cons_append, dumpLoop, if_neg (by omega)]
    cases x with
    | nil =>
      simp only [List.length_cons, List.length_nil] at hl
      rw [if_pos (by omega)]
      simp [rowBytes, println]
    | cons c x =>
      simp only [List.length_cons] at hl
      rw [if_neg (by omega), ih (i + 1) r (j + 1) (by omega) (by simp; omega) (by simp)]
      simp [rowBytes, Nat.add_assoc, Nat.add_comm 1]

theorem dumpLoop_next (i : Nat) (x r : Str) (h : x.length = 16) :
    dumpLoop 16 i 0 (x ++ r) = hex04 i ++ bs " : " ++ rowBytes x ++ 13 :: 10 :: dumpLoop 16 (i + 16) 0 r := by
  cases x with
  | nil => simp at h
  | cons b x =>
    simp only [List.length_cons] at h
    rw [List.cons_append, dumpLoop, if_pos rfl, if_neg (by omega), dumpLoop_row 16 (i + 1) x r 1 (by omega) (by omega)
      (by intro e; simp [e] at h)]
    simp [rowBytes, show i + 1 + x.length = i + 16 by omega]

theorem readDump_rows (n : Nat) : ∀ (i : Nat) (x : Str), x.length = 16 * n → i + x.length ≤ 65536 →
    readDump (dumpLoop 16 i 0 x) = some (x.zipIdx i) := by
  induction n with
  | zero =>
    intro i x h _
    have : x = [] := List.length_eq_zero_iff.1 (by omega)
    subst this; rfl
  | succ n ih =>
    intro i x h hi
    have hs : x = x.take 16 ++ x.drop 16 := (List.take_append_drop _ _).symm
    have hl : (x.take 16).length = 16 := by rw [List.length_take]; omega
    have hd : (x.drop 16).length = 16 * n := by rw [List.length_drop]; omega
    have ih' := ih (i + 16) (x.drop 16) hd (by omega)
    rw [hs, dumpLoop_next i _ _ hl]
    unfold readDump at ih' ⊢
    rw [screen, linesFrom_crlf _ _ _ (row_clean i _), ← screen, List.nil_append]
    rw [List.filter_cons_of_pos (by simp [hex04]), List.mapM_cons, dumpRow_eq (by omega)]
    cases hm : List.mapM dumpRow ((screen (dumpLoop 16 (i + 16) 0 (x.drop 16))).filter (· ≠ [])) with
    | none => rw [hm] at ih'; cases ih'
    | some ls =>
      rw [hm] at ih'
      simp only [Option.map_some, Option.some.injEq] at ih'
      simp only [Option.bind_eq_bind, Option.bind_some, Option.pure_def, Option.map_some, List.flatten_cons, ih']
      rw [List.zipIdx_append, hl]

/-- **C96**: the dump shows every byte of the copy of the EEPROM at its address. -/
theorem c96_bytes (ram : Arr 1024) : readDump (eepromDump ram) = some ram.toList.zipIdx := by
  have hl : ram.toList.length = 16 * 64 := ram.length_toList
  have := readDump_rows 64 0 ram.toList hl (by omega)
  unfold readDump at this ⊢
  rw [← this, eepromDump, println, List.nil_append, screen]
  rw [show ([13, 10] ++ dumpLoop 16 0 0 ram.toList : Str) = [] ++ 13 :: 10 :: dumpLoop 16 0 0 ram.toList from rfl,
    linesFrom_crlf _ _ _ (by simp), ← screen]
  rfl

/-- The settings in memory are those of the copy of the EEPROM, with the texts terminated. -/
def InCopy (s : Nv) : Prop := s.config = (Config.ofBytes s.ee.ram.toList).securize

theorem inCopy_save (s : Nv) (k : Commit) : InCopy (s.configSave k).1 := by
  rw [Nv.configSave_eq]
  have hr : ∀ (e : Eeprom) (k : Commit), (e.commit k).ram = e.ram := by intro e k; cases k <;> rfl
  simp only [InCopy, hr, eepromImage_toList, Config.ofBytes_bytes]

theorem inCopy_setup {f : Arr 1024} {id k1 k2 s} (h : Nv.configSetup f id k1 k2 = .ok s) : InCopy s := by
  by_cases hc : crcOf f.toList = 0
  · rw [configSetup_valid hc] at h
    rw [← Except.ok.inj h]
    rfl
  · obtain ⟨c, h1, fl, h2⟩ := configSetup_invalid hc id k1 k2
    rw [h2] at h
    rw [← Except.ok.inj h]
    have hr : ∀ (e : Eeprom) (k : Commit), (e.commit k).ram = e.ram := by intro e k; cases k <;> rfl
    simp only [InCopy, hr, eepromImage_toList, Config.ofBytes_bytes]

theorem inCopy_step {s s' : Nv} {op : NvOp} (hs : InCopy s) (ho : ∀ k, op ≠ .espReset k)
    (h : s.step op = .ok s') : InCopy s' := by
  cases op with
  | boot id k1 k2 => exact inCopy_setup h
  | bootFrom f id k1 k2 => exact inCopy_setup h
  | form a r k =>
    by_cases hp : isPosted a "save" = true
    · obtain ⟨c, h1, _⟩ := handleForm_ok s a r k hp
      simp only [Nv.step, h1, ok_bind, pure_ok] at h
      cases h
      exact inCopy_save _ _
    · simp [Nv.step, Nv.handleForm, hasArg_eq, hp] at h
      cases h; exact hs
  | factoryReset id k =>
    obtain ⟨c, h1, _⟩ := configReset_ok s id k
    rw [Nv.step, h1] at h
    cases h
    exact inCopy_save _ _
  | wifi a b k =>
    simp only [Nv.step, Nv.wifiSetup] at h
    split at h
    · split at h
      · cases h; exact hs
      · obtain ⟨x, hx, _⟩ := strncpyS_text s.config.ssid a 32 (by decide)
        obtain ⟨y, hy, _⟩ := strncpyS_text s.config.psk b 32 (by decide)
        rw [hx] at h
        split at h
        · rw [hy] at h; cases h; exact inCopy_save _ _
        · cases h; exact inCopy_save _ _
    · cases h; exact hs
  | cliWifi a b k =>
    obtain ⟨x, hx, _⟩ := strncpyS_text s.config.ssid a 32 (by decide)
    obtain ⟨y, hy, _⟩ := strncpyS_text s.config.psk b 64 (by decide)
    simp only [Nv.step, Nv.cliWifi, hx, hy, ok_bind, pure_ok] at h
    cases h
    exact inCopy_save _ _
  | cliAp a b k =>
    obtain ⟨x, hx, _⟩ := strncpyS_text s.config.host a 16 (by decide)
    obtain ⟨y, hy, _⟩ := strncpyS_text s.config.apPsk b 64 (by decide)
    simp only [Nv.step, Nv.cliAp, hx, hy, ok_bind, pure_ok] at h
    cases h
    exact inCopy_save _ _
  | espReset k => exact absurd rfl (ho k)

/-- The texts of the copy of the EEPROM are terminated. -/
def CopyTerminated (s : Nv) : Prop := Terminated (Config.ofBytes s.ee.ram.toList)

theorem copyTerminated_save {s : Nv} (h : Terminated s.config) (k : Commit) : CopyTerminated (s.configSave k).1 := by
  rw [Nv.configSave_eq]
  have hr : ∀ (e : Eeprom) (k : Commit), (e.commit k).ram = e.ram := by intro e k; cases k <;> rfl
  simp only [CopyTerminated, hr, eepromImage_toList, Config.ofBytes_bytes]
  exact Config.stamp_terminated h

theorem factory_terminated {c : Config} {n : Str} (h : settings c = factory n) : Terminated c := by
  unfold Terminated; rw [h]
  simp [factory]

theorem copyTerminated_setup {f : Arr 1024} {id k1 k2 s} (h : Nv.configSetup f id k1 k2 = .ok s)
    (hf : Accepted f → Terminated (Config.ofBytes f.toList)) : CopyTerminated s := by
  by_cases hc : crcOf f.toList = 0
  · rw [configSetup_valid hc] at h
    rw [← Except.ok.inj h]
    exact hf ((accepted_iff f).2 hc)
  · obtain ⟨c, h1, fl, h2⟩ := configSetup_invalid hc id k1 k2
    rw [h2] at h
    rw [← Except.ok.inj h]
    have hr : ∀ (e : Eeprom) (k : Commit), (e.commit k).ram = e.ram := by intro e k; cases k <;> rfl
    simp only [CopyTerminated, hr, eepromImage_toList, Config.ofBytes_bytes]
    exact Config.stamp_terminated (factory_terminated h1)

theorem copyTerminated_step {s s' : Nv} {op : NvOp} (hs : CopyTerminated s) (ht : Terminated s.config)
    (ho : ∀ k, op ≠ .espReset k) (hb : ∀ id k1 k2, op ≠ .boot id k1 k2) (hf : ∀ f id k1 k2, op ≠ .bootFrom f id k1 k2)
    (h : s.step op = .ok s') : CopyTerminated s' := by
  cases op with
  | boot id k1 k2 => exact absurd rfl (hb _ _ _)
  | bootFrom f id k1 k2 => exact absurd rfl (hf _ _ _ _)
  | form a r k =>
    by_cases hp : isPosted a "save" = true
    · obtain ⟨c, h1, h2, h3⟩ := handleForm_ok s a r k hp
      simp only [Nv.step, h1, ok_bind, pure_ok] at h
      cases h
      refine copyTerminated_save (s := { s with config := c }) ?_ k
      cases r with
      | false => exact posted_terminated h3 h2
      | true =>
        intro p hp
        rcases List.mem_append.1 hp with hp | hp
        · rw [h3] at hp
          exact ht p (List.mem_append_left _ hp)
        · rw [h2] at hp
          exact postedPublic_text a p hp
    · simp [Nv.step, Nv.handleForm, hasArg_eq, hp] at h
      cases h; exact hs
  | factoryReset id k =>
    obtain ⟨c, h1, h2⟩ := configReset_ok s id k
    rw [Nv.step, h1] at h
    cases h
    exact copyTerminated_save (s := { s with config := c }) (factory_terminated h2) k
  | wifi a b k =>
    simp only [Nv.step, Nv.wifiSetup] at h
    split at h
    · split at h
      · cases h; exact hs
      · obtain ⟨x, hx, hx2⟩ := strncpyS_text s.config.ssid a 32 (by decide)
        obtain ⟨y, hy, hy2⟩ := strncpyS_text s.config.psk b 32 (by decide)
        rw [terminated_iff] at ht
        obtain ⟨_, _, ht⟩ := ht
        rw [hx] at h
        split at h
        · rw [hy] at h
          cases h
          refine copyTerminated_save (s := { s with config := { s.config with ssid := x, psk := y } }) ?_ k
          rw [terminated_iff]
          refine ⟨?_, ?_, ht⟩
          · rw [← textOf_ne_none, hx2]; simp
          · rw [← textOf_ne_none, hy2]; simp
        · cases h
          refine copyTerminated_save (s := { s with config := { s.config with ssid := x, psk := s.config.psk.setNul 0 } }) ?_ k
          rw [terminated_iff]
          refine ⟨?_, ?_, ht⟩
          · rw [← textOf_ne_none, hx2]; simp
          · exact setNul_mem _ 0 (by decide)
    · cases h; exact hs
  | cliWifi a b k =>
    obtain ⟨x, hx, hx2⟩ := strncpyS_text s.config.ssid a 32 (by decide)
    obtain ⟨y, hy, hy2⟩ := strncpyS_text s.config.psk b 64 (by decide)
    rw [terminated_iff] at ht
    obtain ⟨_, _, ht⟩ := ht
    simp only [Nv.step, Nv.cliWifi, hx, hy, ok_bind, pure_ok] at h
    cases h
    refine copyTerminated_save (s := { s with config := { s.config with ssid := x, psk := y } }) ?_ k
    rw [terminated_iff]
    refine ⟨?_, ?_, ht⟩
    · rw [← textOf_ne_none, hx2]; simp
    · rw [← textOf_ne_none, hy2]; simp
  | cliAp a b k =>
    obtain ⟨x, hx, hx2⟩ := strncpyS_text s.config.host a 16 (by decide)
    obtain ⟨y, hy, hy2⟩ := strncpyS_text s.config.apPsk b 64 (by decide)
    rw [terminated_iff] at ht
    obtain ⟨t1, t2, _, _, ht⟩ := ht
    simp only [Nv.step, Nv.cliAp, hx, hy, ok_bind, pure_ok] at h
    cases h
    refine copyTerminated_save (s := { s with config := { s.config with host := x, apPsk := y } }) ?_ k
    rw [terminated_iff]
    refine ⟨t1, t2, ?_, ?_, ht⟩
    · rw [← textOf_ne_none, hx2]; simp
    · rw [← textOf_ne_none, hy2]; simp
  | espReset k => exact absurd rfl (ho k)

/-- What happens between two starts; `esp reset` is left out, as it restarts the device. -/
def Running (op : NvOp) : Prop :=
  (∀ k, op ≠ .espReset k) ∧ (∀ id k1 k2, op ≠ .boot id k1 k2) ∧ ∀ f id k1 k2, op ≠ .bootFrom f id k1 k2

theorem inCopy_run {ops : List NvOp} {s0 s : Nv} (h : ops.foldlM Nv.step s0 = .ok s) (ho : ∀ op ∈ ops, Running op)
    (hr : NvReach s0) (hi : InCopy s0) :
    NvReach s ∧ InCopy s ∧ (CopyTerminated s0 → CopyTerminated s) := by
  induction ops generalizing s0 with
  | nil => cases h; exact ⟨hr, hi, id⟩
  | cons op ops ih =>
    rw [List.foldlM_cons] at h
    cases e : s0.step op with
    | error _ => rw [e] at h; cases h
    | ok s1 =>
      rw [e] at h
      have hop := ho op List.mem_cons_self
      obtain ⟨h1, h2, h3⟩ := ih h (fun o hm => ho o (List.mem_cons_of_mem _ hm)) (.step hr e) (inCopy_step hi hop.1 e)
      exact ⟨h1, h2, fun ht => h3 (copyTerminated_step ht (c32_terminated hr) hop.1 hop.2.1 hop.2.2 e)⟩

/-- **C96**, the settings, at any time after a start on any content of the flash: the bytes of the dump, with the texts cut
at the ends of their fields, give the settings in use, whether or not the flash could be written. -/
theorem c96_settings {f : Arr 1024} {id k1 k2} {s0 s : Nv} {ops : List NvOp} (h0 : Nv.configSetup f id k1 k2 = .ok s0)
    (h : ops.foldlM Nv.step s0 = .ok s) (ho : ∀ op ∈ ops, Running op) :
    ∃ x : Str, readDump (eepromDump s.ee.ram) = some x.zipIdx ∧ x.length = 1024 ∧
      settings (Config.ofBytes x).securize = settings s.config := by
  obtain ⟨-, hi, -⟩ := inCopy_run h ho (.boot h0) (inCopy_setup h0)
  exact ⟨s.ee.ram.toList, c96_bytes _, s.ee.ram.length_toList, by rw [hi]⟩

/-- **C96**, the external tool: the bytes of the dump, given to it, are read as the settings in use, if the texts were
terminated in the flash at the start or the flash was not accepted. -/
theorem c96_tool {f : Arr 1024} {id k1 k2} {s0 s : Nv} {ops : List NvOp} (h0 : Nv.configSetup f id k1 k2 = .ok s0)
    (hf : Accepted f → Terminated (Config.ofBytes f.toList))
    (h : ops.foldlM Nv.step s0 = .ok s) (ho : ∀ op ∈ ops, Running op) :
    ∃ x : Str, readDump (eepromDump s.ee.ram) = some x.zipIdx ∧ ∃ l n, readEeprom x = some (l, n) ∧
      l.map (fun p => (p.1, asSetting p.2)) = settings s.config := by
  obtain ⟨-, hi, ht⟩ := inCopy_run h ho (.boot h0) (inCopy_setup h0)
  have ht := ht (copyTerminated_setup h0 hf)
  obtain ⟨l, h1, h2⟩ := c37_tool_reads _ ht
  rw [Config.bytes_ofBytes _ s.ee.ram.length_toList] at h1
  refine ⟨s.ee.ram.toList, c96_bytes _, l, _, h1, ?_⟩
  rw [h2, hi, Config.securize_settings ht]

/-- A blank device, whose configuration form has been posted, with a flash that cannot be written. -/
example : ∃ (s0 s : Nv), Nv.configSetup blankFlash 0xABCDEF .ok .ok = .ok s0 ∧
    [NvOp.form sampleForm false (.failed blankFlash)].foldlM Nv.step s0 = .ok s ∧
    settings s.config = postedPrivate sampleForm ++ postedPublic sampleForm := by
  obtain ⟨s0, h0⟩ := boot_ok blankFlash 0xABCDEF .ok .ok
  obtain ⟨c, h1, h2, h3⟩ := handleForm_ok s0 sampleForm false (.failed blankFlash) sampleForm_save
  simp only [Bool.false_eq_true, if_false] at h3
  refine ⟨s0, _, h0, ?_, (?_ : settings (Nv.configSave { s0 with config := c } (.failed blankFlash)).1.config = _)⟩
  · rw [List.foldlM_cons, step_form h1]
    rfl
  · rw [(saved_settings (posted_terminated h3 h2) s0 _).1, settings, h2, h3]

end Wifinfo
