import Verif.Proofs.Tool

/-!
# Properties of the stored configuration (C29–C34, C37, C38, C56, C58)

`Nv` is the running configuration plus the EEPROM (RAM copy and flash).  A boot is
`Nv.configSetup` on the content of the flash.  `Spec.settings` is the list of named values a user
sees; see Spec/Settings.lean.
-/

namespace Wifinfo
open Spec

/-- The image is accepted by the firmware: reading it succeeds. -/
def Accepted (f : Arr 1024) : Prop :=
  (Nv.configRead { config := Config.zero, ee := { ram := f, flash := f } }).2 = true

theorem accepted_iff (f : Arr 1024) : Accepted f ↔ crcOf f.toList = 0 := by
  unfold Accepted Nv.configRead
  by_cases h : crcOf f.toList = 0 <;> simp [h]

/-! ## Concrete cases used to show that hypotheses can be met -/

/-- A form with all kinds of fields: too long text, number out of range, negative number, missing
fields, a switch. -/
def sampleForm : Args :=
  [(bs "save", bs "1"), (bs "ssid", bs "MyNetwork"), (bs "psk", bs "s3cr3t \"quoted\""),
   (bs "host", bs "a-host-name-longer-than-16"), (bs "ota_port", bs "70000"),
   (bs "sse_freq", bs "360"), (bs "emon_node", bs "-1"), (bs "emon_port", bs "8080"),
   (bs "httpreq_seuil_haut", bs "20000x"), (bs "httpreq_trigger_ptec", bs "on"),
   (bs "username", bs "user")]

theorem sampleForm_save : isPosted sampleForm "save" = true := by decide +kernel

/-- Erased flash. -/
def blankFlash : Arr 1024 := Vector.replicate 1024 255

/-- A configuration with texts in most fields. -/
def sampleConfig : Config :=
  toolConfig { text := fun n => bs n, num := fun n => n.length % 2 }

theorem sampleConf_valid : ToolConf.Valid { text := fun n => bs n, num := fun n => n.length % 2 } where
  port := by intro n _; simp only []; omega
  freq := by intro n _; simp only []; omega
  node := by simp only []; omega
  switch := by intro n _; simp only []; omega

theorem sample_terminated : Terminated sampleConfig.stamp.securize :=
  Config.securize_terminated _

/-! ## C29 -/

/-- **C29.** Saving a configuration with terminated texts succeeds and keeps every setting; if the
flash write succeeds, a later boot (whatever the chip and the fate of later writes) succeeds and
gives the same configuration, with the same settings. -/
theorem c29_save_then_read (s : Nv) (h : Terminated s.config) :
    (s.configSave .ok).2 = true ∧
    settings (s.configSave .ok).1.config = settings s.config ∧
    ∀ id k1 k2, ∃ s', Nv.configSetup (s.configSave .ok).1.ee.flash id k1 k2 = .ok s' ∧
      s'.config = (s.configSave .ok).1.config ∧ settings s'.config = settings s.config := by
  rw [Nv.configSave_eq]
  have e : settings s.config.stamp.securize = settings s.config := by
    rw [Config.securize_settings (Config.stamp_terminated h), Config.stamp_settings]
  refine ⟨rfl, e, ?_⟩
  intro id k1 k2
  exact ⟨_, configSetup_image _ _ _ _, rfl, e⟩

/-- **C29**, whole object: when in addition the last byte of every text is NUL (which is so in every
reachable state, C32), the whole object (fillers included) is read back, except the checksum which
is recomputed. -/
theorem c29_identical (s : Nv) (h : s.config.securize = s.config) :
    { (s.configSave .ok).1.config with crc := s.config.crc } = s.config ∧
    (s.configSave .ok).1.ee.flash = (s.configSave .ok).1.ee.ram := by
  rw [Nv.configSave_eq]
  refine ⟨?_, rfl⟩
  show { s.config.securize with crc := s.config.crc } = s.config
  rw [h]

example : ∃ c : Config, Terminated c ∧ c.securize = c ∧ c ≠ Config.zero :=
  ⟨sampleConfig.stamp.securize, sample_terminated, Config.securize_idem _, by
    intro h
    have := congrArg (fun c : Config => settings c) h
    revert this
    rw [show settings sampleConfig.stamp.securize = _ from toolConfig_settings sampleConf_valid]
    decide +kernel⟩

/-! ## C30 -/

/-- **C30.** Altering an accepted image in any way confined to 16 consecutive bits makes it
rejected. -/
theorem c30_burst (f g : Arr 1024) (hf : Accepted f) (hne : g ≠ f) (p : Nat)
    (hp : ∀ q ∈ flips f.toList g.toList, p ≤ q ∧ q < p + 16) : ¬ Accepted g := by
  rw [accepted_iff] at *
  intro hg
  apply hne
  have hlen : f.toList.length = g.toList.length := by simp
  have h0 := (crcOf_eq_iff_bits hlen).1 (by rw [hf, hg])
  generalize hL : errBits f.toList g.toList = L at h0
  have hpos : ∀ q, L[q]? = some true → p ≤ q ∧ q < p + 16 := by
    intro q hq
    exact hp q (mem_flips.2 (by rw [hL]; exact hq))
  have hsplit : L = L.take p ++ ((L.drop p).take 16 ++ L.drop (p + 16)) := by
    rw [← List.drop_drop, List.take_append_drop, List.take_append_drop]
  have z1 : (L.take p).countP id = 0 := by
    rw [List.countP_eq_zero]
    intro b hb hb2
    obtain ⟨i, hi, rfl⟩ := List.mem_iff_getElem.1 hb
    simp only [List.length_take] at hi
    simp only [List.getElem_take, id] at hb2
    have := hpos i (by rw [List.getElem?_eq_getElem (by omega), hb2])
    omega
  have z2 : (L.drop (p + 16)).countP id = 0 := by
    rw [List.countP_eq_zero]
    intro b hb hb2
    obtain ⟨i, hi, rfl⟩ := List.mem_iff_getElem.1 hb
    simp only [List.length_drop] at hi
    simp only [List.getElem_drop, id] at hb2
    have := hpos (p + 16 + i) (by rw [List.getElem?_eq_getElem (by omega), hb2])
    omega
  rw [hsplit] at h0
  have z3 := feed_burst z1 z2 (by simp; omega) h0
  have z4 : L.countP id = 0 := by
    rw [hsplit, List.countP_append, List.countP_append, z1, z2, z3]
  exact (toList_eq_of_no_flip (by simp) (by rw [hL]; exact z4)).symm

/-- **C30**, a single byte. -/
theorem c30_one_byte (f g : Arr 1024) (hf : Accepted f) (hne : g ≠ f) (i : Nat)
    (hi : ∀ j (hj : j < 1024), j ≠ i → g[j] = f[j]) : ¬ Accepted g := by
  apply c30_burst f g hf hne (8 * i)
  intro q hq
  have := flip_byte hq
  obtain ⟨h1, h2⟩ := this
  have : q / 8 = i := by
    by_cases h : q / 8 = i
    · exact h
    · exact absurd (hi _ h1 h).symm h2
  omega

/-- **C30**, two adjacent bytes. -/
theorem c30_two_bytes (f g : Arr 1024) (hf : Accepted f) (hne : g ≠ f) (i : Nat)
    (hi : ∀ j (hj : j < 1024), j ≠ i → j ≠ i + 1 → g[j] = f[j]) : ¬ Accepted g := by
  apply c30_burst f g hf hne (8 * i)
  intro q hq
  obtain ⟨h1, h2⟩ := flip_byte hq
  have : q / 8 = i ∨ q / 8 = i + 1 := by
    by_cases h : q / 8 = i
    · exact Or.inl h
    · by_cases h3 : q / 8 = i + 1
      · exact Or.inr h3
      · exact absurd (hi _ h1 h h3).symm h2
  omega

/-- **C30**, scattered bits: one, two, or any odd number of flipped bits anywhere in the image. -/
theorem c30_bits (f g : Arr 1024) (hf : Accepted f)
    (hn : (flips f.toList g.toList).length % 2 = 1 ∨ (flips f.toList g.toList).length = 2) :
    ¬ Accepted g := by
  rw [accepted_iff] at *
  intro hg
  have hlen : f.toList.length = g.toList.length := by simp
  have h0 := (crcOf_eq_iff_bits hlen).1 (by rw [hf, hg])
  rw [flips_count] at hn
  rcases hn with h | h
  · exact feed_odd h h0
  · exact feed_two (by simp [errBits]) h h0

/-- **C30**, consequence: the altered image is not used at the next boot, the device falls back to
the factory settings. -/
theorem c30_boot (g : Arr 1024) (hg : ¬ Accepted g) (id : UInt32) (k1 k2 : Commit) :
    ∃ s, Nv.configSetup g id k1 k2 = .ok s ∧ settings s.config = factory (bs "WifInfo-" ++ hex06 id) := by
  rw [accepted_iff] at hg
  obtain ⟨c, h1, fl, h2⟩ := configSetup_invalid hg id k1 k2
  refine ⟨_, h2, ?_⟩
  have ht : Terminated c := by
    unfold Terminated; rw [h1]; simp [factory]
  rw [Config.securize_settings (Config.stamp_terminated ht), Config.stamp_settings, h1]
  rfl

/-- There are accepted images to alter: every saved one. -/
theorem accepted_image (c : Config) : Accepted (eepromImage c.stamp) := by
  rw [accepted_iff, eepromImage_toList, Config.crcOf_stamp]

theorem byte_all {P : Byte → Prop} (h : ∀ i : Fin 256, P (UInt8.ofFin i)) (b : Byte) : P b :=
  h b.toFin

theorem set_xor_ne (f : Arr 1024) (m : Byte) (hm : ∀ i : Fin 256, UInt8.ofFin i ^^^ m ≠ UInt8.ofFin i) :
    f.set 7 (f[7] ^^^ m) ≠ f := by
  intro h
  have := congrArg (fun v : Arr 1024 => v[7]) h
  simp only [Vector.getElem_set_self] at this
  exact byte_all (P := fun b => b ^^^ m ≠ b) hm f[7] this

/-- A saved image with a bit, or two bits, of a byte inverted. -/
example : ∃ f g h : Arr 1024, Accepted f ∧ g ≠ f ∧ ¬ Accepted g ∧ h ≠ f ∧ ¬ Accepted h := by
  have hf := accepted_image sampleConfig
  generalize eepromImage sampleConfig.stamp = f at hf
  have h1 := set_xor_ne f 1 (by decide +kernel)
  have h2 := set_xor_ne f 0x81 (by decide +kernel)
  refine ⟨f, _, _, hf, h1, c30_one_byte f _ hf h1 7 ?_, h2, c30_one_byte f _ hf h2 7 ?_⟩
  all_goals
    intro j hj hne
    exact Vector.getElem_set_ne _ _ (Ne.symm hne)

theorem rejected_exists : ∃ f : Arr 1024, ¬ Accepted f := by
  have hf := accepted_image Config.zero
  generalize eepromImage Config.zero.stamp = f at hf
  have h1 := set_xor_ne f 1 (by decide +kernel)
  refine ⟨_, c30_one_byte f _ hf h1 7 ?_⟩
  intro j hj hne
  exact Vector.getElem_set_ne _ _ (Ne.symm hne)

/-! ## C31 -/

/-- **C31**, stored configuration valid: it becomes the running configuration, and nothing is
written. -/
theorem c31_valid (f : Arr 1024) (h : Accepted f) (id : UInt32) (k1 k2 : Commit) :
    ∃ s, Nv.configSetup f id k1 k2 = .ok s ∧ s.ee.flash = f ∧ Terminated s.config ∧
      ∀ c : Config, c.bytes = f.toList → Terminated c → settings s.config = settings c := by
  rw [accepted_iff] at h
  refine ⟨_, configSetup_valid h _ _ _, rfl, Config.securize_terminated _, ?_⟩
  intro c hc ht
  show settings (Config.ofBytes f.toList).securize = settings c
  rw [← hc, Config.ofBytes_bytes, Config.securize_settings ht]

/-- **C31**, anything else (blank flash, torn write, garbage): factory settings. -/
theorem c31_invalid (f : Arr 1024) (h : ¬ Accepted f) (id : UInt32) (k1 k2 : Commit) :
    ∃ s, Nv.configSetup f id k1 k2 = .ok s ∧
      settings s.config = factory (bs "WifInfo-" ++ hex06 id) := c30_boot f h id k1 k2

/-- **C31**, second boot: whatever was in the flash and whatever happened to the first of the two
writes, if the last one succeeds the flash then holds an accepted image, and a second boot (with
any chip and any outcomes) gives exactly the same configuration and writes nothing. -/
theorem c31_second_boot (f : Arr 1024) (id : UInt32) (k1 : Commit) :
    ∃ s, Nv.configSetup f id k1 .ok = .ok s ∧ Accepted s.ee.flash ∧ Terminated s.config ∧
      ∀ id' k1' k2', ∃ s', Nv.configSetup s.ee.flash id' k1' k2' = .ok s' ∧
        s'.config = s.config ∧ s'.ee.flash = s.ee.flash := by
  by_cases h : crcOf f.toList = 0
  · refine ⟨_, configSetup_valid h _ _ _, (accepted_iff f).2 h, Config.securize_terminated _, ?_⟩
    intro id' k1' k2'
    exact ⟨_, configSetup_valid h _ _ _, rfl, rfl⟩
  · obtain ⟨c, h1, fl, h2⟩ := configSetup_invalid h id k1 .ok
    refine ⟨_, h2, accepted_image c, Config.securize_terminated _, ?_⟩
    intro id' k1' k2'
    exact ⟨_, configSetup_image c id' k1' k2', rfl, rfl⟩

example : ∃ f : Arr 1024, ¬ Accepted f := rejected_exists

/-! ## C32 -/

theorem postedPrivate_text (a : Args) : ∀ p ∈ postedPrivate a, p.2 ≠ Setting.text none := by
  simp [postedPrivate, cutText]

theorem postedPublic_text (a : Args) : ∀ p ∈ postedPublic a, p.2 ≠ Setting.text none := by
  simp [postedPublic, cutText, flag]

theorem posted_terminated {c : Config} {a : Args} (h1 : privateSettings c = postedPrivate a)
    (h2 : publicSettings c = postedPublic a) : Terminated c := by
  unfold Terminated
  rw [settings, h1, h2]
  intro p hp
  rcases List.mem_append.1 hp with hp | hp
  · exact postedPrivate_text a p hp
  · exact postedPublic_text a p hp

/-- States of the device: after power-up from any flash content, any operations. -/
inductive NvReach : Nv → Prop
  | boot {f : Arr 1024} {id k1 k2 s} : Nv.configSetup f id k1 k2 = .ok s → NvReach s
  | step {s op s'} : NvReach s → s.step op = .ok s' → NvReach s'

theorem configSetup_secured {f : Arr 1024} {id k1 k2 s} (h : Nv.configSetup f id k1 k2 = .ok s) :
    s.config.securize = s.config := by
  by_cases hc : crcOf f.toList = 0
  · rw [configSetup_valid hc] at h
    rw [← Except.ok.inj h]
    exact Config.securize_idem _
  · obtain ⟨c, h1, fl, h2⟩ := configSetup_invalid hc id k1 k2
    rw [h2] at h
    rw [← Except.ok.inj h]
    exact Config.securize_idem _

theorem configSave_secured (s : Nv) (k : Commit) :
    (s.configSave k).1.config.securize = (s.configSave k).1.config := by
  rw [Nv.configSave_eq]; exact Config.securize_idem _

theorem boot_ok (f : Arr 1024) (id : UInt32) (k1 k2 : Commit) :
    ∃ s, Nv.configSetup f id k1 k2 = .ok s := by
  by_cases hc : crcOf f.toList = 0
  · exact ⟨_, configSetup_valid hc _ _ _⟩
  · obtain ⟨c, h1, fl, h2⟩ := configSetup_invalid hc id k1 k2
    exact ⟨_, h2⟩

/-- No operation can fail (run out of a field), whatever its arguments. -/
theorem step_ok (s : Nv) (op : NvOp) : ∃ s', s.step op = .ok s' := by
  cases op with
  | boot id k1 k2 => exact boot_ok _ _ _ _
  | bootFrom f id k1 k2 => exact boot_ok _ _ _ _
  | form a r k =>
    by_cases h : isPosted a "save" = true
    · obtain ⟨c, h1, _⟩ := handleForm_ok s a r k h
      exact ⟨_, by simp only [Nv.step, h1, ok_bind, pure_ok]; rfl⟩
    · exact ⟨s, by simp [Nv.step, Nv.handleForm, hasArg_eq, h]⟩
  | factoryReset id k =>
    obtain ⟨c, h1, _⟩ := configReset_ok s id k
    exact ⟨_, h1⟩
  | wifi a b k =>
    simp only [Nv.step, Nv.wifiSetup]
    split
    · split
      · exact ⟨_, rfl⟩
      · obtain ⟨x, hx, _⟩ := strncpyS_text s.config.ssid a 32 (by decide)
        obtain ⟨y, hy, _⟩ := strncpyS_text s.config.psk b 32 (by decide)
        rw [hx]
        split
        · rw [hy]; exact ⟨_, rfl⟩
        · exact ⟨_, rfl⟩
    · exact ⟨_, rfl⟩
  | cliWifi a b k =>
    obtain ⟨x, hx, _⟩ := strncpyS_text s.config.ssid a 32 (by decide)
    obtain ⟨y, hy, _⟩ := strncpyS_text s.config.psk b 64 (by decide)
    simp only [Nv.step, Nv.cliWifi, hx, hy, ok_bind, pure_ok]
    exact ⟨_, rfl⟩
  | cliAp a b k =>
    obtain ⟨x, hx, _⟩ := strncpyS_text s.config.host a 16 (by decide)
    obtain ⟨y, hy, _⟩ := strncpyS_text s.config.apPsk b 64 (by decide)
    simp only [Nv.step, Nv.cliAp, hx, hy, ok_bind, pure_ok]
    exact ⟨_, rfl⟩
  | espReset k => exact ⟨_, rfl⟩

theorem step_secured {s s' : Nv} {op : NvOp} (hs : s.config.securize = s.config)
    (h : s.step op = .ok s') : s'.config.securize = s'.config := by
  cases op with
  | boot id k1 k2 => exact configSetup_secured h
  | bootFrom f id k1 k2 => exact configSetup_secured h
  | form a r k =>
    by_cases hp : isPosted a "save" = true
    · obtain ⟨c, h1, _⟩ := handleForm_ok s a r k hp
      simp only [Nv.step, h1, ok_bind, pure_ok] at h
      cases h
      exact configSave_secured _ _
    · simp [Nv.step, Nv.handleForm, hasArg_eq, hp] at h
      cases h; exact hs
  | factoryReset id k =>
    obtain ⟨c, h1, _⟩ := configReset_ok s id k
    rw [Nv.step, h1] at h
    cases h
    exact configSave_secured _ _
  | wifi a b k =>
    simp only [Nv.step, Nv.wifiSetup] at h
    split at h
    · split at h
      · cases h; exact hs
      · obtain ⟨x, hx, _⟩ := strncpyS_text s.config.ssid a 32 (by decide)
        obtain ⟨y, hy, _⟩ := strncpyS_text s.config.psk b 32 (by decide)
        rw [hx] at h
        split at h
        · rw [hy] at h; cases h; exact configSave_secured _ _
        · cases h; exact configSave_secured _ _
    · cases h; exact hs
  | cliWifi a b k =>
    obtain ⟨x, hx, _⟩ := strncpyS_text s.config.ssid a 32 (by decide)
    obtain ⟨y, hy, _⟩ := strncpyS_text s.config.psk b 64 (by decide)
    simp only [Nv.step, Nv.cliWifi, hx, hy, ok_bind, pure_ok] at h
    cases h
    exact configSave_secured _ _
  | cliAp a b k =>
    obtain ⟨x, hx, _⟩ := strncpyS_text s.config.host a 16 (by decide)
    obtain ⟨y, hy, _⟩ := strncpyS_text s.config.apPsk b 64 (by decide)
    simp only [Nv.step, Nv.cliAp, hx, hy, ok_bind, pure_ok] at h
    cases h
    exact configSave_secured _ _
  | espReset k => cases h; exact hs

theorem reach_secured {s : Nv} (h : NvReach s) : s.config.securize = s.config := by
  induction h with
  | boot h => exact configSetup_secured h
  | step _ h ih => exact step_secured ih h

/-- **C32.** In every reachable state every text of the configuration is terminated inside its
field. -/
theorem c32_terminated {s : Nv} (h : NvReach s) : Terminated s.config := by
  rw [← reach_secured h]
  exact Config.securize_terminated _

/-- **C32**, and no operation ever writes outside a field. -/
theorem c32_safe (f : Arr 1024) (id : UInt32) (k1 k2 : Commit) (s : Nv) (op : NvOp) :
    (∃ s', Nv.configSetup f id k1 k2 = .ok s') ∧ ∃ s', s.step op = .ok s' :=
  ⟨boot_ok f id k1 k2, step_ok s op⟩

theorem step_form {s s' : Nv} {a r k n} (h : s.handleForm a r k = .ok (s', n)) :
    s.step (.form a r k) = .ok s' := by
  simp only [Nv.step, h, ok_bind, pure_ok]

theorem reach_form (f : Arr 1024) (id : UInt32) (a : Args) (h : isPosted a "save" = true) :
    ∃ s : Nv, NvReach s ∧ settings s.config = postedPrivate a ++ postedPublic a := by
  obtain ⟨s0, h0⟩ := boot_ok f id .ok .ok
  obtain ⟨c, h1, h2, h3⟩ := handleForm_ok s0 a false .ok h
  simp only [Bool.false_eq_true, if_false] at h3
  have ht : Terminated c := posted_terminated h3 h2
  refine ⟨(Nv.configSave { s0 with config := c } .ok).1,
    NvReach.step (NvReach.boot h0) (step_form h1), ?_⟩
  have hcfg : (Nv.configSave { s0 with config := c } .ok).1.config = c.stamp.securize := by
    rw [Nv.configSave_eq]
  rw [hcfg, Config.securize_settings (Config.stamp_terminated ht), Config.stamp_settings, settings, h2, h3]

example : ∃ s : Nv, NvReach s ∧
    settings s.config = postedPrivate sampleForm ++ postedPublic sampleForm :=
  reach_form blankFlash 0xABCDEF sampleForm sampleForm_save

/-! ## C33 -/

/-- **C33.** After a form post by a full user, from any state (reachable or not), whatever the
outcome of the flash write, the settings are exactly the posted ones: texts cut to the field
length, numbers in range or else the default, switches on when present.  The answer is 200. -/
theorem c33_form (s : Nv) (a : Args) (k : Commit) (h : isPosted a "save" = true) :
    ∃ s', s.handleForm a false k = .ok (s', 200) ∧
      settings s'.config = postedPrivate a ++ postedPublic a := by
  obtain ⟨c, h1, h2, h3⟩ := handleForm_ok s a false k h
  have ht := posted_terminated h3 h2
  refine ⟨_, h1, ?_⟩
  rw [Nv.configSave_eq]
  show settings c.stamp.securize = _
  rw [Config.securize_settings (Config.stamp_terminated ht), Config.stamp_settings, settings, h2, h3]
  rfl

/-- **C33**, ranges: every number so set is inside its documented range. -/
theorem c33_ranges (a : Args) (name : String) (n : Nat)
    (h : (name, Setting.num n) ∈ postedPrivate a ++ postedPublic a) : n ≤ maxOf name := by
  have hf : ∀ (b : Bool), (if b then 1 else 0) ≤ 1 := by decide
  have key : ∀ p ∈ postedPrivate a ++ postedPublic a, ∀ m, p.2 = Setting.num m → m ≤ maxOf p.1 := by
    simp only [postedPrivate, postedPublic, cutText, flag, List.cons_append, List.nil_append,
      List.forall_mem_cons, reduceCtorEq, false_implies, implies_true, true_and, Setting.num.injEq,
      forall_eq']
    refine ⟨?_, ?_, ?_, ?_, ?_, ?_, ?_, ?_, ?_, ?_, ?_, ?_, ?_, ?_, ?_, ?_, ?_⟩
    all_goals first
      | exact hf _
      | exact inRange_le _ (by decide)
      | simp
  exact key _ h n rfl

/-- What the sample form gives. -/
example : postedPrivate sampleForm ++ postedPublic sampleForm ⊇
    [("host", .text (some (bs "a-host-name-long"))), ("ota_port", .num 8266), ("sse_freq", .num 360),
     ("emon_node", .num 0), ("emon_port", .num 8080), ("httpreq_seuil_haut", .num 20000),
     ("httpreq_trigger_ptec", .num 1), ("httpreq_trigger_adps", .num 0)] := by decide +kernel

/-! ## C34 -/

/-- **C34.** A post by a restricted user, from any reachable state, leaves every network and access
setting unchanged whatever it contains; the other settings are the posted ones. -/
theorem c34_restricted (s : Nv) (hs : NvReach s) (a : Args) (k : Commit) :
    ∃ s' code, s.handleForm a true k = .ok (s', code) ∧
      privateSettings s'.config = privateSettings s.config ∧
      (publicSettings s'.config = postedPublic a ∨ s' = s) := by
  by_cases h : isPosted a "save" = true
  · obtain ⟨c, h1, h2, h3⟩ := handleForm_ok s a true k h
    have h3 : privateSettings c = privateSettings s.config := h3
    have ht : Terminated c := by
      have hs' := c32_terminated hs
      unfold Terminated settings at *
      rw [h3, h2]
      intro p hp
      rcases List.mem_append.1 hp with hp | hp
      · exact hs' p (List.mem_append_left _ hp)
      · exact postedPublic_text a p hp
    refine ⟨_, _, h1, ?_, Or.inl ?_⟩
    · rw [Nv.configSave_eq]
      show privateSettings c.stamp.securize = _
      rw [Config.securize_private (Config.stamp_terminated ht)]
      exact h3
    · rw [Nv.configSave_eq]
      show publicSettings c.stamp.securize = _
      rw [Config.securize_public (Config.stamp_terminated ht)]
      exact h2
  · refine ⟨s, 400, ?_, rfl, Or.inr rfl⟩
    simp [Nv.handleForm, hasArg_eq, h]

/-- The fields are really present in the posted form, and really ignored. -/
example (s : Nv) (hs : NvReach s) : isPosted sampleForm "ssid" = true ∧
    ∃ s', s.handleForm sampleForm true .ok = .ok (s', 200) ∧
      privateSettings s'.config = privateSettings s.config := by
  refine ⟨by decide +kernel, ?_⟩
  obtain ⟨s', code, h1, h2, _⟩ := c34_restricted s hs sampleForm .ok
  obtain ⟨c, h3, _⟩ := handleForm_ok s sampleForm true .ok sampleForm_save
  rw [h3] at h1
  rw [← (Prod.mk.inj (Except.ok.inj h1)).1] at h2
  exact ⟨_, h3, h2⟩

/-! ## C37 -/

/-- A value read by the tool, as a setting (texts up to a NUL). -/
def asSetting : Py → Setting
  | .bytes b => .text (some (b.takeWhile (· != 0)))
  | .int n => .num n

/-- **C37.** Every configuration serialises to exactly 1024 bytes. -/
theorem c37_size (c : Config) : c.bytes.length = 1024 := c.bytes_length

/-- **C37.** The object is recovered from its bytes, and any 1024 bytes are the bytes of an
object. -/
theorem c37_round_trip (c : Config) (x : Str) (hx : x.length = 1024) :
    Config.ofBytes c.bytes = c ∧ (Config.ofBytes x).bytes = x :=
  ⟨Config.ofBytes_bytes c, Config.bytes_ofBytes x hx⟩

/-- **C37.** The external tool, reading the image of a configuration with terminated texts, finds
every setting under its name, with the value the firmware gives to it, and the stored checksum. -/
theorem c37_tool_reads (c : Config) (h : Terminated c) :
    ∃ l, readEeprom c.bytes = some (l, c.crc.toNat) ∧
      l.map (fun p => (p.1, asSetting p.2)) = settings c := by
  refine ⟨_, readEeprom_bytes c, ?_⟩
  rw [terminated_iff] at h
  obtain ⟨h1, h2, h3, h4, h5, h6, h7, h8, h9, h10, h11, h12, h13, h14, h15, h16⟩ := h
  simp only [toolReads, List.map_cons, List.map_nil, asSetting, rstrip_takeWhile, settings,
    privateSettings, publicSettings, textOf, h1, h2, h3, h4, h5, h6, h7, h8, h9, h10, h11, h12, h13,
    h14, h15, h16, if_true, List.cons_append, List.nil_append]

/-- **C37.** The stored checksum is the one the tool computes. -/
theorem c37_tool_checksum (s : Nv) (k : Commit) :
    toolCrc ((s.configSave k).1.ee.ram.toList.take 1022) = le ((s.configSave k).1.ee.ram.toList.drop 1022) := by
  rw [Nv.configSave_eq]
  have e : (({ s.ee with ram := eepromImage s.config.stamp } : Eeprom).commit k).ram =
      eepromImage s.config.stamp := by cases k <;> rfl
  simp only [e, eepromImage_toList]
  have h1 : s.config.stamp.bytes = s.config.bytes.take 1022 ++ u16le s.config.sum :=
    Config.bytes_crc _ _
  have h2 : (s.config.bytes.take 1022).length = 1022 := by simp [Config.bytes_length]
  rw [h1, List.take_left' h2, List.drop_left' h2, le_u16le, toolCrc_eq]
  rfl

/-- A text of the tool may keep bytes after a NUL which the firmware ignores: this happens when
`sys_wifi_connect` empties the key by writing a single NUL. -/
theorem c37_exact_text_fails : ∃ c : Config, Terminated c ∧
    readEeprom c.bytes = some (toolReads c, c.crc.toNat) ∧
    rstrip c.psk.toList = [0, 101, 99] ∧ textOf c.psk.toList = some [] :=
  ⟨{ Config.zero with psk := (padArr 65 (bs "sec")).setNul 0 }, by
    rw [terminated_iff]; decide +kernel, readEeprom_bytes _, by decide +kernel, by decide +kernel⟩

/-! ## C38 -/

/-- **C38.** A post without the save field changes nothing and is answered 400. -/
theorem c38_no_save (s : Nv) (a : Args) (restricted : Bool) (k : Commit)
    (h : ∀ p ∈ a, p.1 ≠ bs "save") : s.handleForm a restricted k = .ok (s, 400) := by
  have : isPosted a "save" = false := by
    unfold isPosted
    rw [decide_eq_false_iff_not]
    rintro ⟨p, h1, h2⟩
    exact h p h1 h2
  simp [Nv.handleForm, hasArg_eq, this]

example : ∀ p ∈ sampleForm.tail, p.1 ≠ bs "save" := by decide +kernel

/-! ## C56 -/

/-- **C56.** After a form post whose flash write succeeds, a reboot gives back exactly the running
configuration. -/
theorem c56_survives_reboot (s : Nv) (a : Args) (restricted : Bool) (h : isPosted a "save" = true) :
    ∃ s', s.handleForm a restricted .ok = .ok (s', 200) ∧
      ∀ id k1 k2, ∃ s'', Nv.configSetup s'.ee.flash id k1 k2 = .ok s'' ∧ s''.config = s'.config := by
  obtain ⟨c, h1, -⟩ := handleForm_ok s a restricted .ok h
  refine ⟨_, h1, ?_⟩
  rw [Nv.configSave_eq]
  intro id k1 k2
  exact ⟨_, configSetup_image c id k1 k2, rfl⟩

/-- **C56**, in terms of settings, for a full user. -/
theorem c56_settings (s : Nv) (a : Args) (h : isPosted a "save" = true) :
    ∃ s', s.handleForm a false .ok = .ok (s', 200) ∧
      ∀ id k1 k2, ∃ s'', Nv.configSetup s'.ee.flash id k1 k2 = .ok s'' ∧
        settings s''.config = postedPrivate a ++ postedPublic a := by
  obtain ⟨s', h1, h2⟩ := c56_survives_reboot s a false h
  obtain ⟨s1, h3, h4⟩ := c33_form s a .ok h
  rw [h1] at h3
  cases h3
  refine ⟨_, h1, ?_⟩
  intro id k1 k2
  obtain ⟨s'', h5, h6⟩ := h2 id k1 k2
  exact ⟨s'', h5, by rw [h6, h4]⟩

example : isPosted sampleForm "save" = true := sampleForm_save

/-! ## C58: images made by the external tool -/

/-- **C58.** An image made by the external tool from a configuration file whose numbers fit their
fields is accepted at boot and gives the settings of the file. -/
theorem c58_tool_writes (conf : ToolConf) (h : conf.Valid) :
    ∃ f : Arr 1024, writeEeprom conf = some f.toList ∧ Accepted f ∧
      ∀ id k1 k2, ∃ s, Nv.configSetup f id k1 k2 = .ok s ∧ settings s.config = conf.settings := by
  refine ⟨eepromImage (toolConfig conf).stamp, ?_, accepted_image _, ?_⟩
  · rw [eepromImage_toList, writeEeprom_eq h]
  · intro id k1 k2
    exact ⟨_, configSetup_image _ _ _ _, toolConfig_settings h⟩

example : ToolConf.Valid { text := fun n => bs n, num := fun n => n.length % 2 } := sampleConf_valid

/-! ## C59: the answer to a form post -/

/-- **C59**, the claim "an answer 200 to a form post means the configuration is in flash" is false:
the result of the flash write is not looked at, the check reads the RAM copy. -/
theorem c59_refuted : ∃ (s : Nv) (a : Args) (k : Commit) (s' : Nv), NvReach s ∧
    s.handleForm a false k = .ok (s', 200) ∧ ¬ Accepted s'.ee.flash := by
  obtain ⟨s0, h0⟩ := boot_ok blankFlash 0xABCDEF .ok .ok
  obtain ⟨g, hg⟩ := rejected_exists
  obtain ⟨c, h1, _⟩ := handleForm_ok s0 sampleForm false (.failed g) sampleForm_save
  refine ⟨s0, sampleForm, .failed g, _, NvReach.boot h0, h1, ?_⟩
  rw [Nv.configSave_eq]
  exact hg

/-- **C59**, what holds: if the flash write succeeds, the answer is 200 and the flash holds an
accepted image with the running configuration. -/
theorem c59_ok_partial (s : Nv) (a : Args) (restricted : Bool) (h : isPosted a "save" = true) :
    ∃ s', s.handleForm a restricted .ok = .ok (s', 200) ∧ Accepted s'.ee.flash := by
  obtain ⟨c, h1, -⟩ := handleForm_ok s a restricted .ok h
  refine ⟨_, h1, ?_⟩
  rw [Nv.configSave_eq]
  exact accepted_image c

end Wifinfo
