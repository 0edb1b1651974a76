import Verif.Proofs.JsonExact
import Verif.Props.Config

/-!
# C35, C36: the configuration in JSON
-/

namespace Wifinfo
open Spec

/-- JSON value a setting should have. -/
def Spec.Setting.json : Setting → JVal
  | .text (some t) => .str t
  | .text none => .null
  | .num n => .int n

/-- Every text of the list can be carried by JSON without escape. -/
def PlainTexts (l : List (String × Setting)) : Prop := ∀ p ∈ l, ∀ t, p.2 = .text (some t) → Plain t

/-- `append` of a setting. -/
def mSetting (p : String × Setting) : JMember :=
  match p.2 with
  | .text (some t) => mText (bs p.1) t
  | .text none => mText (bs p.1) []
  | .num n => mNum (bs p.1) n

theorem bit_flags (b : UInt8) : bit (b &&& 1 != 0) = b.toNat % 2 ∧ bit (b &&& 2 != 0) = b.toNat / 2 % 2 ∧
    bit (b &&& 4 != 0) = b.toNat / 4 % 2 ∧ bit (b &&& 128 != 0) = b.toNat / 128 % 2 := by
  revert b
  exact byte_all (by decide +kernel)

theorem bit_options (o : UInt32) : bit (o &&& 1 != 0) = o.toNat % 2 := by
  have h : (o &&& 1).toNat = o.toNat % 2 := by
    rw [UInt32.toNat_and]; exact Nat.and_one_is_mod _
  unfold bit
  by_cases h0 : o &&& 1 = 0
  · rw [h0] at h
    simp only [h0, bne_self_eq_false, Bool.false_eq_true, if_false]
    exact h
  · have : (o &&& 1).toNat ≠ 0 := by
      intro h'; exact h0 (UInt32.toNat_inj.1 h')
    have h1 : (o &&& 1 != 0) = true := by simpa using h0
    rw [if_pos h1]
    omega

theorem cstr_ok {n} {a : Arr n} (h : (0 : Byte) ∈ a.toList) : a.cstr = .ok (cstrOf a.toList) := by
  unfold Arr.cstr; rw [if_pos h]

theorem textOf_mem {s : Str} (h : (0 : Byte) ∈ s) : textOf s = some (cstrOf s) := by
  unfold textOf; rw [if_pos h]; rfl

theorem getJson_eq {c : Config} (h : Terminated c) (restricted : Bool) :
    c.getJson restricted = .ok (123 :: memsText
      ((if restricted then publicSettings c else settings c).map mSetting)) := by
  rw [terminated_iff] at h
  obtain ⟨h1, h2, h3, h4, h5, h6, h7, h8, h9, h10, h11, h12, h13, h14, h15, h16⟩ := h
  obtain ⟨f1, f2, f3, f4⟩ := bit_flags c.httpreq.flags
  cases restricted
  · simp only [Config.getJson, cstr_ok h1, cstr_ok h2, cstr_ok h3, cstr_ok h4, cstr_ok h5, cstr_ok h6,
      cstr_ok h7, cstr_ok h8, cstr_ok h9, cstr_ok h10, cstr_ok h11, cstr_ok h12, cstr_ok h13, cstr_ok h14,
      cstr_ok h15, cstr_ok h16, ok_bind, pure_ok, jb_open, jb_text, jb_num, jb_num_last, Bool.false_eq_true,
      if_false, bit_options, HttpreqConfig.usePost, HttpreqConfig.triggerAdps, HttpreqConfig.triggerPtec,
      HttpreqConfig.triggerSeuils, f1, f2, f3, f4, List.cons_append, List.nil_append, settings,
      privateSettings, publicSettings, List.map_cons, List.map_nil, mSetting, textOf_mem h1,
      textOf_mem h2, textOf_mem h3, textOf_mem h4, textOf_mem h5, textOf_mem h6, textOf_mem h7,
      textOf_mem h8, textOf_mem h9, textOf_mem h10, textOf_mem h11, textOf_mem h12, textOf_mem h13,
      textOf_mem h14, textOf_mem h15, textOf_mem h16]
  · simp only [Config.getJson, cstr_ok h8, cstr_ok h9, cstr_ok h10, cstr_ok h11, cstr_ok h12,
      cstr_ok h13, cstr_ok h14,
      cstr_ok h15, cstr_ok h16, ok_bind, pure_ok, jb_open, jb_text, jb_num, jb_num_last,
      if_true, bit_options, HttpreqConfig.usePost, HttpreqConfig.triggerAdps, HttpreqConfig.triggerPtec,
      HttpreqConfig.triggerSeuils, f1, f2, f3, f4, List.cons_append, List.nil_append,
      publicSettings, List.map_cons, List.map_nil, mSetting,
      textOf_mem h8, textOf_mem h9, textOf_mem h10, textOf_mem h11, textOf_mem h12, textOf_mem h13,
      textOf_mem h14, textOf_mem h15, textOf_mem h16]

/-- The names of the settings are plain. -/
theorem names_plain (c : Config) : ∀ p ∈ settings c, Plain (bs p.1) := by
  have h : ∀ n ∈ (settings c).map Prod.fst, Plain (bs n) := by
    simp only [settings, privateSettings, publicSettings, List.cons_append, List.nil_append,
      List.map_cons, List.map_nil]
    show ∀ n ∈ _, ∀ b ∈ bs n, plain b = true
    decide +kernel
  intro p hp
  exact h p.1 (List.mem_map_of_mem hp)

theorem mSetting_good {p : String × Setting} (hn : Plain (bs p.1)) (ht : ∀ t, p.2 = .text (some t) → Plain t) :
    (mSetting p).Good := by
  obtain ⟨n, v⟩ := p
  match v with
  | .text (some t) => exact mText_good hn (ht t rfl)
  | .text none => exact mText_good hn (by intro b hb; simp at hb)
  | .num k => exact mNum_good hn k

theorem mSetting_val (l : List (String × Setting)) (ht : ∀ p ∈ l, p.2 ≠ .text none) :
    memsVal (l.map mSetting) = l.map fun p => (bs p.1, p.2.json) := by
  unfold memsVal
  rw [List.map_map]
  apply List.map_congr_left
  rintro ⟨n, v⟩ hp
  match v with
  | .text (some t) => rfl
  | .text none => exact absurd rfl (ht _ hp)
  | .num k => rfl

/-! ## C36 -/

theorem mSetting_built (p : String × Setting) : (mSetting p).Built := by
  obtain ⟨n, v⟩ := p
  match v with
  | .text (some t) => exact mText_built _ _
  | .text none => exact mText_built _ _
  | .num k => exact mNum_built _ _

theorem settings_parse_iff {l : List (String × Setting)} (hn : ∀ p ∈ l, Plain (bs p.1))
    (ht : ∀ p ∈ l, p.2 ≠ .text none) :
    parseJson (123 :: memsText (l.map mSetting)) = some (.obj (l.map fun p => (bs p.1, p.2.json))) ↔
      PlainTexts l := by
  rw [← mSetting_val l ht, parse_obj_iff]
  · constructor
    · intro h p hp t e
      have := h _ (List.mem_map_of_mem hp)
      obtain ⟨n, v⟩ := p
      dsimp only at e
      subst e
      exact (mText_good_iff.1 this).2
    · intro h x hx
      obtain ⟨p, hp, rfl⟩ := List.mem_map.1 hx
      exact mSetting_good (hn p hp) (h p hp)
  · intro x hx
    obtain ⟨p, hp, rfl⟩ := List.mem_map.1 hx
    exact mSetting_built p

/-- **C36.** The configuration JSON parses to an object with every setting under its name, with its current value,
in order, if and only if the texts need no JSON escape.
Missing with respect to the property as stated: texts with `"`, `\` or control characters, for
which it is false (see also `c36_refuted`). -/
theorem c36_parses_partial {s : Nv} (hs : NvReach s) :
    ∃ j, s.config.getJson false = .ok j ∧
      (parseJson j = some (.obj ((settings s.config).map fun p => (bs p.1, p.2.json))) ↔
        PlainTexts (settings s.config)) := by
  have ht := c32_terminated hs
  refine ⟨_, getJson_eq ht false, ?_⟩
  simp only [Bool.false_eq_true, if_false]
  exact settings_parse_iff (names_plain _) ht

/-- **C36.** The same for the restricted view. -/
theorem c36_parses_restricted_partial {s : Nv} (hs : NvReach s) :
    ∃ j, s.config.getJson true = .ok j ∧
      (parseJson j = some (.obj ((publicSettings s.config).map fun p => (bs p.1, p.2.json))) ↔
        PlainTexts (publicSettings s.config)) := by
  have ht := c32_terminated hs
  refine ⟨_, getJson_eq ht true, ?_⟩
  simp only [if_true]
  exact settings_parse_iff (fun p hp => names_plain _ p (List.mem_append_right _ hp))
    (fun p hp => ht p (List.mem_append_right _ hp))

/-- **C36.** Whatever the texts, producing the JSON stays inside the fields. -/
theorem c36_safe {s : Nv} (hs : NvReach s) (restricted : Bool) :
    ∃ j, s.config.getJson restricted = .ok j := ⟨_, getJson_eq (c32_terminated hs) restricted⟩

/-- A form whose texts are plain. -/
def plainForm : Args := [(bs "save", bs "1"), (bs "ssid", bs "Maison 2.4"), (bs "psk", bs "p@ss{w}ord,"),
  (bs "httpreq_url", bs "/x?v=~PAPP~&t=$type"), (bs "emon_node", bs "12")]

/-- A form with a quote in the Wi-Fi key. -/
def quoteForm : Args := [(bs "save", bs "1"), (bs "psk", bs "a\"b")]

example : ∃ s : Nv, NvReach s ∧ PlainTexts (settings s.config) ∧
    ("psk", .text (some (bs "p@ss{w}ord,"))) ∈ settings s.config := by
  obtain ⟨s, h1, h2⟩ := reach_form blankFlash 1 plainForm (by decide +kernel)
  refine ⟨s, h1, ?_, ?_⟩
  · rw [h2]
    have : ∀ p ∈ postedPrivate plainForm ++ postedPublic plainForm,
        (match p.2 with | .text (some t) => t.all plain | _ => true) = true := by decide +kernel
    intro p hp t ht
    have := this p hp
    rw [ht] at this
    simpa [Plain] using this
  · rw [h2]; decide +kernel

/-- **C36** as stated is false: with a quote in a text the answer is not JSON. -/
theorem c36_refuted : ∃ s : Nv, NvReach s ∧ ∃ j, s.config.getJson false = .ok j ∧
    parseJson j = none := by
  obtain ⟨s, h1, h2⟩ := reach_form blankFlash 1 quoteForm (by decide +kernel)
  refine ⟨s, h1, _, getJson_eq (c32_terminated h1) false, ?_⟩
  simp only [Bool.false_eq_true, if_false]
  rw [h2]
  have : (parseJson (123 :: memsText ((postedPrivate quoteForm ++ postedPublic quoteForm).map mSetting))).isNone = true := by
    decide +kernel
  exact Option.isNone_iff_eq_none.1 this

/-! ## C35 -/

/-- **C35.** The answer to a restricted user is a function of the other settings only: two
configurations that agree on them give the same answer. -/
theorem c35_restricted_json (c c' : Config) (h : publicSettings c = publicSettings c')
    (ht : Terminated c) (ht' : Terminated c') : c.getJson true = c'.getJson true := by
  rw [getJson_eq ht, getJson_eq ht']
  simp only [if_true, h]

/-- **C35**, without any hypothesis on the texts: replacing the network and access settings by
anything else, terminated or not, does not change the answer. -/
theorem c35_replace (c c' : Config) :
    ({ c with ssid := c'.ssid, psk := c'.psk, host := c'.host, apPsk := c'.apPsk,
              otaAuth := c'.otaAuth, otaPort := c'.otaPort, username := c'.username,
              password := c'.password } : Config).getJson true = c.getJson true := rfl

/-- Two such configurations, which the full view distinguishes. -/
example : ∃ c c' : Config, publicSettings c = publicSettings c' ∧ Terminated c ∧ Terminated c' ∧
    settings c ≠ settings c' :=
  ⟨Config.zero, { Config.zero with psk := padArr 65 (bs "secret") }, rfl,
    by rw [terminated_iff]; decide +kernel, by rw [terminated_iff]; decide +kernel, by
      intro h
      have := congrArg (fun l => l[1]?) h
      revert this
      show ¬ (some ("psk", Setting.text (textOf Config.zero.psk.toList)) =
        some ("psk", Setting.text (textOf (padArr 65 (bs "secret")).toList)))
      decide +kernel⟩

end Wifinfo
