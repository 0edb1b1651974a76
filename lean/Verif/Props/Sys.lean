import Verif.Model.Sys
import Verif.Props.Template

/-!
# C52–C55: Wi-Fi, uptime, CPU load
-/

namespace Wifinfo
open Spec

/-! ## C54 -/

theorem dec2_spec {n : Nat} (h : n < 100) :
    (dec2 n).length = 2 ∧ numeral (dec2 n) = true ∧ decVal (dec2 n) = n := by
  have key : ∀ i : Fin 100, (dec2 i.val).length = 2 ∧ numeral (dec2 i.val) = true ∧
    decVal (dec2 i.val) = i.val := by decide +kernel
  exact key ⟨n, h⟩

theorem decText_length {n k : Nat} (h : n < 10 ^ (k + 1)) : (decText n).length ≤ k + 1 := by
  have key : ∀ (f n k : Nat), n < 10 ^ (k + 1) → (decDigits f n).length ≤ k + 1 := by
    intro f
    induction f with
    | zero => intro n k _; simp [decDigits]
    | succ f ih =>
      intro n k h
      unfold decDigits
      split
      · simp
      · rename_i h10
        cases k with
        | zero => simp at h; omega
        | succ k =>
          have := ih (n / 10) k (by rw [Nat.div_lt_iff_lt_mul (by decide)]; rw [← Nat.pow_succ]; exact h)
          simp only [List.length_append, List.length_singleton]
          omega
  exact key _ _ _ h

/-- **C54.** The uptime reads as days, hours below 24, minutes and seconds below 60, each on two digits,
which add up to the number of whole seconds elapsed; for less than 2^31 seconds the text fits its
buffer of 64 bytes. -/
theorem c54_uptime (micros : Nat) : ∃ d h m s : Str,
    sysUptime micros = d ++ bs " days " ++ h ++ bs " h " ++ m ++ bs " m " ++ s ++ bs " sec" ∧
    numeral d = true ∧ d ≠ [] ∧
    (h.length = 2 ∧ numeral h = true ∧ decVal h < 24) ∧
    (m.length = 2 ∧ numeral m = true ∧ decVal m < 60) ∧
    (s.length = 2 ∧ numeral s = true ∧ decVal s < 60) ∧
    ((decVal d * 24 + decVal h) * 60 + decVal m) * 60 + decVal s = micros / 1000000 ∧
    (micros / 1000000 < 2 ^ 31 → (sysUptime micros).length < 64) := by
  obtain ⟨d1, d2, d3, -⟩ := decText_spec (micros / 1000000 / 60 / 60 / 24)
  obtain ⟨h1, h2, h3⟩ := dec2_spec (n := micros / 1000000 / 60 / 60 % 24) (by omega)
  obtain ⟨m1, m2, m3⟩ := dec2_spec (n := micros / 1000000 / 60 % 60) (by omega)
  obtain ⟨s1, s2, s3⟩ := dec2_spec (n := micros / 1000000 % 60) (by omega)
  refine ⟨_, _, _, _, rfl, d2, d1, ⟨h1, h2, by omega⟩, ⟨m1, m2, by omega⟩, ⟨s1, s2, by omega⟩, ?_, ?_⟩
  · rw [d3, h3, m3, s3]; omega
  · intro hlt
    have hd : (decText (micros / 1000000 / 60 / 60 / 24)).length ≤ 9 + 1 := decText_length (by omega)
    have c1 : (bs " days ").length = 6 := rfl
    have c2 : (bs " h ").length = 3 := rfl
    have c3 : (bs " m ").length = 3 := rfl
    have c4 : (bs " sec").length = 4 := rfl
    simp only [sysUptime, List.length_append, h1, m1, s1, c1, c2, c3, c4]
    omega

example : sysUptime 90061999999 = bs "1 days 01 h 01 m 01 sec" := by decide +kernel

/-! ## C53 -/

theorem wifiWait_spec (status : Nat → Bool) : ∀ (t i : Nat),
    (wifiWait status t i).1 = status ((wifiWait status t i).2.1 - 1) ∧
    i < (wifiWait status t i).2.1 ∧ (wifiWait status t i).2.1 ≤ i + t + 1 ∧
    (wifiWait status t i).2.2 = List.replicate ((wifiWait status t i).2.1 - i - 1) .wait ∧
    (∀ j, i ≤ j → j + 1 < (wifiWait status t i).2.1 → status j = false) ∧
    ((wifiWait status t i).1 = false → (wifiWait status t i).2.1 = i + t + 1) := by
  intro t
  induction t with
  | zero =>
    intro i
    simp only [wifiWait]
    refine ⟨by simp, by omega, by omega, by simp, ?_, by simp⟩
    intro j h1 h2; omega
  | succ t ih =>
    intro i
    by_cases h : status i = true
    · simp only [wifiWait, h, if_true]
      refine ⟨by simp [h], by omega, by omega, by simp, ?_, by simp⟩
      intro j h1 h2; omega
    · obtain ⟨a, b, c, d, e, f⟩ := ih (i + 1)
      simp only [wifiWait, h, if_false, Bool.false_eq_true]
      generalize wifiWait status t (i + 1) = w at *
      obtain ⟨w1, w2, w3⟩ := w
      dsimp only at *
      refine ⟨a, by omega, by omega, ?_, ?_, by intro g; rw [f g]; omega⟩
      · rw [d, ← List.replicate_succ]
        congr 1
        omega
      · intro j h1 h2
        by_cases hj : j = i
        · subst hj; simpa using h
        · exact e j (by omega) h2

/-- The key given to the radio: none when the setting is empty. -/
def keyOf (s : Str) : Option Str := if s = [] then none else some s

theorem key_ok {n} {a : Arr (n + 1)} {s : Str} (h : HasText a s) :
    (if a[0] ≠ 0 then do pure (some (← a.cstr)) else pure none : Res (Option Str)) = .ok (keyOf s) := by
  unfold keyOf
  by_cases hs : s = []
  · rw [if_neg (fun hh => hh (h.first.2 hs)), if_pos hs]; rfl
  · rw [if_pos (fun hh => hs (h.first.1 hh)), if_neg hs, h.cstr]; rfl

theorem cstrOf_hasText {n} {a : Arr n} {s : Str} (h : HasText a s) : NulFree s := by
  unfold HasText textOf at h
  split at h
  · rw [← Option.some.inj h]
    exact cstrOf_nulFree _
  · cases h

theorem hasText_length {n} {a : Arr n} {s : Str} (h : HasText a s) : s.length < n := by
  obtain ⟨c, hc⟩ := textOf_split h
  have := congrArg List.length hc
  simp at this
  omega

/-- **C53.** Whatever the answers of the radio, the attempt ends: the status is read at most 52 times (once
before, then at most 51) with at most 50 waits of 200 ms, stops at the first positive answer, and then
either the device is connected and in station mode without access point, or it has given up and opened
its access point, named after the host name and protected by its key. -/
theorem c53_bounded {c : Config} {ssid psk host ap : Str} (h1 : HasText c.ssid ssid)
    (h2 : HasText c.psk psk) (h3 : HasText c.host host) (h4 : HasText c.apPsk ap) (status : Nat → Bool) :
    ∃ ok polls waits, ∃ pre : List WifiEff,
      wifiConnect c status = .ok (ok, polls, pre ++ List.replicate waits .wait ++
        (if ok then [.station] else [.disconnect, .softAp host (keyOf ap)])) ∧
      pre = (if ssid = [] then [] else [.begin ssid (keyOf psk)]) ∧
      1 ≤ polls ∧ polls ≤ 52 ∧ waits ≤ 50 ∧ ok = status (polls - 1) ∧
      (ssid ≠ [] → ok = false → waits = 50) := by
  have hhost : host.length < 17 := hasText_length h3
  obtain ⟨a, ha1, ha2⟩ := strncpyS_toList (Vector.replicate 32 (0 : Byte)) host 31 (by decide)
  have hnf := cstrOf_hasText h3
  rw [cstrOf_self hnf, List.take_of_length_le (by omega)] at ha2
  have hap : a.cstr = .ok host := by
    have : HasText a host := by unfold HasText; rw [ha2]; exact textOf_append hnf _
    exact this.cstr
  unfold wifiConnect
  dsimp only
  rw [key_ok h2, key_ok h4]
  by_cases hs : ssid = []
  · rw [if_neg (c := c.ssid[0] ≠ 0) (fun hh => hh (h1.first.2 hs))]
    cases h0 : status 0 with
    | true =>
      exact ⟨true, 1, 0, [], by simp, by rw [if_pos hs], by omega, by omega, by omega, h0.symm,
        by intro hh; exact absurd hs hh⟩
    | false =>
      refine ⟨false, 1, 0, [], ?_, by rw [if_pos hs], by omega, by omega, by omega, h0.symm,
        by intro hh; exact absurd hs hh⟩
      simp only [pure_ok, ok_bind, Bool.false_eq_true, if_false, h3.cstr, ha1, hap, List.nil_append,
        List.replicate_zero]
  · rw [if_pos (c := c.ssid[0] ≠ 0) (fun hh => hs (h1.first.1 hh))]
    obtain ⟨w1, w2, w3, w4, w5, w6⟩ := wifiWait_spec status 50 1
    generalize hw : wifiWait status 50 1 = w at *
    obtain ⟨ok, polls, e⟩ := w
    dsimp only at w1 w2 w3 w4 w5 w6
    refine ⟨ok, polls, polls - 1 - 1, [.begin ssid (keyOf psk)], ?_, by rw [if_neg hs], by omega, by omega,
      by omega, w1, by intro _ hf; have := w6 hf; omega⟩
    simp only [h1.cstr, pure_ok, ok_bind]
    cases ok with
    | true => simp [w4]
    | false =>
      simp only [Bool.false_eq_true, if_false, h3.cstr, ha1, hap, ok_bind, w4]
      rfl

/-- A configuration with and without network, host name and access point key. -/
example : HasText sampleConfig.ssid (bs "ssid") ∧ HasText sampleConfig.host (bs "host") ∧
    HasText Config.zero.ssid [] := by
  unfold HasText; decide +kernel

/-- **C53.** For any configuration the device can have. -/
theorem c53_reachable {s : Nv} (hs : NvReach s) (status : Nat → Bool) :
    ∃ ok polls e, wifiConnect s.config status = .ok (ok, polls, e) ∧ polls ≤ 52 ∧
      ok = status (polls - 1) ∧ (ok = true ↔ WifiEff.station ∈ e) ∧
      (ok = false ↔ ∃ host key, WifiEff.softAp host key ∈ e) := by
  obtain ⟨t1, t2, t3, t4, _⟩ := (terminated_iff _).1 (c32_terminated hs)
  obtain ⟨ok, polls, waits, pre, h1, h2, h3, h4, h5, h6, _⟩ :=
    c53_bounded (textOf_mem t1) (textOf_mem t2) (textOf_mem t3) (textOf_mem t4) status
  refine ⟨ok, polls, _, h1, h4, h6, ?_, ?_⟩
  · rw [h2]
    cases ok <;> simp <;> split <;> simp [List.mem_replicate]
  · rw [h2]
    cases ok <;> simp [List.mem_replicate] <;> split <;> simp

/-! ## C52 -/

/-- What the recovery stores. -/
theorem wifiSetup_stored {s : Nv} (hs : NvReach s) (h : HasText s.config.ssid []) {ssid psk : Str}
    (h0 : ssid ≠ []) (h1 : NulFree ssid) (h2 : NulFree psk) (k : Commit) :
    ∃ s', s.wifiSetup ssid psk k = .ok s' ∧ HasText s'.config.ssid (ssid.take 32) ∧
      HasText s'.config.psk (psk.take 32) ∧
      (settings s'.config).drop 2 = (settings s.config).drop 2 := by
  have ht := c32_terminated hs
  obtain ⟨a, ha1, ha2⟩ := strncpyS_text s.config.ssid ssid 32 (by decide)
  rw [cstrOf_self h1] at ha2
  have hp : ∃ b, (if psk ≠ [] then strncpyS s.config.psk psk 32 else pure (s.config.psk.setNul 0)) = .ok b ∧
      textOf b.toList = some (psk.take 32) := by
    by_cases hp : psk = []
    · refine ⟨_, by rw [if_neg (fun hh => hh hp)]; rfl, ?_⟩
      rw [hp, setNul_toList]
      have hl : s.config.psk.toList.length = 65 := by simp
      cases hx : s.config.psk.toList with
      | nil => rw [hx] at hl; simp at hl
      | cons x r =>
        show textOf ([] ++ 0 :: r) = _
        rw [textOf_append (by simp [NulFree])]
        rfl
    · obtain ⟨b, hb1, hb2⟩ := strncpyS_text s.config.psk psk 32 (by decide)
      rw [cstrOf_self h2] at hb2
      exact ⟨b, by rw [if_pos hp]; exact hb1, hb2⟩
  obtain ⟨b, hb1, hb2⟩ := hp
  have hT : Terminated ({ s.config with ssid := a, psk := b } : Config).stamp := by
    apply Config.stamp_terminated
    rw [terminated_iff] at ht ⊢
    obtain ⟨_, _, ht⟩ := ht
    refine ⟨?_, ?_, ht⟩
    · rw [← textOf_ne_none, ha2]; simp
    · rw [← textOf_ne_none, hb2]; simp
  have e := Config.securize_settings hT
  rw [Config.stamp_settings] at e
  refine ⟨_, by
    unfold Nv.wifiSetup
    rw [if_pos (h.first.2 rfl), if_neg h0, ha1, ok_bind]
    dsimp only
    by_cases hp : psk = []
    · rw [if_neg (fun hh => hh hp)] at hb1 ⊢
      rw [hb1]; rfl
    · rw [if_pos hp] at hb1 ⊢
      rw [hb1]; rfl, ?_, ?_, ?_⟩
  · rw [Nv.configSave_eq]
    have e1 : textOf ({ s.config with ssid := a, psk := b } : Config).stamp.securize.ssid.toList =
        textOf a.toList := by
      have := congrArg (fun l => l[0]?) e
      simpa [settings, privateSettings] using this
    exact e1.trans ha2
  · rw [Nv.configSave_eq]
    have e1 : textOf ({ s.config with ssid := a, psk := b } : Config).stamp.securize.psk.toList =
        textOf b.toList := by
      have := congrArg (fun l => l[1]?) e
      simpa [settings, privateSettings] using this
    exact e1.trans hb2
  · rw [Nv.configSave_eq]
    show (settings ({ s.config with ssid := a, psk := b } : Config).stamp.securize).drop 2 = _
    rw [e]
    rfl

/-- **C52 (partial).** When the configuration has no SSID and the SDK knows one of at most 32 bytes with a
key of at most 32 bytes, both are stored unchanged and the other settings are kept.  Missing with respect
to the property as stated: keys of 33 to 64 bytes, for which it is false (`c52_refuted`). -/
theorem c52_recovered_partial {s : Nv} (hs : NvReach s) (h : HasText s.config.ssid []) {ssid psk : Str}
    (h0 : ssid ≠ []) (h1 : NulFree ssid) (h2 : NulFree psk) (l1 : ssid.length ≤ 32) (l2 : psk.length ≤ 32)
    (k : Commit) :
    ∃ s', s.wifiSetup ssid psk k = .ok s' ∧ HasText s'.config.ssid ssid ∧ HasText s'.config.psk psk ∧
      (settings s'.config).drop 2 = (settings s.config).drop 2 := by
  obtain ⟨s', g1, g2, g3, g4⟩ := wifiSetup_stored hs h h0 h1 h2 k
  rw [List.take_of_length_le l1] at g2
  rw [List.take_of_length_le l2] at g3
  exact ⟨s', g1, g2, g3, g4⟩

/-- **C52** as stated is false: every key longer than 32 bytes is stored cut, so that the next connection
uses a wrong key. -/
theorem c52_refuted {s : Nv} (hs : NvReach s) (h : HasText s.config.ssid []) {ssid psk : Str}
    (h0 : ssid ≠ []) (h1 : NulFree ssid) (h2 : NulFree psk) (l2 : 32 < psk.length) (k : Commit) :
    ∃ s', s.wifiSetup ssid psk k = .ok s' ∧ ¬ HasText s'.config.psk psk := by
  obtain ⟨s', g1, g2, g3, g4⟩ := wifiSetup_stored hs h h0 h1 h2 k
  refine ⟨s', g1, fun e => ?_⟩
  have := (Option.some.inj (g3.symm.trans e))
  have := congrArg List.length this
  simp at this
  omega

/-- **C52, exactly.**  The network and the key known by the SDK are stored up to their 32nd byte, the other settings are
kept: the network and the key are right if and only if they have at most 32 bytes. -/
theorem c52_exact {s : Nv} (hs : NvReach s) (h : HasText s.config.ssid []) {ssid psk : Str}
    (h0 : ssid ≠ []) (h1 : NulFree ssid) (h2 : NulFree psk) (k : Commit) :
    ∃ s', s.wifiSetup ssid psk k = .ok s' ∧ HasText s'.config.ssid (ssid.take 32) ∧
      HasText s'.config.psk (psk.take 32) ∧ (settings s'.config).drop 2 = (settings s.config).drop 2 ∧
      (HasText s'.config.ssid ssid ↔ ssid.length ≤ 32) ∧ (HasText s'.config.psk psk ↔ psk.length ≤ 32) := by
  obtain ⟨s', g1, g2, g3, g4⟩ := wifiSetup_stored hs h h0 h1 h2 k
  have cut : ∀ {n} {a : Arr n} {t : Str}, HasText a (t.take 32) → (HasText a t ↔ t.length ≤ 32) := by
    intro n a t ht
    constructor
    · intro e
      have := congrArg List.length (Option.some.inj (ht.symm.trans e))
      rw [List.length_take] at this
      omega
    · intro hl
      rwa [List.take_of_length_le hl] at ht
  exact ⟨s', g1, g2, g3, g4, cut g2, cut g3⟩

/-- A device without SSID: after a factory reset. -/
theorem factory_no_ssid (id : UInt32) : ∃ s, NvReach s ∧ HasText s.config.ssid [] := by
  have hf := accepted_image sampleConfig
  generalize eepromImage sampleConfig.stamp = f at hf
  have hg := c30_one_byte f _ hf (set_xor_ne f 1 (by decide +kernel)) 7 (by
    intro j hj hne
    rw [Vector.getElem_set_ne _ _ (Ne.symm hne)])
  obtain ⟨s, h1, h2⟩ := c30_boot _ hg id .ok .ok
  refine ⟨s, .boot h1, ?_⟩
  have := congrArg (fun l => l[0]?) h2
  exact (by simpa [settings, privateSettings, factory] using this : textOf s.config.ssid.toList = some (bs ""))

example : ∃ s : Nv, NvReach s ∧ HasText s.config.ssid [] ∧
    ∃ s', s.wifiSetup (bs "Livebox-1234") (bs "0123456789ABCDEF") .ok = .ok s' ∧
      HasText s'.config.psk (bs "0123456789ABCDEF") := by
  obtain ⟨s, h1, h2⟩ := factory_no_ssid 7
  obtain ⟨s', g1, _, g2, _⟩ := c52_recovered_partial h1 h2 (ssid := bs "Livebox-1234")
    (psk := bs "0123456789ABCDEF") (by decide) (by unfold NulFree; decide) (by unfold NulFree; decide) (by decide) (by decide) .ok
  exact ⟨s, h1, h2, s', g1, g2⟩

example : ∃ s : Nv, NvReach s ∧ HasText s.config.ssid [] ∧
    32 < (bs "0123456789012345678901234567890123456789").length := by
  obtain ⟨s, h1, h2⟩ := factory_no_ssid 7
  exact ⟨s, h1, h2, by decide⟩

end Wifinfo
