import Verif.Props.CliSet

/-!
# C91: a restart or a power cut loses no setting
-/

namespace Wifinfo
open Spec

/-! ## Specification -/

namespace Spec

/-- The flash does what it is asked during an event, and nobody asks to wipe it (`esp reset`, C70). -/
def FlashWorks : Event → Prop
  | .boot _ _ _ _ k1 k2 k3 => k1 = .ok ∧ k2 = .ok ∧ k3 = .ok
  | .handle _ e => e.commit = .ok
  | .cliWifi _ _ k => k = .ok
  | .cliAp _ _ k => k = .ok
  | .cliReset _ => False
  | _ => True

end Spec

/-! ## Proof -/

/-- What the flash holds is the running configuration. -/
def InFlash (s : Nv) : Prop :=
  ∀ id k1 k2, ∃ s', Nv.configSetup s.ee.flash id k1 k2 = .ok s' ∧ s'.config = s.config

theorem inFlash_saved (s : Nv) (c : Config) : InFlash (Nv.configSave { s with config := c } .ok).1 := by
  rw [Nv.configSave_eq]
  intro id k1 k2
  exact ⟨_, configSetup_image c id k1 k2, rfl⟩

theorem inFlash_pure {s s' : Nv} {c : Config}
    (h : (pure (Nv.configSave { s with config := c } .ok).1 : Res Nv) = .ok s') : InFlash s' :=
  Except.ok.inj h ▸ inFlash_saved s c

theorem inFlash_boot {f : Arr 1024} {id : UInt32} {s : Nv} (h : Nv.configSetup f id .ok .ok = .ok s) : InFlash s := by
  by_cases hc : crcOf f.toList = 0
  · rw [configSetup_valid hc] at h
    rw [← Except.ok.inj h]
    intro id k1 k2
    exact ⟨_, configSetup_valid hc id k1 k2, rfl⟩
  · obtain ⟨c, _, fl, h2⟩ := configSetup_invalid hc id .ok .ok
    rw [h2] at h
    rw [← Except.ok.inj h]
    intro id k1 k2
    exact ⟨_, configSetup_image c id k1 k2, rfl⟩

theorem inFlash_wifi {s s' : Nv} {a p : Str} (hs : InFlash s) (h : s.wifiSetup a p .ok = .ok s') : InFlash s' := by
  unfold Nv.wifiSetup at h
  split at h
  · split at h
    · rw [← Except.ok.inj h]; exact hs
    · obtain ⟨x, _, h⟩ := bind_ok h
      split at h
      · obtain ⟨y, _, h⟩ := bind_ok h
        exact inFlash_pure h
      · exact inFlash_pure h
  · rw [← Except.ok.inj h]; exact hs

theorem inFlash_device {b : Build} {f m a p} {d : Device} (h : Device.boot b f m a p .ok .ok .ok = .ok d) :
    InFlash d.nv := by
  obtain ⟨nv, h1, h⟩ := bind_ok h
  obtain ⟨nv', h2, h⟩ := bind_ok h
  rw [← Except.ok.inj h]
  exact inFlash_wifi (inFlash_boot h1) h2

theorem inFlash_form {s s' : Nv} {a : Args} {restricted : Bool} {n : Nat} (hs : InFlash s)
    (h : s.handleForm a restricted .ok = .ok (s', n)) : InFlash s' := by
  by_cases hp : isPosted a "save" = true
  · obtain ⟨c, h1, -⟩ := handleForm_ok s a restricted .ok hp
    rw [h1] at h
    rw [← (Prod.mk.inj (Except.ok.inj h)).1]
    exact inFlash_saved s c
  · have hp' : ¬ hasArg a "save" = true := by rw [hasArg_eq]; exact hp
    unfold Nv.handleForm at h
    rw [if_neg hp'] at h
    rw [← (Prod.mk.inj (Except.ok.inj h)).1]
    exact hs

theorem inFlash_handle {b : Build} {d d' : Device} {e : Env} {r : Req} {l} (hk : e.commit = .ok)
    (h : d.handle b e r = .ok (d', l)) (ht : InFlash d.nv) : InFlash d'.nv := by
  have sj : ∀ {g}, sendJson d r g = .ok (d', l) → d' = d := by
    intro g h
    obtain ⟨⟨a, ef⟩, _, h⟩ := bind_ok h
    dsimp only at h
    split at h
    · exact ((Prod.mk.inj (Except.ok.inj h)).1).symm
    · obtain ⟨s, _, h⟩ := bind_ok h
      exact ((Prod.mk.inj (Except.ok.inj h)).1).symm
  unfold Device.handle at h
  split at h
  · obtain ⟨⟨ok, ef⟩, _, h⟩ := bind_ok h
    dsimp only at h
    split at h
    · split at h <;> (obtain ⟨rfl, _⟩ := Prod.mk.inj (Except.ok.inj h); exact ht)
    · obtain ⟨rfl, _⟩ := Prod.mk.inj (Except.ok.inj h); exact ht
  · obtain ⟨⟨ok, ef⟩, _, h⟩ := bind_ok h
    obtain ⟨rfl, _⟩ := Prod.mk.inj (Except.ok.inj h); exact ht
  · obtain ⟨⟨a, ef⟩, _, h⟩ := bind_ok h
    dsimp only at h
    split at h
    · obtain ⟨rfl, _⟩ := Prod.mk.inj (Except.ok.inj h); exact ht
    · obtain ⟨⟨nv, code⟩, h1, h⟩ := bind_ok h
      obtain ⟨rfl, _⟩ := Prod.mk.inj (Except.ok.inj h)
      rw [hk] at h1
      exact inFlash_form ht h1
  · rw [sj h]; exact ht
  · rw [sj h]; exact ht
  · rw [sj h]; exact ht
  · rw [sj h]; exact ht
  · rw [sj h]; exact ht
  · rw [sj h]; exact ht
  · rw [sj h]; exact ht
  · obtain ⟨⟨ok, ef⟩, _, h⟩ := bind_ok h
    dsimp only at h
    split at h
    · obtain ⟨nv, h1, h⟩ := bind_ok h
      obtain ⟨rfl, rfl⟩ := Prod.mk.inj (Except.ok.inj h)
      obtain ⟨c, h2, _⟩ := configReset_ok d.nv b.world.chipId e.commit
      rw [hk] at h1 h2
      exact inFlash_pure (h2.symm.trans h1)
    · obtain ⟨rfl, _⟩ := Prod.mk.inj (Except.ok.inj h); exact ht
  · obtain ⟨⟨ok, ef⟩, _, h⟩ := bind_ok h
    obtain ⟨rfl, _⟩ := Prod.mk.inj (Except.ok.inj h); exact ht
  · obtain ⟨rfl, _⟩ := Prod.mk.inj (Except.ok.inj h); exact ht
  · obtain ⟨⟨ok, ef⟩, _, h⟩ := bind_ok h
    obtain ⟨rfl, _⟩ := Prod.mk.inj (Except.ok.inj h); exact ht
  · obtain ⟨⟨ok, ef⟩, _, h⟩ := bind_ok h
    obtain ⟨rfl, _⟩ := Prod.mk.inj (Except.ok.inj h); exact ht
  · obtain ⟨x, _, h⟩ := bind_ok h
    obtain ⟨rfl, _⟩ := Prod.mk.inj (Except.ok.inj h); exact ht
  · obtain ⟨rfl, _⟩ := Prod.mk.inj (Except.ok.inj h); exact ht
  · obtain ⟨rfl, _⟩ := Prod.mk.inj (Except.ok.inj h); exact ht
  · obtain ⟨x, _, h⟩ := bind_ok h
    obtain ⟨rfl, _⟩ := Prod.mk.inj (Except.ok.inj h); exact ht

theorem inFlash_step {b : Build} {d d' : Device} {ev l} (hw : FlashWorks ev) (hs : d.step b ev = .ok (d', l))
    (ht : InFlash d.nv) : InFlash d'.nv := by
  cases ev with
  | boot f m a p k1 k2 k3 =>
    obtain ⟨rfl, rfl, rfl⟩ := hw
    obtain ⟨x, h1, hs⟩ := bind_ok hs
    obtain ⟨rfl, rfl⟩ := Prod.mk.inj (Except.ok.inj hs)
    exact inFlash_device h1
  | byte now k conn x =>
    obtain ⟨⟨tic, out⟩, h1, hs⟩ := bind_ok hs
    obtain ⟨rfl, rfl⟩ := Prod.mk.inj (Except.ok.inj hs)
    exact ht
  | poll conn =>
    obtain ⟨rfl, rfl⟩ := Prod.mk.inj (Except.ok.inj hs)
    exact ht
  | upload r u =>
    have e := Except.ok.inj hs
    obtain ⟨h1, h2, h3⟩ := upload_tic b d u
    rw [e] at h1 h2 h3
    first | (rw [h1]; exact ht) | (rw [h2]; exact ht)
  | handle r e => exact inFlash_handle hw hs ht
  | cliSse t conn =>
    obtain ⟨rfl, rfl⟩ := Prod.mk.inj (Except.ok.inj hs)
    exact ht
  | cliTimers =>
    obtain ⟨rfl, rfl⟩ := Prod.mk.inj (Except.ok.inj hs)
    exact ht
  | cliWifi a p k =>
    have hw : k = .ok := hw
    subst hw
    obtain ⟨nv, h1, hs⟩ := bind_ok hs
    obtain ⟨rfl, rfl⟩ := Prod.mk.inj (Except.ok.inj hs)
    obtain ⟨x, _, h1⟩ := bind_ok h1
    obtain ⟨y, _, h1⟩ := bind_ok h1
    exact inFlash_pure h1
  | cliAp a p k =>
    have hw : k = .ok := hw
    subst hw
    obtain ⟨nv, h1, hs⟩ := bind_ok hs
    obtain ⟨rfl, rfl⟩ := Prod.mk.inj (Except.ok.inj hs)
    obtain ⟨x, _, h1⟩ := bind_ok h1
    obtain ⟨y, _, h1⟩ := bind_ok h1
    exact inFlash_pure h1
  | cliReset k => exact absurd hw id

theorem inFlash_run {b : Build} : ∀ (evs : List Event) {d d' : Device} {es}, d.run b evs = .ok (d', es) →
    (∀ ev ∈ evs, FlashWorks ev) → InFlash d.nv → InFlash d'.nv := by
  intro evs
  induction evs with
  | nil =>
    intro d d' es hs _ ht
    obtain ⟨rfl, rfl⟩ := Prod.mk.inj (Except.ok.inj hs)
    exact ht
  | cons ev r ih =>
    intro d d' es hs hw ht
    obtain ⟨⟨d1, l⟩, h1, hs⟩ := bind_ok hs
    obtain ⟨⟨d2, ls⟩, h2, hs⟩ := bind_ok hs
    obtain ⟨rfl, rfl⟩ := Prod.mk.inj (Except.ok.inj hs)
    exact ih h2 (fun x hx => hw x (by simp [hx])) (inFlash_step (hw ev (by simp)) h1 ht)

/-- The settings of the SDK can only replace the network. -/
theorem wifiSetup_rest {s : Nv} (hr : NvReach s) (a p : Str) (k : Commit) :
    ∃ s', s.wifiSetup a p k = .ok s' ∧ (settings s'.config).drop 2 = (settings s.config).drop 2 := by
  obtain ⟨s', h⟩ := step_ok s (.wifi a p k)
  have h : s.wifiSetup a p k = .ok s' := h
  have hp : ∀ {x y}, HasText x ((cstrOf a).take 32) → textOf y.toList ≠ none →
      (pure (Nv.configSave { s with config := { s.config with ssid := x, psk := y } } k).1 : Res Nv) = .ok s' →
      (settings s'.config).drop 2 = (settings s.config).drop 2 := by
    intro x y hx hy h
    have ht := c32_terminated hr
    have hT : Terminated ({ s.config with ssid := x, psk := y } : Config) := by
      rw [terminated_iff] at ht ⊢
      obtain ⟨_, _, ht⟩ := ht
      refine ⟨?_, ?_, ht⟩
      · rw [← textOf_ne_none, show textOf x.toList = _ from hx]; simp
      · rw [← textOf_ne_none]; exact hy
    rw [← Except.ok.inj h, (saved_settings hT s k).1]
    rfl
  refine ⟨s', h, ?_⟩
  unfold Nv.wifiSetup at h
  split at h
  · split at h
    · rw [← Except.ok.inj h]
    · obtain ⟨x, hx1, hx2⟩ := strncpyS_text s.config.ssid a 32 (by decide)
      rw [hx1, ok_bind] at h
      split at h
      · obtain ⟨y, hy1, hy2⟩ := strncpyS_text s.config.psk p 32 (by decide)
        rw [hy1] at h
        exact hp hx2 (by rw [hy2]; simp) h
      · exact hp hx2 (textOf_ne_none.2 (setNul_mem _ 0 (by decide))) h
  · rw [← Except.ok.inj h]

theorem settings_rest {c c' : Config} (h : (settings c').drop 2 = (settings c).drop 2) :
    ∀ x ∈ settings c, x.1 ≠ "ssid" → x.1 ≠ "psk" → x ∈ settings c' := by
  intro x hx h1 h2
  have : ∃ p q, settings c = ("ssid", p) :: ("psk", q) :: (settings c).drop 2 := ⟨_, _, rfl⟩
  obtain ⟨p, q, e⟩ := this
  rw [e, List.mem_cons, List.mem_cons] at hx
  rcases hx with rfl | rfl | hx
  · exact absurd rfl h1
  · exact absurd rfl h2
  · rw [← h] at hx
    exact List.mem_of_mem_drop hx

theorem route_reset (cpu : Bool) (st : Str → Option Str) (m : Method) : route cpu st m (bs "/reset") = .reset := by
  unfold route
  rw [if_neg (by decide +kernel), if_neg (fun h => absurd h.2 (by decide +kernel)), if_neg (by decide +kernel),
    if_neg (by decide +kernel), if_neg (by decide +kernel), if_neg (by decide +kernel), if_neg (by decide +kernel),
    if_neg (by decide +kernel), if_neg (by decide +kernel), if_neg (by decide +kernel), if_neg (by decide +kernel),
    if_pos rfl]

/-! ## C91 -/

/-- **C91.**  From any flash, whatever happens to a device whose flash can be written, a power cut at any time loses
no setting: whatever becomes of the writes of the next start and whatever its memory holds, the device starts again with
the very configuration it had if it knows a network or the SDK remembers none; otherwise (C52) only the name and the key
of the network can change. -/
theorem c91_power_cut {b : Build} {f m a p} {d0 d : Device} {evs : List Event} {es}
    (h0 : Device.boot b f m a p .ok .ok .ok = .ok d0) (h : d0.run b evs = .ok (d, es))
    (hw : ∀ ev ∈ evs, FlashWorks ev) (mem : Vector (Option Byte) MAX_FRAME_SIZE) (ssid psk : Str) (k1 k2 k3 : Commit) :
    ∃ d', d.step b (.boot none mem ssid psk k1 k2 k3) = .ok (d', []) ∧
      (("ssid", .text (some [])) ∉ settings d.nv.config ∨ ssid = [] → settings d'.nv.config = settings d.nv.config) ∧
      ∀ x ∈ settings d.nv.config, x.1 ≠ "ssid" → x.1 ≠ "psk" → x ∈ settings d'.nv.config := by
  obtain ⟨s', h1, h2⟩ := inFlash_run evs h hw (inFlash_device h0) b.world.chipId k1 k2
  have hr : NvReach s' := .boot h1
  obtain ⟨t1, _⟩ := (terminated_iff _).1 (c32_terminated hr)
  have ht : HasText s'.config.ssid (cstrOf s'.config.ssid.toList) := textOf_mem t1
  obtain ⟨s2, h3, h4⟩ := wifiSetup_rest hr ssid psk k3
  have hb : ∃ d', d.step b (.boot none mem ssid psk k1 k2 k3) = .ok (d', []) ∧ d'.nv = s2 := by
    simp only [Device.step, Device.boot, Option.getD_none, h1, ok_bind, h3]
    exact ⟨_, rfl, rfl⟩
  obtain ⟨d', h5, h6⟩ := hb
  refine ⟨d', h5, fun hn => ?_, settings_rest (by rw [h6, h4, h2])⟩
  obtain ⟨d2, h7, h8⟩ := boot_keeps (b := b) (d := d) (mem := mem) (a := ssid) (p := psk) (k3 := k3) h1 ht (by
    rcases hn with hn | hn
    · refine Or.inl fun e => hn ?_
      rw [e, h2] at ht
      have : textOf d.nv.config.ssid.toList = some [] := ht
      simp [settings, privateSettings, this]
    · exact Or.inr hn)
  rw [h5] at h7
  rw [(Prod.mk.inj (Except.ok.inj h7)).1, h8, h2]

/-- **C91**, `/reset`: whoever is let in can restart the device, and this changes nothing of what it holds until it
restarts; the others change nothing at all. -/
theorem c91_restart {b : Build} {d : Device} {e : Env} {r : Req} (hu : r.uri = bs "/reset") :
    (Guest d.nv.config r → d.handle b e r = .ok (d, [.send 200 (bs "Restart"), .restart])) ∧
      (Client d.nv.config r .none → d.handle b e r = .ok (d, [.needAuth])) := by
  constructor
  · rintro (hc | hc) <;>
    · unfold Device.handle
      rw [hu, route_reset]
      simp only [access_ok hc, ok_bind, pure_ok]
      rfl
  · intro hc
    unfold Device.handle
    rw [hu, route_reset]
    simp only [access_ok hc, ok_bind, pure_ok]
    rfl

/-- The hypotheses can be met, also by a device whose settings were changed on the way. -/
example (b : Build) (f : Arr 1024) (m) : ∃ d0 d es, Device.boot b f m [] [] .ok .ok .ok = .ok d0 ∧
    d0.run b [.cliWifi (bs "home") (bs "secret") .ok, .boot none m [] [] .ok .ok .ok] = .ok (d, es) ∧
    HasText d.nv.config.ssid (bs "home") ∧
    ∀ ev ∈ [Event.cliWifi (bs "home") (bs "secret") .ok, .boot none m [] [] .ok .ok .ok], FlashWorks ev := by
  obtain ⟨d0, h0, hr⟩ := device_boot_ok b f m [] [] .ok .ok .ok
  obtain ⟨d1, h1, h2, h3⟩ := c90_wifi (b := b) hr (bs "home") (bs "secret") .ok
  obtain ⟨d2, h4, h5⟩ := h3 rfl m [] [] .ok .ok .ok (Or.inr rfl)
  refine ⟨d0, d2, [[.restart], []], h0, by simp only [Device.run, h1, h4, ok_bind]; rfl, ?_, by simp [FlashWorks]⟩
  refine ssid_of_settings ?_
  rw [h5, h2]
  exact List.mem_cons_self

end Wifinfo
