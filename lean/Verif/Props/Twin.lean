import Verif.Props.Keys

/-!
# Two devices and their flash

Lemmas for C140 and C141, which compare two devices whose settings differ: the settings in the flash of the two devices, through saves,
failed writes, erasures and restarts.
-/

namespace Wifinfo
open Spec

/-- The flash of two devices: the same, or valid settings that are related. -/
def FlashTwin (R : Config → Config → Prop) (f f' : Arr 1024) : Prop :=
  f = f' ∨ (crcOf f.toList = 0 ∧ crcOf f'.toList = 0 ∧ R (Config.ofBytes f.toList).securize (Config.ofBytes f'.toList).securize)

theorem setup_total (f : Arr 1024) (id : UInt32) (k1 k2 : Commit) : ∃ t, Nv.configSetup f id k1 k2 = .ok t := by
  by_cases hc : crcOf f.toList = 0
  · exact ⟨_, configSetup_valid hc id k1 k2⟩
  · obtain ⟨c, _, fl, h⟩ := configSetup_invalid hc id k1 k2
    exact ⟨_, h⟩

/-- A start. -/
theorem twin_setup {R : Config → Config → Prop} (hr : ∀ c, R c c) {f f' : Arr 1024} (h : FlashTwin R f f') (id : UInt32) (k1 k2 : Commit) :
    ∃ t t', Nv.configSetup f id k1 k2 = .ok t ∧ Nv.configSetup f' id k1 k2 = .ok t' ∧ R t.config t'.config ∧
      FlashTwin R t.ee.flash t'.ee.flash := by
  rcases h with rfl | ⟨h1, h2, h3⟩
  · obtain ⟨t, h⟩ := setup_total f id k1 k2
    exact ⟨t, t, h, h, hr _, .inl rfl⟩
  · exact ⟨_, _, configSetup_valid h1 id k1 k2, configSetup_valid h2 id k1 k2, h3, .inr ⟨h1, h2, h3⟩⟩

/-- A save, the write of which succeeds on both devices or leaves the same bytes in both. -/
theorem twin_save {R : Config → Config → Prop} (s s' : Nv) {c c' : Config} (k : Commit)
    (h : R (Nv.configSave { s with config := c } k).1.config (Nv.configSave { s' with config := c' } k).1.config) :
    FlashTwin R (Nv.configSave { s with config := c } k).1.ee.flash (Nv.configSave { s' with config := c' } k).1.ee.flash := by
  rw [Nv.configSave_eq, Nv.configSave_eq] at h ⊢
  cases k with
  | failed f => exact .inl (Eq.refl f)
  | ok =>
    have hv : ∀ c : Config, crcOf (eepromImage c.stamp).toList = 0 := fun c => by rw [eepromImage_toList, Config.crcOf_stamp]
    refine .inr ⟨hv c, hv c', ?_⟩
    show R (Config.ofBytes (eepromImage c.stamp).toList).securize (Config.ofBytes (eepromImage c'.stamp).toList).securize
    rw [eepromImage_toList, eepromImage_toList, Config.ofBytes_bytes, Config.ofBytes_bytes]
    exact h

theorem twin_form {R : Config → Config → Prop} {s s' t t' : Nv} {a : Args} {restricted : Bool} {k : Commit} {n n' : Nat}
    (h : s.handleForm a restricted k = .ok (t, n)) (h' : s'.handleForm a restricted k = .ok (t', n')) (hr : R t.config t'.config)
    (hf : FlashTwin R s.ee.flash s'.ee.flash) : FlashTwin R t.ee.flash t'.ee.flash := by
  by_cases hp : isPosted a "save" = true
  · obtain ⟨c, h1, _⟩ := handleForm_ok s a restricted k hp
    obtain ⟨c', h1', _⟩ := handleForm_ok s' a restricted k hp
    rw [h1] at h
    rw [h1'] at h'
    obtain ⟨rfl, _⟩ := Prod.mk.inj (Except.ok.inj h)
    obtain ⟨rfl, _⟩ := Prod.mk.inj (Except.ok.inj h')
    exact twin_save s s' k hr
  · have hp' : ¬ hasArg a "save" = true := by rw [hasArg_eq]; exact hp
    unfold Nv.handleForm at h h'
    rw [if_neg hp'] at h h'
    obtain ⟨rfl, _⟩ := Prod.mk.inj (Except.ok.inj h)
    obtain ⟨rfl, _⟩ := Prod.mk.inj (Except.ok.inj h')
    exact hf

/-- A request. -/
theorem twin_handle {R : Config → Config → Prop} {b : Build} {d d' d1 d1' : Device} {e : Env} {r : Req} {l l'} (hs : NvReach d.nv)
    (hs' : NvReach d'.nv) (ha : getAuth d'.nv.config r = getAuth d.nv.config r) (h : d.handle b e r = .ok (d1, l))
    (h' : d'.handle b e r = .ok (d1', l')) (hr : R d1.nv.config d1'.nv.config) (hf : FlashTwin R d.nv.ee.flash d'.nv.ee.flash) :
    FlashTwin R d1.nv.ee.flash d1'.nv.ee.flash := by
  by_cases hu : r.uri = bs "/config_form.json"
  · unfold Device.handle at h h'
    rw [hu, route_cfg_form] at h h'
    dsimp only at h h'
    rw [ha] at h'
    obtain ⟨⟨a, ef⟩, ha', h⟩ := bind_ok h
    rw [ha', ok_bind] at h'
    dsimp only at h h'
    by_cases hn : a = .none
    · rw [if_pos hn] at h h'
      obtain ⟨rfl, _⟩ := Prod.mk.inj (Except.ok.inj h)
      obtain ⟨rfl, _⟩ := Prod.mk.inj (Except.ok.inj h')
      exact hf
    · rw [if_neg hn] at h h'
      obtain ⟨⟨t, n⟩, g, h⟩ := bind_ok h
      obtain ⟨⟨t', n'⟩, g', h'⟩ := bind_ok h'
      obtain ⟨rfl, _⟩ := Prod.mk.inj (Except.ok.inj h)
      obtain ⟨rfl, _⟩ := Prod.mk.inj (Except.ok.inj h')
      exact twin_form g g' hr hf
  · by_cases hu2 : r.uri = bs "/factory_reset"
    · have full : accessFull d'.nv.config r = accessFull d.nv.config r := by unfold accessFull; rw [ha]
      unfold Device.handle at h h'
      rw [hu2, route_factory] at h h'
      dsimp only at h h'
      rw [full] at h'
      obtain ⟨⟨a, ef⟩, ha', h⟩ := bind_ok h
      rw [ha', ok_bind] at h'
      dsimp only at h h'
      cases a with
      | false =>
        obtain ⟨rfl, _⟩ := Prod.mk.inj (Except.ok.inj h)
        obtain ⟨rfl, _⟩ := Prod.mk.inj (Except.ok.inj h')
        exact hf
      | true =>
        simp only [if_true] at h h'
        obtain ⟨t, g, h⟩ := bind_ok h
        obtain ⟨t', g', h'⟩ := bind_ok h'
        obtain ⟨rfl, _⟩ := Prod.mk.inj (Except.ok.inj h)
        obtain ⟨rfl, _⟩ := Prod.mk.inj (Except.ok.inj h')
        obtain ⟨c, hc⟩ := reset_fixed b.world.chipId
        rw [hc] at g g'
        obtain rfl := Except.ok.inj g
        obtain rfl := Except.ok.inj g'
        exact twin_save d.nv d'.nv e.commit hr
    · have key : ∀ {d d1 : Device} {l}, NvReach d.nv → d.handle b e r = .ok (d1, l) → d1.nv = d.nv := by
        intro d d1 l hs h
        obtain ⟨_, _, h1, _⟩ := c71_changes hs h
        refine Classical.byContradiction fun hn => ?_
        rcases h1 hn with h | h
        · exact hu h.1
        · exact hu2 h.1
      rw [key hs h, key hs' h']
      exact hf

end Wifinfo
