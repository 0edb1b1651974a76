import Verif.Props.Twin

/-!
# C140, over the restarts

`c140_session_partial` goes from one start of the device to the next.  Here the device restarts, is given a network or an access point on its
serial line, is reset, has its power cut, or has its flash written by something else, any number of times.
-/

namespace Wifinfo
namespace Spec

/-- What happens to a device: anything, with credentials that are right with both passwords or with none. -/
def InLife (q q' : Str) : Event → Prop
  | .handle r _ => Blind q q' r
  | _ => True

end Spec
open Spec

/-! ## Lemmas -/

/-- The passwords are the same, or those that they were. -/
def KeptPass (s s' t t' : Config) : Prop := t'.password = t.password ∨ (t.password = s.password ∧ t'.password = s'.password)

theorem kept_then {q q' : Str} {s s' t t' : Config} (hp : s'.password = s.password ∨ (HasText s.password q ∧ HasText s'.password q'))
    (h : KeptPass s s' t t') : t'.password = t.password ∨ (HasText t.password q ∧ HasText t'.password q') := by
  rcases h with h | ⟨h, h'⟩
  · exact .inl h
  · rcases hp with hp | ⟨p, p'⟩
    · exact .inl (h'.trans (hp.trans h.symm))
    · exact .inr ⟨by rw [h]; exact p, by rw [h']; exact p'⟩

theorem save_kept {s s' : Nv} (hs : NvReach s) (hs' : NvReach s') {c c' : Config} (k : Commit) (h : OtherKeys c c')
    (hc : c.password = s.config.password) (hc' : c'.password = s'.config.password) :
    OtherKeys (Nv.configSave { s with config := c } k).1.config (Nv.configSave { s' with config := c' } k).1.config ∧
      KeptPass s.config s'.config (Nv.configSave { s with config := c } k).1.config (Nv.configSave { s' with config := c' } k).1.config := by
  have r : ∀ {s : Nv}, NvReach s → s.config.password.setNul 31 = s.config.password := fun hs => congrArg Config.password (reach_secured hs)
  rw [Nv.configSave_eq, Nv.configSave_eq]
  refine ⟨other_save h, .inr ?_⟩
  dsimp only
  rw [save_password, save_password, hc, hc']
  exact ⟨r hs, r hs'⟩

theorem wifi_keys {s s' : Nv} (hs : NvReach s) (hs' : NvReach s') (h : OtherKeys s.config s'.config) (a p : Str) (k : Commit) :
    ∃ t t', s.wifiSetup a p k = .ok t ∧ s'.wifiSetup a p k = .ok t' ∧ OtherKeys t.config t'.config ∧
      KeptPass s.config s'.config t.config t'.config := by
  have e : s'.config.ssid = s.config.ssid := by obtain ⟨_, _, _, _, _, h⟩ := h; rw [h]
  unfold Nv.wifiSetup
  rw [e]
  by_cases h0 : s.config.ssid[0] = 0
  · rw [if_pos h0, if_pos h0]
    by_cases ha : a = []
    · rw [if_pos ha, if_pos ha]
      exact ⟨s, s', rfl, rfl, h, .inr ⟨rfl, rfl⟩⟩
    · rw [if_neg ha, if_neg ha, strncpyS_put _ _ (by decide), ok_bind, ok_bind]
      obtain ⟨k1, k2, k3, k4, x, hc⟩ := h
      by_cases hp : p ≠ []
      · rw [if_pos hp, if_pos hp, strncpyS_put _ _ (by decide), strncpyS_put _ _ (by decide), ok_bind, ok_bind]
        refine ⟨_, _, rfl, rfl, save_kept hs hs' k ?_ rfl rfl⟩
        rw [hc]
        exact ⟨_, k2, k3, k4, x, rfl⟩
      · rw [if_neg hp, if_neg hp, pure_ok, pure_ok, ok_bind, ok_bind]
        refine ⟨_, _, rfl, rfl, save_kept hs hs' k ?_ rfl rfl⟩
        rw [hc]
        exact ⟨_, k2, k3, k4, x, rfl⟩
  · rw [if_neg h0, if_neg h0]
    exact ⟨s, s', rfl, rfl, h, .inr ⟨rfl, rfl⟩⟩

theorem cliWifi_keys {s s' : Nv} (hs : NvReach s) (hs' : NvReach s') (h : OtherKeys s.config s'.config) (a p : Str) (k : Commit) :
    ∃ t t', s.cliWifi a p k = .ok t ∧ s'.cliWifi a p k = .ok t' ∧ OtherKeys t.config t'.config ∧
      KeptPass s.config s'.config t.config t'.config := by
  unfold Nv.cliWifi
  simp only [strncpyS_put _ _ (show 32 < 33 by decide), strncpyS_put _ _ (show 64 < 65 by decide), ok_bind]
  refine ⟨_, _, rfl, rfl, save_kept hs hs' k ?_ rfl rfl⟩
  obtain ⟨k1, k2, k3, k4, x, hc⟩ := h
  rw [hc]
  exact ⟨_, k2, k3, k4, x, rfl⟩

theorem cliAp_keys {s s' : Nv} (hs : NvReach s) (hs' : NvReach s') (h : OtherKeys s.config s'.config) (a p : Str) (k : Commit) :
    ∃ t t', s.cliAp a p k = .ok t ∧ s'.cliAp a p k = .ok t' ∧ OtherKeys t.config t'.config ∧
      KeptPass s.config s'.config t.config t'.config := by
  unfold Nv.cliAp
  simp only [strncpyS_put _ _ (show 16 < 17 by decide), strncpyS_put _ _ (show 64 < 65 by decide), ok_bind]
  refine ⟨_, _, rfl, rfl, save_kept hs hs' k ?_ rfl rfl⟩
  obtain ⟨k1, k2, k3, k4, x, hc⟩ := h
  rw [hc]
  exact ⟨k1, _, k3, k4, x, rfl⟩

/-- Settings that differ by their keys, the passwords being the same or `q` and `q'`. -/
def KeyTwins (q q' : Str) (c c' : Config) : Prop :=
  OtherKeys c c' ∧ (c'.password = c.password ∨ (HasText c.password q ∧ HasText c'.password q'))

theorem keyTwins_refl (q q' : Str) (c : Config) : KeyTwins q q' c c := ⟨other_refl c, .inl rfl⟩

/-- The network of the SDK, when it is taken. -/
theorem twin_wifi {R : Config → Config → Prop} {s s' t t' : Nv} {a p : Str} {k : Commit} (he : s'.config.ssid = s.config.ssid)
    (h : s.wifiSetup a p k = .ok t) (h' : s'.wifiSetup a p k = .ok t') (hr : R t.config t'.config)
    (hf : FlashTwin R s.ee.flash s'.ee.flash) : FlashTwin R t.ee.flash t'.ee.flash := by
  unfold Nv.wifiSetup at h h'
  rw [he] at h'
  by_cases h0 : s.config.ssid[0] = 0
  · rw [if_pos h0] at h h'
    by_cases ha : a = []
    · rw [if_pos ha] at h h'
      obtain rfl := Except.ok.inj h
      obtain rfl := Except.ok.inj h'
      exact hf
    · rw [if_neg ha] at h h'
      obtain ⟨_, _, h⟩ := bind_ok h
      obtain ⟨_, _, h'⟩ := bind_ok h'
      by_cases hp : p ≠ []
      · rw [if_pos hp] at h h'
        obtain ⟨_, _, h⟩ := bind_ok h
        obtain ⟨_, _, h'⟩ := bind_ok h'
        obtain rfl := Except.ok.inj h
        obtain rfl := Except.ok.inj h'
        exact twin_save s s' k hr
      · rw [if_neg hp] at h h'
        obtain rfl := Except.ok.inj h
        obtain rfl := Except.ok.inj h'
        exact twin_save s s' k hr
  · rw [if_neg h0] at h h'
    obtain rfl := Except.ok.inj h
    obtain rfl := Except.ok.inj h'
    exact hf

/-- Two devices that start with flashes that differ by their keys. -/
theorem boot_keys {b : Build} {f f' : Arr 1024} {q q' : Str} (h : FlashTwin (KeyTwins q q') f f') (k1 k2 : Commit)
    (m : Vector (Option Byte) MAX_FRAME_SIZE) (a p : Str) (k3 : Commit) :
    ∃ d d', Device.boot b f m a p k1 k2 k3 = .ok d ∧ Device.boot b f' m a p k1 k2 k3 = .ok d' ∧ NvReach d.nv ∧ NvReach d'.nv ∧
      StillKeys q q' d d' ∧ FlashTwin (KeyTwins q q') d.nv.ee.flash d'.nv.ee.flash := by
  obtain ⟨s, s', h1, h2, ⟨h3, h4⟩, h5⟩ := twin_setup (keyTwins_refl q q') h b.world.chipId k1 k2
  have n : NvReach s := .boot h1
  have n' : NvReach s' := .boot h2
  obtain ⟨t, t', g1, g2, g3, g4⟩ := wifi_keys n n' h3 a p k3
  have k := kept_then h4 g4
  have e : s'.config.ssid = s.config.ssid := by obtain ⟨_, _, _, _, _, h⟩ := h3; rw [h]
  unfold Device.boot
  rw [h1, h2, ok_bind, ok_bind, g1, g2, ok_bind, ok_bind]
  exact ⟨_, _, rfl, rfl, .step (op := .wifi a p k3) n g1, .step (op := .wifi a p k3) n' g2,
    ⟨⟨g3, other_timers g3, rfl, rfl, rfl⟩, k⟩, twin_wifi e g1 g2 ⟨g3, k⟩ h5⟩

theorem life_step {b : Build} {d d' : Device} {q q' : Str} {ev : Event} (hs : NvReach d.nv) (hs' : NvReach d'.nv)
    (hf : FlashTwin (KeyTwins q q') d.nv.ee.flash d'.nv.ee.flash) (hk : StillKeys q q' d d') (he : InLife q q' ev) {d1 l}
    (h : d.step b ev = .ok (d1, l)) :
    ∃ d1' l', d'.step b ev = .ok (d1', l') ∧ butConfig ev l = butConfig ev l' ∧ NvReach d1.nv ∧ NvReach d1'.nv ∧ StillKeys q q' d1 d1' ∧
      FlashTwin (KeyTwins q q') d1.nv.ee.flash d1'.nv.ee.flash := by
  have calm : InSession q q' ev → (∀ {d d1 : Device} {l}, NvReach d.nv → d.step b ev = .ok (d1, l) → d1.nv = d.nv) →
      ∃ d1' l', d'.step b ev = .ok (d1', l') ∧ butConfig ev l = butConfig ev l' ∧ NvReach d1.nv ∧ NvReach d1'.nv ∧ StillKeys q q' d1 d1' ∧
        FlashTwin (KeyTwins q q') d1.nv.ee.flash d1'.nv.ee.flash := by
    intro hc hn
    obtain ⟨d1', l', g1, g2, g3, g4, g5⟩ := step_keys hs hs' hk hc h
    refine ⟨d1', l', g1, g2, g3, g4, g5, ?_⟩
    rw [hn hs h, hn hs' g1]
    exact hf
  cases ev with
  | byte now k conn x =>
    refine calm trivial fun {d d1 l} _ h => ?_
    obtain ⟨⟨tic, out⟩, _, h⟩ := bind_ok h
    obtain ⟨rfl, _⟩ := Prod.mk.inj (Except.ok.inj h)
    rfl
  | poll conn =>
    refine calm trivial fun {d d1 l} _ h => ?_
    obtain ⟨rfl, _⟩ := Prod.mk.inj (Except.ok.inj h)
    rfl
  | upload r u =>
    refine calm trivial fun {d d1 l} _ h => ?_
    have g := congrArg Prod.fst (Except.ok.inj h)
    rw [← show (d.upload b u).1 = d1 from g]
    exact (upload_tic b d u).1
  | cliSse t conn =>
    refine calm trivial fun {d d1 l} _ h => ?_
    obtain ⟨rfl, _⟩ := Prod.mk.inj (Except.ok.inj h)
    rfl
  | cliTimers =>
    refine calm trivial fun {d d1 l} _ h => ?_
    obtain ⟨rfl, _⟩ := Prod.mk.inj (Except.ok.inj h)
    rfl
  | handle r e =>
    obtain ⟨d1', l', g1, g2, g3, g4, g5⟩ := step_keys (ev := .handle r e) hs hs' hk he h
    exact ⟨d1', l', g1, g2, g3, g4, g5, twin_handle (R := KeyTwins q q') hs hs' (auth_same hs hk.1 hk.2 he) h g1 ⟨g5.1.config, g5.2⟩ hf⟩
  | cliReset k =>
    obtain ⟨rfl, rfl⟩ := Prod.mk.inj (Except.ok.inj h)
    refine ⟨_, _, rfl, rfl, .step (op := .espReset k) hs rfl, .step (op := .espReset k) hs' rfl,
      ⟨⟨hk.1.config, hk.1.timers, hk.1.tic, hk.1.sse, hk.1.updOk⟩, hk.2⟩, .inl ?_⟩
    cases k <;> rfl
  | cliWifi a p k =>
    obtain ⟨t, t', g1, g2, g3, g4⟩ := cliWifi_keys hs hs' hk.1.config a p k
    simp only [Device.step, g1, g2, ok_bind] at h ⊢
    obtain ⟨rfl, rfl⟩ := Prod.mk.inj (Except.ok.inj h)
    refine ⟨_, _, rfl, rfl, .step (op := .cliWifi a p k) hs g1, .step (op := .cliWifi a p k) hs' g2,
      ⟨⟨g3, hk.1.timers, hk.1.tic, hk.1.sse, hk.1.updOk⟩, kept_then hk.2 g4⟩, ?_⟩
    have hr : KeyTwins q q' t.config t'.config := ⟨g3, kept_then hk.2 g4⟩
    obtain ⟨_, _, g1⟩ := bind_ok g1
    obtain ⟨_, _, g1⟩ := bind_ok g1
    obtain ⟨_, _, g2⟩ := bind_ok g2
    obtain ⟨_, _, g2⟩ := bind_ok g2
    obtain rfl := Except.ok.inj g1
    obtain rfl := Except.ok.inj g2
    exact twin_save d.nv d'.nv k hr
  | cliAp a p k =>
    obtain ⟨t, t', g1, g2, g3, g4⟩ := cliAp_keys hs hs' hk.1.config a p k
    simp only [Device.step, g1, g2, ok_bind] at h ⊢
    obtain ⟨rfl, rfl⟩ := Prod.mk.inj (Except.ok.inj h)
    refine ⟨_, _, rfl, rfl, .step (op := .cliAp a p k) hs g1, .step (op := .cliAp a p k) hs' g2,
      ⟨⟨g3, hk.1.timers, hk.1.tic, hk.1.sse, hk.1.updOk⟩, kept_then hk.2 g4⟩, ?_⟩
    have hr : KeyTwins q q' t.config t'.config := ⟨g3, kept_then hk.2 g4⟩
    obtain ⟨_, _, g1⟩ := bind_ok g1
    obtain ⟨_, _, g1⟩ := bind_ok g1
    obtain ⟨_, _, g2⟩ := bind_ok g2
    obtain ⟨_, _, g2⟩ := bind_ok g2
    obtain rfl := Except.ok.inj g1
    obtain rfl := Except.ok.inj g2
    exact twin_save d.nv d'.nv k hr
  | boot f m a p k1 k2 k3 =>
    have ht : FlashTwin (KeyTwins q q') (f.getD d.nv.ee.flash) (f.getD d'.nv.ee.flash) := by
      cases f with
      | none => exact hf
      | some f => exact .inl rfl
    obtain ⟨x, x', g1, g2, g3, g4, g5, g6⟩ := boot_keys (b := b) ht k1 k2 m a p k3
    simp only [Device.step, g1, g2, ok_bind] at h ⊢
    obtain ⟨rfl, rfl⟩ := Prod.mk.inj (Except.ok.inj h)
    exact ⟨_, _, rfl, rfl, g3, g4, g5, g6⟩

theorem life_run {b : Build} {q q' : Str} {evs : List Event} : ∀ {d d' dn : Device} {es}, NvReach d.nv → NvReach d'.nv →
    FlashTwin (KeyTwins q q') d.nv.ee.flash d'.nv.ee.flash → StillKeys q q' d d' → (∀ ev ∈ evs, InLife q q' ev) →
    d.run b evs = .ok (dn, es) →
    ∃ dn' es', d'.run b evs = .ok (dn', es') ∧ List.zipWith butConfig evs es = List.zipWith butConfig evs es' ∧ es'.length = es.length ∧
      StillKeys q q' dn dn' := by
  induction evs with
  | nil =>
    intro d d' dn es _ _ _ hk _ h
    obtain ⟨rfl, rfl⟩ := Prod.mk.inj (Except.ok.inj h)
    exact ⟨d', [], rfl, rfl, rfl, hk⟩
  | cons ev evs ih =>
    intro d d' dn es hs hs' hf hk he h
    obtain ⟨⟨d1, l⟩, h1, h⟩ := bind_ok h
    obtain ⟨⟨d2, l2⟩, h2, h⟩ := bind_ok h
    obtain ⟨rfl, rfl⟩ := Prod.mk.inj (Except.ok.inj h)
    obtain ⟨d1', l', g1, g2, n, n', k, f⟩ := life_step hs hs' hf hk (he ev List.mem_cons_self) h1
    obtain ⟨dn', es', g3, g4, g5, g6⟩ := ih n n' f k (fun x hx => he x (List.mem_cons_of_mem _ hx)) h2
    refine ⟨dn', l' :: es', ?_, ?_, ?_, g6⟩
    · simp only [Device.run, g1, g3, ok_bind]
      rfl
    · simp only [List.zipWith_cons_cons, g2, g4]
    · simp only [List.length_cons, g5]

theorem text_setNul {q : Str} {x : Arr 32} (h : HasText x q) : HasText (x.setNul 31) q := by
  have h0 : (0 : Byte) ∈ x.toList := by
    unfold HasText textOf at h
    split at h
    · assumption
    · exact nomatch h
  exact (textOf_setNul x 31 rfl h0).trans h

/-! ## C140 -/

/-- **C140 (partial)**, for the whole life of the device: two devices whose flash holds settings that differ only by the keys do the same,
whatever happens to them and however often they restart, but for the answers to `/config.json`.  A write to the flash that fails leaves the
same bytes in both.

Missing with respect to the property as stated: `/config.json`, for which it is false (`c140_refuted`). -/
theorem c140_life_partial {b : Build} {c c' : Config} {q q' : Str} (hc : OtherKeys c c') (hq : HasText c.password q)
    (hq' : HasText c'.password q') (m : Vector (Option Byte) MAX_FRAME_SIZE) (a p : Str) (k1 k2 k3 : Commit) {evs : List Event}
    (he : ∀ ev ∈ evs, InLife q q' ev) :
    ∃ d d', Device.boot b (eepromImage c.stamp) m a p k1 k2 k3 = .ok d ∧ Device.boot b (eepromImage c'.stamp) m a p k1 k2 k3 = .ok d' ∧
      ∀ {dn es}, d.run b evs = .ok (dn, es) → ∃ dn' es', d'.run b evs = .ok (dn', es') ∧ es'.length = es.length ∧
        List.zipWith butConfig evs es = List.zipWith butConfig evs es' ∧ OnlyKeys dn dn' := by
  have hv : ∀ c : Config, crcOf (eepromImage c.stamp).toList = 0 := fun c => by rw [eepromImage_toList, Config.crcOf_stamp]
  have ht : FlashTwin (KeyTwins q q') (eepromImage c.stamp) (eepromImage c'.stamp) := by
    refine .inr ⟨hv c, hv c', ?_⟩
    rw [eepromImage_toList, eepromImage_toList, Config.ofBytes_bytes, Config.ofBytes_bytes]
    exact ⟨other_save hc, .inr ⟨text_setNul hq, text_setNul hq'⟩⟩
  obtain ⟨d, d', g1, g2, g3, g4, g5, g6⟩ := boot_keys (b := b) ht k1 k2 m a p k3
  refine ⟨d, d', g1, g2, fun h => ?_⟩
  obtain ⟨dn', es', k1, k2, k3, k4⟩ := life_run g3 g4 g6 g5 he h
  exact ⟨dn', es', k1, k3, k2, k4.1⟩

/-- The hypotheses can be met: two Wi-Fi keys, a restart, a network given on the serial line, another restart and a request. -/
example (c : Config) (k : Arr 65) (q : Str) (hq : HasText c.password q) (m : Vector (Option Byte) MAX_FRAME_SIZE) (e : Env) :
    OtherKeys c { c with psk := k } ∧ HasText ({ c with psk := k } : Config).password q ∧
    ∀ ev ∈ [Event.boot none m [] [] .ok .ok .ok, .cliWifi (bs "Maison") (bs "secret") .ok, .boot none m (bs "x") [] .ok .ok .ok,
      .handle ⟨.get, bs "/system.json", [], fun _ _ => false, false⟩ e], InLife q q ev := by
  refine ⟨⟨_, _, _, _, _, rfl⟩, hq, fun ev h => ?_⟩
  simp only [List.mem_cons, List.not_mem_nil, or_false] at h
  rcases h with rfl | rfl | rfl | rfl
  · exact trivial
  · exact trivial
  · exact trivial
  · exact fun _ => rfl

end Wifinfo
