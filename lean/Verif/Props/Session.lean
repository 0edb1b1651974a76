import Verif.Props.Web

/-!
# C60: a condition on what happens only

`c60_run_partial` allows a run to stop at a state whose URL setting is not safe.  Here the condition is on
the events: what is posted, and what the flash holds when something else than the firmware has written it.
-/

namespace Wifinfo
open Spec

namespace Spec

/-- A flash content from which the device starts with a safe URL setting. -/
def SafeFlash (f : Arr 1024) : Prop :=
  ∀ id k1 k2 s, Nv.configSetup f id k1 k2 = .ok s → UrlSafe s.config

/-- A flash write that succeeds, or leaves such a content. -/
def SafeCommit : Commit → Prop
  | .ok => True
  | .failed f => SafeFlash f

/-- The URL posted, cut to 150 bytes, is shorter than that or does not end inside a name opened by a `~`. -/
def PostedSafe (a : Args) : Prop :=
  ((cstrOf (posted a "httpreq_url")).take 150).length < 150 ∨
    dangling none ((cstrOf (posted a "httpreq_url")).take 150) = false

/-- What may happen. -/
def Calm : Event → Prop
  | .boot flash _ _ _ _ k2 k3 => (∀ f, flash = some f → SafeFlash f) ∧ SafeCommit k2 ∧ SafeCommit k3
  | .handle r e => Fine (.handle r e) ∧ SafeCommit e.commit ∧ PostedSafe r.args
  | .cliWifi _ _ k => SafeCommit k
  | .cliAp _ _ k => SafeCommit k
  | .cliReset k => SafeCommit k
  | _ => True

end Spec

theorem Calm.fine {ev : Event} (h : Calm ev) : Fine ev := by
  cases ev with
  | handle r e => exact h.1
  | _ => trivial

/-- Running configuration and flash. -/
def NvSafe (s : Nv) : Prop := UrlSafe s.config ∧ SafeFlash s.ee.flash

theorem runsOff_set : ∀ (l : Str) (st : Option Nat) (n : Nat), n + 1 = l.length → runsOff st l = false →
    runsOff st (l.set n 0) = false := by
  intro l
  induction l with
  | nil => intro st n hn; simp at hn
  | cons b l ih =>
    intro st n hn h
    cases n with
    | zero =>
      obtain rfl : l = [] := by simpa using hn.symm
      cases st with
      | none => simp [runsOff]
      | some m =>
        simp only [runsOff] at h
        cases h
    | succ n =>
      have hn : n + 1 = l.length := by simpa using hn
      cases st with
      | none =>
        simp only [List.set_cons_succ, runsOff] at h ⊢
        split
        · rfl
        · rename_i hb
          rw [if_neg hb] at h
          exact ih _ _ hn h
      | some m =>
        simp only [List.set_cons_succ, runsOff] at h ⊢
        exact ih _ _ hn h

theorem urlSafe_saved {c : Config} (h : UrlSafe c) : UrlSafe c.stamp.securize := by
  have e : c.stamp.securize.httpreq.url.toList = c.httpreq.url.toList.set 150 0 := by
    rw [← setNul_toList]; rfl
  unfold UrlSafe
  rw [e]
  exact runsOff_set _ _ _ (by simp) h

theorem take_nul_drop {l : Str} (hm : 0 ∈ l) :
    l = l.takeWhile (· != 0) ++ 0 :: (l.dropWhile (· != 0)).tail := by
  induction l with
  | nil => cases hm
  | cons x l ih =>
    by_cases hx : x = 0
    · subst hx; rfl
    · rw [List.takeWhile_cons_of_pos (by simpa using hx), List.dropWhile_cons_of_pos (by simpa using hx),
        List.cons_append, ← ih ((List.mem_cons.1 hm).resolve_left fun h => hx h.symm)]

theorem urlSafe_factory {c : Config} {n : Str} (h : settings c = factory n) : UrlSafe c := by
  have h1 : textOf c.httpreq.url.toList =
      some (bs "/json.htm?type=command&param=udevice&idx=1&nvalue=0&svalue=$HCHP;$HCHC;0;0;$PAPP;0") := by
    have := congrArg (fun l => l[24]?) h
    simpa [settings, privateSettings, publicSettings, factory] using this
  unfold textOf at h1
  split at h1
  · rename_i hm
    have h2 := Option.some.inj h1
    refine urlSafe_of ⟨_, _, take_nul_drop hm, .inl ?_⟩
    · rw [h2]; decide +kernel
  · cases h1

theorem safeFlash_rejected {f : Arr 1024} (h : ¬ Accepted f) : SafeFlash f := by
  intro id k1 k2 s hs
  obtain ⟨c, h1, fl, h2⟩ := configSetup_invalid (fun h0 => h ((accepted_iff f).2 h0)) id k1 k2
  rw [h2] at hs
  rw [← Except.ok.inj hs]
  exact urlSafe_saved (urlSafe_factory h1)

theorem safeFlash_image {c : Config} (h : UrlSafe c.stamp.securize) : SafeFlash (eepromImage c.stamp) := by
  intro id k1 k2 s hs
  rw [configSetup_image] at hs
  rw [← Except.ok.inj hs]
  exact h

theorem save_safe {s : Nv} {k : Commit} (h : UrlSafe s.config.stamp.securize) (hk : SafeCommit k) :
    NvSafe (s.configSave k).1 := by
  rw [Nv.configSave_eq]
  refine ⟨h, ?_⟩
  cases k with
  | ok => exact safeFlash_image h
  | failed f => exact hk

theorem setup_safe {f : Arr 1024} {id k1 k2 s} (hf : SafeFlash f) (hk : SafeCommit k2)
    (h : Nv.configSetup f id k1 k2 = .ok s) : NvSafe s := by
  refine ⟨hf _ _ _ _ h, ?_⟩
  by_cases hc : crcOf f.toList = 0
  · rw [configSetup_valid hc] at h
    rw [← Except.ok.inj h]
    exact hf
  · obtain ⟨c, h1, fl, h2⟩ := configSetup_invalid hc id k1 k2
    rw [h2] at h
    rw [← Except.ok.inj h]
    cases k2 with
    | ok => exact safeFlash_image (urlSafe_saved (urlSafe_factory h1))
    | failed g => exact hk

theorem wifi_safe {s s' : Nv} {a p k} (hs : NvSafe s) (hk : SafeCommit k) (h : s.wifiSetup a p k = .ok s') :
    NvSafe s' := by
  unfold Nv.wifiSetup at h
  split at h
  · split at h
    · rw [← Except.ok.inj h]; exact hs
    · obtain ⟨x, _, h⟩ := bind_ok h
      have key : ∀ y, .ok ({ s with config := { s.config with ssid := x, psk := y } }.configSave k).1 =
          (.ok s' : Res Nv) → NvSafe s' := by
        intro y h
        rw [← Except.ok.inj h]
        exact save_safe (urlSafe_saved (c := { s.config with ssid := x, psk := y }) hs.1) hk
      dsimp only at h
      split at h
      · obtain ⟨y, _, h⟩ := bind_ok h
        exact key _ h
      · exact key _ h
  · rw [← Except.ok.inj h]; exact hs

theorem form_safe {s s' : Nv} {a r k code} (hs : NvSafe s) (hk : SafeCommit k) (hp : PostedSafe a)
    (h : s.handleForm a r k = .ok (s', code)) : NvSafe s' := by
  have h0 := h
  unfold Nv.handleForm at h
  split at h
  · obtain ⟨c, _, h⟩ := bind_ok h
    obtain ⟨e, _, h⟩ := bind_ok h
    obtain ⟨j, _, h⟩ := bind_ok h
    obtain ⟨q, _, h⟩ := bind_ok h
    rw [Nv.configSave_eq] at h
    obtain ⟨h1, h2⟩ := Prod.mk.inj (Except.ok.inj h)
    have hu : UrlSafe s'.config := c24_form_partial (by rw [h0, ← h2]; rfl) hp
    rw [← h1] at hu ⊢
    refine ⟨hu, ?_⟩
    cases k with
    | ok => exact safeFlash_image hu
    | failed f => exact hk
  · obtain ⟨h1, -⟩ := Prod.mk.inj (Except.ok.inj h)
    rw [← h1]; exact hs

theorem reset_safe {s s' : Nv} {id k} (hk : SafeCommit k) (h : s.configReset id k = .ok s') : NvSafe s' := by
  obtain ⟨c, h1, h2⟩ := configReset_ok s id k
  rw [h1] at h
  rw [← Except.ok.inj h]
  exact save_safe (urlSafe_saved (c := c) (urlSafe_factory h2)) hk

/-- What a request does to the stored configuration. -/
theorem handle_nv {b : Build} {d d' : Device} {e : Env} {r : Req} {l} (h : d.handle b e r = .ok (d', l)) :
    d'.nv = d.nv ∨ (∃ x code, d.nv.handleForm r.args x e.commit = .ok (d'.nv, code)) ∨
      d.nv.configReset b.world.chipId e.commit = .ok d'.nv := by
  have sj : ∀ {g}, sendJson d r g = .ok (d', l) → d' = d := by
    intro g h
    obtain ⟨⟨a, ef⟩, _, h⟩ := bind_ok h
    dsimp only at h
    split at h
    · exact ((Prod.mk.inj (Except.ok.inj h)).1).symm
    · obtain ⟨s, _, h⟩ := bind_ok h
      exact ((Prod.mk.inj (Except.ok.inj h)).1).symm
  unfold Device.handle at h
  split at h
  · obtain ⟨⟨ok, ef⟩, _, h⟩ := bind_ok h
    dsimp only at h
    split at h
    · split at h <;> (obtain ⟨rfl, _⟩ := Prod.mk.inj (Except.ok.inj h); exact .inl rfl)
    · obtain ⟨rfl, _⟩ := Prod.mk.inj (Except.ok.inj h); exact .inl rfl
  · obtain ⟨⟨ok, ef⟩, _, h⟩ := bind_ok h
    obtain ⟨rfl, _⟩ := Prod.mk.inj (Except.ok.inj h); exact .inl rfl
  · obtain ⟨⟨a, ef⟩, _, h⟩ := bind_ok h
    dsimp only at h
    split at h
    · obtain ⟨rfl, _⟩ := Prod.mk.inj (Except.ok.inj h); exact .inl rfl
    · obtain ⟨⟨nv, code⟩, h1, h⟩ := bind_ok h
      obtain ⟨rfl, _⟩ := Prod.mk.inj (Except.ok.inj h)
      exact .inr (.inl ⟨_, _, h1⟩)
  · rw [sj h]; exact .inl rfl
  · rw [sj h]; exact .inl rfl
  · rw [sj h]; exact .inl rfl
  · rw [sj h]; exact .inl rfl
  · rw [sj h]; exact .inl rfl
  · rw [sj h]; exact .inl rfl
  · rw [sj h]; exact .inl rfl
  · obtain ⟨⟨ok, ef⟩, _, h⟩ := bind_ok h
    dsimp only at h
    split at h
    · obtain ⟨nv, h1, h⟩ := bind_ok h
      obtain ⟨rfl, _⟩ := Prod.mk.inj (Except.ok.inj h)
      exact .inr (.inr h1)
    · obtain ⟨rfl, _⟩ := Prod.mk.inj (Except.ok.inj h); exact .inl rfl
  · obtain ⟨⟨ok, ef⟩, _, h⟩ := bind_ok h
    obtain ⟨rfl, _⟩ := Prod.mk.inj (Except.ok.inj h); exact .inl rfl
  · obtain ⟨rfl, _⟩ := Prod.mk.inj (Except.ok.inj h); exact .inl rfl
  · obtain ⟨⟨ok, ef⟩, _, h⟩ := bind_ok h
    obtain ⟨rfl, _⟩ := Prod.mk.inj (Except.ok.inj h); exact .inl rfl
  · obtain ⟨⟨ok, ef⟩, _, h⟩ := bind_ok h
    obtain ⟨rfl, _⟩ := Prod.mk.inj (Except.ok.inj h); exact .inl rfl
  · obtain ⟨x, _, h⟩ := bind_ok h
    obtain ⟨rfl, _⟩ := Prod.mk.inj (Except.ok.inj h); exact .inl rfl
  · obtain ⟨rfl, _⟩ := Prod.mk.inj (Except.ok.inj h); exact .inl rfl
  · obtain ⟨rfl, _⟩ := Prod.mk.inj (Except.ok.inj h); exact .inl rfl
  · obtain ⟨x, _, h⟩ := bind_ok h
    obtain ⟨rfl, _⟩ := Prod.mk.inj (Except.ok.inj h); exact .inl rfl

theorem zeros_rejected : ¬ Accepted (Vector.replicate 1024 0) := by
  rw [accepted_iff, Vector.toList_replicate]
  exact crc_zeros 1024 0xFFFF (by decide)

theorem boot_safe {b : Build} {f m a p k1 k2 k3 d} (hf : SafeFlash f) (h2 : SafeCommit k2) (h3 : SafeCommit k3)
    (h : Device.boot b f m a p k1 k2 k3 = .ok d) : NvSafe d.nv := by
  obtain ⟨x, g1, h⟩ := bind_ok h
  obtain ⟨y, g2, h⟩ := bind_ok h
  rw [← Except.ok.inj h]
  exact wifi_safe (setup_safe hf h2 g1) h3 g2

theorem step_safe {b : Build} {d d' : Device} {ev l} (hs : NvSafe d.nv) (hc : Calm ev)
    (h : d.step b ev = .ok (d', l)) : NvSafe d'.nv := by
  cases ev with
  | boot f m a p k1 k2 k3 =>
    obtain ⟨x, h1, h⟩ := bind_ok h
    obtain ⟨rfl, -⟩ := Prod.mk.inj (Except.ok.inj h)
    refine boot_safe ?_ hc.2.1 hc.2.2 h1
    cases f with
    | none => exact hs.2
    | some f => exact hc.1 f rfl
  | byte now k conn x =>
    obtain ⟨⟨tic, out⟩, _, h⟩ := bind_ok h
    obtain ⟨rfl, -⟩ := Prod.mk.inj (Except.ok.inj h)
    exact hs
  | poll conn => obtain ⟨rfl, -⟩ := Prod.mk.inj (Except.ok.inj h); exact hs
  | upload r u =>
    have e := Except.ok.inj h
    have h1 := (upload_tic b d u).1
    rw [e] at h1
    exact h1 ▸ hs
  | handle r e =>
    rcases handle_nv h with h1 | ⟨x, code, h1⟩ | h1
    · exact h1 ▸ hs
    · exact form_safe hs hc.2.1 hc.2.2 h1
    · exact reset_safe hc.2.1 h1
  | cliSse t conn => obtain ⟨rfl, -⟩ := Prod.mk.inj (Except.ok.inj h); exact hs
  | cliTimers => obtain ⟨rfl, -⟩ := Prod.mk.inj (Except.ok.inj h); exact hs
  | cliWifi a p k =>
    obtain ⟨nv, h1, h⟩ := bind_ok h
    obtain ⟨rfl, -⟩ := Prod.mk.inj (Except.ok.inj h)
    obtain ⟨x, _, h1⟩ := bind_ok h1
    obtain ⟨y, _, h1⟩ := bind_ok h1
    rw [← Except.ok.inj h1]
    exact save_safe (urlSafe_saved (c := { d.nv.config with ssid := x, psk := y }) hs.1) hc
  | cliAp a p k =>
    obtain ⟨nv, h1, h⟩ := bind_ok h
    obtain ⟨rfl, -⟩ := Prod.mk.inj (Except.ok.inj h)
    obtain ⟨x, _, h1⟩ := bind_ok h1
    obtain ⟨y, _, h1⟩ := bind_ok h1
    rw [← Except.ok.inj h1]
    exact save_safe (urlSafe_saved (c := { d.nv.config with host := x, apPsk := y }) hs.1) hc
  | cliReset k =>
    obtain ⟨rfl, -⟩ := Prod.mk.inj (Except.ok.inj h)
    refine ⟨hs.1, ?_⟩
    cases k with
    | ok => exact safeFlash_rejected zeros_rejected
    | failed f => exact hc

/-- **C60 (partial).**  A device that starts from a flash content with a safe URL (a blank or corrupted one
for instance) never faults, whatever happens afterwards, as long as no URL posted has 150 bytes and
ends inside a name opened by a `~`, the requests have a path and at most 255 arguments, there is a file system, and a
flash content put by something else than the firmware (an external tool, a write that fails) is of the
same kind.

Missing with respect to the property as stated: the other events, for which it is false (`c24_refuted`,
`c41_refuted`, `c61_system_safe`), and requests with an empty path. -/
theorem c60_session_partial {b : Build} {f m a p k1 k2 k3} (hf : SafeFlash f) (h2 : SafeCommit k2) (h3 : SafeCommit k3)
    (evs : List Event) (hc : ∀ ev ∈ evs, Calm ev) :
    ∃ d y, Device.boot b f m a p k1 k2 k3 = .ok d ∧ d.run b evs = .ok y := by
  obtain ⟨d, h0, _⟩ := device_boot_ok b f m a p k1 k2 k3
  have key : ∀ (evs : List Event) {d : Device} {up h fs}, d.Inv b.world up h fs → NvSafe d.nv →
      (∀ ev ∈ evs, Calm ev) → ∃ y, d.run b evs = .ok y := by
    intro evs
    induction evs with
    | nil => intro d up h fs _ _ _; exact ⟨_, rfl⟩
    | cons ev evs ih =>
      intro d up h fs hd hs hc
      have hev := hc ev (by simp)
      obtain ⟨⟨d1, l⟩, g1⟩ := c60_step hd ev (Calm.fine hev) hs.1
      obtain ⟨fs', hd'⟩ := step_inv hd g1
      obtain ⟨⟨d2, ls⟩, g2⟩ := ih hd' (step_safe hs hev g1) fun e he => hc e (by simp [he])
      exact ⟨(d2, l :: ls), by simp only [Device.run, g1, g2, ok_bind, pure_ok]⟩
  obtain ⟨y, hy⟩ := key evs (boot_inv h0) (boot_safe hf h2 h3 h0) hc
  exact ⟨d, y, h0, hy⟩

/-- A flash full of zeros, then a form post with a URL that has a `~`, a failed write that leaves zeros, and
a restart. -/
example (r : Req) (e : Env) (m : Vector (Option Byte) MAX_FRAME_SIZE) (hu : r.uri = bs "/config_form.json")
    (ha : r.args = [(bs "save", bs "1"), (bs "httpreq_url", bs "/x?p=~PAPP~")]) (hf : e.sys.fsTotal = 1000)
    (hk : e.commit = .failed (Vector.replicate 1024 0)) :
    SafeFlash (Vector.replicate 1024 0) ∧
      ∀ ev ∈ [Event.handle r e, .boot none m [] [] .ok .ok .ok], Calm ev := by
  have hz := safeFlash_rejected zeros_rejected
  refine ⟨hz, ?_⟩
  intro ev hev
  simp only [List.mem_cons, List.not_mem_nil, or_false] at hev
  rcases hev with rfl | rfl
  · refine ⟨⟨?_, ?_, ?_⟩, ?_, .inl ?_⟩
    · rw [hu]; decide +kernel
    · rw [ha]; decide
    · rw [hf]; decide
    · rw [hk]; exact hz
    · rw [ha]; decide +kernel
  · exact ⟨fun _ h => (nomatch h), trivial, trivial⟩

end Wifinfo
