import Verif.Props.Softap
import Verif.Props.Scan
import Verif.Props.Notice
import Verif.Props.PowerCut
import Verif.Props.CliSet
import Verif.Props.Serve

/-!
# C123: a new device is put into service with a browser

From an empty flash to the network of the house: the access point, the pages, the form, the restart.  Between two requests
anything may happen that is not a change of the settings (`Aside`).
-/

namespace Wifinfo
open Spec

namespace Spec

/-- Something that happens meanwhile: the meter talks, clients come and go, pages are read, files are uploaded, commands are typed;
nobody changes the settings and the device is not restarted. -/
def Aside : Event → Prop
  | .boot .. | .cliWifi .. | .cliAp .. | .cliReset .. => False
  | .handle r _ => r.uri ≠ bs "/config_form.json" ∧ r.uri ≠ bs "/factory_reset"
  | _ => True

end Spec

theorem aside_step {b : Build} {d d' : Device} {ev l} (h : d.step b ev = .ok (d', l)) (ha : Aside ev) (hs : NvReach d.nv) :
    d'.nv = d.nv := by
  cases ev with
  | boot => cases ha
  | cliWifi => cases ha
  | cliAp => cases ha
  | cliReset => cases ha
  | byte now k conn x =>
    obtain ⟨⟨tic, out⟩, -, h⟩ := bind_ok h
    exact (congrArg Device.nv (Prod.mk.inj (Except.ok.inj h)).1).symm
  | poll conn => exact (congrArg Device.nv (Prod.mk.inj (Except.ok.inj h)).1).symm
  | upload r u =>
    rw [← (upload_tic b d u).1]
    exact (congrArg (fun p => p.1.nv) (Except.ok.inj h)).symm
  | handle r e =>
    obtain ⟨-, -, h1, -⟩ := c71_changes hs h
    refine Classical.byContradiction fun hn => ?_
    rcases h1 hn with h2 | h2
    · exact ha.1 h2.1
    · exact ha.2 h2.1
  | cliSse t conn => exact (congrArg Device.nv (Prod.mk.inj (Except.ok.inj h)).1).symm
  | cliTimers => exact (congrArg Device.nv (Prod.mk.inj (Except.ok.inj h)).1).symm

theorem aside_run {b : Build} {evs : List Event} {d d' : Device} {ls} (h : d.run b evs = .ok (d', ls))
    (ha : ∀ ev ∈ evs, Aside ev) (hs : NvReach d.nv) : d'.nv = d.nv := by
  induction evs generalizing d ls with
  | nil => exact (congrArg Device.nv (Prod.mk.inj (Except.ok.inj h)).1).symm
  | cons ev r ih =>
    obtain ⟨⟨d1, l⟩, h1, h⟩ := bind_ok h
    obtain ⟨⟨d2, ls'⟩, h2, h⟩ := bind_ok h
    have e := aside_step h1 (ha ev (List.mem_cons_self ..)) hs
    obtain ⟨rfl, -⟩ := Prod.mk.inj (Except.ok.inj h)
    rw [ih h2 (fun x hx => ha x (List.mem_cons_of_mem _ hx)) (e ▸ hs), e]

/-! ## The factory settings on the page -/

theorem hexDigit_range {b : Byte} {n : Nat} (h : b = hexDigit (n % 16)) : 48 ≤ b ∧ b ≤ 102 ∧ b ≠ 92 := by
  subst h
  have : ∀ k < 16, 48 ≤ hexDigit k ∧ hexDigit k ≤ 102 ∧ hexDigit k ≠ 92 := by decide
  exact this _ (Nat.mod_lt _ (by decide))

theorem hex06_range (id : UInt32) : ∀ b ∈ hex06 id, 48 ≤ b ∧ b ≤ 102 ∧ b ≠ 92 := by
  intro b hb
  unfold hex06 at hb
  simp only at hb
  split at hb
  · simp only [List.mem_cons, List.not_mem_nil, or_false] at hb
    rcases hb with hb | hb | hb | hb | hb | hb <;> exact hexDigit_range hb
  · split at hb
    · simp only [List.mem_cons, List.not_mem_nil, or_false] at hb
      rcases hb with hb | hb | hb | hb | hb | hb | hb <;> exact hexDigit_range hb
    · simp only [List.mem_cons, List.not_mem_nil, or_false] at hb
      rcases hb with hb | hb | hb | hb | hb | hb | hb | hb <;> exact hexDigit_range hb

theorem factory_simple (id : UInt32) : SimpleTexts (factory (bs "WifInfo-" ++ hex06 id)) := by
  have hn : ∀ t : Str, t.all (fun b => 32 ≤ b && b < 128 && b != 34 && b != 92) = true →
      IsUtf8 t ∧ ∀ b ∈ t, 32 ≤ b ∧ b ≠ 34 ∧ b ≠ 92 := by
    intro t ht
    have h2 : ∀ b ∈ t, ((32 ≤ b ∧ b < 128) ∧ b ≠ 34) ∧ b ≠ 92 := fun b hb => by
      simpa only [Bool.and_eq_true, decide_eq_true_eq, bne_iff_ne] using List.all_eq_true.1 ht b hb
    exact ⟨ascii_utf8 fun b hb => (h2 b hb).1.1.2, fun b hb => ⟨(h2 b hb).1.1.1, (h2 b hb).1.2, (h2 b hb).2⟩⟩
  intro p hp t ht
  apply hn
  by_cases hq : p = ("host", .text (some (bs "WifInfo-" ++ hex06 id)))
  · subst hq
    obtain rfl := Option.some.inj (Setting.text.inj ht)
    rw [List.all_append, Bool.and_eq_true]
    refine ⟨by decide, List.all_eq_true.2 fun b hb => ?_⟩
    obtain ⟨h1, h2, h3⟩ := hex06_range id b hb
    have := byte_all (P := fun b => (!(decide (48 ≤ b) && decide (b ≤ 102) && b != 92) ||
      (decide (32 ≤ b) && decide (b < 128) && b != 34 && b != 92)) = true) (by decide +kernel) b
    simp only [h1, h2, decide_true, Bool.and_true, bne_iff_ne.2 h3, Bool.not_true, Bool.false_or, Bool.and_eq_true, decide_eq_true_eq] at this
    simpa using And.intro ⟨this.1, bne_iff_ne.1 this.2⟩ h3
  · have hm : p ∈ (factory []).eraseIdx 2 := by
      simp only [factory, List.mem_cons, List.not_mem_nil, or_false] at hp
      simp only [factory, List.eraseIdx, List.mem_cons, List.not_mem_nil, or_false]
      rcases hp with h | h | h | h
      · exact .inl h
      · exact .inr (.inl h)
      · exact absurd h hq
      · exact .inr (.inr h)
    have : ∀ p ∈ (factory []).eraseIdx 2, (match p.2 with
      | .text (some t) => t.all (fun b => 32 ≤ b && b < 128 && b != 34 && b != 92)
      | _ => true) = true := by decide +kernel
    have := this p hm
    rw [ht] at this
    exact this

theorem factory_numbers (n : Str) : NumbersInRange (factory n) ∧ PeriodsOffered (factory n) := by
  have hm : ∀ p ∈ factory n, ∀ v, p.2 = .num v → p ∈ (factory []) := by
    intro p hp v hv
    simp only [factory, List.mem_cons, List.not_mem_nil, or_false] at hp ⊢
    rcases hp with h | h | h | h
    · exact .inl h
    · exact .inr (.inl h)
    · rw [h] at hv; cases hv
    · exact .inr (.inr (.inr h))
  constructor
  · intro p hp v hv
    have : ∀ p ∈ factory [], (match p.2 with | .num v => decide (v ≤ maxOf p.1) | _ => true) = true := by decide +kernel
    have := this p (hm p hp v hv)
    rw [hv] at this
    simpa using this
  · intro p hp v hv ho
    have : ∀ p ∈ factory [], (match p.2 with
      | .num v => p.1 != "emon_freq" && p.1 != "jdom_freq" && p.1 != "httpreq_freq" ||
        decide (v ∈ [0, 15, 30, 60, 300, 900, 1800, 3600, 21600, 42300, 86400])
      | _ => true) = true := by decide +kernel
    have h1 := this p (hm p hp v hv)
    rw [hv] at h1
    simp only [Bool.or_eq_true, Bool.and_eq_true, bne_iff_ne, decide_eq_true_eq] at h1
    rcases h1 with ⟨⟨h1, h2⟩, h3⟩ | h1
    · rcases ho with ho | ho | ho
      · exact absurd ho h1
      · exact absurd ho h2
      · exact absurd ho h3
    · exact h1

/-! ## The requests -/

theorem route_config (cpu : Bool) (st : Str → Option Str) (m : Method) : route cpu st m (bs "/config.json") = .config := by
  unfold route
  rw [if_neg (by decide +kernel), if_neg (fun h => absurd h.2 (by decide +kernel)), if_neg (by decide +kernel),
    if_neg (by decide +kernel), if_neg (by decide +kernel), if_neg (by decide +kernel), if_neg (by decide +kernel), if_pos rfl]

theorem route_scan (cpu : Bool) (st : Str → Option Str) (m : Method) : route cpu st m (bs "/wifiscan.json") = .wifiscan := by
  unfold route
  rw [if_neg (by decide +kernel), if_neg (fun h => absurd h.2 (by decide +kernel)), if_neg (by decide +kernel),
    if_neg (by decide +kernel), if_neg (by decide +kernel), if_neg (by decide +kernel), if_neg (by decide +kernel),
    if_neg (by decide +kernel), if_neg (by decide +kernel), if_pos rfl]

theorem asked_config {b : Build} {d : Device} {e : Env} {r : Req} (hu : r.uri = bs "/config.json")
    (hc : Client d.nv.config r .full) {j : Str} (hj : d.nv.config.getJson false = .ok j) (h0 : j ≠ []) :
    d.handle b e r = .ok (d, [.send 200 j]) := by
  unfold Device.handle
  rw [hu, route_config]
  simp only [sendJson, client_auth hc, ok_bind, reduceCtorEq, if_false, decide_false, hj, if_neg h0, pure_ok, List.nil_append]

theorem asked_scan {b : Build} {d : Device} {e : Env} {r : Req} (hu : r.uri = bs "/wifiscan.json")
    (hc : Client d.nv.config r .full) :
    d.handle b e r = .ok (d, [.send 200 (wifiScanJson e.scan false)]) := by
  have h0 : wifiScanJson e.scan false ≠ [] := by
    unfold wifiScanJson
    simp [bs]
  unfold Device.handle
  rw [hu, route_scan]
  simp only [sendJson, client_auth hc, ok_bind, reduceCtorEq, if_false, decide_false, if_neg h0, pure_ok, List.nil_append]

/-! ## C123 -/

namespace Spec

/-- The post of the form, filled from the answer `cfg`, where the user has entered a network and its key. -/
def typedIn (w : Browser) (cfg name key : Str) : Args :=
  setText (setText (w.save false cfg) (bs "ssid") name) (bs "psk") key

/-- The settings of a new device of the chip `id` that was given a network and its key. -/
def servedWith (id : UInt32) (name key : Str) : List (String × Setting) :=
  withText (withText (factory (bs "WifInfo-" ++ hex06 id)) "ssid" name) "psk" key

end Spec

/-- A new device, at its first start. -/
theorem first_start (b : Build) (g : Arr 1024) (hg : ¬ Accepted g) (mem psk k1 k2 k3) :
    ∃ d0, Device.boot b g mem [] psk k1 k2 k3 = .ok d0 ∧ NvReach d0.nv ∧
      settings d0.nv.config = factory (bs "WifInfo-" ++ hex06 b.world.chipId) := by
  obtain ⟨s, h1, h2⟩ := c30_boot g hg b.world.chipId k1 k2
  have h3 : s.wifiSetup [] psk k3 = .ok s := by
    unfold Nv.wifiSetup
    split <;> simp [pure_ok]
  refine ⟨{ nv := s, timers := ticMakeTimers s.config, tic := Tic.init mem.toList, sse := Sse.init, updOk := false }, ?_, .boot h1, h2⟩
  unfold Device.boot
  rw [h1, ok_bind, h3, ok_bind]
  rfl

/-- **C123.** A device whose flash holds no settings, and whose SDK knows no network, opens a network without key named after
its chip.  From then on, whatever happens meanwhile, everybody is given the full page, the factory settings and the list of the
networks.  When the form is posted where somebody entered a network and its key, everything else being left as the page
shows it, the answer is `OK`; whatever happens meanwhile, everybody can then restart the device.  After the restart its settings are the
factory settings with that network and that key; it joins that network with that key and, if this fails, opens its own network again. -/
theorem c123_service (w : Browser) (b : Build) (g : Arr 1024) (hg : ¬ Accepted g) (mem psk k1 k2 k3) :
    ∃ d0 cfg, Device.boot b g mem [] psk k1 k2 k3 = .ok d0 ∧
      (∀ status, ∃ ok polls e, wifiConnect d0.nv.config status = .ok (ok, polls, e) ∧ ok = status (polls - 1) ∧
        ∀ sdk old, ok = false → apSeen sdk old e = ⟨bs "WifInfo-" ++ hex06 b.world.chipId, none⟩) ∧
      ∀ evs d1 ls, (∀ ev ∈ evs, Aside ev) → d0.run b evs = .ok (d1, ls) →
        (∀ r e, r.uri = bs "/" → ¬ Missing e.fileExists (bs "/index.html") →
          ∃ l, d1.handle b e r = .ok (d1, l) ∧ Page e.fileExists (bs "/index.html") l) ∧
        (∀ r e, r.uri = bs "/config.json" → d1.handle b e r = .ok (d1, [.send 200 cfg])) ∧
        (∀ r e, r.uri = bs "/wifiscan.json" → d1.handle b e r = .ok (d1, [.send 200 (wifiScanJson e.scan false)])) ∧
        ∀ name key, name ≠ [] → Typable name 32 → Typable key 64 → ∀ r e, r.uri = bs "/config_form.json" →
          r.args = typedIn w cfg name key → e.commit = .ok → ∃ d2, d1.handle b e r = .ok (d2, [.send 200 (bs "OK")]) ∧
          ∀ evs d3 ls, (∀ ev ∈ evs, Aside ev) → d2.run b evs = .ok (d3, ls) →
            (∀ r e, r.uri = bs "/reset" → d3.handle b e r = .ok (d3, [.send 200 (bs "Restart"), .restart])) ∧
            ∀ mem ssid psk k1 k2 k3, ∃ d4, d3.step b (.boot none mem ssid psk k1 k2 k3) = .ok (d4, []) ∧
              settings d4.nv.config = servedWith b.world.chipId name key ∧
              ∀ status, ∃ ok polls waits, ok = status (polls - 1) ∧ (ok = false → waits = 50) ∧
                wifiConnect d4.nv.config status = .ok (ok, polls,
                  .begin name (if key = [] then none else some key) :: List.replicate waits .wait ++
                    if ok then [.station] else [.disconnect, .softAp (bs "WifInfo-" ++ hex06 b.world.chipId) none]) := by
  obtain ⟨d0, h0, hr, hs⟩ := first_start b g hg mem psk k1 k2 k3
  have hsimple : SimpleTexts (settings d0.nv.config) := hs ▸ factory_simple _
  obtain ⟨hnum, hper⟩ := factory_numbers (bs "WifInfo-" ++ hex06 b.world.chipId)
  obtain ⟨cfg, hj, hp⟩ := c36_parses_partial hr
  have hcfg : cfg ≠ [] := by
    rintro rfl
    have := hp.2 (simple_plain hsimple)
    rw [show parseJson [] = none by decide +kernel] at this
    cases this
  have user : HasText d0.nv.config.username [] := by
    have := congrArg (fun l => l[6]?) hs
    simpa [settings, privateSettings, factory, HasText, bs] using this
  refine ⟨d0, cfg, h0, fun status => ?_, fun evs d1 ls ha hrun => ?_⟩
  · have := c103_open_partial hr (host := bs "WifInfo-" ++ hex06 b.world.chipId) (key := [])
      (by rw [hs]; exact List.mem_of_getElem? (i := 2) rfl) (by rw [hs]; exact List.mem_of_getElem? (i := 3) rfl)
      (fun h => absurd (congrArg List.length h) (by simp [bs])) (.inl rfl) status
    simpa using this
  have e1 : d1.nv = d0.nv := aside_run hrun ha hr
  have hc : ∀ r, Client d1.nv.config r .full := fun r => .anybody (e1 ▸ user)
  refine ⟨fun r e hu hm => (c72_home_partial hu).1 (hc r) hm, fun r e hu => asked_config hu (hc r) (e1 ▸ hj) hcfg,
    fun r e hu => asked_scan hu (hc r), fun name key n0 hn hk r e hu hargs hcom => ?_⟩
  have hsave : isPosted (typedIn w cfg name key) "save" = true := by
    unfold typedIn
    rw [(setText_posted _ "psk" "save" key).2, (setText_posted _ "ssid" "save" name).2]
    exact save_posted w false cfg
  obtain ⟨s', g1, g2⟩ := c33_form d0.nv _ .ok hsave
  obtain ⟨s1, g3, g4⟩ := c56_survives_reboot d0.nv _ false hsave
  obtain rfl : s' = s1 := by rw [g1] at g3; exact (Prod.mk.inj (Except.ok.inj g3)).1
  have hsv : settings s'.config = servedWith b.world.chipId name key := by
    obtain ⟨j', s2, f1, f2, f3⟩ := c75_untouched_partial w hr hsimple (hs ▸ hnum) (hs ▸ hper) .ok
    obtain rfl : j' = cfg := Except.ok.inj (f1.symm.trans hj)
    obtain ⟨s3, f4, f5⟩ := c33_form d0.nv (w.save false j') .ok (save_posted _ _ _)
    obtain rfl : s2 = s3 := by rw [f4] at f2; exact (Prod.mk.inj (Except.ok.inj f2)).1.symm
    unfold typedIn at g2
    rw [g2, settings_set _ _ _ (save_has w j').1 (save_has w j').2 hn hk, ← f5, f3, hs]
    rfl
  have hr' : NvReach s' := NvReach.step hr (step_form g1)
  have tx : ∀ i (h : i < (servedWith b.world.chipId name key).length), (settings s'.config)[i]? = some (servedWith b.world.chipId name key)[i] :=
    fun i h => by rw [hsv]; exact List.getElem?_eq_getElem h
  have t0 : HasText s'.config.ssid name := by
    have := tx 0 (by simp [servedWith, withText, factory])
    have e : some ("ssid", Setting.text (textOf s'.config.ssid.toList)) = some ("ssid", .text (some name)) := this
    simpa [HasText] using e
  have t1 : HasText s'.config.psk key := by
    have := tx 1 (by simp [servedWith, withText, factory])
    have e : some ("psk", Setting.text (textOf s'.config.psk.toList)) = some ("psk", .text (some key)) := this
    simpa [HasText] using e
  have t2 : HasText s'.config.host (bs "WifInfo-" ++ hex06 b.world.chipId) := by
    have := tx 2 (by simp [servedWith, withText, factory])
    have e : some ("host", Setting.text (textOf s'.config.host.toList)) =
      some ("host", .text (some (bs "WifInfo-" ++ hex06 b.world.chipId))) := this
    simpa [HasText] using e
  have t3 : HasText s'.config.apPsk [] := by
    have := tx 3 (by simp [servedWith, withText, factory])
    have e : some ("ap_psk", Setting.text (textOf s'.config.apPsk.toList)) = some ("ap_psk", .text (some (bs ""))) := this
    simpa [HasText, bs] using e
  have t6 : HasText s'.config.username [] := by
    have := tx 6 (by simp [servedWith, withText, factory])
    have e : some ("username", Setting.text (textOf s'.config.username.toList)) = some ("username", .text (some (bs ""))) := this
    simpa [HasText, bs] using e
  have hh := form_handled (b := b) (e := e) hu (hc r) (by decide) (s' := s') (code := 200)
    (by rw [hargs, hcom, e1]; exact g1)
  refine ⟨_, hh, fun evs d3 ls ha hrun => ?_⟩
  have e3 : d3.nv = s' := aside_run hrun ha hr'
  refine ⟨fun r e hu => (c91_restart hu).1 (.inl (.anybody (e3 ▸ t6))), fun mem ssid psk k1 k2 k3 => ?_⟩
  obtain ⟨s'', g5, g6⟩ := g4 b.world.chipId k1 k2
  obtain ⟨d4, b1, b2⟩ := boot_keeps (b := b) (d := d3) (mem := mem) (a := ssid) (p := psk) (k3 := k3) (t := name)
    (by rw [e3]; exact g5) (by rw [g6]; exact t0) (.inl n0)
  have e4 : d4.nv.config = s'.config := by rw [b2, g6]
  refine ⟨d4, b1, by rw [e4, hsv], fun status => ?_⟩
  rw [e4]
  obtain ⟨ok, polls, waits, pre, c1, c2, _, _, _, c3, c4⟩ := c53_bounded t0 t1 t2 t3 status
  rw [if_neg n0] at c2
  exact ⟨ok, polls, waits, c3, c4 n0, by rw [c1, c2]; rfl⟩

/-- **C123**, with the list of the networks: choosing a network of the list and entering its key is to post the form with both, when
the names in the neighbourhood can be shown (see C102). -/
theorem c123_chosen (w : Browser) (cfg : Str) (aps : List Ap) (hp : ∀ a ∈ aps, Plain a.ssid ∧ Plain a.bssid) {i : Nat}
    {a : Ap} (hi : aps[i]? = some a) (hu : IsUtf8 a.ssid) (key : Str) :
    w.choose cfg (wifiScanJson (some aps) false) i key = typedIn w cfg a.ssid key := by
  have hn : (w.networks (wifiScanJson (some aps) false))[i]? = some a.ssid := by
    rw [networks_eq w aps hp, List.getElem?_map, hi, Option.map_some, w.same _ hu]
  unfold Browser.choose
  rw [hn]
  rfl

theorem crc_chain (blk : Str) : ∀ (t : List UInt16) (c : UInt16),
    (∀ p ∈ (c :: t).zip t, blk.foldl crc16Update p.1 = p.2) →
    (List.replicate t.length blk).flatten.foldl crc16Update c = t.getLastD c
  | [], _, _ => rfl
  | v :: t, c, h => by
    have h1 : blk.foldl crc16Update c = v := h (c, v) (by simp)
    rw [List.length_cons, List.replicate_succ, List.flatten_cons, List.foldl_append, h1,
      crc_chain blk t v (fun p hp => h p (by rw [List.zip_cons_cons]; exact List.mem_cons_of_mem _ hp)), List.getLastD_cons]

/-- The checksums of 16, 32, …, 1024 bytes 255. -/
def blankSums : List UInt16 :=
  [0x80FE, 0x3000, 0x6470, 0xBF01, 0x907E, 0x9C71, 0x6D38, 0x8FFE, 0x344F, 0x6300, 0x5963, 0x93B1, 0x3927, 0x88E2, 0xFF00,
    0x30FF, 0xD471, 0x5B70, 0xAF7E, 0x8C0E, 0x7148, 0x62C7, 0x3BB0, 0xD74E, 0xBA62, 0x4AD3, 0x2A97, 0x31C4, 0xF7E3, 0x4FFE,
    0x648F, 0x0F00, 0x740F, 0xA371, 0x7D47, 0x938E, 0xD976, 0x6CFF, 0xED2D, 0x70B0, 0xE045, 0x9B52, 0x4626, 0x381C, 0xAB70,
    0xEB8E, 0xFB0E, 0x577F, 0x5E37, 0x6EC8, 0xCAF9, 0x3588, 0x01D3, 0x1D9C, 0x10F4, 0xFB16, 0x5D75, 0xFE3B, 0x136D, 0xC0FF,
    0x9081, 0x2C70, 0x8949, 0xB0FE]

/-- An erased flash holds no settings. -/
theorem blank_not_accepted : ¬ Accepted blankFlash := by
  have e : blankFlash.toList = (List.replicate blankSums.length (List.replicate 16 (255 : Byte))).flatten := by
    rw [show blankSums.length = 64 from rfl, List.flatten_replicate_replicate]
    simp only [blankFlash, Vector.toList_replicate]
  have h : ∀ p ∈ (0xFFFF :: blankSums).zip blankSums, (List.replicate 16 (255 : Byte)).foldl crc16Update p.1 = p.2 := by
    decide +kernel
  rw [accepted_iff, crcOf, e, crc_chain _ _ _ h]
  decide +kernel

/-- The hypotheses can be met: an erased flash, and between the requests a client that reads the version and a byte of noise. -/
example (b : Build) (mem psk) (e : Env) (conn : Nat → Bool) (now k creds) :
    ¬ Accepted blankFlash ∧ (∀ ev ∈ [Event.handle ⟨.get, bs "/version", [], creds, false⟩ e, .byte now k conn 65, .cliTimers], Aside ev) ∧
    Typable (bs "Livebox-1234") 32 ∧ Typable (bs "0123456789ABCDEF") 64 ∧
    ∃ d0 d1 ls, Device.boot b blankFlash mem [] psk .ok .ok .ok = .ok d0 ∧
      d0.run b [.handle ⟨.get, bs "/version", [], creds, false⟩ e, .cliTimers] = .ok (d1, ls) := by
  refine ⟨blank_not_accepted, ?_, by unfold Typable; decide +kernel, by unfold Typable; decide +kernel, ?_⟩
  · intro ev hev
    simp only [List.mem_cons, List.not_mem_nil, or_false] at hev
    rcases hev with rfl | rfl | rfl
    · exact ⟨show bs "/version" ≠ _ by decide +kernel, show bs "/version" ≠ _ by decide +kernel⟩
    · trivial
    · trivial
  · obtain ⟨d0, h0, -⟩ := first_start b blankFlash blank_not_accepted mem psk .ok .ok .ok
    refine ⟨d0, { d0 with timers := ticMakeTimers d0.nv.config }, [[.stream (bs "/version")], []], h0, ?_⟩
    have : d0.handle b e ⟨.get, bs "/version", [], creds, false⟩ = .ok (d0, [.stream (bs "/version")]) := by
      unfold Device.handle
      rw [route_version]
      rfl
    simp only [Device.run, Device.step, this, ok_bind, pure_ok]

/-- **C123**, the limit of the list: one network in the neighbourhood with a quotation mark in its name, and a new device
gives a list that no browser can show; the name must be entered by hand. -/
theorem c123_list_limit (w : Browser) (b : Build) (g : Arr 1024) (hg : ¬ Accepted g) (mem psk k1 k2 k3) :
    ∃ d0, Device.boot b g mem [] psk k1 k2 k3 = .ok d0 ∧ ∀ r e, r.uri = bs "/wifiscan.json" → e.scan = some neighbour →
      ∃ j, d0.handle b e r = .ok (d0, [.send 200 j]) ∧ w.networks j = [] := by
  obtain ⟨d0, cfg, h0, -, h⟩ := c123_service w b g hg mem psk k1 k2 k3
  obtain ⟨-, -, h2, -⟩ := h [] d0 [] (by simp) rfl
  exact ⟨d0, h0, fun r e hu hsc => ⟨_, h2 r e hu, by rw [hsc]; exact c102_refuted_quote w⟩⟩

end Wifinfo
