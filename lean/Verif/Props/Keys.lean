import Verif.Props.Safe
import Verif.Props.Service

/-!
# C140: the keys stay in the device

The keys are those of the Wi-Fi network, of the access point and of the updates over the air, and the password of the pages.  Nothing that
leaves the device tells anything of them if two devices that differ only by their keys cannot be told apart.
-/

namespace Wifinfo
namespace Spec

/-- The same settings, but for the keys and the checksum. -/
def OtherKeys (c c' : Config) : Prop :=
  ∃ psk apPsk otaAuth password crc,
    c' = { c with psk := psk, apPsk := apPsk, otaAuth := otaAuth, password := password, crc := crc }

/-- Two devices that differ only by their keys. -/
structure OnlyKeys (d d' : Device) : Prop where
  config : OtherKeys d.nv.config d'.nv.config
  timers : d'.timers = d.timers
  tic : d'.tic = d.tic
  sse : d'.sse = d.sse
  updOk : d'.updOk = d.updOk

/-- The passwords of the two devices are the same, or `q` and `q'`. -/
def Passwords (q q' : Str) (d d' : Device) : Prop :=
  d'.nv.config.password = d.nv.config.password ∨ (HasText d.nv.config.password q ∧ HasText d'.nv.config.password q')

/-- The two devices still differ only by their keys. -/
def StillKeys (q q' : Str) (d d' : Device) : Prop := OnlyKeys d d' ∧ Passwords q q' d d'

/-- A request whose credentials, if any, are right with both passwords or with none. -/
def Blind (q q' : Str) (r : Req) : Prop := ∀ u, r.creds u q = r.creds u q'

/-- Same fault, or same effects and states that are related. -/
def Untold (R : Device → Device → Prop) (x y : Res (Device × List Eff)) : Prop :=
  (∃ f, x = .error f ∧ y = .error f) ∨ ∃ d d' l, x = .ok (d, l) ∧ y = .ok (d', l) ∧ R d d'

/-- What happens between two starts. -/
def InSession (q q' : Str) : Event → Prop
  | .byte .. | .poll .. | .upload .. | .cliSse .. | .cliTimers => True
  | .handle r _ => Blind q q' r
  | .boot .. | .cliWifi .. | .cliAp .. | .cliReset .. => False

/-- The effects of an event, without the answers to the requests for `/config.json`. -/
def butConfig : Event → List Eff → List Eff
  | .handle r _, l => if r.uri = bs "/config.json" then [] else l
  | _, l => l

end Spec
open Spec

/-! ## Lemmas -/

/-- The array after `strncpy_s`. -/
def putText {n} (dest : Arr n) (src : Str) (k : Nat) : Arr n :=
  Vector.ofFn fun i => if i.val < k then (cstrOf src).getD i.val 0 else if i.val = k then 0 else dest[i]

theorem strncpyS_put {n} (dest : Arr n) (src : Str) {k : Nat} (h : k < n) : strncpyS dest src k = .ok (putText dest src k) := by
  rw [strncpyS, if_pos h]; rfl

theorem putText_full {n} (x y : Arr n) (src : Str) {k : Nat} (h : k + 1 = n) : putText x src k = putText y src k := by
  apply Vector.ext
  intro i hi
  simp only [putText, Vector.getElem_ofFn]
  by_cases h1 : i < k
  · rw [if_pos h1, if_pos h1]
  · rw [if_neg h1, if_neg h1, if_pos (by omega), if_pos (by omega)]

theorem other_refl (c : Config) : OtherKeys c c := ⟨_, _, _, _, _, rfl⟩

theorem other_save {c c' : Config} (h : OtherKeys c c') : OtherKeys c.stamp.securize c'.stamp.securize := by
  obtain ⟨a, b, o, p, x, rfl⟩ := h
  exact ⟨a.setNul 64, b.setNul 64, o.setNul 64, p.setNul 31, _, rfl⟩

theorem other_timers {c c' : Config} (h : OtherKeys c c') : ticMakeTimers c' = ticMakeTimers c := by
  obtain ⟨a, b, o, p, x, rfl⟩ := h
  rfl

theorem other_decode {c c' : Config} (h : OtherKeys c c') (t : Tic) (w : World) (tm : Timers) (now : TimeVal) (k : Tick) (x : Byte) :
    t.decode w c' tm now k x = t.decode w c tm now k x := by
  obtain ⟨a, b, o, p, y, rfl⟩ := h
  rfl

/-- The settings after the private part of the form. -/
def filledIn (c : Config) (a : Args) : Config :=
  { c with
    ssid := putText c.ssid (getArg a "ssid") 32, psk := putText c.psk (getArg a "psk") 64,
    host := putText c.host (getArg a "host") 16, apPsk := putText c.apPsk (getArg a "ap_psk") 64,
    otaAuth := putText c.otaAuth (getArg a "ota_auth") 64, otaPort := toU16 (validateInt (getArg a "ota_port") 0 65535 8266),
    username := putText c.username (getArg a "username") 31, password := putText c.password (getArg a "password") 31 }

theorem formFull_eq (c : Config) (a : Args) : c.formFull a = .ok (filledIn c a) := by
  unfold Config.formFull
  rw [strncpyS_put _ _ (by decide), ok_bind, strncpyS_put _ _ (by decide), ok_bind, strncpyS_put _ _ (by decide), ok_bind,
    strncpyS_put _ _ (by decide), ok_bind, strncpyS_put _ _ (by decide), ok_bind]
  dsimp only
  rw [strncpyS_put _ _ (by decide), ok_bind, strncpyS_put _ _ (by decide), ok_bind]
  rfl

theorem filled_parts (c : Config) (a : Args) :
    (filledIn c a).emoncms = c.emoncms ∧ (filledIn c a).jeedom = c.jeedom ∧ (filledIn c a).httpreq = c.httpreq := by
  unfold filledIn
  exact ⟨rfl, rfl, rfl⟩

theorem other_filled {c c' : Config} (h : OtherKeys c c') (a : Args) :
    OtherKeys (filledIn c a) (filledIn c' a) ∧ (filledIn c' a).password = (filledIn c a).password := by
  obtain ⟨k1, k2, k3, k4, x, rfl⟩ := h
  exact ⟨⟨_, _, _, _, _, rfl⟩, putText_full _ _ _ rfl⟩

/-- The settings after the public part of the form. -/
def openPart (c : Config) (a : Args) (em : EmoncmsConfig) (je : JeedomConfig) (ht : HttpreqConfig) : Config :=
  { c with
    sseFreq := toU16 (validateInt (getArg a "sse_freq") 0 360 0)
    options := if hasArg a "cfg_led_tinfo" then 0 ||| 1 else 0
    emoncms := em, jeedom := je, httpreq := ht }

theorem form_save {s : Nv} {a : Args} {restricted : Bool} {k : Commit} {c : Config} (h : hasArg a "save" = true) {em je ht}
    (hc : (if restricted then pure s.config else s.config.formFull a : Res Config) = .ok c)
    (h1 : c.emoncms.form a = .ok em) (h2 : c.jeedom.form a = .ok je) (h3 : c.httpreq.form a = .ok ht) :
    s.handleForm a restricted k = .ok ((Nv.configSave { s with config := openPart c a em je ht } k).1, 200) := by
  unfold Nv.handleForm
  rw [if_pos h, hc, ok_bind]
  dsimp only
  rw [h1, ok_bind, h2, ok_bind, h3, ok_bind, Nv.configSave_eq, Nv.configSave_eq]
  rfl

theorem other_open {c c' : Config} (h : OtherKeys c c') (a : Args) (em je ht) :
    OtherKeys (openPart c a em je ht) (openPart c' a em je ht) := by
  obtain ⟨k1, k2, k3, k4, x, rfl⟩ := h
  exact ⟨_, _, _, _, _, rfl⟩

theorem other_parts {c c' : Config} (h : OtherKeys c c') :
    c'.emoncms = c.emoncms ∧ c'.jeedom = c.jeedom ∧ c'.httpreq = c.httpreq ∧ c'.username = c.username := by
  obtain ⟨k1, k2, k3, k4, x, rfl⟩ := h
  exact ⟨rfl, rfl, rfl, rfl⟩

/-- The public part of the form leaves the password. -/
theorem open_password (c : Config) (a : Args) (em je ht) : (openPart c a em je ht).password = c.password := rfl

/-- The password after a save. -/
theorem save_password (c : Config) : c.stamp.securize.password = c.password.setNul 31 := rfl

/-- The form, on two devices that differ by their keys: they still do, and the passwords are kept or are the one that is posted. -/
theorem form_keys {s s' : Nv} (hs : NvReach s) (hs' : NvReach s') (h : OtherKeys s.config s'.config) (a : Args) (restricted : Bool)
    (k : Commit) : ∃ t t' n, s.handleForm a restricted k = .ok (t, n) ∧ s'.handleForm a restricted k = .ok (t', n) ∧
      OtherKeys t.config t'.config ∧
      (t'.config.password = t.config.password ∨
        (t.config.password = s.config.password ∧ t'.config.password = s'.config.password)) := by
  cases hsave : hasArg a "save" with
  | false =>
    refine ⟨s, s', 400, ?_, ?_, h, .inr ⟨rfl, rfl⟩⟩ <;>
    · unfold Nv.handleForm
      rw [if_neg (by rw [hsave]; decide)]
      rfl
  | true =>
    obtain ⟨p1, p2, p3, _⟩ := other_parts h
    obtain ⟨em, g1, _⟩ := s.config.emoncms.form_ok a
    obtain ⟨je, g2, _⟩ := s.config.jeedom.form_ok a
    obtain ⟨ht, g3, _⟩ := s.config.httpreq.form_ok a
    cases restricted with
    | true =>
      have f := form_save (s := s) (restricted := true) (k := k) (c := s.config) hsave rfl g1 g2 g3
      have f' := form_save (s := s') (restricted := true) (k := k) (c := s'.config) hsave rfl (by rw [p1]; exact g1) (by rw [p2]; exact g2)
        (by rw [p3]; exact g3)
      refine ⟨_, _, _, f, f', ?_, .inr ?_⟩
      · rw [Nv.configSave_eq, Nv.configSave_eq]
        exact other_save (other_open h a em je ht)
      · rw [Nv.configSave_eq, Nv.configSave_eq]
        have r : ∀ {s : Nv}, NvReach s → s.config.password.setNul 31 = s.config.password := fun hs => congrArg Config.password (reach_secured hs)
        dsimp only
        rw [save_password, save_password, open_password, open_password]
        exact ⟨r hs, r hs'⟩
    | false =>
      obtain ⟨e1, e2, e3⟩ := filled_parts s.config a
      obtain ⟨e1', e2', e3'⟩ := filled_parts s'.config a
      have f := form_save (s := s) (restricted := false) (k := k) (c := filledIn s.config a) hsave (formFull_eq _ _)
        (by rw [e1]; exact g1) (by rw [e2]; exact g2) (by rw [e3]; exact g3)
      have f' := form_save (s := s') (restricted := false) (k := k) (c := filledIn s'.config a) hsave (formFull_eq _ _)
        (by rw [e1', p1]; exact g1) (by rw [e2', p2]; exact g2) (by rw [e3', p3]; exact g3)
      obtain ⟨o1, o2⟩ := other_filled h a
      refine ⟨_, _, _, f, f', ?_, .inl ?_⟩
      · rw [Nv.configSave_eq, Nv.configSave_eq]
        exact other_save (other_open o1 a em je ht)
      · rw [Nv.configSave_eq, Nv.configSave_eq]
        dsimp only
        rw [save_password, save_password, open_password, open_password, o2]

/-- What the device compares the credentials with: no request tells the two devices apart. -/
theorem pass_same {d d' : Device} {q q' : Str} {r : Req} (hs : NvReach d.nv) (hp : Passwords q q' d d') (hb : Blind q q' r) :
    ∃ x x', d.nv.config.password.cstr = .ok x ∧ d'.nv.config.password.cstr = .ok x' ∧ ∀ u, r.creds u x = r.creds u x' := by
  rcases hp with h | ⟨h, h'⟩
  · obtain ⟨_, _, _, _, _, _, t2, _⟩ := (terminated_iff _).1 (c32_terminated hs)
    have hp : HasText d.nv.config.password (cstrOf d.nv.config.password.toList) := textOf_mem t2
    exact ⟨_, _, hp.cstr, by rw [h]; exact hp.cstr, fun _ => rfl⟩
  · exact ⟨q, q', h.cstr, h'.cstr, hb⟩

theorem auth_same {d d' : Device} {q q' : Str} {r : Req} (hs : NvReach d.nv) (hv : OnlyKeys d d') (hp : Passwords q q' d d')
    (hb : Blind q q' r) : getAuth d'.nv.config r = getAuth d.nv.config r := by
  obtain ⟨x, x', h1, h2, h3⟩ := pass_same hs hp hb
  obtain ⟨_, _, _, hu⟩ := other_parts hv.config
  unfold getAuth
  rw [hu, h1, h2]
  cases d.nv.config.username.cstr with
  | error f => rfl
  | ok u => simp only [ok_bind, h3 u]

theorem notFound_same {b : Build} {d d' : Device} {q q' : Str} {r : Req} (hs : NvReach d.nv) (hv : OnlyKeys d d') (hp : Passwords q q' d d')
    (hb : Blind q q' r) : notFound b.world d' r = notFound b.world d r := by
  obtain ⟨x, x', h1, h2, h3⟩ := pass_same hs hp hb
  obtain ⟨_, _, _, hu⟩ := other_parts hv.config
  unfold notFound
  rw [hu, h1, h2, hv.tic]
  cases d.nv.config.username.cstr with
  | error f => rfl
  | ok u => simp only [ok_bind, h3 u]

theorem untold_pure {R : Device → Device → Prop} {d d' : Device} (h : R d d') (m : Res (List Eff)) :
    Untold R (do pure (d, ← m)) (do pure (d', ← m)) := by
  cases m with
  | error f => exact Or.inl ⟨f, rfl, rfl⟩
  | ok l => exact Or.inr ⟨d, d', l, rfl, rfl, h⟩

theorem other_json {c c' : Config} (h : OtherKeys c c') : c'.getJson true = c.getJson true := by
  obtain ⟨k1, k2, k3, k4, x, rfl⟩ := h
  rfl

theorem other_system {c c' : Config} (h : OtherKeys c c') (e : SysEnv) (s : Sse) (b : Bool) : sysInfoJson e c' s b = sysInfoJson e c s b := by
  obtain ⟨k1, k2, k3, k4, x, rfl⟩ := h
  rfl

theorem untold_json {R : Device → Device → Prop} {d d' : Device} {r : Req} (h : R d d')
    (ha : getAuth d'.nv.config r = getAuth d.nv.config r) {g g' : Bool → Res Str}
    (hg : ∀ a l, getAuth d.nv.config r = .ok (a, l) → a ≠ .none → g' (a = .restricted) = g (a = .restricted)) :
    Untold R (sendJson d r g) (sendJson d' r g') := by
  unfold sendJson
  rw [ha]
  cases hh : getAuth d.nv.config r with
  | error f => exact Or.inl ⟨f, rfl, rfl⟩
  | ok x =>
    obtain ⟨a, l⟩ := x
    simp only [ok_bind]
    by_cases hn : a = .none
    · rw [if_pos hn, if_pos hn]
      exact Or.inr ⟨d, d', _, rfl, rfl, h⟩
    · rw [if_neg hn, if_neg hn, hg a l hh hn]
      cases g (a = .restricted) with
      | error f => exact Or.inl ⟨f, rfl, rfl⟩
      | ok j => exact Or.inr ⟨d, d', _, rfl, rfl, h⟩

theorem untold_access {R : Device → Device → Prop} {m m' : Res (Bool × List Eff)} (hm : m' = m) (f f' : Bool × List Eff → Res (Device × List Eff))
    (h : ∀ x, m = .ok x → Untold R (f x) (f' x)) : Untold R (m >>= f) (m' >>= f') := by
  subst hm
  cases hh : m' with
  | error e => exact Or.inl ⟨e, rfl, rfl⟩
  | ok x => exact h x hh

/-- The factory settings do not depend on the settings before. -/
theorem reset_fixed (id : UInt32) : ∃ c : Config, ∀ (s : Nv) (k : Commit),
    s.configReset id k = .ok (Nv.configSave { s with config := c } k).1 := by
  obtain ⟨hl, hz⟩ := hex06_facts id
  obtain ⟨x1, e1, _⟩ := strcpyP_text Config.zero.host (bs "WifInfo-" ++ hex06 id)
    (by rw [List.length_append, show (bs "WifInfo-").length = 8 from rfl]; omega)
    (by rw [List.all_append, hz]; rfl)
  obtain ⟨x2, e2, _⟩ := strcpyP_text Config.zero.otaAuth (bs "OTA_WifInfo") (by decide) (by decide)
  obtain ⟨x3, e3, _⟩ := strcpyP_text Config.zero.emoncms.host (bs "emoncms.org") (by decide) (by decide)
  obtain ⟨x4, e4, _⟩ := strcpyP_text Config.zero.emoncms.url (bs "/input/post.json") (by decide) (by decide)
  obtain ⟨x5, e5, _⟩ := strcpyP_text Config.zero.jeedom.host (bs "") (by decide) (by decide)
  obtain ⟨x6, e6, _⟩ := strcpyP_text Config.zero.jeedom.url
    (bs "/plugins/teleinfo/core/php/jeeTeleinfo.php") (by decide) (by decide)
  obtain ⟨x7, e7, _⟩ := strcpyP_text Config.zero.jeedom.adco (bs "") (by decide) (by decide)
  obtain ⟨x8, e8, _⟩ := strcpyP_text Config.zero.httpreq.host (bs "") (by decide) (by decide)
  obtain ⟨x9, e9, _⟩ := strcpyP_text Config.zero.httpreq.url
    (bs "/json.htm?type=command&param=udevice&idx=1&nvalue=0&svalue=$HCHP;$HCHC;0;0;$PAPP;0")
    (by decide) (by decide)
  refine ⟨{ Config.zero with
    host := x1, otaAuth := x2, otaPort := 8266, sseFreq := 10,
    emoncms := { Config.zero.emoncms with host := x3, port := 80, url := x4 },
    jeedom := { Config.zero.jeedom with host := x5, port := 80, url := x6, adco := x7 },
    httpreq := { Config.zero.httpreq with host := x8, port := 80, url := x9 } }, fun s k => ?_⟩
  simp only [Nv.configReset, e1, e2, e3, e4, e5, e6, e7, e8, e9, ok_bind, pure_ok]

theorem reset_same (s s' : Nv) (id : UInt32) (k : Commit) :
    ∃ t t', s.configReset id k = .ok t ∧ s'.configReset id k = .ok t' ∧ t'.config = t.config := by
  obtain ⟨c, h⟩ := reset_fixed id
  refine ⟨_, _, h s k, h s' k, ?_⟩
  rw [Nv.configSave_eq, Nv.configSave_eq]

/-- One request. -/
theorem handle_keys {b : Build} {d d' : Device} {e : Env} {r : Req} {q q' : Str} (hs : NvReach d.nv) (hs' : NvReach d'.nv)
    (hv : OnlyKeys d d') (hp : Passwords q q' d d') (hb : Blind q q' r)
    (hu : r.uri = bs "/config.json" → ¬ Client d.nv.config r .full) :
    Untold (StillKeys q q') (d.handle b e r) (d'.handle b e r) := by
  have ha := auth_same hs hv hp hb
  have hk : StillKeys q q' d d' := ⟨hv, hp⟩
  have ok : accessOk d'.nv.config r = accessOk d.nv.config r := by unfold accessOk; rw [ha]
  have full : accessFull d'.nv.config r = accessFull d.nv.config r := by unfold accessFull; rw [ha]
  have same : ∀ l, Untold (StillKeys q q') (.ok (d, l)) (.ok (d', l)) := fun l => Or.inr ⟨d, d', l, rfl, rfl, hk⟩
  have hpath := route_path b.cpuload e.static r.method r.uri
  unfold Device.handle
  cases hroute : route b.cpuload e.static r.method r.uri with
  | sse =>
    dsimp only
    refine untold_access ok _ _ fun x _ => ?_
    obtain ⟨a, l⟩ := x
    cases a with
    | false => exact same _
    | true =>
      simp only [if_true]
      rw [hv.sse]
      cases d.sse.accept e.up with
      | none => exact same _
      | some x => exact Or.inr ⟨_, _, _, rfl, rfl, ⟨hv.config, hv.timers, hv.tic, rfl, hv.updOk⟩, hp⟩
  | cpuload =>
    dsimp only
    exact untold_access ok _ _ fun x _ => same _
  | configForm =>
    dsimp only
    rw [ha]
    cases hh : getAuth d.nv.config r with
    | error f => exact Or.inl ⟨f, rfl, rfl⟩
    | ok x =>
      obtain ⟨a, l⟩ := x
      simp only [ok_bind]
      by_cases hn : a = .none
      · rw [if_pos hn, if_pos hn]
        exact same _
      · rw [if_neg hn, if_neg hn]
        obtain ⟨t, t', n, h1, h2, h3, h4⟩ := form_keys hs hs' hv.config r.args (a = .restricted) e.commit
        rw [h1, h2, ok_bind, ok_bind]
        refine Or.inr ⟨_, _, _, rfl, rfl, ⟨h3, other_timers h3, hv.tic, hv.sse, hv.updOk⟩, ?_⟩
        rcases h4 with h4 | ⟨h4, h5⟩
        · exact .inl h4
        · rcases hp with hp | ⟨p1, p2⟩
          · exact .inl (h5.trans (hp.trans h4.symm))
          · refine .inr ⟨?_, ?_⟩
            · show HasText t.config.password q
              rw [h4]; exact p1
            · show HasText t'.config.password q'
              rw [h5]; exact p2
  | json => exact untold_json hk ha fun a l _ _ => by rw [hv.tic]
  | tinfo => exact untold_json hk ha fun a l _ _ => by rw [hv.tic]
  | emoncms => exact untold_json hk ha fun a l _ _ => by rw [hv.tic]
  | system => exact untold_json hk ha fun a l _ _ => by rw [hv.sse]; exact other_system hv.config _ _ _
  | config =>
    rw [hroute] at hpath
    refine untold_json hk ha fun a l h hn => ?_
    have : a = .restricted := by
      obtain ⟨a', hc⟩ := client_exists (c32_terminated hs) r
      rw [client_auth hc] at h
      obtain ⟨rfl, _⟩ := Prod.mk.inj (Except.ok.inj h)
      cases a' with
      | none => exact absurd rfl hn
      | restricted => rfl
      | full => exact absurd hc (hu hpath)
    subst this
    exact other_json hv.config
  | spiffs => exact untold_json hk ha fun a l _ _ => rfl
  | wifiscan => exact untold_json hk ha fun a l _ _ => rfl
  | factoryReset =>
    dsimp only
    refine untold_access full _ _ fun x _ => ?_
    obtain ⟨a, l⟩ := x
    cases a with
    | false => exact same _
    | true =>
      simp only [if_true]
      obtain ⟨t, t', h1, h2, h3⟩ := reset_same d.nv d'.nv b.world.chipId e.commit
      rw [h1, h2, ok_bind, ok_bind]
      refine Or.inr ⟨_, _, _, rfl, rfl, ⟨?_, hv.timers, hv.tic, hv.sse, hv.updOk⟩, .inl ?_⟩
      · show OtherKeys t.config t'.config
        rw [h3]; exact other_refl _
      · show t'.config.password = t.config.password
        rw [h3]
  | reset =>
    dsimp only
    exact untold_access ok _ _ fun x _ => same _
  | heartbeat => exact same _
  | updatePage =>
    dsimp only
    exact untold_access full _ _ fun x _ => same _
  | updatePost =>
    dsimp only
    rw [hv.updOk]
    exact untold_access full _ _ fun x _ => same _
  | root =>
    dsimp only
    have : handleRoot d' e r = handleRoot d e r := by unfold handleRoot; rw [ha]
    rw [this]
    exact untold_pure hk _
  | version => exact same _
  | static p => exact same _
  | notFound =>
    dsimp only
    rw [notFound_same hs hv hp hb]
    exact untold_pure hk _

/-- `/config.json` with full access: the state does not change and there is an answer. -/
theorem config_full {b : Build} {d : Device} {e : Env} {r : Req} (hs : NvReach d.nv) (hu : r.uri = bs "/config.json")
    (hc : Client d.nv.config r .full) : ∃ j, d.nv.config.getJson false = .ok j ∧
      d.handle b e r = .ok (d, [.send 200 (if j = [] then bs "{}" else j)]) := by
  obtain ⟨j, hj⟩ := c36_safe hs false
  refine ⟨j, hj, ?_⟩
  unfold Device.handle
  rw [hu, route_config]
  dsimp only
  unfold sendJson
  rw [client_auth hc]
  simp only [ok_bind, reduceCtorEq, if_false, decide_false]
  rw [hj]
  rfl

theorem step_keys {b : Build} {d d' : Device} {q q' : Str} {ev : Event} (hs : NvReach d.nv) (hs' : NvReach d'.nv) (hk : StillKeys q q' d d')
    (he : InSession q q' ev) {d1 l} (h : d.step b ev = .ok (d1, l)) :
    ∃ d1' l', d'.step b ev = .ok (d1', l') ∧ butConfig ev l = butConfig ev l' ∧ NvReach d1.nv ∧ NvReach d1'.nv ∧ StillKeys q q' d1 d1' := by
  obtain ⟨hv, hp⟩ := hk
  cases ev with
  | boot | cliWifi | cliAp | cliReset => exact he.elim
  | byte now k conn x =>
    have h : d.byte b now k conn x = .ok (d1, l) := h
    unfold Device.byte at h
    show ∃ d1' l', d'.byte b now k conn x = .ok (d1', l') ∧ _
    unfold Device.byte
    rw [hv.sse, hv.tic, hv.timers]
    dsimp only at h ⊢
    rw [other_decode hv.config]
    revert h
    cases d.tic.decode b.world d.nv.config d.timers now { k with clients := !d.sse.clients.isEmpty } x with
    | error f => exact fun h => nomatch h
    | ok y =>
      intro h
      obtain ⟨rfl, rfl⟩ := Prod.mk.inj (Except.ok.inj h)
      exact ⟨_, _, rfl, rfl, hs, hs', ⟨hv.config, rfl, rfl, rfl, hv.updOk⟩, hp⟩
  | poll conn =>
    obtain ⟨rfl, rfl⟩ := Prod.mk.inj (Except.ok.inj h)
    refine ⟨_, _, rfl, ?_, hs, hs', ⟨hv.config, hv.timers, hv.tic, ?_, hv.updOk⟩, hp⟩
    · rw [hv.sse]
    · rw [hv.sse]
  | cliSse t conn =>
    obtain ⟨rfl, rfl⟩ := Prod.mk.inj (Except.ok.inj h)
    refine ⟨_, _, rfl, ?_, hs, hs', ⟨hv.config, hv.timers, hv.tic, ?_, hv.updOk⟩, hp⟩
    · rw [hv.sse]
    · rw [hv.sse]
  | cliTimers =>
    obtain ⟨rfl, rfl⟩ := Prod.mk.inj (Except.ok.inj h)
    exact ⟨_, _, rfl, rfl, hs, hs', ⟨hv.config, other_timers hv.config, hv.tic, hv.sse, hv.updOk⟩, hp⟩
  | upload r u =>
    have h := Except.ok.inj h
    have h1 := congrArg Prod.fst h
    have h2 := congrArg Prod.snd h
    dsimp only at h1 h2
    subst h1 h2
    have hd : d' = { d with nv := d'.nv } := by
      cases d
      cases d'
      obtain ⟨_, h1, h2, h3, h4⟩ := hv
      simp only at h1 h2 h3 h4
      subst h1 h2 h3 h4
      rfl
    refine ⟨_, _, rfl, ?_, ?_⟩
    · rw [hd]
      cases u with
      | start f n bo eo =>
        cases bo <;> rfl
      | write buf ok eo => cases ok <;> rfl
      | fin eo => rfl
      | abort eo => rfl
    · rw [hd]
      cases u with
      | start f n bo eo =>
        cases bo <;> exact ⟨hs, hs', ⟨hv.config, rfl, rfl, rfl, rfl⟩, hp⟩
      | write buf ok eo => cases ok <;> exact ⟨hs, hs', ⟨hv.config, rfl, rfl, rfl, rfl⟩, hp⟩
      | fin eo => exact ⟨hs, hs', ⟨hv.config, rfl, rfl, rfl, rfl⟩, hp⟩
      | abort eo => exact ⟨hs, hs', ⟨hv.config, rfl, rfl, rfl, rfl⟩, hp⟩
  | handle r e =>
    have h : d.handle b e r = .ok (d1, l) := h
    show ∃ d1' l', d'.handle b e r = .ok (d1', l') ∧ _
    by_cases hu : r.uri = bs "/config.json" ∧ Client d.nv.config r .full
    · obtain ⟨hu, hc⟩ := hu
      obtain ⟨j, _, g⟩ := config_full (b := b) (e := e) hs hu hc
      have hc' : Client d'.nv.config r .full := by
        obtain ⟨a, hc'⟩ := client_exists (c32_terminated hs') r
        have := auth_same hs hv hp he
        rw [client_auth hc, client_auth hc'] at this
        rw [← (Prod.mk.inj (Except.ok.inj this)).1]
        exact hc'
      obtain ⟨j', _, g'⟩ := config_full (b := b) (e := e) hs' hu hc'
      rw [g] at h
      obtain ⟨rfl, rfl⟩ := Prod.mk.inj (Except.ok.inj h)
      refine ⟨_, _, g', ?_, hs, hs', hv, hp⟩
      simp only [butConfig, if_pos hu]
    · rcases handle_keys hs hs' hv hp he (fun g c => hu ⟨g, c⟩) with ⟨f, g, _⟩ | ⟨x, x', l1, g, g', hk⟩
      · rw [g] at h
        exact nomatch h
      · have n := (handle_tic g).2 hs
        have n' := (handle_tic g').2 hs'
        rw [g] at h
        obtain ⟨rfl, rfl⟩ := Prod.mk.inj (Except.ok.inj h)
        exact ⟨_, _, g', rfl, n, n', hk⟩

/-! ## C140 -/

/-- **C140 (partial)**: the answer to a request does not depend on the keys, nor on the password but for the credentials of the request.
Missing with respect to the property as stated: `/config.json` asked with full access, for which it is false. -/
theorem c140_request_partial {b : Build} {d d' : Device} {e : Env} {r : Req} {q q' : Str} (hs : NvReach d.nv) (hs' : NvReach d'.nv)
    (hv : OnlyKeys d d') (hq : HasText d.nv.config.password q) (hq' : HasText d'.nv.config.password q') (hb : Blind q q' r)
    (hu : r.uri = bs "/config.json" → ¬ Client d.nv.config r .full) :
    Untold (StillKeys q q') (d.handle b e r) (d'.handle b e r) := handle_keys hs hs' hv (.inr ⟨hq, hq'⟩) hb hu

/-- **C140 (partial)**: from one start of the device to the next, nothing that leaves it depends on the keys: the requests to the services, the
event stream, the answers to the requests and what is done to the flash are the same, but for the answers to `/config.json`. -/
theorem c140_session_partial {b : Build} {q q' : Str} {evs : List Event} : ∀ {d d' dn : Device} {es}, NvReach d.nv → NvReach d'.nv →
    StillKeys q q' d d' → (∀ ev ∈ evs, InSession q q' ev) → d.run b evs = .ok (dn, es) →
    ∃ dn' es', d'.run b evs = .ok (dn', es') ∧ List.zipWith butConfig evs es = List.zipWith butConfig evs es' ∧ es'.length = es.length ∧
      StillKeys q q' dn dn' := by
  induction evs with
  | nil =>
    intro d d' dn es _ _ hk _ h
    obtain ⟨rfl, rfl⟩ := Prod.mk.inj (Except.ok.inj h)
    exact ⟨d', [], rfl, rfl, rfl, hk⟩
  | cons ev evs ih =>
    intro d d' dn es hs hs' hk he h
    obtain ⟨⟨d1, l⟩, h1, h⟩ := bind_ok h
    obtain ⟨⟨d2, l2⟩, h2, h⟩ := bind_ok h
    obtain ⟨rfl, rfl⟩ := Prod.mk.inj (Except.ok.inj h)
    obtain ⟨d1', l', g1, g2, n, n', k⟩ := step_keys hs hs' hk (he ev List.mem_cons_self) h1
    obtain ⟨dn', es', g3, g4, g5, g6⟩ := ih n n' k (fun x hx => he x (List.mem_cons_of_mem _ hx)) h2
    refine ⟨dn', l' :: es', ?_, ?_, ?_, g6⟩
    · simp only [Device.run, g1, g3, ok_bind]
      rfl
    · simp only [List.zipWith_cons_cons, g2, g4]
    · simp only [List.length_cons, g5]

/-- **C140** as stated is false: a client with full access gets all the keys, and the password, in clear from `/config.json`; on a device
without a user name that is everybody (`Client.anybody`). -/
theorem c140_refuted {b : Build} {d : Device} {e : Env} {r : Req} (hs : NvReach d.nv) (hu : r.uri = bs "/config.json")
    (hc : Client d.nv.config r .full) (hp : PlainTexts (settings d.nv.config)) {k1 k2 k3 k4 : Str} (h1 : HasText d.nv.config.psk k1)
    (h2 : HasText d.nv.config.apPsk k2) (h3 : HasText d.nv.config.otaAuth k3) (h4 : HasText d.nv.config.password k4) :
    ∃ j m, d.handle b e r = .ok (d, [.send 200 j]) ∧ parseJson j = some (.obj m) ∧ (bs "psk", .str k1) ∈ m ∧
      (bs "ap_psk", .str k2) ∈ m ∧ (bs "ota_auth", .str k3) ∈ m ∧ (bs "password", .str k4) ∈ m := by
  obtain ⟨j, g1, g2⟩ := config_full (b := b) (e := e) hs hu hc
  obtain ⟨j', g3, g4⟩ := c36_parses_partial hs
  rw [g1] at g3
  obtain rfl := Except.ok.inj g3
  have g5 := g4.2 hp
  have hn : j ≠ [] := by
    rintro rfl
    exact absurd g5 (by
      rw [show parseJson ([] : Str) = none by decide +kernel]
      exact nofun)
  rw [if_neg hn] at g2
  refine ⟨j, _, g2, g5, ?_⟩
  have mem : ∀ {n : String} {t : Str}, (n, Setting.text (some t)) ∈ privateSettings d.nv.config →
      (bs n, JVal.str t) ∈ (settings d.nv.config).map fun p => (bs p.1, p.2.json) := by
    intro n t h
    exact List.mem_map.2 ⟨_, List.mem_append_left _ h, rfl⟩
  refine ⟨mem ?_, mem ?_, mem ?_, mem ?_⟩
  · rw [← (h1 : textOf _ = some k1)]; simp [privateSettings]
  · rw [← (h2 : textOf _ = some k2)]; simp [privateSettings]
  · rw [← (h3 : textOf _ = some k3)]; simp [privateSettings]
  · rw [← (h4 : textOf _ = some k4)]; simp [privateSettings]

/-- Any settings can be those of a device. -/
theorem reach_any (c : Config) : ∃ s : Nv, NvReach s ∧ s.config = c.stamp.securize := by
  have h : crcOf (eepromImage c.stamp).toList = 0 := by rw [eepromImage_toList, Config.crcOf_stamp]
  refine ⟨_, NvReach.boot (configSetup_valid h 1 .ok .ok), ?_⟩
  dsimp only
  rw [eepromImage_toList, Config.ofBytes_bytes]

/-- The hypotheses can be met: whatever the settings and two Wi-Fi keys and passwords, there are two devices that differ only by these; a
request without credentials cannot tell the passwords apart. -/
example (d0 : Device) (c : Config) (k : Arr 65) (p : Arr 32) : ∃ d d' : Device, ∃ q q', NvReach d.nv ∧ NvReach d'.nv ∧ OnlyKeys d d' ∧
    HasText d.nv.config.password q ∧ HasText d'.nv.config.password q' ∧
    d.nv.config.psk = c.psk.setNul 64 ∧ d'.nv.config.psk = k.setNul 64 ∧ Blind q q' ⟨.get, bs "/system.json", [], fun _ _ => false, false⟩ := by
  obtain ⟨s, h1, h2⟩ := reach_any c
  obtain ⟨s', h1', h2'⟩ := reach_any { c with psk := k, password := p }
  have pw : ∀ {s : Nv}, NvReach s → HasText s.config.password (cstrOf s.config.password.toList) := by
    intro s hs
    obtain ⟨_, _, _, _, _, _, t2, _⟩ := (terminated_iff _).1 (c32_terminated hs)
    exact textOf_mem t2
  refine ⟨{ d0 with nv := s }, { d0 with nv := s' }, _, _, h1, h1', ⟨?_, rfl, rfl, rfl, rfl⟩, pw h1, pw h1', ?_, ?_, fun _ => rfl⟩
  · show OtherKeys s.config s'.config
    rw [h2, h2']
    exact other_save ⟨k, c.apPsk, c.otaAuth, p, c.crc, rfl⟩
  · show s.config.psk = _
    rw [h2]; rfl
  · show s'.config.psk = _
    rw [h2']; rfl

end Wifinfo
