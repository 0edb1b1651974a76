import Verif.Props.Run

/-!
# Web requests: what they change and what they are answered

C70 (factory reset), C71 (only the meant requests change something), C72 (the home page).
-/

namespace Wifinfo
open Spec

namespace Spec

/-- What a client may do, from the stored user name and what it sends. -/
inductive Client (c : Config) (r : Req) : Access → Prop
  /-- no user name: everybody may do everything -/
  | anybody : HasText c.username [] → Client c r .full
  /-- right credentials, from the local network -/
  | owner {u p} : Protected c u p → r.creds u p = true → r.forwarded = false → Client c r .full
  /-- right credentials, through a proxy -/
  | remote {u p} : Protected c u p → r.creds u p = true → r.forwarded = true → Client c r .restricted
  /-- wrong credentials or none -/
  | stranger {u p} : Protected c u p → r.creds u p = false → Client c r .none

/-- Somebody who is let in. -/
def Guest (c : Config) (r : Req) : Prop := Client c r .full ∨ Client c r .restricted

/-- What is served for a page that exists: the compressed file if there is one, else the file. -/
inductive Page (has : Str → Bool) (path : Str) : List Eff → Prop
  | compressed : has (path ++ bs ".gz") = true → Page has path [.stream (path ++ bs ".gz")]
  | plain : has (path ++ bs ".gz") = false → has path = true → Page has path [.stream path]

/-- The page is not in the file system. -/
def Missing (has : Str → Bool) (path : Str) : Prop := has (path ++ bs ".gz") = false ∧ has path = false

/-- An answer that a browser follows to `path`: one of the codes 301, 302, 303, 307, 308 and the header
`Location` (RFC 9110, 15.4 and 10.2.2). -/
def Redirects (path : Str) (l : List Eff) : Prop :=
  (∃ code body, .send code body ∈ l ∧ code ∈ [301, 302, 303, 307, 308]) ∧ .header (bs "Location") path ∈ l

end Spec

/-! ## Who is asking -/

theorem client_auth {c : Config} {r : Req} {a : Access} (h : Client c r a) :
    getAuth c r = .ok (a, if a = .none then [.needAuth] else []) := by
  cases h with
  | anybody h =>
    unfold getAuth
    have : c.username[0] = 0 := h.first.2 rfl
    simp [this]
  | owner h h1 h2 =>
    unfold getAuth
    rw [if_pos (fun hh => h.nonempty (h.name.first.1 hh)), h.name.cstr, h.pwd.cstr]
    simp [ok_bind, h1, h2]
  | remote h h1 h2 => rw [auth_restricted h h1 h2]; rfl
  | stranger h h1 => rw [auth_none h h1]; rfl

theorem client_exists {c : Config} (h : Terminated c) (r : Req) : ∃ a, Client c r a := by
  obtain ⟨_, _, _, _, _, t1, t2, _⟩ := (terminated_iff _).1 h
  have hu : HasText c.username (cstrOf c.username.toList) := textOf_mem t1
  have hp : HasText c.password (cstrOf c.password.toList) := textOf_mem t2
  by_cases h0 : cstrOf c.username.toList = []
  · exact ⟨_, .anybody (h0 ▸ hu)⟩
  · have hpr : Protected c _ _ := ⟨hu, h0, hp⟩
    cases hc : r.creds (cstrOf c.username.toList) (cstrOf c.password.toList) with
    | false => exact ⟨_, .stranger hpr hc⟩
    | true =>
      cases hf : r.forwarded with
      | true => exact ⟨_, .remote hpr hc hf⟩
      | false => exact ⟨_, .owner hpr hc hf⟩

/-- What is answered to a client without full access. -/
def refusal : Access → List Eff
  | .full => []
  | .restricted => [.send 403 (bs "failed")]
  | .none => [.needAuth]

theorem access_full {c : Config} {r : Req} {a : Access} (h : Client c r a) :
    accessFull c r = .ok (decide (a = .full), refusal a) := by
  unfold accessFull
  rw [client_auth h]
  cases a <;> rfl

theorem access_ok {c : Config} {r : Req} {a : Access} (h : Client c r a) :
    accessOk c r = .ok (a != .none, if a = .none then [.needAuth] else []) := by
  unfold accessOk
  rw [client_auth h]
  rfl

/-! ## Routes -/

/-- The URI (and method) of a route. -/
def Route.Path (static : Str → Option Str) (m : Method) (u : Str) : Route → Prop
  | .sse => u = bs "/sse/json" ∨ u = bs "/tic"
  | .cpuload => u = bs "/cpuload"
  | .configForm => u = bs "/config_form.json"
  | .json => u = bs "/json"
  | .tinfo => u = bs "/tinfo.json"
  | .emoncms => u = bs "/emoncms.json"
  | .system => u = bs "/system.json"
  | .config => u = bs "/config.json"
  | .spiffs => u = bs "/spiffs.json"
  | .wifiscan => u = bs "/wifiscan.json"
  | .factoryReset => u = bs "/factory_reset"
  | .reset => u = bs "/reset"
  | .heartbeat => u = bs "/hb.htm" ∧ m = .get
  | .updatePage => u = bs "/update" ∧ m = .get
  | .updatePost => u = bs "/update" ∧ m = .post
  | .root => u = bs "/"
  | .version => u = bs "/version"
  | .static p => m = .get ∧ static u = some p
  | .notFound => True

theorem ite_path {st m u} {p : Prop} [Decidable p] {a b : Route} (h1 : p → a.Path st m u) (h2 : b.Path st m u) :
    (if p then a else b).Path st m u := by
  split
  · exact h1 (by assumption)
  · exact h2

theorem route_path (cpu : Bool) (st : Str → Option Str) (m : Method) (u : Str) : (route cpu st m u).Path st m u := by
  unfold route
  refine ite_path id <| ite_path (fun h => h.2) <| ite_path id <| ite_path id <| ite_path id <| ite_path id <|
    ite_path id <| ite_path id <| ite_path id <| ite_path id <| ite_path id <| ite_path id <| ite_path id <|
    ite_path id <| ite_path id <| ite_path id <| ite_path id <| ite_path (fun hm => ?_) trivial
  split
  · rename_i p h; exact ⟨hm, h⟩
  · trivial

theorem route_factory (cpu : Bool) (st : Str → Option Str) (m : Method) :
    route cpu st m (bs "/factory_reset") = .factoryReset := by
  unfold route
  rw [if_neg (by decide +kernel), if_neg (fun h => absurd h.2 (by decide +kernel)), if_neg (by decide +kernel),
    if_neg (by decide +kernel), if_neg (by decide +kernel), if_neg (by decide +kernel), if_neg (by decide +kernel),
    if_neg (by decide +kernel), if_neg (by decide +kernel), if_neg (by decide +kernel), if_pos rfl]

theorem route_root (cpu : Bool) (st : Str → Option Str) (m : Method) : route cpu st m (bs "/") = .root := by
  unfold route
  rw [if_neg (by decide +kernel), if_neg (fun h => absurd h.2 (by decide +kernel)), if_neg (by decide +kernel),
    if_neg (by decide +kernel), if_neg (by decide +kernel), if_neg (by decide +kernel), if_neg (by decide +kernel),
    if_neg (by decide +kernel), if_neg (by decide +kernel), if_neg (by decide +kernel), if_neg (by decide +kernel),
    if_neg (by decide +kernel), if_neg (fun h => absurd h.1 (by decide +kernel)),
    if_neg (fun h => absurd h.1 (by decide +kernel)), if_neg (fun h => absurd h.1 (by decide +kernel)), if_pos rfl]

/-! ## C70 -/

/-- A boot without anything in the SDK, the flash giving the configuration `c`. -/
theorem boot_plain {b : Build} {d : Device} {mem k1 k2 k3} {s : Nv}
    (h : Nv.configSetup d.nv.ee.flash b.world.chipId k1 k2 = .ok s) :
    ∃ d', d.step b (.boot none mem [] [] k1 k2 k3) = .ok (d', []) ∧ d'.nv = s := by
  simp only [Device.step, Device.boot, Option.getD_none, h, ok_bind]
  have : s.wifiSetup [] [] k3 = .ok s := by
    unfold Nv.wifiSetup
    split <;> simp [pure_ok]
  rw [this]
  exact ⟨_, rfl, rfl⟩

theorem factory_saved {c : Config} {n : Str} (h : settings c = factory n) (s : Nv) (k : Commit) :
    settings (Nv.configSave { s with config := c } k).1.config = factory n ∧
      (k = .ok → ∀ id k1 k2, ∃ s', Nv.configSetup (Nv.configSave { s with config := c } k).1.ee.flash id k1 k2 = .ok s' ∧
        settings s'.config = factory n) := by
  have ht : Terminated c := by
    unfold Terminated; rw [h]; simp [factory]
  constructor
  · rw [Nv.configSave_eq]
    show settings c.stamp.securize = _
    rw [Config.securize_settings (Config.stamp_terminated ht), Config.stamp_settings, h]
  · rintro rfl id k1 k2
    obtain ⟨_, _, h3⟩ := c29_save_then_read { s with config := c } ht
    obtain ⟨s', h4, _, h5⟩ := h3 id k1 k2
    exact ⟨s', h4, h5.trans h⟩

/-- **C70**, from the web: a client with full access who asks for `/factory_reset` gets the factory
settings, at once and, if the flash was written, after the restart (the SDK has then forgotten its
Wi-Fi settings). -/
theorem c70_web {b : Build} {d : Device} {e : Env} {r : Req} (hu : r.uri = bs "/factory_reset")
    (hc : Client d.nv.config r .full) :
    ∃ d', d.handle b e r = .ok (d', [.eraseSdk, .send 200 (bs "Reset"), .restart]) ∧
      settings d'.nv.config = factory (bs "WifInfo-" ++ hex06 b.world.chipId) ∧
      (e.commit = .ok → ∀ mem k1 k2 k3, ∃ d'', d'.step b (.boot none mem [] [] k1 k2 k3) = .ok (d'', []) ∧
        settings d''.nv.config = factory (bs "WifInfo-" ++ hex06 b.world.chipId)) := by
  obtain ⟨c, h1, h2⟩ := configReset_ok d.nv b.world.chipId e.commit
  obtain ⟨h3, h4⟩ := factory_saved h2 d.nv e.commit
  generalize (Nv.configSave { d.nv with config := c } e.commit).1 = nv at h1 h3 h4
  refine ⟨{ d with nv := nv }, ?_, h3, ?_⟩
  · unfold Device.handle
    rw [hu, route_factory]
    simp only [access_full hc, ok_bind, decide_true, if_true, h1, pure_ok]
    rfl
  · intro hk mem k1 k2 k3
    obtain ⟨s', h5, h6⟩ := h4 hk b.world.chipId k1 k2
    obtain ⟨d'', h7, h8⟩ := boot_plain (b := b) (d := { d with nv := nv }) (mem := mem) (k3 := k3) h5
    refine ⟨d'', h7, ?_⟩
    rw [h8]
    exact h6

theorem crc_zeros (n : Nat) : ∀ c : UInt16, c ≠ 0 → (List.replicate n (0 : Byte)).foldl crc16Update c ≠ 0 := by
  induction n with
  | zero => intro c h; exact h
  | succ n ih =>
    intro c h
    rw [List.replicate_succ, List.foldl_cons]
    refine ih _ fun h0 => h (crc8_eq_zero (c := c) ?_)
    rw [crc16Update_eq] at h0
    simpa using h0

/-- **C70**, from the console: after `esp reset`, if the flash was written, the device restarts with the
factory settings, whatever happens to the writes of that start. -/
theorem c70_console (b : Build) (d : Device) :
    ∃ d', d.step b (.cliReset .ok) = .ok (d', [.eraseSdk, .restart]) ∧
      ∀ mem k1 k2 k3, ∃ d'', d'.step b (.boot none mem [] [] k1 k2 k3) = .ok (d'', []) ∧
        settings d''.nv.config = factory (bs "WifInfo-" ++ hex06 b.world.chipId) := by
  refine ⟨_, rfl, ?_⟩
  intro mem k1 k2 k3
  have hz : ¬ Accepted (Vector.replicate 1024 0) := by
    rw [accepted_iff, Vector.toList_replicate]
    exact crc_zeros 1024 0xFFFF (by decide)
  obtain ⟨s, h1, h2⟩ := c30_boot (Vector.replicate 1024 0) hz b.world.chipId k1 k2
  obtain ⟨d'', h6, h7⟩ := boot_plain (b := b) (d := { d with nv := d.nv.espReset .ok }) (mem := mem) (k3 := k3) h1
  exact ⟨d'', h6, by rw [h7, h2]⟩

/-- The user name is not empty, the client is let in and the settings are not the factory ones before. -/
example : ∃ s : Nv, NvReach s ∧ settings s.config ≠ factory (bs "WifInfo-" ++ hex06 1) ∧
    Client s.config ⟨.get, bs "/factory_reset", [], fun u p => u = bs "admin" ∧ p = bs "secret", false⟩ .full := by
  obtain ⟨s, h1, h2⟩ := reach_protected
  refine ⟨s, h1, ?_, .owner h2 (by decide) rfl⟩
  intro h
  have h4 := congrArg (fun l => l[6]?) h
  rw [show (factory (bs "WifInfo-" ++ hex06 1))[6]? = some ("username", .text (some [])) from rfl] at h4
  have h5 : textOf s.config.username.toList = some [] := by
    simpa [settings, privateSettings] using h4
  have h3 : textOf s.config.username.toList = some (bs "admin") := h2.name
  rw [h3] at h5
  exact absurd (Option.some.inj h5) (by decide)

/-! ## C71 -/

/-- **C71.**  A request changes the stored settings only if it is a configuration post with the save
field from somebody let in, or a factory reset with full access; the periods of the notifications only
in the first case.  It opens an event stream only at `/sse/json` or `/tic`.  It restarts the device only
at `/reset`, at `/factory_reset` or after a good upload; it never writes the firmware nor touches the
meter data. -/
theorem c71_changes {b : Build} {d d' : Device} {e : Env} {r : Req} {l} (hs : NvReach d.nv)
    (h : d.handle b e r = .ok (d', l)) :
    d'.tic = d.tic ∧ d'.updOk = d.updOk ∧
    (d'.nv ≠ d.nv →
      (r.uri = bs "/config_form.json" ∧ Guest d.nv.config r ∧ isPosted r.args "save" = true) ∨
      (r.uri = bs "/factory_reset" ∧ Client d.nv.config r .full)) ∧
    (d'.timers ≠ d.timers → r.uri = bs "/config_form.json" ∧ Guest d.nv.config r) ∧
    (d'.sse ≠ d.sse → (r.uri = bs "/sse/json" ∨ r.uri = bs "/tic") ∧ Guest d.nv.config r) ∧
    (∀ x ∈ l, dangerous x = true →
      (x = .restart ∧ (r.uri = bs "/reset" ∧ Guest d.nv.config r ∨
        r.uri = bs "/factory_reset" ∧ Client d.nv.config r .full)) ∨
      (x = .eraseSdk ∧ r.uri = bs "/factory_reset" ∧ Client d.nv.config r .full) ∨
      (x = .restartSoon ∧ r.uri = bs "/update" ∧ r.method = .post ∧ Client d.nv.config r .full ∧
        d.updOk = true)) := by
  obtain ⟨a, hc⟩ := client_exists (c32_terminated hs) r
  have hp := route_path b.cpuload e.static r.method r.uri
  have guest : a ≠ .none → Guest d.nv.config r := by
    intro h; cases a with
    | none => exact absurd rfl h
    | restricted => exact .inr hc
    | full => exact .inl hc
  have nobody : ∀ x ∈ (if a = .none then [Eff.needAuth] else []), dangerous x = false := by
    split <;> simp [dangerous]
  -- nothing changes and nothing dangerous is done
  have quiet : ∀ {l : List Eff} {P Q R : Prop} {S : Eff → Prop}, (∀ x ∈ l, dangerous x = false) → d = d' →
      d'.tic = d.tic ∧ d'.updOk = d.updOk ∧ (d'.nv ≠ d.nv → P) ∧ (d'.timers ≠ d.timers → Q) ∧ (d'.sse ≠ d.sse → R) ∧
      (∀ x ∈ l, dangerous x = true → S x) := by
    rintro l P Q R S hl rfl
    exact ⟨rfl, rfl, fun h => absurd rfl h, fun h => absurd rfl h, fun h => absurd rfl h,
      fun x hx hx' => by rw [hl x hx] at hx'; cases hx'⟩
  have json : ∀ get, sendJson d r get = .ok (d', l) → d = d' ∧ ∀ x ∈ l, dangerous x = false := by
    intro get h
    unfold sendJson at h
    rw [client_auth hc] at h
    simp only [ok_bind] at h
    by_cases ha : a = .none
    · rw [if_pos ha] at h
      obtain ⟨rfl, rfl⟩ := Prod.mk.inj (Except.ok.inj h)
      exact ⟨rfl, nobody⟩
    · rw [if_neg ha] at h
      obtain ⟨s, _, h⟩ := bind_ok h
      obtain ⟨rfl, rfl⟩ := Prod.mk.inj (Except.ok.inj h)
      refine ⟨rfl, fun x hx => ?_⟩
      rcases List.mem_append.1 hx with hx | hx
      · exact nobody x hx
      · rw [List.mem_singleton.1 hx]; rfl
  unfold Device.handle at h
  generalize route b.cpuload e.static r.method r.uri = rt at h hp
  cases rt with
  | sse =>
    simp only [access_ok hc, ok_bind] at h
    by_cases ha : a = .none
    · subst ha
      obtain ⟨rfl, rfl⟩ := Prod.mk.inj (Except.ok.inj h)
      exact quiet nobody rfl
    · rw [if_pos (by simpa using ha)] at h
      split at h
      · obtain ⟨rfl, rfl⟩ := Prod.mk.inj (Except.ok.inj h)
        refine ⟨rfl, rfl, fun h => absurd rfl h, fun h => absurd rfl h, fun _ => ⟨hp, guest ha⟩, ?_⟩
        intro x hx hx'
        rw [if_neg ha, List.nil_append] at hx
        obtain ⟨y, _, rfl⟩ := List.mem_map.1 hx
        cases hx'
      · obtain ⟨rfl, rfl⟩ := Prod.mk.inj (Except.ok.inj h)
        refine quiet (fun x hx => ?_) rfl
        rcases List.mem_append.1 hx with hx | hx
        · exact nobody x hx
        · rw [List.mem_singleton.1 hx]; rfl
  | cpuload =>
    simp only [access_ok hc, ok_bind] at h
    obtain ⟨rfl, rfl⟩ := Prod.mk.inj (Except.ok.inj h)
    refine quiet (fun x hx => ?_) rfl
    split at hx
    · rcases List.mem_append.1 hx with hx | hx
      · exact nobody x hx
      · rw [List.mem_singleton.1 hx]; rfl
    · exact nobody x hx
  | configForm =>
    simp only [client_auth hc, ok_bind] at h
    by_cases ha : a = .none
    · rw [if_pos ha] at h
      obtain ⟨rfl, rfl⟩ := Prod.mk.inj (Except.ok.inj h)
      exact quiet nobody rfl
    · rw [if_neg ha] at h
      obtain ⟨⟨nv, code⟩, h1, h⟩ := bind_ok h
      obtain ⟨rfl, rfl⟩ := Prod.mk.inj (Except.ok.inj h)
      refine ⟨rfl, rfl, fun hn => .inl ⟨hp, guest ha, ?_⟩, fun _ => ⟨hp, guest ha⟩, fun h => absurd rfl h, ?_⟩
      · cases hq : isPosted r.args "save" with
        | true => rfl
        | false =>
          exfalso
          rw [isPosted, decide_eq_false_iff_not] at hq
          rw [c38_no_save d.nv r.args _ _ (fun p hp hh => hq ⟨p, hp, hh⟩)] at h1
          obtain ⟨rfl, -⟩ := Prod.mk.inj (Except.ok.inj h1)
          exact hn rfl
      · intro x hx hx'
        rcases List.mem_append.1 hx with hx | hx
        · rw [nobody x hx] at hx'; cases hx'
        · rw [List.mem_singleton.1 hx] at hx'; cases hx'
  | json => obtain ⟨h1, h2⟩ := json _ h; exact quiet h2 h1
  | tinfo => obtain ⟨h1, h2⟩ := json _ h; exact quiet h2 h1
  | emoncms => obtain ⟨h1, h2⟩ := json _ h; exact quiet h2 h1
  | system => obtain ⟨h1, h2⟩ := json _ h; exact quiet h2 h1
  | config => obtain ⟨h1, h2⟩ := json _ h; exact quiet h2 h1
  | spiffs => obtain ⟨h1, h2⟩ := json _ h; exact quiet h2 h1
  | wifiscan => obtain ⟨h1, h2⟩ := json _ h; exact quiet h2 h1
  | factoryReset =>
    simp only [access_full hc, ok_bind] at h
    by_cases ha : a = .full
    · subst ha
      simp only [decide_true, if_true] at h
      obtain ⟨nv, _, h⟩ := bind_ok h
      obtain ⟨rfl, rfl⟩ := Prod.mk.inj (Except.ok.inj h)
      refine ⟨rfl, rfl, fun _ => .inr ⟨hp, hc⟩, fun h => absurd rfl h, fun h => absurd rfl h, ?_⟩
      intro x hx hx'
      replace hx : x ∈ [Eff.eraseSdk, .send 200 (bs "Reset"), .restart] := hx
      simp only [List.mem_cons, List.not_mem_nil, or_false] at hx
      rcases hx with rfl | rfl | rfl
      · exact .inr (.inl ⟨rfl, hp, hc⟩)
      · cases hx'
      · exact .inl ⟨rfl, .inr ⟨hp, hc⟩⟩
    · rw [if_neg (by simpa using ha)] at h
      obtain ⟨rfl, rfl⟩ := Prod.mk.inj (Except.ok.inj h)
      refine quiet (fun x hx => ?_) rfl
      cases a with
      | full => exact absurd rfl ha
      | restricted => rw [List.mem_singleton.1 hx]; rfl
      | none => rw [List.mem_singleton.1 hx]; rfl
  | reset =>
    simp only [access_ok hc, ok_bind] at h
    obtain ⟨rfl, rfl⟩ := Prod.mk.inj (Except.ok.inj h)
    refine ⟨rfl, rfl, fun h => absurd rfl h, fun h => absurd rfl h, fun h => absurd rfl h, ?_⟩
    intro x hx hx'
    by_cases ha : a = .none
    · subst ha
      rw [nobody x hx] at hx'; cases hx'
    · rw [if_pos (by simpa using ha), if_neg ha, List.nil_append] at hx
      simp only [List.mem_cons, List.not_mem_nil, or_false] at hx
      rcases hx with rfl | rfl
      · cases hx'
      · exact .inl ⟨rfl, .inl ⟨hp, guest ha⟩⟩
  | heartbeat =>
    obtain ⟨rfl, rfl⟩ := Prod.mk.inj (Except.ok.inj h)
    exact quiet (by simp [dangerous]) rfl
  | updatePage =>
    simp only [access_full hc, ok_bind] at h
    obtain ⟨rfl, rfl⟩ := Prod.mk.inj (Except.ok.inj h)
    refine quiet (fun x hx => ?_) rfl
    cases a with
    | full => rw [if_pos (by decide)] at hx; rw [List.mem_singleton.1 hx]; rfl
    | restricted => rw [if_neg (by decide)] at hx; rw [List.mem_singleton.1 hx]; rfl
    | none => rw [if_neg (by decide)] at hx; rw [List.mem_singleton.1 hx]; rfl
  | updatePost =>
    simp only [access_full hc, ok_bind] at h
    obtain ⟨rfl, rfl⟩ := Prod.mk.inj (Except.ok.inj h)
    refine ⟨rfl, rfl, fun h => absurd rfl h, fun h => absurd rfl h, fun h => absurd rfl h, ?_⟩
    intro x hx hx'
    cases a with
    | restricted => rw [if_neg (by simp)] at hx; rw [List.mem_singleton.1 hx] at hx'; cases hx'
    | none => rw [if_neg (by simp)] at hx; rw [List.mem_singleton.1 hx] at hx'; cases hx'
    | full =>
      cases hok : d.updOk with
      | false => rw [hok, if_neg (by simp)] at hx; cases hx
      | true =>
        rw [hok, if_pos (by simp)] at hx
        exact .inr (.inr ⟨List.mem_singleton.1 hx, hp.1, hp.2, hc, rfl⟩)
  | root =>
    obtain ⟨y, h1, h⟩ := bind_ok h
    obtain ⟨rfl, rfl⟩ := Prod.mk.inj (Except.ok.inj h)
    refine quiet ?_ rfl
    unfold handleRoot at h1
    rw [client_auth hc] at h1
    simp only [ok_bind] at h1
    have hr : ∀ p z, handleRead e p = some z → ∀ x ∈ z, dangerous x = false := by
      intro p z hz
      unfold handleRead at hz
      split at hz
      · cases hz
      · split at hz
        · rw [← Option.some.inj hz]; simp [dangerous]
        · split at hz
          · rw [← Option.some.inj hz]; simp [dangerous]
          · cases hz
    have fin : ∀ p y, (match handleRead e p with
        | some x => (pure ((if a = Access.none then [Eff.needAuth] else []) ++ x) : Res (List Eff))
        | none => pure ((if a = Access.none then [Eff.needAuth] else []) ++ noPage)) = .ok y →
        ∀ x ∈ y, dangerous x = false := by
      intro p y hy x hx
      cases hq : handleRead e p with
      | some z =>
        rw [hq] at hy
        rw [← Except.ok.inj hy] at hx
        rcases List.mem_append.1 hx with hx | hx
        · exact nobody x hx
        · exact hr p z hq x hx
      | none =>
        rw [hq] at hy
        rw [← Except.ok.inj hy] at hx
        rcases List.mem_append.1 hx with hx | hx
        · exact nobody x hx
        · simp only [noPage, List.mem_cons, List.not_mem_nil, or_false] at hx
          rcases hx with rfl | rfl <;> rfl
    cases a with
    | none => rw [← Except.ok.inj h1]; exact nobody
    | restricted => exact fin _ _ h1
    | full => exact fin _ _ h1
  | version =>
    obtain ⟨rfl, rfl⟩ := Prod.mk.inj (Except.ok.inj h)
    exact quiet (by simp [dangerous]) rfl
  | static p =>
    obtain ⟨rfl, rfl⟩ := Prod.mk.inj (Except.ok.inj h)
    exact quiet (by simp [dangerous]) rfl
  | notFound =>
    obtain ⟨y, h1, h⟩ := bind_ok h
    obtain ⟨rfl, rfl⟩ := Prod.mk.inj (Except.ok.inj h)
    refine quiet ?_ rfl
    unfold notFound at h1
    obtain ⟨_, _, h1⟩ := bind_ok h1
    obtain ⟨_, _, h1⟩ := bind_ok h1
    obtain ⟨v, _, h1⟩ := bind_ok h1
    cases v with
    | some v => rw [← Except.ok.inj h1]; simp [dangerous]
    | none =>
      obtain ⟨_, _, h1⟩ := bind_ok h1
      rw [← Except.ok.inj h1]; simp [dangerous]

/-! ## C72 -/

/-- **C72 (partial).**  The home page: a client with full access is served `/index.html`, a restricted one
`/index.restrict.html`, in compressed form when the file system has it; somebody else must say who they
are.  Nothing changes.

Missing with respect to the property as stated: without the page the client is not redirected to
`/update` (`c72_refuted`). -/
theorem c72_home_partial {b : Build} {d : Device} {e : Env} {r : Req} (hu : r.uri = bs "/") :
    (Client d.nv.config r .full → ¬ Missing e.fileExists (bs "/index.html") →
      ∃ l, d.handle b e r = .ok (d, l) ∧ Page e.fileExists (bs "/index.html") l) ∧
    (Client d.nv.config r .restricted → ¬ Missing e.fileExists (bs "/index.restrict.html") →
      ∃ l, d.handle b e r = .ok (d, l) ∧ Page e.fileExists (bs "/index.restrict.html") l) ∧
    (Client d.nv.config r .none → d.handle b e r = .ok (d, [.needAuth])) := by
  have key : ∀ (p : Str), p.getLast? ≠ some 47 → ¬ Missing e.fileExists p →
      ∃ l, Page e.fileExists p l ∧ handleRead e p = some l := by
    intro p hp hm
    unfold handleRead
    rw [if_neg hp]
    cases h1 : e.fileExists (p ++ bs ".gz") with
    | true => exact ⟨_, .compressed h1, rfl⟩
    | false =>
      cases h2 : e.fileExists p with
      | true => exact ⟨_, .plain h1 h2, rfl⟩
      | false => exact absurd ⟨h1, h2⟩ hm
  refine ⟨fun hc hm => ?_, fun hc hm => ?_, fun hc => ?_⟩
  · obtain ⟨l, h1, h2⟩ := key (bs "/index.html") (by decide +kernel) hm
    refine ⟨l, ?_, h1⟩
    unfold Device.handle
    rw [hu, route_root]
    simp only [handleRoot, client_auth hc, ok_bind, h2]
    rfl
  · obtain ⟨l, h1, h2⟩ := key (bs "/index.restrict.html") (by decide +kernel) hm
    refine ⟨l, ?_, h1⟩
    unfold Device.handle
    rw [hu, route_root]
    simp only [handleRoot, client_auth hc, ok_bind, h2]
    rfl
  · unfold Device.handle
    rw [hu, route_root]
    simp only [handleRoot, client_auth hc, ok_bind]
    rfl

/-- **C72** as stated is false: on every device whose file system has no home page, the answer to a client
with full access is not a redirection, since 304 is not a redirecting code and the header is named
`Location:` with the colon. -/
theorem c72_refuted {b : Build} {d : Device} {e : Env} {r : Req} (hu : r.uri = bs "/")
    (hc : Client d.nv.config r .full) (hm : Missing e.fileExists (bs "/index.html")) :
    ∃ l, d.handle b e r = .ok (d, l) ∧ ¬ Redirects (bs "/update") l := by
  refine ⟨noPage, ?_, ?_⟩
  · have : handleRead e (bs "/index.html") = none := by
      unfold handleRead
      rw [if_neg (by decide +kernel), hm.1, hm.2]
      rfl
    unfold Device.handle
    rw [hu, route_root]
    simp only [handleRoot, client_auth hc, ok_bind, this]
    rfl
  · rintro ⟨-, h⟩
    simp only [noPage, List.mem_cons, List.not_mem_nil, or_false, reduceCtorEq, Eff.header.injEq] at h
    exact absurd h.1 (by decide +kernel)

/-- **C72**: what such a client, or a restricted one without its own page, gets instead: a body with a link to the update
page, which a browser does not show with the code 304, and the name of this page in a header that no browser knows. -/
theorem c72_missing {b : Build} {d : Device} {e : Env} {r : Req} (hu : r.uri = bs "/")
    (hc : (Client d.nv.config r .full ∧ Missing e.fileExists (bs "/index.html")) ∨
      (Client d.nv.config r .restricted ∧ Missing e.fileExists (bs "/index.restrict.html"))) :
    ∃ body x y, d.handle b e r = .ok (d, [.header (bs "Location:") (bs "/update"), .send 304 body]) ∧
      body = x ++ bs "<a href=\"/update\">" ++ y := by
  refine ⟨bs "<!DOCTYPE HTML PUBLIC<title>update</title><a href=\"/update\">update</a>",
    bs "<!DOCTYPE HTML PUBLIC<title>update</title>", bs "update</a>", ?_, by decide +kernel⟩
  · have hr : ∀ p, Missing e.fileExists p → p.getLast? ≠ some 47 → handleRead e p = none := by
      intro p hm hl
      unfold handleRead
      rw [if_neg hl, hm.1, hm.2]
      rfl
    rcases hc with ⟨hc, hm⟩ | ⟨hc, hm⟩ <;>
    · unfold Device.handle
      rw [hu, route_root]
      simp only [handleRoot, client_auth hc, ok_bind, hr _ hm (by decide +kernel)]
      rfl

/-- An answer that would redirect. -/
example : Redirects (bs "/update") [.header (bs "Location") (bs "/update"), .send 302 []] :=
  ⟨⟨302, [], by simp, by decide⟩, by simp⟩

/-- A restricted client of a device with a password, and a file system with the compressed page. -/
example : ∃ s : Nv, NvReach s ∧
    Client s.config ⟨.get, bs "/", [], fun u p => u = bs "admin" ∧ p = bs "secret", true⟩ .restricted ∧
    Page (fun p => p = bs "/index.restrict.html.gz") (bs "/index.restrict.html")
      [.stream (bs "/index.restrict.html.gz")] := by
  obtain ⟨s, h1, h2⟩ := reach_protected
  exact ⟨s, h1, .remote h2 (by decide) rfl, .compressed (by decide +kernel)⟩

end Wifinfo
