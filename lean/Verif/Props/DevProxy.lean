import Verif.Model.DevProxy
import Verif.Props.Asks

/-!
# C128: the page on the PC works with the device
-/

namespace Wifinfo
open Spec

namespace Spec

/-- What the proxy leaves to the device. -/
def DeviceAddress (u : Str) : Prop :=
  ∃ p ∈ [bs "/spiffs.json", bs "/wifiscan.json", bs "/config.json", bs "/config_form.json", bs "/tinfo.json", bs "/system.json",
    bs "/json", bs "/hb.html", bs "/reset", bs "/factory_reset", bs "/sse/json", bs "/tic"], p <+: u

/-- The files of the project in `data_src`. -/
def sourceNames : List Str :=
  [bs "/favicon.ico", bs "/index.html", bs "/fonts/digital-7.ttf", bs "/fonts/glyphicons.woff", bs "/fonts/d-7.monoitalic.ttf",
   bs "/fonts/glyphicons.woff2", bs "/css/wifinfo.css", bs "/js/wifinfo.js", bs "/js/gauge.min.js"]

/-- The folder of the sources has these files, whatever is in them. -/
def SourceFolder (src : Str → Option Str) : Prop := ∀ u, (src u).isSome = true ↔ u ∈ sourceNames

/-- The same things happen, but the requests of the page go straight to the device. -/
def straight : ProxyEvent → Event
  | .direct ev => ev
  | .proxy r e => .handle r e

/-- The requests to the proxy are those of a page in use. -/
def FromPage (qs : List PageReq) (creds : Str → Str → Bool) (forwarded : Bool) (evs : List ProxyEvent) : Prop :=
  ∀ r e, .proxy r e ∈ evs → ∃ q ∈ qs, r = sentBy creds forwarded q

end Spec

/-! ## Where an address leads -/

theorem longest_spec (u : Str) : ∀ l : List (Str × Place),
    match longestPrefix u l with
    | none => ∀ p ∈ l, ¬ p.1 <+: u
    | some q => q ∈ l ∧ q.1 <+: u ∧ ∀ p ∈ l, p.1 <+: u → p.1.length ≤ q.1.length := by
  intro l
  induction l with
  | nil => simp [longestPrefix]
  | cons p l ih =>
    unfold longestPrefix
    cases h : longestPrefix u l with
    | none =>
      rw [h] at ih
      simp only at ih ⊢
      by_cases hp : p.1.isPrefixOf u = true
      · rw [if_pos hp]
        refine ⟨List.mem_cons_self, List.isPrefixOf_iff_prefix.1 hp, fun x hx hu => ?_⟩
        rcases List.mem_cons.1 hx with rfl | hx
        · exact Nat.le_refl _
        · exact absurd hu (ih x hx)
      · rw [if_neg hp]
        intro x hx hu
        rcases List.mem_cons.1 hx with rfl | hx
        · exact hp (List.isPrefixOf_iff_prefix.2 hu)
        · exact ih x hx hu
    | some q =>
      rw [h] at ih
      simp only at ih ⊢
      obtain ⟨i1, i2, i3⟩ := ih
      by_cases hp : p.1.isPrefixOf u = true ∧ q.1.length ≤ p.1.length
      · rw [if_pos hp]
        refine ⟨List.mem_cons_self, List.isPrefixOf_iff_prefix.1 hp.1, fun x hx hu => ?_⟩
        rcases List.mem_cons.1 hx with rfl | hx
        · exact Nat.le_refl _
        · exact Nat.le_trans (i3 x hx hu) hp.2
      · rw [if_neg hp]
        refine ⟨List.mem_cons_of_mem _ i1, i2, fun x hx hu => ?_⟩
        rcases List.mem_cons.1 hx with rfl | hx
        · have := List.isPrefixOf_iff_prefix.2 hu
          simp only [this, true_and] at hp
          omega
        · exact i3 x hx hu

theorem prefixes_device : ∀ p : Str × Place, p ∈ nginxPrefixes → (p = (bs "/", .folder) ∨ p.2 = .device ∧ 1 < p.1.length ∧
    p.1 ∈ [bs "/spiffs.json", bs "/wifiscan.json", bs "/config.json", bs "/config_form.json", bs "/tinfo.json", bs "/system.json",
      bs "/json", bs "/hb.html", bs "/reset", bs "/factory_reset", bs "/sse/json", bs "/tic"]) := by
  decide +kernel

/-- The proxy leaves an address to the device exactly when it begins as one of its pages; every other one is looked for in the
folder. -/
theorem place_iff (u : Str) : (nginxPlace u = some .device ↔ DeviceAddress u) ∧
    (nginxPlace u = some .device ∨ (bs "/" <+: u → nginxPlace u = some .folder)) := by
  unfold nginxPlace
  by_cases hx : u = bs "/50x.html"
  · subst hx
    have e : (nginxExact.find? fun p => p.1 = bs "/50x.html") = some (bs "/50x.html", .folder) := by decide +kernel
    rw [e]
    refine ⟨⟨fun h => by simp at h, ?_⟩, .inr fun _ => rfl⟩
    rintro ⟨p, hp, hu⟩
    exfalso
    revert p
    decide +kernel
  · have e : (nginxExact.find? fun p => p.1 = u) = none := by
      unfold nginxExact
      rw [List.find?_cons_of_neg (by simpa using fun h => hx h.symm)]
      rfl
    rw [e]
    have hs := longest_spec u nginxPrefixes
    cases h : longestPrefix u nginxPrefixes with
    | none =>
      rw [h] at hs
      simp only at hs
      refine ⟨⟨fun h => by simp at h, ?_⟩, .inr fun hu => absurd hu (hs (bs "/", .folder) (by decide +kernel))⟩
      rintro ⟨p, hp, hu⟩
      have : (p, Place.device) ∈ nginxPrefixes := by clear hu; revert p; decide +kernel
      exact absurd hu (hs _ this)
    | some q =>
      rw [h] at hs
      simp only at hs
      obtain ⟨s1, s2, s3⟩ := hs
      simp only [Option.map_some, Option.some.injEq]
      rcases prefixes_device q s1 with rfl | ⟨h1, -, h3⟩
      · refine ⟨⟨fun h => by simp at h, ?_⟩, .inr fun _ => rfl⟩
        rintro ⟨p, hp, hu⟩
        have hm : (p, Place.device) ∈ nginxPrefixes := by clear hu s2 s3 h; revert p; decide +kernel
        have hl := s3 _ hm hu
        have : 1 < p.length := by clear hu s2 s3 h hl hm; revert p; decide +kernel
        have : (bs "/").length = 1 := rfl
        simp only at hl
        omega
      · exact ⟨⟨fun _ => ⟨q.1, h3, s2⟩, fun _ => h1⟩, .inl h1⟩

/-- **C128, where a request goes.** Any client, any address (that begins with `/`), any method: if the address begins as a page of
the device, the device gets the very request, and its answer is the answer; otherwise the device is not asked, and the answer is the
file of the sources as it is, or an error when there is none or when something is posted to it. -/
theorem c128_place (b : Build) (src : Str → Option Str) (d : Device) (e : Env) {r : Req} (hr : bs "/" <+: r.uri) :
    (DeviceAddress r.uri → d.throughProxy b src e r = (d.handle b e r).map fun x => (x.1, .device x.2)) ∧
    (¬ DeviceAddress r.uri → ∃ a, d.throughProxy b src e r = .ok (d, a) ∧
      (∀ c, a = .file c ↔ r.method = .get ∧ src (if r.uri = bs "/" then bs "/index.html" else r.uri) = some c) ∧
      ((∃ c, a = .file c) ∨ a = .error 404 ∨ a = .error 405)) := by
  obtain ⟨h1, h2⟩ := place_iff r.uri
  unfold Device.throughProxy
  constructor
  · intro h
    rw [h1.2 h]
    cases d.handle b e r <;> rfl
  · intro h
    rw [(h2.resolve_left fun x => h (h1.1 x)) hr]
    refine ⟨_, rfl, ?_, ?_⟩ <;> unfold nginxFile
    · intro c
      cases r.method <;> cases src (if r.uri = bs "/" then bs "/index.html" else r.uri) <;> simp
    · cases r.method <;> cases src (if r.uri = bs "/" then bs "/index.html" else r.uri) <;> simp

/-- **C128, what the browser sees.** A file of the sources comes with its content and the code 200; any other answer of the proxy itself is an
error. -/
theorem c128_seen (b : Build) (src : Str → Option Str) (d : Device) (e : Env) {r : Req} (hr : bs "/" <+: r.uri) (hd : ¬ DeviceAddress r.uri) :
    ∃ a, d.throughProxy b src e r = .ok (d, a) ∧
      (∀ c, r.method = .get → src (if r.uri = bs "/" then bs "/index.html" else r.uri) = some c → a.seen = [.send 200 c]) ∧
      (r.method ≠ .get ∨ src (if r.uri = bs "/" then bs "/index.html" else r.uri) = none → a.seen = [.send 404 []] ∨ a.seen = [.send 405 []]) := by
  obtain ⟨a, h1, h2, h3⟩ := (c128_place b src d e hr).2 hd
  refine ⟨a, h1, fun c hm hc => ?_, fun h => ?_⟩
  · rw [(h2 c).2 ⟨hm, hc⟩]
    rfl
  · rcases h3 with ⟨c, h3⟩ | h3 | h3
    · obtain ⟨g1, g2⟩ := (h2 c).1 h3
      rcases h with h | h
      · exact absurd g1 h
      · rw [g2] at h
        cases h
    · rw [h3]; exact .inl rfl
    · rw [h3]; exact .inr rfl

/-- **C128, the page.** The page is `index.html` of the sources as it is now, for everybody; the device is not asked. -/
theorem c128_home (b : Build) {src : Str → Option Str} (d : Device) (e : Env) {r : Req} (hu : r.uri = bs "/" ∨ r.uri = bs "/index.html")
    (hm : r.method = .get) {page : Str} (hp : src (bs "/index.html") = some page) :
    d.throughProxy b src e r = .ok (d, .file page) := by
  have hn : bs "/" <+: r.uri ∧ ¬ DeviceAddress r.uri ∧ (if r.uri = bs "/" then bs "/index.html" else r.uri) = bs "/index.html" := by
    unfold DeviceAddress
    rcases hu with hu | hu <;> rw [hu] <;> decide +kernel
  obtain ⟨a, h1, h2, -⟩ := (c128_place b src d e hn.1).2 hn.2.1
  rw [h1, (h2 page).2 ⟨hm, by rw [hn.2.2, hp]⟩]

/-! ## What the page asks -/

theorem wanted_address {restricted : Bool} {q : PageReq} (h : Wanted restricted q) :
    bs "/" <+: q.uri ∧ (DeviceAddress q.uri ↔ q.uri ∉ [bs "/hb.htm", bs "/version", bs "/update"]) := by
  unfold DeviceAddress
  cases h with
  | look hu =>
    rename_i u
    show bs "/" <+: u ∧ _
    revert u
    decide +kernel
  | save hf =>
    show bs "/" <+: bs "/config_form.json" ∧ ((∃ p ∈ _, p <+: bs "/config_form.json") ↔ bs "/config_form.json" ∉ _)
    decide +kernel
  | _ => decide +kernel

theorem version_handled (b : Build) (d : Device) (e : Env) (creds : Str → Str → Bool) (forwarded : Bool) :
    d.handle b e (sentBy creds forwarded ⟨.get, bs "/version", []⟩) = .ok (d, [.stream (bs "/version")]) := by
  have hr : route b.cpuload e.static .get (bs "/version") = .version := by unfold route; cases b.cpuload <;> rfl
  unfold Device.handle
  simp only [sentBy, hr]
  rfl

/-- **C128 (partial), a request.** A page in use, as long as one wants: the device answers its requests through the proxy as it does
to the same client directly, and refuses none of them if the client has the rights.

Partial: except the heartbeat, the version and the update (`c128_refuted_wait`, `c128_refuted_version`, `c128_refuted_update`). -/
theorem c128_answer_partial {b : Build} (src : Str → Option Str) {d d' : Device} {e : Env} {restricted : Bool} {hash : Option Tab}
    {form : Args} {evs : List PageEvent} (hs : HasSave form evs) {q : PageReq} (hq : q ∈ visit restricted hash form evs)
    (hn : q.uri ∉ [bs "/hb.htm", bs "/version", bs "/update"]) {creds : Str → Str → Bool} {forwarded : Bool} {l : List Eff}
    (h : d.handle b e (sentBy creds forwarded q) = .ok (d', l)) :
    d.throughProxy b src e (sentBy creds forwarded q) = .ok (d', .device l) ∧
    ∀ a, Client d.nv.config (sentBy creds forwarded q) a → MadeFor restricted a →
      (q.uri = bs "/sse/json" → d.sse.clients.length < 2) → ¬ Refuses l ∧ Serves l := by
  obtain ⟨h1, h2⟩ := wanted_address (visit_wanted hs hq)
  refine ⟨?_, fun a hc ha hr => ?_⟩
  · rw [(c128_place b src d e (r := sentBy creds forwarded q) h1).1 (h2.2 hn), h]
    rfl
  · obtain ⟨g1, g2⟩ := c110_answered_partial hs hq hc ha hr h
    refine ⟨g1, g2.resolve_right fun hu => hn ?_⟩
    rw [hu]
    decide +kernel

/-- **C128 (partial), a session.** The page in a browser, through the proxy, and anything else that happens to the device in the
meantime (the meter, other clients, the console, restarts): the device ends in the state where it would end if the page were its own,
and whenever the page asks for something else than the heartbeat and the version, it is answered the same.

Partial: the page sends no update (`c128_refuted_update`). -/
theorem c128_session_partial {b : Build} {src : Str → Option Str} {restricted : Bool} {hash : Option Tab} {form : Args}
    {acts : List PageEvent} (hs : HasSave form acts) {creds : Str → Str → Bool} {forwarded : Bool} {evs : List ProxyEvent}
    (hp : FromPage (visit restricted hash form acts) creds forwarded evs)
    (hu : ∀ r e, .proxy r e ∈ evs → r.uri ≠ bs "/update") {d d' : Device} {ls : List (List Eff)}
    (h : d.run b (evs.map straight) = .ok (d', ls)) :
    ∃ as, d.proxyRun b src evs = .ok (d', as) ∧ as.length = ls.length ∧
      ∀ (i : Nat) (r : Req) (e : Env), evs[i]? = some (ProxyEvent.proxy r e) → r.uri ∉ [bs "/hb.htm", bs "/version"] →
        as[i]? = ls[i]?.map ProxyAns.device := by
  induction evs generalizing d ls with
  | nil =>
    obtain ⟨rfl, rfl⟩ := Prod.mk.inj (Except.ok.inj h)
    exact ⟨[], rfl, rfl, by simp⟩
  | cons ev evs ih =>
    obtain ⟨⟨d1, l1⟩, h1, h⟩ := bind_ok h
    obtain ⟨⟨d2, l2⟩, h2, h⟩ := bind_ok h
    obtain ⟨rfl, rfl⟩ := Prod.mk.inj (Except.ok.inj h)
    obtain ⟨as, g1, g2, g3⟩ := ih (fun r e hm => hp r e (List.mem_cons_of_mem _ hm))
      (fun r e hm => hu r e (List.mem_cons_of_mem _ hm)) h2
    have key : ∃ a, d.proxyStep b src ev = .ok (d1, a) ∧
        ∀ r e, ev = .proxy r e → r.uri ∉ [bs "/hb.htm", bs "/version"] → a = .device l1 := by
      cases ev with
      | direct ev =>
        have h1 : d.step b ev = .ok (d1, l1) := h1
        exact ⟨.device l1, by simp only [Device.proxyStep, h1, ok_bind, pure_ok], by simp⟩
      | proxy r e =>
        have h1 : d.handle b e r = .ok (d1, l1) := h1
        obtain ⟨q, hq, rfl⟩ := hp r e List.mem_cons_self
        have hu := hu _ e List.mem_cons_self
        have hu : q.uri ≠ bs "/update" := hu
        obtain ⟨k1, k2⟩ := wanted_address (visit_wanted hs hq)
        by_cases hx : q.uri ∈ [bs "/hb.htm", bs "/version"]
        · have hna : ¬ DeviceAddress q.uri := fun hd => k2.1 hd (by simp at hx ⊢; grind)
          obtain ⟨a, m1, -⟩ := (c128_place b src d e (r := sentBy creds forwarded q) k1).2 hna
          have hd : d1 = d := by
            have hw := visit_wanted hs hq
            simp only [List.mem_cons, List.not_mem_nil, or_false] at hx
            cases hw with
            | look hlook =>
              have no : ∀ u ∈ [bs "/tinfo.json", bs "/system.json", bs "/config.json"], ¬ (u = bs "/hb.htm" ∨ u = bs "/version") := by
                decide +kernel
              exact absurd hx (no _ hlook)
            | version =>
              rw [version_handled] at h1
              exact (Prod.mk.inj (Except.ok.inj h1)).1.symm
            | beat =>
              rw [heartbeat b d e rfl rfl] at h1
              exact (Prod.mk.inj (Except.ok.inj h1)).1.symm
            | save hf =>
              have hx : bs "/config_form.json" = bs "/hb.htm" ∨ bs "/config_form.json" = bs "/version" := hx
              exact absurd hx (by decide +kernel)
            | _ => exact absurd hx (by decide +kernel)
          rw [hd]
          refine ⟨a, m1, fun r e' he hc => ?_⟩
          cases he
          exact absurd hx hc
        · refine ⟨.device l1, (c128_answer_partial src hs hq (by simp at hx ⊢; grind) h1).1, fun _ _ _ _ => rfl⟩
    obtain ⟨a, k1, k2⟩ := key
    refine ⟨a :: as, by simp only [Device.proxyRun, k1, ok_bind, g1, pure_ok], by simp [g2], ?_⟩
    intro i r e hi hn
    cases i with
    | zero =>
      simp only [List.getElem?_cons_zero, Option.some.injEq] at hi
      simp [k2 r e hi hn]
    | succ i => simpa using g3 i r e (by simpa using hi) hn

/-- **C128, the rights.** The proxy tells the device nothing of itself: with a password that is right, somebody on the PC has all the
rights through it, as without it (`webserver.h` announces restricted access "behind a reverse proxy"); a factory reset is done. -/
theorem c128_full {b : Build} (src : Str → Option Str) {d : Device} {e : Env} {user pass : Str}
    (hd : Protected d.nv.config user pass) {creds : Str → Str → Bool} (hc : creds user pass = true) :
    ∃ d', d.throughProxy b src e (sentBy creds false ⟨.post, bs "/factory_reset", []⟩) =
        .ok (d', .device [.eraseSdk, .send 200 (bs "Reset"), .restart]) ∧
      settings d'.nv.config = factory (bs "WifInfo-" ++ hex06 b.world.chipId) := by
  obtain ⟨d', h1, h2, -⟩ := c70_web (b := b) (d := d) (e := e) (r := sentBy creds false ⟨.post, bs "/factory_reset", []⟩) rfl
    (.owner hd hc rfl)
  refine ⟨d', ?_, h2⟩
  rw [(c128_place b src d e (r := sentBy creds false ⟨.post, bs "/factory_reset", []⟩)
    (show bs "/" <+: bs "/factory_reset" by decide +kernel)).1
    (show DeviceAddress (bs "/factory_reset") by unfold DeviceAddress; decide +kernel), h1]
  rfl

/-! ## What the page does not get -/

theorem not_found {b : Build} {src : Str → Option Str} (hsrc : SourceFolder src) (d : Device) (e : Env) {r : Req}
    (hu : r.uri ∈ [bs "/hb.htm", bs "/version", bs "/update"]) (hm : r.method = .get ∨ r.method = .post) :
    d.throughProxy b src e r = .ok (d, .error 404) := by
  have hk : nginxPlace r.uri = some .folder ∧ r.uri ∉ sourceNames ∧ r.uri ≠ bs "/" := by
    revert hu
    generalize r.uri = u
    revert u
    decide +kernel
  have hx : src r.uri = none := by
    have := mt (hsrc r.uri).1 hk.2.1
    simpa using this
  unfold Device.throughProxy
  rw [hk.1]
  simp only [nginxFile, if_neg (show r.method ≠ .other by rcases hm with h | h <;> rw [h] <;> decide), if_neg hk.2.2, hx]
  rfl

/-- **C128** as stated is false for the wait after a restart: `default.conf` has `/hb.html` where the page asks for `/hb.htm`.  The
page restarts the device, which would answer; through the proxy it never comes back, however long it waits and whatever the device
does. -/
theorem c128_refuted_wait {b : Build} {src : Str → Option Str} (hsrc : SourceFolder src) {d : Device} {e : Env}
    {creds : Str → Str → Bool} {forwarded : Bool} (hc : Guest d.nv.config (sentBy creds forwarded ⟨.post, bs "/reset", []⟩))
    (restricted : Bool) (form : Args) :
    visit restricted (some .cfg) form [.tab .shown, .act (.press rebootButton true), .beat] =
      visit restricted (some .cfg) form [.tab .shown] ++ [⟨.post, bs "/reset", []⟩, ⟨.get, bs "/hb.htm", []⟩] ∧
    d.throughProxy b src e (sentBy creds forwarded ⟨.post, bs "/reset", []⟩) =
      .ok (d, .device [.send 200 (bs "Restart"), .restart]) ∧
    ∀ (d' : Device) (e' : Env),
      (∃ l, d'.handle b e' (sentBy creds forwarded ⟨.get, bs "/hb.htm", []⟩) = .ok (d', l) ∧ comesBack l = true) ∧
      ∃ a, d'.throughProxy b src e' (sentBy creds forwarded ⟨.get, bs "/hb.htm", []⟩) = .ok (d', a) ∧ comesBack a.seen = false := by
  refine ⟨?_, ?_, fun d' e' => ⟨⟨_, heartbeat b d' e' rfl rfl, by decide +kernel⟩, .error 404, ?_, by decide +kernel⟩⟩
  · have hb : rebootButton ∈ (Panel.mk form []).buttons restricted := by
      show rebootButton ∈ formButtons restricted
      cases restricted <;> decide +kernel
    have ha : (Panel.mk form []).act restricted (.press rebootButton true) =
        (⟨form, [bs "#mdl_wait"]⟩, [⟨.post, bs "/reset", []⟩]) := by
      rw [act_press, if_pos hb]
      exact (clicks _ true).2.1
    unfold visit
    simp only [WholePage.run, WholePage.step, ha, List.append_nil, List.append_assoc]
    rfl
  · rw [(c128_place b src d e (r := sentBy creds forwarded ⟨.post, bs "/reset", []⟩) (show bs "/" <+: bs "/reset" by decide +kernel)).1
      (show DeviceAddress (bs "/reset") by unfold DeviceAddress; decide +kernel), (c91_restart rfl).1 hc]
    rfl
  · exact not_found hsrc d' e' (r := sentBy creds forwarded ⟨.get, bs "/hb.htm", []⟩)
      (show bs "/hb.htm" ∈ _ by decide +kernel) (by simp [sentBy])

/-- **C128** as stated is false for the version: the device has one (C87), the sources have none, the page gets an error. -/
theorem c128_refuted_version {b : Build} {src : Str → Option Str} (hsrc : SourceFolder src) (d : Device) (e : Env)
    (creds : Str → Str → Bool) (forwarded : Bool) (restricted : Bool) (hash : Option Tab) (form : Args) (evs : List PageEvent) :
    ⟨.get, bs "/version", []⟩ ∈ visit restricted hash form evs ∧
    d.handle b e (sentBy creds forwarded ⟨.get, bs "/version", []⟩) = .ok (d, [.stream (bs "/version")]) ∧
    d.throughProxy b src e (sentBy creds forwarded ⟨.get, bs "/version", []⟩) = .ok (d, .error 404) := by
  refine ⟨List.mem_append_left _ ?_, version_handled .., not_found hsrc d e (show bs "/version" ∈ _ by decide +kernel) (by simp [sentBy])⟩
  cases restricted <;> cases hash with
  | none => decide +kernel
  | some t => cases t <;> decide +kernel

/-- **C128** as stated is false for an update: nginx answers 404 whatever the rights of the client, the page tells an error and the
device does not get the file. -/
theorem c128_refuted_update {b : Build} {src : Str → Option Str} (hsrc : SourceFolder src) (d : Device) (e : Env)
    (creds : Str → Str → Bool) (forwarded : Bool) (hash : Option Tab) (form : Args) (done : Bool) :
    ⟨.post, bs "/update", []⟩ ∈ visit false hash form [.upload done] ∧
    ∃ a, d.throughProxy b src e (sentBy creds forwarded ⟨.post, bs "/update", []⟩) = .ok (d, a) ∧
      noticeOf a.seen = some (.error 404) ∧ waitsAfterUpload a.seen = false :=
  ⟨List.mem_append_right _ (List.mem_append_left _ (List.mem_singleton.2 rfl)), .error 404,
    not_found hsrc d e (show bs "/update" ∈ _ by decide +kernel) (by simp [sentBy]), by decide +kernel, by decide +kernel⟩

/-! ## Cases -/

/-- The sources, with short files. -/
def sampleSources (u : Str) : Option Str := if u ∈ sourceNames then some (bs "content of " ++ u) else none

theorem sample_sources : SourceFolder sampleSources := by
  intro u
  unfold sampleSources
  by_cases h : u ∈ sourceNames <;> simp [h]

-- What goes to the device, and what does not.
example : DeviceAddress (bs "/tinfo.json") ∧ DeviceAddress (bs "/reset") ∧ DeviceAddress (bs "/ticket") ∧
    ¬ DeviceAddress (bs "/hb.htm") ∧ ¬ DeviceAddress (bs "/js/wifinfo.js") ∧ ¬ DeviceAddress (bs "/50x.html") := by
  unfold DeviceAddress
  decide +kernel

-- A session through the proxy: the page is opened at the configuration, the meter goes on, the settings are asked for.
example (creds : Str → Str → Bool) (e : Env) (conn : Nat → Bool) :
    HasSave [(bs "save", bs "1")] [.tab .shown] ∧
    FromPage (visit false (some .cfg) [(bs "save", bs "1")] [.tab .shown]) creds false
      [.proxy (sentBy creds false ⟨.get, bs "/version", []⟩) e, .direct (.poll conn),
       .proxy (sentBy creds false ⟨.get, bs "/config.json", []⟩) e] ∧
    sampleSources (bs "/index.html") = some (bs "content of /index.html") := by
  refine ⟨⟨by decide +kernel, by simp⟩, ?_, by decide +kernel⟩
  intro r e' h
  simp only [List.mem_cons, ProxyEvent.proxy.injEq, reduceCtorEq, List.not_mem_nil, or_false, false_or] at h
  rcases h with ⟨rfl, -⟩ | ⟨rfl, -⟩
  · exact ⟨_, by decide +kernel, rfl⟩
  · exact ⟨_, by decide +kernel, rfl⟩

end Wifinfo
