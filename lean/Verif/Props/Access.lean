import Verif.Props.Device
import Verif.Props.SysJson

/-!
# C39–C41, C63: access control and answers
-/

namespace Wifinfo
open Spec

/-! ## Specification -/

namespace Spec

/-- The device has a user name. -/
structure Protected (c : Config) (user pass : Str) : Prop where
  name : HasText c.username user
  nonempty : user ≠ []
  pwd : HasText c.password pass

/-- The error page. -/
def errorPage (r : Req) : Str :=
  bs "Not Found\n\nURI: " ++ r.uri ++ bs "\nMethod: " ++ (if r.method = .get then bs "GET" else bs "POST") ++
  bs "\nArguments: " ++ decText r.args.length ++ bs "\n" ++
  r.args.flatMap fun a => bs " " ++ a.1 ++ bs ": " ++ a.2 ++ bs "\n"

/-- Resources for everybody. -/
inductive Public (static : Str → Option Str) (r : Req) : List Eff → Prop
  | heartbeat : r.uri = bs "/hb.htm" → Public static r [.send 200 (bs "OK")]
  | version : r.uri = bs "/version" → Public static r [.stream (bs "/version")]
  | file {p} : r.method = .get → static r.uri = some p → Public static r [.stream p]
  | unknown : Public static r [.send 404 (errorPage r)]

/-- Effects on the firmware, the file system, the stored settings or the running program. -/
def dangerous : Eff → Bool
  | .restart | .restartSoon | .eraseSdk | .updBegin .. | .updWrite .. | .updEnd .. => true
  | _ => false

/-- Effects reserved to the local network. -/
def localOnly : Eff → Bool
  | .restartSoon | .eraseSdk | .updBegin .. | .updWrite .. | .updEnd .. => true
  | _ => false

/-- Is it an answer to a request? -/
def isAnswer : Eff → Bool
  | .send .. | .needAuth | .stream .. | .sse (.opened ..) => true
  | _ => false

end Spec

/-! ## Credentials -/

theorem auth_none {c : Config} {u p : Str} (h : Protected c u p) {r : Req} (hr : r.creds u p = false) :
    getAuth c r = .ok (.none, [.needAuth]) := by
  unfold getAuth
  rw [if_pos (fun hh => h.nonempty (h.name.first.1 hh)), h.name.cstr, h.pwd.cstr]
  simp only [ok_bind, hr, Bool.false_eq_true, if_false]
  rfl

theorem auth_restricted {c : Config} {u p : Str} (h : Protected c u p) {r : Req} (hr : r.creds u p = true)
    (hf : r.forwarded = true) : getAuth c r = .ok (.restricted, []) := by
  unfold getAuth
  rw [if_pos (fun hh => h.nonempty (h.name.first.1 hh)), h.name.cstr, h.pwd.cstr]
  simp only [ok_bind, hr, if_true, hf]
  rfl

/-! ## C41 -/

theorem notFoundLoop_ok (args : Args) (h : args.length ≤ 255) : ∀ (f i : Nat) (msg : Str),
    i ≤ args.length → args.length - i < f →
    notFoundLoop args f (UInt8.ofNat i) msg =
      .ok (msg ++ (args.drop i).flatMap fun a => bs " " ++ a.1 ++ bs ": " ++ a.2 ++ bs "\n") := by
  intro f
  induction f with
  | zero => intro i msg _ h; omega
  | succ f ih =>
    intro i msg h1 h2
    have hi : (UInt8.ofNat i).toNat = i := by rw [UInt8.toNat_ofNat']; omega
    unfold notFoundLoop
    rw [hi]
    by_cases hlt : i < args.length
    · have e : UInt8.ofNat i + 1 = UInt8.ofNat (i + 1) := by simp
      rw [List.getElem?_eq_getElem hlt, List.drop_eq_getElem_cons hlt]
      dsimp only
      rw [e, ih (i + 1) _ (by omega) (by omega)]
      simp only [List.flatMap_cons, List.append_assoc]
    · rw [List.getElem?_eq_none (by omega), List.drop_of_length_le (by omega)]
      simp

theorem notFoundLoop_diverges (args : Args) (h : 256 ≤ args.length) : ∀ (f : Nat) (i : UInt8) (msg : Str),
    notFoundLoop args f i msg = .error .diverge := by
  intro f
  induction f with
  | zero => intro i msg; rfl
  | succ f ih =>
    intro i msg
    have hi := i.toNat_lt
    unfold notFoundLoop
    rw [List.getElem?_eq_getElem (by omega)]
    exact ih _ _

theorem notFound_unknown {w : World} {d : Device} {r : Req} {u p : Str} (hu : HasText d.nv.config.username u)
    (hp : HasText d.nv.config.password p) (hr : r.creds u p = false) (ha : r.args.length ≤ 255) :
    notFound w d r = .ok [.send 404 (errorPage r)] := by
  unfold notFound
  rw [hu.cstr, hp.cstr]
  simp only [ok_bind, hr, Bool.false_eq_true, if_false, pure_ok]
  have := notFoundLoop_ok r.args ha 257 0
  rw [show (0 : UInt8) = UInt8.ofNat 0 from rfl, this _ (by omega) (by omega)]
  have e : bs "Not Found\n\nURI: " = bs "Not Found\n\n" ++ bs "URI: " := by decide +kernel
  simp [errorPage, e]

/-- **C41 (partial).** With at most 255 arguments the handler terminates and sends one answer: the value
asked for when the credentials are right and the label is known, otherwise the error page with all the
arguments.  Missing with respect to the property as stated: more arguments, for which it is false
(`c41_refuted`), and the empty URI, which the server library does not produce. -/
theorem c41_answer_partial {w : World} {d : Device} {r : Req} {u p : Str} (hu : HasText d.nv.config.username u)
    (hp : HasText d.nv.config.password p) (ha : r.args.length ≤ 255) {x : Byte} {label : Str}
    (hl : r.uri = x :: label) {v} (hv : ticGetValue w d.tic.tinfo (cstrOf label) = .ok v) :
    notFound w d r = .ok (match (if r.creds u p then v else none) with
      | some t => [.send 200 t]
      | none => [.send 404 (errorPage r)]) := by
  cases hr : r.creds u p with
  | false => rw [notFound_unknown hu hp hr ha]; rfl
  | true =>
    unfold notFound
    rw [hu.cstr, hp.cstr]
    simp only [ok_bind, hr, if_true, hl, hv]
    cases v with
    | some t => rfl
    | none =>
      have := notFoundLoop_ok r.args ha 257 0
      dsimp only
      rw [show (0 : UInt8) = UInt8.ofNat 0 from rfl, this _ (by omega) (by omega)]
      have e : bs "Not Found\n\nURI: " = bs "Not Found\n\n" ++ bs "URI: " := by decide +kernel
      simp [errorPage, e, hl]

/-- **C41** as stated is false: with 256 arguments or more, on any device, without credentials, the
handler never ends and sends nothing. -/
theorem c41_refuted {s : Nv} (hs : NvReach s) (w : World) {d : Device} (hd : d.nv = s) {r : Req}
    (hr : ∀ u p, r.creds u p = false) (ha : 256 ≤ r.args.length) : notFound w d r = .error .diverge := by
  subst hd
  obtain ⟨_, _, _, _, _, t1, t2, _⟩ := (terminated_iff _).1 (c32_terminated hs)
  unfold notFound
  rw [cstr_ok t1, cstr_ok t2]
  simp only [ok_bind, hr, Bool.false_eq_true, if_false, pure_ok]
  rw [notFoundLoop_diverges _ ha]
  rfl

/-- **C41, exactly**: a value asked for with the right credentials is always sent; otherwise the error page is sent if and
only if there are at most 255 arguments, and with more the handler never ends. -/
theorem c41_exact {w : World} {d : Device} {r : Req} {u p : Str} (hu : HasText d.nv.config.username u)
    (hp : HasText d.nv.config.password p) {x : Byte} {label : Str} (hl : r.uri = x :: label) {v}
    (hv : ticGetValue w d.tic.tinfo (cstrOf label) = .ok v) :
    notFound w d r = (match (if r.creds u p then v else none) with
      | some t => .ok [.send 200 t]
      | none => if r.args.length ≤ 255 then .ok [.send 404 (errorPage r)] else .error .diverge) := by
  by_cases ha : r.args.length ≤ 255
  · rw [c41_answer_partial hu hp ha hl hv, if_pos ha]
    cases (if r.creds u p then v else none) <;> rfl
  · rw [if_neg ha]
    have e : notFound w d r = (match (if r.creds u p then v else none) with
        | some t => .ok [.send 200 t]
        | none => .error .diverge) := by
      unfold notFound
      rw [hu.cstr, hp.cstr]
      cases hr : r.creds u p with
      | false =>
        simp only [ok_bind, hr, Bool.false_eq_true, if_false, pure_ok]
        rw [notFoundLoop_diverges _ (by omega)]
        rfl
      | true =>
        simp only [ok_bind, hr, if_true, hl, hv]
        cases v with
        | some t => rfl
        | none =>
          dsimp only
          rw [notFoundLoop_diverges _ (by omega)]
          rfl
    exact e

example : 256 ≤ (List.replicate 256 (bs "a", bs "")).length := by rw [List.length_replicate]; exact Nat.le_refl _

/-! ## C39 -/

theorem ite_skip {p : Prop} [Decidable p] {a b c : Route} (h : (if p then a else b) = c) (hn : a ≠ c) :
    b = c := by
  by_cases hp : p
  · rw [if_pos hp] at h; exact absurd h hn
  · rwa [if_neg hp] at h

/-- What the routes of the public resources say of the request. -/
theorem route_public {cpu : Bool} {st m u} :
    (route cpu st m u = .heartbeat → u = bs "/hb.htm") ∧
    (route cpu st m u = .version → u = bs "/version") ∧
    (∀ p, route cpu st m u = .static p → m = .get ∧ st u = some p) := by
  refine ⟨fun h => ?_, fun h => ?_, fun p h => ?_⟩
  · unfold route at h
    iterate 12 replace h := ite_skip h (by simp)
    by_cases hp : u = bs "/hb.htm" ∧ m = .get
    · exact hp.1
    · rw [if_neg hp] at h
      iterate 4 replace h := ite_skip h (by simp)
      split at h
      · split at h <;> cases h
      · cases h
  · unfold route at h
    iterate 16 replace h := ite_skip h (by simp)
    by_cases hp : u = bs "/version"
    · exact hp
    · rw [if_neg hp] at h
      split at h
      · split at h <;> cases h
      · cases h
  · unfold route at h
    iterate 17 replace h := ite_skip h (by simp)
    split at h
    · rename_i hm
      split at h
      · rename_i q hq
        cases h
        exact ⟨hm, hq⟩
      · cases h
    · cases h

/-- **C39 (partial), handlers.** On a device with a user name, a request without the right credentials
changes nothing.  The answer is a request for authentication, or the heartbeat, the version, a static
file or the error page, and is the same on any other such device (`d'`): nothing of the state of the
device can be learnt.  Nothing is restarted, erased or flashed.
Missing with respect to the property as stated: the pieces of an uploaded file, for which it is false
(`c39_refuted`), and requests with more than 255 arguments (`c41_refuted`). -/
theorem c39_handlers_partial {b : Build} {d d' : Device} {u p u' p' : Str} (h : Protected d.nv.config u p)
    (h' : Protected d'.nv.config u' p') {r : Req} (hr : r.creds u p = false) (hr' : r.creds u' p' = false)
    (ha : r.args.length ≤ 255) {e e' : Env} (he : e.static = e'.static) :
    ∃ l, d.handle b e r = .ok (d, l) ∧ d'.handle b e' r = .ok (d', l) ∧
      (l = [.needAuth] ∨ Public e.static r l) ∧ (∀ x ∈ l, dangerous x = false) := by
  have n1 := auth_none h hr
  have n2 := auth_none h' hr'
  have json : ∀ {d : Device} {u p} (_ : Protected d.nv.config u p) (_ : r.creds u p = false) (get),
      sendJson d r get = .ok (d, [.needAuth]) := by
    intro d u p h hr get
    unfold sendJson
    rw [auth_none h hr]
    rfl
  have ok : ∀ {c : Config} {u p} (_ : Protected c u p) (_ : r.creds u p = false),
      accessOk c r = .ok (false, [.needAuth]) := by
    intro c u p h hr
    unfold accessOk
    rw [auth_none h hr]
    rfl
  have full : ∀ {c : Config} {u p} (_ : Protected c u p) (_ : r.creds u p = false),
      accessFull c r = .ok (false, [.needAuth]) := by
    intro c u p h hr
    unfold accessFull
    rw [auth_none h hr]
    rfl
  have hn : ∀ x ∈ [Eff.needAuth], dangerous x = false := by decide
  obtain ⟨r1, r2, r3⟩ := route_public (cpu := b.cpuload) (st := e'.static) (m := r.method) (u := r.uri)
  unfold Device.handle
  rw [he]
  cases hroute : route b.cpuload e'.static r.method r.uri with
  | sse => exact ⟨_, by rw [ok h hr]; rfl, by rw [ok h' hr']; rfl, Or.inl rfl, hn⟩
  | cpuload => exact ⟨_, by rw [ok h hr]; rfl, by rw [ok h' hr']; rfl, Or.inl rfl, hn⟩
  | configForm => exact ⟨_, by rw [n1]; rfl, by rw [n2]; rfl, Or.inl rfl, hn⟩
  | json => exact ⟨_, json h hr _, json h' hr' _, Or.inl rfl, hn⟩
  | tinfo => exact ⟨_, json h hr _, json h' hr' _, Or.inl rfl, hn⟩
  | emoncms => exact ⟨_, json h hr _, json h' hr' _, Or.inl rfl, hn⟩
  | system => exact ⟨_, json h hr _, json h' hr' _, Or.inl rfl, hn⟩
  | config => exact ⟨_, json h hr _, json h' hr' _, Or.inl rfl, hn⟩
  | spiffs => exact ⟨_, json h hr _, json h' hr' _, Or.inl rfl, hn⟩
  | wifiscan => exact ⟨_, json h hr _, json h' hr' _, Or.inl rfl, hn⟩
  | factoryReset => exact ⟨_, by rw [full h hr]; rfl, by rw [full h' hr']; rfl, Or.inl rfl, hn⟩
  | reset => exact ⟨_, by rw [ok h hr]; rfl, by rw [ok h' hr']; rfl, Or.inl rfl, hn⟩
  | heartbeat => exact ⟨_, rfl, rfl, Or.inr (.heartbeat (r1 hroute)), by simp [dangerous]⟩
  | updatePage => exact ⟨_, by rw [full h hr]; rfl, by rw [full h' hr']; rfl, Or.inl rfl, hn⟩
  | updatePost => exact ⟨_, by rw [full h hr]; rfl, by rw [full h' hr']; rfl, Or.inl rfl, hn⟩
  | root =>
    refine ⟨[.needAuth], ?_, ?_, Or.inl rfl, hn⟩
    · show (do pure (d, ← handleRoot d e r)) = _
      unfold handleRoot; rw [n1]; rfl
    · show (do pure (d', ← handleRoot d' e' r)) = _
      unfold handleRoot; rw [n2]; rfl
  | version => exact ⟨_, rfl, rfl, Or.inr (.version (r2 hroute)), by simp [dangerous]⟩
  | static q =>
    obtain ⟨g1, g2⟩ := r3 q hroute
    exact ⟨_, rfl, rfl, Or.inr (.file g1 g2), by simp [dangerous]⟩
  | notFound =>
    refine ⟨[.send 404 (errorPage r)], ?_, ?_, Or.inr .unknown, by simp [dangerous]⟩
    · show (do pure (d, ← notFound b.world d r)) = _
      rw [notFound_unknown h.name h.pwd hr ha]; rfl
    · show (do pure (d', ← notFound b.world d' r)) = _
      rw [notFound_unknown h'.name h'.pwd hr' ha]; rfl

/-- **C39, C40** as stated are false: on any device, whatever the credentials and the headers of the
request, a file posted to `/update` is handed to the updater, the decoder is suspended meanwhile and the
answer is `200 OK`.  (The request for authentication comes after; the new firmware is used from the next
restart on.) -/
theorem c39_refuted (b : Build) (d : Device) (r : Req) (data : Str) :
    ∃ d', d.run b [.upload r (.start (bs "firmware.bin") data.length true true),
        .upload r (.write data true true), .upload r (.fin true)] =
      .ok (d', [[.updBegin data.length false], [.updWrite data], [.updEnd true, .send 200 (bs "OK")]]) ∧
      d'.updOk = true := by
  refine ⟨_, rfl, rfl⟩

/-! ## C40 -/

/-- **C40 (partial), handlers.** On a device with a user name, a request that comes through a reverse
proxy is refused by the factory reset and the update page, with one 403 answer; no request of this kind
erases, flashes or restarts through the update page.
Missing with respect to the property as stated: the pieces of an uploaded file, for which it is false
(`c40_refuted`). -/
theorem c40_handlers_partial {b : Build} {d : Device} {u p : Str} (h : Protected d.nv.config u p) {r : Req}
    (hr : r.creds u p = true) (hf : r.forwarded = true) (e : Env) :
    (r.uri = bs "/factory_reset" ∨ (r.uri = bs "/update" ∧ (r.method = .get ∨ r.method = .post)) →
      d.handle b e r = .ok (d, [.send 403 (bs "failed")])) ∧
    (∀ d' l, d.handle b e r = .ok (d', l) → ∀ x ∈ l, localOnly x = false) := by
  have full : accessFull d.nv.config r = .ok (false, [.send 403 (bs "failed")]) := by
    unfold accessFull
    rw [auth_restricted h hr hf]
    rfl
  constructor
  · intro hu
    have hroute : route b.cpuload e.static r.method r.uri = .factoryReset ∨
        route b.cpuload e.static r.method r.uri = .updatePage ∨
        route b.cpuload e.static r.method r.uri = .updatePost := by
      rcases hu with hu | ⟨hu, hm | hm⟩ <;> rw [hu]
      · left
        unfold route
        cases b.cpuload <;> rfl
      · right; left
        unfold route
        rw [hm]
        cases b.cpuload <;> rfl
      · right; right
        unfold route
        rw [hm]
        cases b.cpuload <;> rfl
    unfold Device.handle
    rcases hroute with hroute | hroute | hroute <;> rw [hroute] <;> dsimp only <;> rw [full] <;> rfl
  · intro d' l hl
    have json : ∀ {get}, sendJson d r get = .ok (d', l) → ∀ x ∈ l, localOnly x = false := by
      intro get hj
      obtain ⟨rfl, rfl | ⟨s, rfl⟩⟩ := sendJson_form hj <;> simp [localOnly]
    unfold Device.handle at hl
    split at hl
    · obtain ⟨⟨ok, ef⟩, h1, hl⟩ := bind_ok hl
      rcases accessOk_form h1 with ⟨rfl, rfl⟩ | ⟨rfl, rfl⟩
      · obtain ⟨rfl, rfl⟩ := Prod.mk.inj (Except.ok.inj hl)
        simp [localOnly]
      · simp only [if_true] at hl
        split at hl
        · obtain ⟨rfl, rfl⟩ := Prod.mk.inj (Except.ok.inj hl)
          intro x hx
          simp only [List.nil_append, List.mem_map] at hx
          obtain ⟨y, _, rfl⟩ := hx
          rfl
        · obtain ⟨rfl, rfl⟩ := Prod.mk.inj (Except.ok.inj hl)
          simp [localOnly]
    · obtain ⟨⟨ok, ef⟩, h1, hl⟩ := bind_ok hl
      rcases accessOk_form h1 with ⟨rfl, rfl⟩ | ⟨rfl, rfl⟩ <;>
      · obtain ⟨rfl, rfl⟩ := Prod.mk.inj (Except.ok.inj hl)
        simp [localOnly]
    · obtain ⟨⟨a, ef⟩, h1, hl⟩ := bind_ok hl
      dsimp only at hl
      split at hl
      · obtain ⟨rfl, rfl⟩ := Prod.mk.inj (Except.ok.inj hl)
        rcases getAuth_form h1 with ⟨rfl, rfl⟩ | ⟨h2, rfl⟩ <;> simp [localOnly]
      · obtain ⟨⟨nv, code⟩, h2, hl⟩ := bind_ok hl
        obtain ⟨rfl, rfl⟩ := Prod.mk.inj (Except.ok.inj hl)
        rcases getAuth_form h1 with ⟨rfl, rfl⟩ | ⟨h2, rfl⟩ <;> simp [localOnly]
    · exact json hl
    · exact json hl
    · exact json hl
    · exact json hl
    · exact json hl
    · exact json hl
    · exact json hl
    · rw [full] at hl
      obtain ⟨rfl, rfl⟩ := Prod.mk.inj (Except.ok.inj hl)
      simp [localOnly]
    · obtain ⟨⟨ok, ef⟩, h1, hl⟩ := bind_ok hl
      rcases accessOk_form h1 with ⟨rfl, rfl⟩ | ⟨rfl, rfl⟩ <;>
      · obtain ⟨rfl, rfl⟩ := Prod.mk.inj (Except.ok.inj hl)
        simp [localOnly]
    · obtain ⟨rfl, rfl⟩ := Prod.mk.inj (Except.ok.inj hl)
      simp [localOnly]
    · rw [full] at hl
      obtain ⟨rfl, rfl⟩ := Prod.mk.inj (Except.ok.inj hl)
      simp [localOnly]
    · rw [full] at hl
      obtain ⟨rfl, rfl⟩ := Prod.mk.inj (Except.ok.inj hl)
      simp [localOnly]
    · obtain ⟨l', h1, hl⟩ := bind_ok hl
      obtain ⟨rfl, rfl⟩ := Prod.mk.inj (Except.ok.inj hl)
      rcases handleRoot_form h1 with rfl | ⟨p, rfl⟩ | ⟨_, _, n, s, rfl⟩ <;> simp [localOnly]
    · obtain ⟨rfl, rfl⟩ := Prod.mk.inj (Except.ok.inj hl)
      simp [localOnly]
    · obtain ⟨rfl, rfl⟩ := Prod.mk.inj (Except.ok.inj hl)
      simp [localOnly]
    · obtain ⟨l', h1, hl⟩ := bind_ok hl
      obtain ⟨rfl, rfl⟩ := Prod.mk.inj (Except.ok.inj hl)
      obtain ⟨n, s, rfl⟩ := notFound_form h1
      simp [localOnly]

/-- **C40** as stated is false: see `c39_refuted`, here for a request with the forwarding header. -/
theorem c40_refuted (b : Build) (d : Device) (r : Req) (_ : r.forwarded = true) (data : Str) :
    ∃ d' es, d.run b [.upload r (.start (bs "fs.bin") data.length true true),
        .upload r (.write data true true), .upload r (.fin true)] = .ok (d', es) ∧
      [Eff.updBegin b.fsSize true] ∈ es ∧ [Eff.updWrite data] ∈ es := by
  refine ⟨_, _, rfl, ?_, ?_⟩
  · exact List.mem_cons_self
  · exact List.mem_cons_of_mem _ List.mem_cons_self

/-- A form that protects the device. -/
def userForm : Args := [(bs "save", bs "1"), (bs "username", bs "admin"), (bs "password", bs "secret")]

theorem reach_protected : ∃ s : Nv, NvReach s ∧ Protected s.config (bs "admin") (bs "secret") := by
  obtain ⟨s, h1, h2⟩ := reach_form blankFlash 1 userForm (by decide +kernel)
  refine ⟨s, h1, ?_, by decide, ?_⟩
  · have := congrArg (fun l => l[6]?) h2
    have e : (postedPrivate userForm ++ postedPublic userForm)[6]? = some ("username", .text (some (bs "admin"))) := by
      rfl
    rw [e] at this
    simpa [settings, privateSettings, HasText] using this
  · have := congrArg (fun l => l[7]?) h2
    have e : (postedPrivate userForm ++ postedPublic userForm)[7]? = some ("password", .text (some (bs "secret"))) := by
      rfl
    rw [e] at this
    simpa [settings, privateSettings, HasText] using this

/-- A protected device, asked without and with the right password. -/
example (b : Build) (e : Env) (d0 : Device) : ∃ d : Device, ∃ r r' : Req,
    d.handle b e r = .ok (d, [.needAuth]) ∧ d.handle b e r' = .ok (d, [.send 403 (bs "failed")]) := by
  obtain ⟨s, _, h2⟩ := reach_protected
  let r : Req := {
    method := .get, uri := bs "/factory_reset", args := [],
    creds := fun u p => u == bs "admin" && p == bs "guess", forwarded := true }
  let r' : Req := { r with creds := fun u p => u == bs "admin" && p == bs "secret" }
  refine ⟨{ d0 with nv := s }, r, r', ?_, ?_⟩
  · have hroute : route b.cpuload e.static r.method r.uri = .factoryReset := by
      unfold route
      cases b.cpuload <;> rfl
    unfold Device.handle
    rw [hroute]
    dsimp only
    unfold accessFull
    rw [auth_none h2 (by decide)]
    rfl
  · exact (c40_handlers_partial (d := { d0 with nv := s }) h2 (r := r') (by decide) rfl e).1 (Or.inl rfl)

/-! ## C63 -/

/-- **C63 (partial).** A handler sends exactly one answer, but for `POST /update`, where the answer comes
from the upload (`c63_refuted`). -/
theorem c63_one_answer_partial {b : Build} {d d' : Device} {e : Env} {r : Req} {l}
    (h : d.handle b e r = .ok (d', l)) (hu : ¬ (r.uri = bs "/update" ∧ r.method = .post)) :
    l.countP isAnswer = 1 := by
  have json : ∀ {get}, sendJson d r get = .ok (d', l) → l.countP isAnswer = 1 := by
    intro get hj
    obtain ⟨rfl, rfl | ⟨s, rfl⟩⟩ := sendJson_form hj <;> rfl
  unfold Device.handle at h
  split at h
  · obtain ⟨⟨ok, ef⟩, h1, h⟩ := bind_ok h
    rcases accessOk_form h1 with ⟨rfl, rfl⟩ | ⟨rfl, rfl⟩
    · obtain ⟨rfl, rfl⟩ := Prod.mk.inj (Except.ok.inj h)
      rfl
    · simp only [if_true] at h
      split at h
      · rename_i s x hx
        obtain ⟨rfl, rfl⟩ := Prod.mk.inj (Except.ok.inj h)
        unfold Sse.accept at hx
        split at hx
        · cases hx; rfl
        · cases hx
      · obtain ⟨rfl, rfl⟩ := Prod.mk.inj (Except.ok.inj h)
        rfl
  · obtain ⟨⟨ok, ef⟩, h1, h⟩ := bind_ok h
    rcases accessOk_form h1 with ⟨rfl, rfl⟩ | ⟨rfl, rfl⟩ <;>
    · obtain ⟨rfl, rfl⟩ := Prod.mk.inj (Except.ok.inj h)
      rfl
  · obtain ⟨⟨a, ef⟩, h1, h⟩ := bind_ok h
    dsimp only at h
    split at h
    · obtain ⟨rfl, rfl⟩ := Prod.mk.inj (Except.ok.inj h)
      rcases getAuth_form h1 with ⟨rfl, rfl⟩ | ⟨h2, rfl⟩
      · rfl
      · contradiction
    · obtain ⟨⟨nv, code⟩, h2, h⟩ := bind_ok h
      obtain ⟨rfl, rfl⟩ := Prod.mk.inj (Except.ok.inj h)
      rcases getAuth_form h1 with ⟨rfl, rfl⟩ | ⟨h2, rfl⟩
      · contradiction
      · rfl
  · exact json h
  · exact json h
  · exact json h
  · exact json h
  · exact json h
  · exact json h
  · exact json h
  · obtain ⟨⟨ok, ef⟩, h1, h⟩ := bind_ok h
    rcases accessFull_form h1 with ⟨rfl, rfl | rfl⟩ | ⟨rfl, rfl⟩
    · obtain ⟨rfl, rfl⟩ := Prod.mk.inj (Except.ok.inj h)
      rfl
    · obtain ⟨rfl, rfl⟩ := Prod.mk.inj (Except.ok.inj h)
      rfl
    · obtain ⟨nv, _, h⟩ := bind_ok h
      obtain ⟨rfl, rfl⟩ := Prod.mk.inj (Except.ok.inj h)
      rfl
  · obtain ⟨⟨ok, ef⟩, h1, h⟩ := bind_ok h
    rcases accessOk_form h1 with ⟨rfl, rfl⟩ | ⟨rfl, rfl⟩ <;>
    · obtain ⟨rfl, rfl⟩ := Prod.mk.inj (Except.ok.inj h)
      rfl
  · obtain ⟨rfl, rfl⟩ := Prod.mk.inj (Except.ok.inj h)
    rfl
  · obtain ⟨⟨ok, ef⟩, h1, h⟩ := bind_ok h
    rcases accessFull_form h1 with ⟨rfl, rfl | rfl⟩ | ⟨rfl, rfl⟩ <;>
    · obtain ⟨rfl, rfl⟩ := Prod.mk.inj (Except.ok.inj h)
      rfl
  · rename_i hroute
    refine absurd ?_ hu
    unfold route at hroute
    iterate 14 replace hroute := ite_skip hroute (by simp)
    by_cases hp : r.uri = bs "/update" ∧ r.method = .post
    · exact hp
    · rw [if_neg hp] at hroute
      iterate 2 replace hroute := ite_skip hroute (by simp)
      split at hroute
      · split at hroute <;> cases hroute
      · cases hroute
  · obtain ⟨l', h1, h⟩ := bind_ok h
    obtain ⟨rfl, rfl⟩ := Prod.mk.inj (Except.ok.inj h)
    rcases handleRoot_form h1 with rfl | ⟨p, rfl⟩ | ⟨_, _, n, s, rfl⟩ <;> rfl
  · obtain ⟨rfl, rfl⟩ := Prod.mk.inj (Except.ok.inj h)
    rfl
  · obtain ⟨rfl, rfl⟩ := Prod.mk.inj (Except.ok.inj h)
    rfl
  · obtain ⟨l', h1, h⟩ := bind_ok h
    obtain ⟨rfl, rfl⟩ := Prod.mk.inj (Except.ok.inj h)
    obtain ⟨n, s, rfl⟩ := notFound_form h1
    rfl

/-- **C63** as stated is false: `POST /update` without a file, by a client with full access, gets no
answer; and a file posted without credentials gets two. -/
theorem c63_refuted (b : Build) {d : Device} (hs : NvReach d.nv) (e : Env) :
    (∃ r : Req, ∃ l, d.handle b e r = .ok (d, l) ∧ l.countP isAnswer = 0) ∧
    (∀ {u p}, Protected d.nv.config u p → ∃ r : Req, ∃ d' es,
      d.run b [.upload r (.start [] 0 true true), .upload r (.fin true), .handle r e] = .ok (d', es) ∧
      es.flatten.countP isAnswer = 2) := by
  have hroute : ∀ (cpu : Bool) st, route cpu st .post (bs "/update") = .updatePost := by
    intro cpu st
    unfold route
    cases cpu <;> rfl
  constructor
  · let r : Req := { method := .post, uri := bs "/update", args := [], creds := fun _ _ => true, forwarded := false }
    have full : accessFull d.nv.config r = .ok (true, []) := by
      obtain ⟨_, _, _, _, _, t1, t2, _⟩ := (terminated_iff _).1 (c32_terminated hs)
      unfold accessFull getAuth
      split
      · rw [cstr_ok t1, cstr_ok t2]; rfl
      · rfl
    refine ⟨r, (if true && d.updOk then [] ++ [.restartSoon] else []), ?_, by cases d.updOk <;> rfl⟩
    unfold Device.handle
    rw [show route b.cpuload e.static r.method r.uri = .updatePost from hroute _ _]
    dsimp only
    rw [full]
    rfl
  · intro u p h
    let r : Req := { method := .post, uri := bs "/update", args := [], creds := fun _ _ => false, forwarded := false }
    have key : ∀ d' : Device, d'.nv = d.nv → d'.handle b e r = .ok (d', [.needAuth]) := by
      intro d' hd
      unfold Device.handle
      rw [show route b.cpuload e.static r.method r.uri = .updatePost from hroute _ _]
      dsimp only
      unfold accessFull
      rw [hd, auth_none h rfl]
      rfl
    let d1 : Device := (d.upload b (.start [] 0 true true)).1
    let d2 : Device := (d1.upload b (.fin true)).1
    refine ⟨r, d2, [[.updBegin 0 false], [.updEnd true, .send 200 (bs "OK")], [.needAuth]], ?_, rfl⟩
    have k := key d2 rfl
    have s1 : d.step b (.upload r (.start [] 0 true true)) = .ok (d1, [.updBegin 0 false]) := rfl
    have s2 : d1.step b (.upload r (.fin true)) = .ok (d2, [.updEnd true, .send 200 (bs "OK")]) := rfl
    have s3 : d2.step b (.handle r e) = .ok (d2, [.needAuth]) := k
    simp only [Device.run, s1, s2, s3, ok_bind, pure_ok]

/-! ## C64 -/

namespace Spec

/-- Two devices that a restricted client should not be able to tell apart: same meter data, same
subscribers, same public settings.  The network and access settings may differ. -/
structure SameView (d d' : Device) : Prop where
  settings : publicSettings d.nv.config = publicSettings d'.nv.config
  tic : d.tic = d'.tic
  sse : d.sse = d'.sse
  updOk : d.updOk = d'.updOk

/-- The surroundings of two such devices: what is not public in `/system.json`, the networks around
and the files may differ. -/
structure SameWorld (e e' : Env) : Prop where
  rows : ∀ s, publicRows e.sys s = publicRows e'.sys s
  total : e.sys.fsTotal = 0 ↔ e'.sys.fsTotal = 0
  fileExists : e.fileExists = e'.fileExists
  static : e.static = e'.static
  up : e.up = e'.up
  cpuText : e.cpuText = e'.cpuText
  commit : e.commit = e'.commit

/-- Same fault, or same effects and states with the same view. -/
def SameRes (x y : Res (Device × List Eff)) : Prop :=
  (∃ f, x = .error f ∧ y = .error f) ∨ ∃ d d' l, x = .ok (d, l) ∧ y = .ok (d', l) ∧ SameView d d'

end Spec

/-- The restricted form: refused without `save`, else the public settings are the posted ones. -/
theorem form_restricted {s : Nv} (hs : NvReach s) (a : Args) (k : Commit) :
    (isPosted a "save" = true → ∃ s', s.handleForm a true k = .ok (s', 200) ∧
      publicSettings s'.config = postedPublic a) ∧
    (isPosted a "save" ≠ true → s.handleForm a true k = .ok (s, 400)) := by
  constructor
  · intro h
    obtain ⟨c, h1, h2, h3⟩ := handleForm_ok s a true k h
    have h3 : privateSettings c = privateSettings s.config := h3
    have ht : Terminated c := by
      have hs' := c32_terminated hs
      unfold Terminated settings at *
      rw [h3, h2]
      intro p hp
      rcases List.mem_append.1 hp with hp | hp
      · exact hs' p (List.mem_append_left _ hp)
      · exact postedPublic_text a p hp
    refine ⟨_, h1, ?_⟩
    rw [Nv.configSave_eq]
    show publicSettings c.stamp.securize = _
    rw [Config.securize_public (Config.stamp_terminated ht)]
    exact h2
  · intro h
    simp [Nv.handleForm, hasArg_eq, h]

theorem sameRes_pure {d d' : Device} (h : SameView d d') (m : Res (List Eff)) :
    SameRes (do pure (d, ← m)) (do pure (d', ← m)) := by
  cases m with
  | error f => exact Or.inl ⟨f, rfl, rfl⟩
  | ok l => exact Or.inr ⟨d, d', l, rfl, rfl, h⟩

/-- **C64.** A client that comes through a reverse proxy obtains the same answer, whatever it asks or
posts, from two devices that differ only by their network and access settings and by the private part of
their surroundings; after that they still differ only by this. -/
theorem c64_restricted {b : Build} {d d' : Device} (hs : NvReach d.nv) (hs' : NvReach d'.nv)
    (hv : SameView d d') {u p u' p' : Str} (h : Protected d.nv.config u p)
    (h' : Protected d'.nv.config u' p') {r : Req} (hr : r.creds u p = true) (hr' : r.creds u' p' = true)
    (hf : r.forwarded = true) {e e' : Env} (he : SameWorld e e') :
    SameRes (d.handle b e r) (d'.handle b e' r) := by
  have n1 := auth_restricted h hr hf
  have n2 := auth_restricted h' hr' hf
  have json : ∀ {d : Device} (_ : getAuth d.nv.config r = .ok (.restricted, [])) (get),
      sendJson d r get = (do
        let l ← (do let s ← get true; pure [Eff.send 200 (if s = [] then bs "{}" else s)])
        pure (d, l)) := by
    intro d h get
    unfold sendJson
    rw [h]
    show (do let s ← get true; _) = _
    cases get true <;> rfl
  have sj : ∀ {g g' : Bool → Res Str}, g true = g' true → SameRes (sendJson d r g) (sendJson d' r g') := by
    intro g g' hg
    rw [json n1, json n2, hg]
    exact sameRes_pure hv _
  have ok1 : accessOk d.nv.config r = .ok (true, []) := by unfold accessOk; rw [n1]; rfl
  have ok2 : accessOk d'.nv.config r = .ok (true, []) := by unfold accessOk; rw [n2]; rfl
  have f1 : accessFull d.nv.config r = .ok (false, [.send 403 (bs "failed")]) := by
    unfold accessFull; rw [n1]; rfl
  have f2 : accessFull d'.nv.config r = .ok (false, [.send 403 (bs "failed")]) := by
    unfold accessFull; rw [n2]; rfl
  unfold Device.handle
  rw [he.static]
  cases hroute : route b.cpuload e'.static r.method r.uri with
  | sse =>
    dsimp only
    rw [ok1, ok2, ok_bind, ok_bind]
    simp only [if_true]
    rw [hv.sse, he.up]
    cases hacc : d'.sse.accept e'.up with
    | none => exact Or.inr ⟨d, d', _, rfl, rfl, hv⟩
    | some q => exact Or.inr ⟨_, _, _, rfl, rfl, ⟨hv.settings, hv.tic, rfl, hv.updOk⟩⟩
  | cpuload =>
    dsimp only
    rw [ok1, ok2, ok_bind, ok_bind, he.cpuText]
    exact Or.inr ⟨d, d', _, rfl, rfl, hv⟩
  | configForm =>
    dsimp only
    rw [n1, n2, ok_bind, ok_bind]
    simp only [reduceCtorEq, if_false, decide_true]
    obtain ⟨g1, g2⟩ := form_restricted hs r.args e.commit
    obtain ⟨g1', g2'⟩ := form_restricted hs' r.args e'.commit
    by_cases hsave : isPosted r.args "save" = true
    · obtain ⟨s, k1, k2⟩ := g1 hsave
      obtain ⟨s', k1', k2'⟩ := g1' hsave
      rw [k1, k1', ok_bind, ok_bind]
      exact Or.inr ⟨_, _, _, rfl, rfl, ⟨k2.trans k2'.symm, hv.tic, hv.sse, hv.updOk⟩⟩
    · rw [g2 hsave, g2' hsave, ok_bind, ok_bind]
      exact Or.inr ⟨_, _, _, rfl, rfl, ⟨hv.settings, hv.tic, hv.sse, hv.updOk⟩⟩
  | json => exact sj (by rw [hv.tic])
  | tinfo => exact sj (by rw [hv.tic])
  | emoncms => exact sj (by rw [hv.tic])
  | system => exact sj (c62_system _ _ _ _ _ _ (by rw [hv.sse]; exact he.rows _) he.total)
  | config => exact sj (c35_restricted_json _ _ hv.settings (c32_terminated hs) (c32_terminated hs'))
  | spiffs => exact sj rfl
  | wifiscan => exact sj rfl
  | factoryReset =>
    dsimp only
    rw [f1, f2]
    exact Or.inr ⟨d, d', _, rfl, rfl, hv⟩
  | reset =>
    dsimp only
    rw [ok1, ok2]
    exact Or.inr ⟨d, d', _, rfl, rfl, hv⟩
  | heartbeat => exact Or.inr ⟨d, d', _, rfl, rfl, hv⟩
  | updatePage =>
    dsimp only
    rw [f1, f2]
    exact Or.inr ⟨d, d', _, rfl, rfl, hv⟩
  | updatePost =>
    dsimp only
    rw [f1, f2]
    exact Or.inr ⟨d, d', _, rfl, rfl, hv⟩
  | root =>
    dsimp only
    have : handleRoot d e r = handleRoot d' e' r := by
      unfold handleRoot handleRead
      rw [n1, n2, he.fileExists]
    rw [this]
    exact sameRes_pure hv _
  | version => exact Or.inr ⟨d, d', _, rfl, rfl, hv⟩
  | static q => exact Or.inr ⟨d, d', _, rfl, rfl, hv⟩
  | notFound =>
    dsimp only
    have : notFound b.world d r = notFound b.world d' r := by
      unfold notFound
      rw [h.name.cstr, h.pwd.cstr, h'.name.cstr, h'.pwd.cstr]
      simp only [ok_bind, hr, hr', if_true, hv.tic]
    rw [this]
    exact sameRes_pure hv _

/-- Two protected devices with different passwords, as `c64_restricted` asks. -/
example (d0 : Device) : ∃ d d' : Device, NvReach d.nv ∧ NvReach d'.nv ∧ SameView d d' ∧
    Protected d.nv.config (bs "admin") (bs "secret") ∧ Protected d'.nv.config (bs "root") (bs "x") := by
  let form' : Args := [(bs "save", bs "1"), (bs "username", bs "root"), (bs "password", bs "x")]
  obtain ⟨s, h1, h2⟩ := reach_form blankFlash 1 userForm (by decide +kernel)
  obtain ⟨s', h1', h2'⟩ := reach_form blankFlash 1 form' (by decide +kernel)
  have get : ∀ {c : Config} {f : Args}, settings c = postedPrivate f ++ postedPublic f → ∀ {n p : Str},
      (postedPrivate f ++ postedPublic f)[6]? = some ("username", .text (some n)) →
      (postedPrivate f ++ postedPublic f)[7]? = some ("password", .text (some p)) → n ≠ [] →
      Protected c n p := by
    intro c f h n p hn hp hne
    rw [← h] at hn hp
    exact ⟨by simpa [settings, privateSettings, HasText] using hn, hne,
      by simpa [settings, privateSettings, HasText] using hp⟩
  refine ⟨{ d0 with nv := s }, { d0 with nv := s' }, h1, h1', ⟨?_, rfl, rfl, rfl⟩,
    get h2 rfl rfl (by decide), get h2' rfl rfl (by decide)⟩
  have e := congrArg (List.drop 8) h2
  have e' := congrArg (List.drop 8) h2'
  have k : List.drop 8 (postedPrivate userForm ++ postedPublic userForm) =
    List.drop 8 (postedPrivate form' ++ postedPublic form') := by decide +kernel
  rw [k] at e
  exact e.trans e'.symm

end Wifinfo
