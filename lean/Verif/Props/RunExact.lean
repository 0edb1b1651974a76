import Verif.Props.Run
import Verif.Props.Upload

/-!
# C60, exactly: what makes the device fault
-/

namespace Wifinfo

namespace Spec

/-- The same device with an empty URL for the HTTP notifications. -/
def emptyUrl (d : Device) : Device :=
  { d with nv := { d.nv with config := { d.nv.config with httpreq := { d.nv.config.httpreq with url := Vector.replicate 151 0 } } } }

/-- What breaks the device: a request with more than 255 arguments that would be answered 404 without them; the page of the system, to whom it
is shown, when there is no file system; a byte of the meter at which a notification by HTTP is due, when the URL setting ends inside a name. -/
def Breaks (b : Build) (d : Device) : Event → Prop
  | .handle r e =>
    (256 ≤ r.args.length ∧ ∃ d' l t, d.handle b e { r with args := [] } = .ok (d', l) ∧ .send 404 t ∈ l) ∨
    (e.sys.fsTotal = 0 ∧ r.uri = bs "/system.json" ∧
      ∃ d' l t, d.handle b { e with sys := { e.sys with fsTotal := 1 } } r = .ok (d', l) ∧ .send 200 t ∈ l)
  | .byte now k conn x => runsOff none d.nv.config.httpreq.url.toList = true ∧
    ∃ d' l n q, (emptyUrl d).step b (.byte now k conn x) = .ok (d', l) ∧ .out (.http n q) ∈ l
  | _ => False

end Spec
open Spec

/-! ## Requests -/

/-- Only the error page has this code. -/
theorem answer_404 {b : Build} {d d' : Device} {e : Env} {r : Req} {l t} (h : d.handle b e r = .ok (d', l)) (ht : .send 404 t ∈ l) :
    route b.cpuload e.static r.method r.uri = .notFound := by
  have auth : ∀ {a ef}, getAuth d.nv.config r = .ok (a, ef) → Eff.send 404 t ∉ ef := by
    intro a ef h
    unfold getAuth at h
    split at h
    · obtain ⟨u, -, h⟩ := bind_ok h
      obtain ⟨p, -, h⟩ := bind_ok h
      split at h <;> (obtain ⟨-, rfl⟩ := Prod.mk.inj (Except.ok.inj h); simp)
    · obtain ⟨-, rfl⟩ := Prod.mk.inj (Except.ok.inj h); simp
  have aok : ∀ {a ef}, accessOk d.nv.config r = .ok (a, ef) → Eff.send 404 t ∉ ef := by
    intro a ef h
    obtain ⟨⟨x, y⟩, h1, h⟩ := bind_ok h
    obtain ⟨-, rfl⟩ := Prod.mk.inj (Except.ok.inj h)
    exact auth h1
  have afull : ∀ {a ef}, accessFull d.nv.config r = .ok (a, ef) → Eff.send 404 t ∉ ef := by
    intro a ef h
    obtain ⟨⟨x, y⟩, h1, h⟩ := bind_ok h
    have := auth h1
    cases x <;> (obtain ⟨-, rfl⟩ := Prod.mk.inj (Except.ok.inj h); simpa using this)
  have json : ∀ {get : Bool → Res Str}, sendJson d r get = .ok (d', l) → False := by
    intro get h
    obtain ⟨⟨x, y⟩, h1, h⟩ := bind_ok h
    have := auth h1
    dsimp only at h
    split at h
    · obtain ⟨-, rfl⟩ := Prod.mk.inj (Except.ok.inj h); exact this ht
    · obtain ⟨s, -, h⟩ := bind_ok h
      obtain ⟨-, rfl⟩ := Prod.mk.inj (Except.ok.inj h)
      simp at ht
      exact this ht
  have root : ∀ {x}, handleRead e x = none ∨ ∃ p, handleRead e x = some [.stream p] := by
    intro x
    unfold handleRead
    split
    · exact .inl rfl
    · split
      · exact .inr ⟨_, rfl⟩
      · split
        · exact .inr ⟨_, rfl⟩
        · exact .inl rfl
  unfold Device.handle at h
  cases hroute : route b.cpuload e.static r.method r.uri <;> simp only [hroute] at h
  case sse =>
    obtain ⟨⟨ok, ef⟩, h1, h⟩ := bind_ok h
    have := aok h1
    dsimp only at h
    split at h
    · split at h <;> (obtain ⟨-, rfl⟩ := Prod.mk.inj (Except.ok.inj h); simp at ht; exact absurd ht this)
    · obtain ⟨-, rfl⟩ := Prod.mk.inj (Except.ok.inj h); exact absurd ht this
  case cpuload =>
    obtain ⟨⟨ok, ef⟩, h1, h⟩ := bind_ok h
    have := aok h1
    obtain ⟨-, rfl⟩ := Prod.mk.inj (Except.ok.inj h)
    cases ok <;> simp at ht <;> exact absurd ht this
  case configForm =>
    obtain ⟨⟨a, ef⟩, h1, h⟩ := bind_ok h
    have := auth h1
    dsimp only at h
    split at h
    · obtain ⟨-, rfl⟩ := Prod.mk.inj (Except.ok.inj h); exact absurd ht this
    · obtain ⟨⟨nv, code⟩, h2, h⟩ := bind_ok h
      obtain ⟨-, rfl⟩ := Prod.mk.inj (Except.ok.inj h)
      have hc : code ≠ 404 := by
        rintro rfl
        unfold Nv.handleForm at h2
        split at h2
        · obtain ⟨c, -, h2⟩ := bind_ok h2
          obtain ⟨em, -, h2⟩ := bind_ok h2
          obtain ⟨je, -, h2⟩ := bind_ok h2
          obtain ⟨ht, -, h2⟩ := bind_ok h2
          generalize Nv.configSave _ _ = z at h2
          obtain ⟨nv', ok⟩ := z
          cases ok <;> simp [pure_ok] at h2
        · have := (Prod.mk.inj (Except.ok.inj h2)).2
          omega
      simp [Ne.symm hc] at ht
      exact absurd ht this
  case json => exact (json h).elim
  case tinfo => exact (json h).elim
  case emoncms => exact (json h).elim
  case system => exact (json h).elim
  case config => exact (json h).elim
  case spiffs => exact (json h).elim
  case wifiscan => exact (json h).elim
  case factoryReset =>
    obtain ⟨⟨ok, ef⟩, h1, h⟩ := bind_ok h
    have := afull h1
    dsimp only at h
    split at h
    · obtain ⟨nv, -, h⟩ := bind_ok h
      obtain ⟨-, rfl⟩ := Prod.mk.inj (Except.ok.inj h); simp at ht; exact absurd ht this
    · obtain ⟨-, rfl⟩ := Prod.mk.inj (Except.ok.inj h); exact absurd ht this
  case reset =>
    obtain ⟨⟨ok, ef⟩, h1, h⟩ := bind_ok h
    have := aok h1
    obtain ⟨-, rfl⟩ := Prod.mk.inj (Except.ok.inj h)
    cases ok <;> simp at ht <;> exact absurd ht this
  case heartbeat => obtain ⟨-, rfl⟩ := Prod.mk.inj (Except.ok.inj h); simp at ht
  case updatePage =>
    obtain ⟨⟨ok, ef⟩, h1, h⟩ := bind_ok h
    have := afull h1
    obtain ⟨-, rfl⟩ := Prod.mk.inj (Except.ok.inj h)
    cases ok <;> simp at ht <;> exact absurd ht this
  case updatePost =>
    obtain ⟨⟨ok, ef⟩, h1, h⟩ := bind_ok h
    have := afull h1
    obtain ⟨-, rfl⟩ := Prod.mk.inj (Except.ok.inj h)
    split at ht
    · simp at ht; exact absurd ht this
    · exact absurd ht this
  case root =>
    obtain ⟨l', h1, h⟩ := bind_ok h
    obtain ⟨-, rfl⟩ := Prod.mk.inj (Except.ok.inj h)
    obtain ⟨⟨a, ef⟩, h2, h1⟩ := bind_ok h1
    have := auth h2
    cases a with
    | none => obtain rfl := Except.ok.inj h1; exact absurd ht this
    | restricted =>
      rcases @root (bs "/index.restrict.html") with hr | ⟨p, hr⟩ <;> simp only [hr] at h1 <;> obtain rfl := Except.ok.inj h1 <;>
        simp [noPage] at ht <;> exact absurd ht this
    | full =>
      rcases @root (bs "/index.html") with hr | ⟨p, hr⟩ <;> simp only [hr] at h1 <;> obtain rfl := Except.ok.inj h1 <;>
        simp [noPage] at ht <;> exact absurd ht this
  case version => obtain ⟨-, rfl⟩ := Prod.mk.inj (Except.ok.inj h); simp at ht
  case static => obtain ⟨-, rfl⟩ := Prod.mk.inj (Except.ok.inj h); simp at ht
  case notFound => rfl

theorem route_system (c : Bool) (st : Str → Option Str) (m : Method) (u : Str) : route c st m u = .system ↔ u = bs "/system.json" := by
  constructor
  · intro h
    unfold route at h
    iterate 6 replace h := ite_skip h (by simp)
    by_cases hu : u = bs "/system.json"
    · exact hu
    · exfalso
      rw [if_neg hu] at h
      iterate 10 replace h := ite_skip h (by simp)
      split at h
      · split at h <;> cases h
      · cases h
  · rintro rfl
    unfold route
    rw [if_neg (by decide +kernel), if_neg (fun h => absurd h.2 (by decide +kernel)), if_neg (by decide +kernel), if_neg (by decide +kernel),
      if_neg (by decide +kernel), if_neg (by decide +kernel), if_pos rfl]

/-- A request, exactly. -/
theorem request_exact {b : Build} {d : Device} {fs} (hn : NvReach d.nv) (ht : TinfoReach d.tic.tinfo fs)
    {r : Req} {e : Env} (hu : r.uri ≠ []) : (∃ y, d.handle b e r = .ok y) ↔ ¬ Breaks b d (.handle r e) := by
  by_cases h1 : route b.cpuload e.static r.method r.uri = .notFound
  · have hs : r.uri ≠ bs "/system.json" := fun h => by
      rw [(route_system ..).2 h] at h1
      cases h1
    have ht' := (terminated_iff _).1 (c32_terminated hn)
    obtain ⟨x, label, hl⟩ := List.exists_cons_of_ne_nil hu
    obtain ⟨v, hv⟩ := value_ok b.world ht (cstrOf label)
    have user : HasText d.nv.config.username _ := textOf_mem ht'.2.2.2.2.2.1
    have pass : HasText d.nv.config.password _ := textOf_mem ht'.2.2.2.2.2.2.1
    have g : ∀ q : Req, q.uri = r.uri → q.method = r.method → d.handle b e q = (notFound b.world d q >>= fun l => pure (d, l)) := by
      intro q h2 h3
      unfold Device.handle
      rw [h2, h3, h1]
    rw [g r rfl rfl, c41_exact user pass hl hv]
    simp only [Breaks]
    rw [g { r with args := [] } rfl rfl, c41_exact (r := { r with args := [] }) user pass hl hv]
    cases (if r.creds _ _ then v else none) with
    | some t => simp [pure_ok, ok_bind, hs]
    | none =>
      by_cases ha : r.args.length ≤ 255
      · simp [pure_ok, ok_bind, hs, ha]
        omega
      · simp [pure_ok, ok_bind, err_bind, hs, ha]
        omega
  · have h404 : ¬ (256 ≤ r.args.length ∧ ∃ d' l t, d.handle b e { r with args := [] } = .ok (d', l) ∧ .send 404 t ∈ l) := by
      rintro ⟨-, d', l, t, h, hm⟩
      exact h1 (answer_404 (r := { r with args := [] }) h hm)
    by_cases h2 : r.uri = bs "/system.json"
    · have hr := (route_system b.cpuload e.static r.method r.uri).2 h2
      have g : ∀ e' : Env, e'.static = e.static →
          d.handle b e' r = sendJson d r fun restricted => sysInfoJson e'.sys d.nv.config d.sse restricted := by
        intro e' he
        unfold Device.handle
        rw [he, hr]
      have hb : (¬ Breaks b d (.handle r e)) ↔ (e.sys.fsTotal = 0 →
          ¬ ∃ d' l t, d.handle b { e with sys := { e.sys with fsTotal := 1 } } r = .ok (d', l) ∧ .send 200 t ∈ l) := by
        refine ⟨fun h h3 h4 => h (.inr ⟨h3, h2, h4⟩), fun h h3 => ?_⟩
        rcases h3 with h3 | ⟨h3, -, h4⟩
        · exact h404 h3
        · exact h h3 h4
      rw [hb, g e rfl, g { e with sys := { e.sys with fsTotal := 1 } } rfl]
      have ga : ∃ a ef, getAuth d.nv.config r = .ok (a, ef) ∧ ∀ t, Eff.send 200 t ∉ ef := by
        have ht' := (terminated_iff _).1 (c32_terminated hn)
        unfold getAuth
        split
        · rw [cstr_ok ht'.2.2.2.2.2.1, cstr_ok ht'.2.2.2.2.2.2.1, ok_bind, ok_bind]
          split
          · exact ⟨_, _, rfl, by simp⟩
          · exact ⟨_, _, rfl, by simp⟩
        · exact ⟨_, _, rfl, by simp⟩
      obtain ⟨a, ef, ha, hef⟩ := ga
      unfold sendJson
      rw [ha, ok_bind, ok_bind]
      dsimp only
      by_cases hz : a = .none
      · rw [if_pos hz, if_pos hz]
        refine ⟨fun _ _ ⟨d', l, t, h3, h4⟩ => ?_, fun _ => ⟨_, rfl⟩⟩
        obtain ⟨-, rfl⟩ := Prod.mk.inj (Except.ok.inj h3)
        exact hef _ h4
      · rw [if_neg hz, if_neg hz]
        constructor
        · intro ⟨y, h3⟩ h4
          obtain ⟨j, h5, -⟩ := bind_ok h3
          exact absurd h4 ((c61_system_safe e.sys hn d.sse _).1 ⟨j, h5⟩)
        · intro h3
          have h4 : e.sys.fsTotal ≠ 0 := by
            intro h4
            obtain ⟨j, h5⟩ := (c61_system_safe { e.sys with fsTotal := 1 } hn d.sse (decide (a = .restricted))).2 Nat.one_ne_zero
            refine h3 h4 ⟨d, ef ++ [.send 200 (if j = [] then bs "{}" else j)], _, ?_, List.mem_append_right _ (List.mem_singleton.2 rfl)⟩
            · rw [h5, ok_bind]; rfl
          exact bindSafe ((c61_system_safe e.sys hn d.sse _).2 h4) fun _ _ => ⟨_, rfl⟩
    · refine ⟨fun _ => ?_, fun _ => request_ok hn ht hu (fun h => absurd h h1) fun h => absurd ((route_system ..).1 h) h2⟩
      rintro (h | h)
      · exact h404 h
      · exact h2 h.2.1

/-! ## Bytes of the meter -/

/-- The configuration without URL. -/
def noUrl (c : Config) : Config := { c with httpreq := { c.httpreq with url := Vector.replicate 151 0 } }

theorem noUrl_safe (c : Config) : UrlSafe (noUrl c) := by
  have : (noUrl c).httpreq.url.toList = List.replicate 151 0 := by simp [noUrl]
  unfold UrlSafe
  rw [this]
  decide +kernel

theorem noUrl_terminated {c : Config} (h : Terminated c) : Terminated (noUrl c) := by
  rw [terminated_iff] at h ⊢
  obtain ⟨h1, h2, h3, h4, h5, h6, h7, h8, h9, h10, h11, h12, h13, h14, h15, h16⟩ := h
  refine ⟨h1, h2, h3, h4, h5, h6, h7, h8, h9, h10, h11, h12, h13, h14, h15, ?_⟩
  simp [noUrl]

theorem sendIf_bad {w : World} {x : Rcv} (hx : x.Ok) (hr : runsOff none x.c.httpreq.url.toList = true) {n : Option Notif} {o} :
    sendIf w x.c x.t n = .ok o ↔ n = none ∧ o = [] := by
  cases n with
  | none => exact ⟨fun h => ⟨rfl, (Except.ok.inj h).symm⟩, fun h => by rw [h.2]; rfl⟩
  | some n =>
    obtain ⟨ts, l, h⟩ := hx
    have := c24_exact w x.c h n.text
    rw [if_pos hr] at this
    simp only [sendIf, httpNotif]
    rw [this, err_bind, err_bind]
    simp

theorem sendIf_noUrl {w : World} {x : Rcv} (hx : x.Ok) (ht : Terminated x.c) {n : Option Notif} :
    sendIf w (noUrl x.c) x.t n = .ok [] ↔ n = none := by
  cases n with
  | none => exact ⟨fun _ => rfl, fun _ => rfl⟩
  | some n =>
    obtain ⟨r, h, -⟩ := httpNotif_ok w (x := { x with c := noUrl x.c }) hx ⟨noUrl_terminated ht, noUrl_safe _⟩ n
    simp only [sendIf]
    rw [h, ok_bind]
    simp [pure_ok]

theorem http_exact {w : World} {x : Rcv} (hx : x.Ok) (ht : Terminated x.c) (hr : runsOff none x.c.httpreq.url.toList = true) (s : NotifState) :
    (∃ y, httpNotifs w x.c x.tm x.k x.t s = .ok y) ↔ ∃ s', httpNotifs w (noUrl x.c) x.tm x.k x.t s = .ok (s', []) := by
  unfold httpNotifs
  show _ ↔ ∃ s', (if x.c.httpreq.host[0] ≠ 0 then _ else _) = _
  split
  · constructor
    · rintro ⟨y, h⟩
      obtain ⟨⟨sa, n1⟩, e1, h⟩ := bind_ok h
      obtain ⟨p1, f1, h⟩ := bind_ok h
      obtain ⟨⟨sb, n2⟩, e2, h⟩ := bind_ok h
      obtain ⟨p2, f2, h⟩ := bind_ok h
      obtain ⟨⟨sc, n3⟩, e3, h⟩ := bind_ok h
      obtain ⟨p3, f3, h⟩ := bind_ok h
      obtain ⟨p4, f4, h⟩ := bind_ok h
      obtain ⟨rfl, rfl⟩ := (sendIf_bad hx hr).1 f1
      obtain ⟨rfl, rfl⟩ := (sendIf_bad hx hr).1 f2
      obtain ⟨rfl, rfl⟩ := (sendIf_bad hx hr).1 f3
      obtain ⟨h4, rfl⟩ := (sendIf_bad hx hr).1 f4
      refine ⟨sc, ?_⟩
      show ((if x.c.httpreq.triggerPtec then _ else _) >>= _) = _
      rw [e1, ok_bind]
      dsimp only
      rw [(sendIf_noUrl hx ht).2 rfl, ok_bind]
      show ((if x.c.httpreq.triggerSeuils then seuilsStep x.c sa x.t.fr else _) >>= _) = _
      rw [e2, ok_bind]
      dsimp only
      rw [(sendIf_noUrl hx ht).2 rfl, ok_bind]
      show ((if x.c.httpreq.triggerAdps then _ else _) >>= _) = _
      rw [e3, ok_bind]
      dsimp only
      rw [(sendIf_noUrl hx ht).2 rfl, ok_bind, h4, (sendIf_noUrl hx ht).2 rfl, ok_bind]
      rfl
    · rintro ⟨s', h⟩
      obtain ⟨⟨sa, n1⟩, e1, h⟩ := bind_ok h
      obtain ⟨p1, f1, h⟩ := bind_ok h
      obtain ⟨⟨sb, n2⟩, e2, h⟩ := bind_ok h
      obtain ⟨p2, f2, h⟩ := bind_ok h
      obtain ⟨⟨sc, n3⟩, e3, h⟩ := bind_ok h
      obtain ⟨p3, f3, h⟩ := bind_ok h
      obtain ⟨p4, f4, h⟩ := bind_ok h
      have hnil := (Prod.mk.inj (Except.ok.inj h)).2
      simp only [List.append_eq_nil_iff] at hnil
      obtain ⟨⟨⟨rfl, rfl⟩, rfl⟩, rfl⟩ := hnil
      obtain rfl := (sendIf_noUrl hx ht).1 f1
      obtain rfl := (sendIf_noUrl hx ht).1 f2
      obtain rfl := (sendIf_noUrl hx ht).1 f3
      have h4 := (sendIf_noUrl hx ht).1 f4
      refine bindSafe ⟨_, e1⟩ fun y hy => ?_
      obtain rfl := Except.ok.inj (e1.symm.trans hy)
      refine bindSafe ⟨_, (sendIf_bad hx hr).2 ⟨rfl, rfl⟩⟩ fun _ _ => ?_
      refine bindSafe ⟨_, e2⟩ fun y hy => ?_
      obtain rfl := Except.ok.inj (e2.symm.trans hy)
      refine bindSafe ⟨_, (sendIf_bad hx hr).2 ⟨rfl, rfl⟩⟩ fun _ _ => ?_
      refine bindSafe ⟨_, e3⟩ fun y hy => ?_
      obtain rfl := Except.ok.inj (e3.symm.trans hy)
      refine bindSafe ⟨_, (sendIf_bad hx hr).2 ⟨rfl, rfl⟩⟩ fun _ _ => ?_
      exact bindSafe ⟨_, (sendIf_bad hx hr).2 ⟨h4, rfl⟩⟩ fun _ _ => ⟨_, rfl⟩
  · exact ⟨fun _ => ⟨_, rfl⟩, fun _ => ⟨_, rfl⟩⟩

theorem notifs_exact {w : World} {x : Rcv} (hx : x.Ok) (ht : Terminated x.c) (hr : runsOff none x.c.httpreq.url.toList = true) (s : NotifState) :
    (∃ y, ticNotifs w x.c x.tm x.k x.t s = .ok y) ↔
    ∀ s' o, ticNotifs w (noUrl x.c) x.tm x.k x.t s = .ok (s', o) → ∀ n q, .http n q ∉ o := by
  constructor
  · rintro ⟨⟨s1, o1⟩, h⟩ s' o h0 n q hm
    obtain ⟨oh, oj, oe, os, g1, -⟩ := frame_parts h
    obtain ⟨s2, g1⟩ := (http_exact hx ht hr s).1 ⟨_, g1⟩
    obtain ⟨oh, oj, oe, os, g2, g3, g4, g5, -, rfl⟩ := frame_parts h0
    obtain ⟨-, rfl⟩ := Prod.mk.inj (Except.ok.inj (g1.symm.trans g2))
    simp only [List.mem_append] at hm
    rcases hm with ((hm | hm) | hm) | hm
    · simp at hm
    · rcases ite_nil g3 with rfl | ⟨-, g3⟩
      · simp at hm
      · rcases jeedom_form g3 with rfl | ⟨r, rfl, -⟩ <;> simp at hm
    · rcases ite_nil g4 with rfl | ⟨-, g4⟩
      · simp at hm
      · rcases emoncms_form g4 with rfl | ⟨r, rfl, -⟩ <;> simp at hm
    · rcases g5 with rfl | ⟨-, -, d, -, rfl⟩ <;> simp at hm
  · intro h
    obtain ⟨s', o, h0⟩ := c22_total w (x := { x with c := noUrl x.c }) hx ⟨noUrl_terminated ht, noUrl_safe _⟩ s
    have hno := h s' o h0
    obtain ⟨oh, oj, oe, os, g2, -, -, -, -, rfl⟩ := frame_parts h0
    have he : oh = [] := by
      refine List.eq_nil_iff_forall_not_mem.2 fun y hy => ?_
      obtain ⟨-, n, hn⟩ := http_parts g2 y hy
      obtain ⟨q, rfl, -⟩ := httpNotif_form hn
      exact hno n q (by simp [hy])
    subst he
    unfold ticNotifs
    refine bindEx ((http_exact hx ht hr s).2 ⟨_, g2⟩) fun ⟨s1, o1⟩ => ?_
    refine bindEx (ite_ok (jeedom_ok hx ht) ⟨_, rfl⟩) fun o2 => ?_
    refine bindEx (ite_ok (emoncms_ok hx ht) ⟨_, rfl⟩) fun o3 => ?_
    refine bindEx (ite_ok (bindEx ?_ fun j => ⟨_, rfl⟩) ⟨_, rfl⟩) fun o4 => ⟨_, rfl⟩
    obtain ⟨ts, l, hr⟩ := hx
    exact c27_safe w hr none

theorem mem_requests {o : Out} {l : List Eff} : .out o ∈ l ↔ o ∈ requests l := by
  unfold requests
  rw [List.mem_filterMap]
  constructor
  · exact fun h => ⟨_, h, rfl⟩
  · rintro ⟨x, h, hx⟩
    cases x <;> simp at hx
    rw [← hx]; exact h

/-- A byte of the meter, exactly. -/
theorem byte_exact {b : Build} {d : Device} {up h fs} (hd : d.Inv b.world up h fs) (now : TimeVal) (k : Tick) (conn : Nat → Bool) (x : Byte) :
    (∃ y, d.step b (.byte now k conn x) = .ok y) ↔ ¬ Breaks b d (.byte now k conn x) := by
  by_cases hr : runsOff none d.nv.config.httpreq.url.toList = true
  · simp only [Breaks, hr, true_and]
    have hd' := hd
    obtain ⟨hn, hp, ⟨mem, hm, hdec⟩, _, ht, _⟩ := hd
    have e1 : ∀ {d : Device}, (∃ y, d.step b (.byte now k conn x) = .ok y) ↔
        ∃ y, d.tic.decode b.world d.nv.config d.timers now { k with clients := !d.sse.clients.isEmpty } x = .ok y := by
      intro d
      constructor
      · rintro ⟨y, h⟩
        obtain ⟨z, h1, -⟩ := bind_ok (show d.byte b now k conn x = _ from h)
        exact ⟨z, h1⟩
      · exact fun h => bindSafe h fun _ _ => ⟨_, rfl⟩
    have e2 : (∃ d' l n q, (emptyUrl d).step b (.byte now k conn x) = .ok (d', l) ∧ .out (.http n q) ∈ l) ↔
        ∃ tic out n q, d.tic.decode b.world (noUrl d.nv.config) d.timers now { k with clients := !d.sse.clients.isEmpty } x = .ok (tic, out) ∧
          .http n q ∈ out := by
      constructor
      · rintro ⟨d', l, n, q, h1, h2⟩
        obtain ⟨tic, out, h3, -, h4⟩ := c22_delivered (show (emptyUrl d).byte b now k conn x = _ from h1)
        rw [mem_requests, h4] at h2
        exact ⟨tic, out, n, q, h3, (List.mem_filter.1 h2).1⟩
      · rintro ⟨tic, out, n, q, h1, h2⟩
        obtain ⟨⟨d', l⟩, h3⟩ := (e1 (d := emptyUrl d)).2 ⟨_, h1⟩
        refine ⟨d', l, n, q, h3, ?_⟩
        obtain ⟨tic', out', h5, -, h4⟩ := c22_delivered (show (emptyUrl d).byte b now k conn x = _ from h3)
        obtain ⟨rfl, rfl⟩ := Prod.mk.inj (Except.ok.inj (h1.symm.trans h5))
        rw [mem_requests, h4]
        exact List.mem_filter.2 ⟨h2, rfl⟩
    rw [e1, e2]
    unfold Tic.decode
    split
    · constructor
      · rintro - ⟨tic, out, n, q, h1, h2⟩
        obtain ⟨-, rfl⟩ := Prod.mk.inj (Except.ok.inj h1)
        simp at h2
      · exact fun _ => ⟨_, rfl⟩
    · obtain ⟨dc, h1⟩ := put_ok hm hdec now x
      rw [h1, ok_bind, ok_bind]
      have h3 : (Dec.init mem).puts (h ++ [(now, x)]) = .ok dc := puts_snoc hdec h1
      split
      · rename_i hrd
        obtain ⟨ts, gs, he⟩ := (c02_ready_iff_valid_frame mem hm _ dc h3).1 hrd
        obtain ⟨t, h4, _⟩ := reach_copy ht (Published.decoder hm h3 he)
        have hreach : TinfoReach t ((ts, gs) :: fs) := .copy ht hm h3 he h4
        rw [h4, ok_bind, ok_bind]
        have key := notifs_exact (w := b.world)
          (x := ⟨d.nv.config, d.timers, { k with clients := !d.sse.clients.isEmpty }, t, gs⟩)
          ⟨ts, fs, hreach⟩ (c32_terminated hn) hr d.tic.ns
        dsimp only at key
        constructor
        · rintro ⟨y, h5⟩ ⟨tic, out, n, q, h6, h7⟩
          obtain ⟨z, h8, -⟩ := bind_ok h5
          obtain ⟨⟨s', o⟩, h9, h6⟩ := bind_ok h6
          obtain ⟨-, rfl⟩ := Prod.mk.inj (Except.ok.inj h6)
          exact key.1 ⟨z, h8⟩ s' o h9 n q h7
        · intro h5
          refine bindSafe (key.2 fun s' o h6 n q h7 => h5 ⟨{ d.tic with dec := dc, tinfo := t, ns := s' }, o, n, q, ?_, h7⟩) fun _ _ => ⟨_, rfl⟩
          rw [h6, ok_bind]
          rfl
      · constructor
        · rintro - ⟨tic, out, n, q, h4, h5⟩
          obtain ⟨-, rfl⟩ := Prod.mk.inj (Except.ok.inj h4)
          simp at h5
        · exact fun _ => ⟨_, rfl⟩
  · refine ⟨fun _ h => hr h.1, fun _ => c60_step hd _ ?_ (Bool.eq_false_iff.2 hr)⟩
    trivial

/-- A request has a URI. -/
def Spec.HasUri : Event → Prop
  | .handle r _ => r.uri ≠ []
  | _ => True

/-- **C60, exactly.** In any state that a run can reach, an event makes the device fault if and only if it is one of the three that break it. -/
theorem c60_exact {b : Build} {d : Device} {up h fs} (hd : d.Inv b.world up h fs) (ev : Event) (hu : HasUri ev) :
    (∃ y, d.step b ev = .ok y) ↔ ¬ Breaks b d ev := by
  cases ev with
  | byte now k conn x => exact byte_exact hd now k conn x
  | handle r e => exact request_exact hd.nv hd.tinfo hu
  | boot flash mem ssid psk k1 k2 k3 =>
    obtain ⟨d', h1, _⟩ := device_boot_ok b (flash.getD d.nv.ee.flash) mem ssid psk k1 k2 k3
    exact ⟨fun _ h => h, fun _ => bindSafe ⟨_, h1⟩ fun _ _ => ⟨_, rfl⟩⟩
  | poll conn => exact ⟨fun _ h => h, fun _ => ⟨_, rfl⟩⟩
  | upload r u => exact ⟨fun _ h => h, fun _ => ⟨_, rfl⟩⟩
  | cliSse text conn => exact ⟨fun _ h => h, fun _ => ⟨_, rfl⟩⟩
  | cliTimers => exact ⟨fun _ h => h, fun _ => ⟨_, rfl⟩⟩
  | cliWifi ssid psk k => exact ⟨fun _ h => h, fun _ => bindSafe (step_ok d.nv (.cliWifi ssid psk k)) fun _ _ => ⟨_, rfl⟩⟩
  | cliAp host psk k => exact ⟨fun _ h => h, fun _ => bindSafe (step_ok d.nv (.cliAp host psk k)) fun _ _ => ⟨_, rfl⟩⟩
  | cliReset k => exact ⟨fun _ h => h, fun _ => ⟨_, rfl⟩⟩

/-- **C60, exactly**, over a run: after a boot, the device goes through any sequence of events without fault if and only if none of them
breaks it in the state where it comes. -/
theorem c60_run_exact {b : Build} {f m a p k1 k2 k3} (evs : List Event) (hu : ∀ ev ∈ evs, HasUri ev) :
    ∃ d, Device.boot b f m a p k1 k2 k3 = .ok d ∧
      ((∃ y, d.run b evs = .ok y) ↔
       ∀ pre ev post d' es, evs = pre ++ ev :: post → d.run b pre = .ok (d', es) → ¬ Breaks b d' ev) := by
  obtain ⟨d, h0, _⟩ := device_boot_ok b f m a p k1 k2 k3
  refine ⟨d, h0, ?_⟩
  have key : ∀ (evs : List Event) {d : Device} {up h fs}, d.Inv b.world up h fs → (∀ ev ∈ evs, HasUri ev) →
      ((∃ y, d.run b evs = .ok y) ↔
       ∀ pre ev post d' es, evs = pre ++ ev :: post → d.run b pre = .ok (d', es) → ¬ Breaks b d' ev) := by
    intro evs
    induction evs with
    | nil =>
      intro d up h fs _ _
      exact ⟨fun _ pre ev post d' es h => by simp at h, fun _ => ⟨_, rfl⟩⟩
    | cons ev evs ih =>
      intro d up h fs hd hu
      have hx := c60_exact hd ev (hu ev (by simp))
      constructor
      · rintro ⟨y, hy⟩ pre ev' post d' es h1 h2
        obtain ⟨⟨d1, l⟩, h3, hy⟩ := bind_ok hy
        obtain ⟨z, h4, -⟩ := bind_ok hy
        cases pre with
        | nil =>
          obtain ⟨rfl, rfl⟩ := List.cons.inj h1
          obtain ⟨rfl, -⟩ := Prod.mk.inj (Except.ok.inj h2)
          exact hx.1 ⟨_, h3⟩
        | cons e0 pre =>
          obtain ⟨rfl, rfl⟩ := List.cons.inj h1
          obtain ⟨⟨d2, l2⟩, h5, h2⟩ := bind_ok h2
          obtain ⟨rfl, rfl⟩ := Prod.mk.inj (Except.ok.inj (h3.symm.trans h5))
          obtain ⟨⟨d3, es3⟩, h6, h2⟩ := bind_ok h2
          obtain ⟨rfl, -⟩ := Prod.mk.inj (Except.ok.inj h2)
          obtain ⟨fs', hd'⟩ := step_inv hd h3
          exact (ih hd' fun e he => hu e (List.mem_cons_of_mem _ he)).1 ⟨z, h4⟩ pre ev' post d3 es3 rfl h6
      · intro h1
        obtain ⟨⟨d1, l⟩, h3⟩ := hx.2 (h1 [] ev evs d [] rfl rfl)
        obtain ⟨fs', hd'⟩ := step_inv hd h3
        obtain ⟨y, hy⟩ := (ih hd' fun e he => hu e (by simp [he])).2 fun pre ev' post d' es h4 h5 =>
          h1 (ev :: pre) ev' post d' (l :: es) (by rw [h4]; rfl) (by simp only [Device.run, h3, h5, ok_bind, pure_ok])
        simp only [Device.run]
        exact bindSafe ⟨_, h3⟩ fun z hz => by
          rw [h3] at hz
          obtain rfl := Except.ok.inj hz
          exact bindSafe ⟨_, hy⟩ fun _ _ => ⟨_, rfl⟩
  exact key evs (boot_inv h0) hu

-- Just after a boot, one request of 256 arguments breaks the device, and one of 255 does not.
example {b : Build} {f m a p k1 k2 k3} (e : Env) : ∃ d r r', Device.boot b f m a p k1 k2 k3 = .ok d ∧ Breaks b d (.handle r e) ∧
    r'.args.length = 255 ∧ ¬ Breaks b d (.handle r' e) := by
  obtain ⟨d, h0, hn⟩ := device_boot_ok b f m a p k1 k2 k3
  have hd := boot_inv h0
  refine ⟨d, ⟨.post, bs "/nothing", List.replicate 256 (bs "a", bs "1"), fun _ _ => false, false⟩,
    ⟨.post, bs "/nothing", List.replicate 255 (bs "a", bs "1"), fun _ _ => false, false⟩, h0, ?_, List.length_replicate, ?_⟩
  · refine Classical.byContradiction fun h => ?_
    obtain ⟨y, hy⟩ := (c60_exact hd (.handle _ e) (by show bs "/nothing" ≠ []; decide +kernel)).2 h
    obtain ⟨z, hz, -⟩ := bind_ok (show (notFound b.world d _ >>= fun l => pure (d, l)) = _ from by
      rw [← hy]
      show _ = d.handle b e _
      unfold Device.handle
      rw [show route b.cpuload e.static .post (bs "/nothing") = .notFound by
        unfold route
        cases b.cpuload <;> rfl])
    rw [c41_refuted hn b.world rfl (fun _ _ => rfl) (by rw [List.length_replicate]; omega)] at hz
    cases hz
  · refine (c60_exact hd (.handle _ e) (by show bs "/nothing" ≠ []; decide +kernel)).1 (request_ok hd.nv hd.tinfo (by decide +kernel) (fun _ => ?_) fun h => ?_)
    · rw [List.length_replicate]; omega
    · exact absurd ((route_system ..).1 h) (by decide +kernel)

end Wifinfo
