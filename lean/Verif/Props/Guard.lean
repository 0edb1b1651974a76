import Verif.Props.Service

/-!
# C125: a device that has been protected stays protected

From the form that sets a user name and a password, through whatever follows — requests of anybody, requests that come through a
proxy, the meter, uploads, commands of the console, restarts and power cuts.
-/

namespace Wifinfo
open Spec

namespace Spec

/-- Something that happens to a device protected by `u` and `p`, whose flash works, without anybody who knows both of them saving
other settings or asking for the factory settings from the local network, and without anybody touching its flash otherwise. -/
def Unowned (u p : Str) (ev : Event) : Prop :=
  FlashWorks ev ∧
  match ev with
  | .boot flash .. => flash = none
  | .handle r _ => r.creds u p = false ∨ r.forwarded = true ∨
      (r.uri ≠ bs "/config_form.json" ∧ r.uri ≠ bs "/factory_reset")
  | _ => True

end Spec

/-! ## Proof -/

theorem protected_iff {c : Config} {u p : Str} : Protected c u p ↔
    u ≠ [] ∧ ("username", .text (some u)) ∈ settings c ∧ ("password", .text (some p)) ∈ settings c := by
  constructor
  · intro ⟨h1, h2, h3⟩
    have h1 : textOf c.username.toList = some u := h1
    have h3 : textOf c.password.toList = some p := h3
    refine ⟨h2, ?_, ?_⟩ <;> simp [settings, privateSettings, h1, h3]
  · intro ⟨h2, h1, h3⟩
    simp [settings, privateSettings, publicSettings] at h1 h3
    exact ⟨h1.symm, h2, h3.symm⟩

theorem client_same {c : Config} {r : Req} {a a' : Access} (h : Client c r a) (h' : Client c r a') : a = a' := by
  have e := client_auth h
  rw [client_auth h'] at e
  exact (Prod.mk.inj (Except.ok.inj e)).1.symm

theorem changed_mem {new l : List (String × Setting)} {x} (hx : x ∈ l) (hn : ∀ y ∈ new, y.1 ≠ x.1) : x ∈ changed new l := by
  refine List.mem_map.2 ⟨x, hx, ?_⟩
  have : new.find? (fun q => q.1 == x.1) = none := by
    rw [List.find?_eq_none]
    intro y hy
    simpa using hn y hy
  rw [this]

/-- What lasts: the settings are those of the flash, and the device is protected. -/
structure Guarded (d : Device) (u p : Str) : Prop where
  reach : NvReach d.nv
  flash : InFlash d.nv
  prot : Protected d.nv.config u p

theorem guarded_step {b : Build} {d d' : Device} {ev l u p} (hg : Guarded d u p) (hr : NvReach d'.nv)
    (h : d.step b ev = .ok (d', l)) (ho : Unowned u p ev) : Guarded d' u p := by
  refine ⟨hr, inFlash_step ho.1 h hg.flash, ?_⟩
  obtain ⟨hw, ho⟩ := ho
  have same : Aside ev → Protected d'.nv.config u p := fun ha => by
    rw [aside_step h ha hg.reach]; exact hg.prot
  cases ev with
  | byte | poll | upload | cliSse | cliTimers => exact same trivial
  | cliReset => cases hw
  | boot flash mem a q k1 k2 k3 =>
    cases ho
    obtain ⟨s', h1, h2⟩ := hg.flash b.world.chipId k1 k2
    obtain ⟨s2, h3, h4⟩ := wifiSetup_rest (.boot h1) a q k3
    simp only [Device.step, Device.boot, Option.getD_none, h1, ok_bind, h3, pure_ok] at h
    obtain ⟨rfl, -⟩ := Prod.mk.inj (Except.ok.inj h)
    obtain ⟨q1, q2, q3⟩ := protected_iff.1 hg.prot
    rw [h2] at h4
    exact protected_iff.2 ⟨q1, settings_rest h4 _ q2 (by simp) (by simp), settings_rest h4 _ q3 (by simp) (by simp)⟩
  | cliWifi a q k =>
    obtain ⟨d2, h1, h2, -⟩ := c90_wifi (b := b) hg.reach a q k
    rw [h1] at h
    obtain ⟨rfl, -⟩ := Prod.mk.inj (Except.ok.inj h)
    obtain ⟨q1, q2, q3⟩ := protected_iff.1 hg.prot
    refine protected_iff.2 ⟨q1, ?_, ?_⟩ <;>
    · rw [h2]
      refine changed_mem (by assumption) ?_
      intro y hy
      simp only [List.mem_cons, List.not_mem_nil, or_false] at hy
      rcases hy with rfl | rfl <;> simp
  | cliAp a q k =>
    obtain ⟨d2, h1, h2, -⟩ := c90_ap (b := b) hg.reach a q k
    rw [h1] at h
    obtain ⟨rfl, -⟩ := Prod.mk.inj (Except.ok.inj h)
    obtain ⟨q1, q2, q3⟩ := protected_iff.1 hg.prot
    refine protected_iff.2 ⟨q1, ?_, ?_⟩ <;>
    · rw [h2]
      refine changed_mem (by assumption) ?_
      intro y hy
      simp only [List.mem_cons, List.not_mem_nil, or_false] at hy
      rcases hy with rfl | rfl <;> simp
  | handle r e =>
    have h : d.handle b e r = .ok (d', l) := h
    by_cases hn : d'.nv = d.nv
    · rw [hn]; exact hg.prot
    obtain ⟨-, -, h1, -⟩ := c71_changes hg.reach h
    rcases ho with hs | hf | ho
    · have hc : Client d.nv.config r .none := .stranger hg.prot hs
      rcases h1 hn with ⟨-, h2 | h2, -⟩ | ⟨-, h2⟩ <;> cases client_same hc h2
    · have hrs : ∀ {a}, Client d.nv.config r a → a ≠ .full := by
        rintro a hc rfl
        cases hc with
        | anybody hx => exact hg.prot.nonempty (Option.some.inj (hg.prot.name.symm.trans hx))
        | owner _ _ hx => rw [hf] at hx; cases hx
      rcases h1 hn with ⟨hu, h2 | h2, -⟩ | ⟨-, h2⟩
      · exact absurd rfl (hrs h2)
      · obtain ⟨s', code, g1, g2, -⟩ := c34_restricted d.nv hg.reach r.args e.commit
        rw [form_handled hu h2 (by decide) g1] at h
        obtain ⟨rfl, -⟩ := Prod.mk.inj (Except.ok.inj h)
        obtain ⟨q1, q2, q3⟩ := hg.prot
        have e1 := congrArg (fun l => l[6]?) g2
        have e2 := congrArg (fun l => l[7]?) g2
        simp only [privateSettings, List.getElem?_cons_succ, List.getElem?_cons_zero, Option.some.injEq, Prod.mk.injEq,
          Setting.text.injEq, true_and] at e1 e2
        exact ⟨e1.trans q1, q2, e2.trans q3⟩
      · exact absurd rfl (hrs h2)
    · rcases h1 hn with ⟨hu, -⟩ | ⟨hu, -⟩
      · exact absurd hu ho.1
      · exact absurd hu ho.2

theorem deliver_fewer (conn : Nat → Bool) : ∀ (o : List Out) (s : Sse), ∀ c ∈ (deliver conn s o).1.clients, c ∈ s.clients := by
  intro o
  induction o with
  | nil => intro s c h; exact h
  | cons x o ih =>
    intro s c h
    cases x with
    | sse data =>
      have := ih _ c h
      simp only [sseLoop_fst] at this
      exact (List.mem_filter.1 this).1
    | _ => exact ih _ c h

theorem handle_fewer {s : Sse} {conn : Nat → Bool} {data : Option Str} {c : Nat} (h : c ∈ (s.handle conn data).1.clients) :
    c ∈ s.clients := by
  simp only [Sse.handle, sseLoop_fst] at h
  exact (List.mem_filter.1 h).1

/-- An event stream that is there after an event was there before, or has just been asked for by somebody let in. -/
theorem stream_step {b : Build} {d d' : Device} {ev l u p} (hg : Guarded d u p) (h : d.step b ev = .ok (d', l)) {c : Nat}
    (hc : c ∈ d'.sse.clients) :
    (c ∈ d.sse.clients ∧ ∀ f m a q k1 k2 k3, ev ≠ .boot f m a q k1 k2 k3) ∨
      ∃ r e up, ev = .handle r e ∧ r.creds u p = true ∧ .sse (.opened c up) ∈ l := by
  cases ev with
  | boot flash mem a q k1 k2 k3 =>
    obtain ⟨x, h1, h⟩ := bind_ok h
    obtain ⟨rfl, -⟩ := Prod.mk.inj (Except.ok.inj h)
    rw [boot_sse h1] at hc
    cases hc
  | byte now k conn x =>
    obtain ⟨⟨tic, out⟩, -, h⟩ := bind_ok h
    obtain ⟨rfl, -⟩ := Prod.mk.inj (Except.ok.inj h)
    exact .inl ⟨deliver_fewer conn out _ c hc, by intros; nofun⟩
  | poll conn =>
    obtain ⟨rfl, -⟩ := Prod.mk.inj (Except.ok.inj h)
    exact .inl ⟨handle_fewer hc, by intros; nofun⟩
  | cliSse t conn =>
    obtain ⟨rfl, -⟩ := Prod.mk.inj (Except.ok.inj h)
    exact .inl ⟨handle_fewer hc, by intros; nofun⟩
  | upload r x =>
    have : d'.sse = d.sse := by
      have e := congrArg (fun q => q.1.sse) (Except.ok.inj h)
      rw [← e]
      cases x with
      | start _ _ o _ => cases o <;> rfl
      | write _ o _ => cases o <;> rfl
      | fin => rfl
      | abort => rfl
    rw [this] at hc
    exact .inl ⟨hc, by intros; nofun⟩
  | cliTimers =>
    obtain ⟨rfl, -⟩ := Prod.mk.inj (Except.ok.inj h)
    exact .inl ⟨hc, by intros; nofun⟩
  | cliWifi =>
    obtain ⟨x, -, h⟩ := bind_ok h
    obtain ⟨rfl, -⟩ := Prod.mk.inj (Except.ok.inj h)
    exact .inl ⟨hc, by intros; nofun⟩
  | cliAp =>
    obtain ⟨x, -, h⟩ := bind_ok h
    obtain ⟨rfl, -⟩ := Prod.mk.inj (Except.ok.inj h)
    exact .inl ⟨hc, by intros; nofun⟩
  | cliReset =>
    obtain ⟨rfl, -⟩ := Prod.mk.inj (Except.ok.inj h)
    exact .inl ⟨hc, by intros; nofun⟩
  | handle r e =>
    by_cases hs : d'.sse = d.sse
    · rw [hs] at hc
      exact .inl ⟨hc, by intros; nofun⟩
    obtain ⟨-, -, -, -, h1, -⟩ := c71_changes (e := e) (r := r) hg.reach h
    obtain ⟨hu, hgu⟩ := h1 hs
    have hcr : r.creds u p = true := by
      cases hx : r.creds u p with
      | true => rfl
      | false =>
        have hn : Client d.nv.config r .none := .stranger hg.prot hx
        rcases hgu with h2 | h2 <;> cases client_same hn h2
    rcases c42_third hu.symm h with ⟨-, rfl⟩ | ⟨-, -, rfl⟩ | ⟨-, id, up, rfl, h2, -⟩
    · exact absurd rfl hs
    · exact absurd rfl hs
    · rw [h2] at hc
      rcases List.mem_append.1 hc with hc | hc
      · exact .inl ⟨hc, by intros; nofun⟩
      · rw [List.mem_singleton] at hc
        subst hc
        exact .inr ⟨r, e, up, rfl, hcr, List.mem_singleton.2 rfl⟩

theorem reach_step {b : Build} {d d' : Device} {ev l} (hr : ∃ up hs fs, d.Inv b.world up hs fs)
    (h : d.step b ev = .ok (d', l)) : ∃ up hs fs, d'.Inv b.world up hs fs := by
  obtain ⟨up, hs, fs, hi⟩ := hr
  obtain ⟨fs', h'⟩ := step_inv hi h
  exact ⟨_, _, fs', h'⟩

theorem guarded_run {b : Build} {u p : Str} : ∀ {evs : List Event} {d d' : Device} {es}, Guarded d u p →
    (∃ up hs fs, d.Inv b.world up hs fs) → d.run b evs = .ok (d', es) → (∀ ev ∈ evs, Unowned u p ev) →
    Guarded d' u p ∧
    (∀ r e l, (Event.handle r e, l) ∈ evs.zip es → r.creds u p = false → r.args.length ≤ 255 →
      l = [.needAuth] ∨ Public e.static r l) ∧
    (∀ c ∈ d'.sse.clients, (c ∈ d.sse.clients ∧ ∀ f m a q k1 k2 k3, .boot f m a q k1 k2 k3 ∉ evs) ∨
      ∃ r e l up, (Event.handle r e, l) ∈ evs.zip es ∧ r.creds u p = true ∧ .sse (.opened c up) ∈ l) := by
  intro evs
  induction evs with
  | nil =>
    intro d d' es hg _ h _
    obtain ⟨rfl, rfl⟩ := Prod.mk.inj (Except.ok.inj h)
    exact ⟨hg, nofun, fun c hc => .inl ⟨hc, by intros; nofun⟩⟩
  | cons ev evs ih =>
    intro d d' es hg hi h ho
    obtain ⟨⟨d1, l⟩, h1, h⟩ := bind_ok h
    obtain ⟨⟨d2, ls⟩, h2, h⟩ := bind_ok h
    obtain ⟨rfl, rfl⟩ := Prod.mk.inj (Except.ok.inj h)
    have hi1 := reach_step hi h1
    have hr1 : NvReach d1.nv := hi1.elim fun _ h => h.elim fun _ h => h.elim fun _ h => h.nv
    have hg1 := guarded_step hg hr1 h1 (ho ev (List.mem_cons_self ..))
    obtain ⟨g1, g2, g3⟩ := ih hg1 hi1 h2 (fun x hx => ho x (List.mem_cons_of_mem _ hx))
    refine ⟨g1, ?_, ?_⟩
    · intro r e l' hm hc ha
      rcases List.mem_cons.1 hm with hm | hm
      · obtain ⟨rfl, rfl⟩ := Prod.mk.inj hm
        obtain ⟨m, m1, -, m2, -⟩ := c39_handlers_partial (b := b) hg.prot hg.prot hc hc ha (e := e) (e' := e) rfl
        have h1 : d.handle b e r = .ok (d1, l') := h1
        rw [m1] at h1
        obtain ⟨-, rfl⟩ := Prod.mk.inj (Except.ok.inj h1)
        exact m2
      · exact g2 r e l' hm hc ha
    · intro c hc
      rcases g3 c hc with ⟨hc, hb⟩ | ⟨r, e, l', up, hm, hx⟩
      · rcases stream_step hg h1 hc with ⟨hc, hb'⟩ | ⟨r, e, up, rfl, hx⟩
        · refine .inl ⟨hc, fun f m a q k1 k2 k3 hm => ?_⟩
          rcases List.mem_cons.1 hm with hm | hm
          · exact hb' _ _ _ _ _ _ _ hm.symm
          · exact hb _ _ _ _ _ _ _ hm
        · exact .inr ⟨r, e, l, up, List.mem_cons_self .., hx⟩
      · exact .inr ⟨r, e, l', up, List.mem_cons_of_mem _ hm, hx⟩

/-- Whoever is let in is never asked for credentials. -/
theorem admitted {b : Build} {d d' : Device} {e : Env} {r : Req} {l} {a : Access} (hc : Client d.nv.config r a) (ha : a ≠ .none)
    (h : d.handle b e r = .ok (d', l)) : .needAuth ∉ l := by
  have hq := client_auth hc
  rw [if_neg ha] at hq
  have ok : accessOk d.nv.config r = .ok (true, []) := by
    rw [access_ok hc, if_neg ha]
    cases a with
    | none => exact absurd rfl ha
    | _ => rfl
  have fu : ∀ x ∈ refusal a, x ≠ Eff.needAuth := by
    cases a with
    | none => exact absurd rfl ha
    | _ => simp [refusal]
  have json : ∀ {get}, sendJson d r get = .ok (d', l) → .needAuth ∉ l := by
    intro get h
    unfold sendJson at h
    simp only [hq, ok_bind, if_neg ha, List.nil_append] at h
    obtain ⟨s, -, h⟩ := bind_ok h
    obtain ⟨-, rfl⟩ := Prod.mk.inj (Except.ok.inj h)
    simp
  unfold Device.handle at h
  split at h
  · simp only [ok, ok_bind, if_true, List.nil_append] at h
    split at h
    · obtain ⟨-, rfl⟩ := Prod.mk.inj (Except.ok.inj h); simp
    · obtain ⟨-, rfl⟩ := Prod.mk.inj (Except.ok.inj h); simp
  · simp only [ok, ok_bind, if_true, List.nil_append] at h
    obtain ⟨-, rfl⟩ := Prod.mk.inj (Except.ok.inj h); simp
  · simp only [hq, ok_bind, if_neg ha, List.nil_append] at h
    obtain ⟨s, -, h⟩ := bind_ok h
    obtain ⟨-, rfl⟩ := Prod.mk.inj (Except.ok.inj h); simp
  · exact json h
  · exact json h
  · exact json h
  · exact json h
  · exact json h
  · exact json h
  · exact json h
  · simp only [access_full hc, ok_bind] at h
    split at h
    · obtain ⟨s, -, h⟩ := bind_ok h
      obtain ⟨-, rfl⟩ := Prod.mk.inj (Except.ok.inj h)
      simp only [List.mem_append, not_or]
      exact ⟨fun hx => fu _ hx rfl, by simp⟩
    · obtain ⟨-, rfl⟩ := Prod.mk.inj (Except.ok.inj h)
      exact fun hx => fu _ hx rfl
  · simp only [ok, ok_bind, if_true, List.nil_append] at h
    obtain ⟨-, rfl⟩ := Prod.mk.inj (Except.ok.inj h); simp
  · obtain ⟨-, rfl⟩ := Prod.mk.inj (Except.ok.inj h); simp
  · simp only [access_full hc, ok_bind] at h
    obtain ⟨-, rfl⟩ := Prod.mk.inj (Except.ok.inj h)
    split
    · simp only [List.mem_append, not_or]
      exact ⟨fun hx => fu _ hx rfl, by simp⟩
    · exact fun hx => fu _ hx rfl
  · simp only [access_full hc, ok_bind] at h
    obtain ⟨-, rfl⟩ := Prod.mk.inj (Except.ok.inj h)
    split
    · simp only [List.mem_append, not_or]
      exact ⟨fun hx => fu _ hx rfl, by simp⟩
    · exact fun hx => fu _ hx rfl
  · obtain ⟨x, hx, h⟩ := bind_ok h
    obtain ⟨-, rfl⟩ := Prod.mk.inj (Except.ok.inj h)
    unfold handleRoot at hx
    simp only [hq, ok_bind, List.nil_append] at hx
    have page : ∀ path y, handleRead e path = some y → .needAuth ∉ y := by
      intro path y hy
      unfold handleRead at hy
      split at hy
      · cases hy
      · split at hy
        · cases hy; simp
        · split at hy
          · cases hy; simp
          · cases hy
    have none : .needAuth ∉ noPage := by simp [noPage]
    cases a with
    | none => exact absurd rfl ha
    | _ =>
      dsimp only at hx
      split at hx
      · rename_i y hy
        rw [← Except.ok.inj hx]; exact page _ _ hy
      · rw [← Except.ok.inj hx]; exact none
  · obtain ⟨-, rfl⟩ := Prod.mk.inj (Except.ok.inj h); simp
  · obtain ⟨-, rfl⟩ := Prod.mk.inj (Except.ok.inj h); simp
  · obtain ⟨x, hx, h⟩ := bind_ok h
    obtain ⟨-, rfl⟩ := Prod.mk.inj (Except.ok.inj h)
    obtain ⟨n, s, rfl⟩ := notFound_form hx
    simp

/-! ## C125 -/

/-- **C125 (partial).** A device has run in any way.  Somebody with full access saves a user name `u` and a password `p` (31 bytes
at most, as on the page).  The device answers OK and, whatever follows without the owner changing the settings (`Unowned`):

* the user name and the password are still those, through restarts and power cuts;
* every request without them was answered by a demand for credentials or with something public, and changed nothing;
* every event stream that is open was asked for with them, unless it was open already and the device has not restarted since;
* a request with them is never asked for credentials and, from the local network, is given the settings.

Partial: the flash works (`c125_refuted_flash`), and a stream that was open before lasts (`c125_refuted_stream`). -/
theorem c125_stays_partial {b : Build} {f m a q k1 k2 k3} {d0 d : Device} {before : List Event} {es0}
    (h0 : Device.boot b f m a q k1 k2 k3 = .ok d0) (h : d0.run b before = .ok (d, es0)) {r : Req} {e : Env}
    (hu : r.uri = bs "/config_form.json") (hc : Client d.nv.config r .full) (hs : isPosted r.args "save" = true)
    (hk : e.commit = .ok) {u p : Str} (h1 : posted r.args "username" = u) (h2 : posted r.args "password" = p)
    (hn : u ≠ []) (hul : u.length ≤ 31) (hpl : p.length ≤ 31) (hu0 : ∀ x ∈ u, x ≠ 0) (hp0 : ∀ x ∈ p, x ≠ 0) :
    ∃ d1, d.handle b e r = .ok (d1, [.send 200 (bs "OK")]) ∧ d1.sse = d.sse ∧
      ∀ evs d2 es, d1.run b evs = .ok (d2, es) → (∀ ev ∈ evs, Unowned u p ev) →
        Protected d2.nv.config u p ∧
        (∀ r e l, (Event.handle r e, l) ∈ evs.zip es → r.creds u p = false → r.args.length ≤ 255 →
          l = [.needAuth] ∨ Public e.static r l) ∧
        (∀ r e, r.creds u p = false → r.args.length ≤ 255 → ∃ l, d2.handle b e r = .ok (d2, l) ∧
          (l = [.needAuth] ∨ Public e.static r l)) ∧
        (∀ c ∈ d2.sse.clients, (c ∈ d.sse.clients ∧ ∀ f m a q k1 k2 k3, .boot f m a q k1 k2 k3 ∉ evs) ∨
          ∃ r e l up, (Event.handle r e, l) ∈ evs.zip es ∧ r.creds u p = true ∧ .sse (.opened c up) ∈ l) ∧
        (∀ r e d3 l, r.creds u p = true → d2.handle b e r = .ok (d3, l) → .needAuth ∉ l) ∧
        (∀ r e, r.creds u p = true → r.forwarded = false → r.uri = bs "/config.json" →
          ∃ j, d2.nv.config.getJson false = .ok j ∧ d2.handle b e r = .ok (d2, [.send 200 j])) := by
  obtain ⟨fs, hi⟩ := run_inv before (boot_inv h0) h
  obtain ⟨c, g1, -⟩ := handleForm_ok d.nv r.args false .ok hs
  have g1' := g1
  rw [← hk] at g1'
  obtain ⟨d1, hd, hnv, hsse⟩ : ∃ d1, d.handle b e r = .ok (d1, [.send 200 (bs "OK")]) ∧
      d1.nv = (Nv.configSave { d.nv with config := c } e.commit).1 ∧ d1.sse = d.sse :=
    ⟨_, form_handled (b := b) hu hc (by decide) g1', rfl, rfl⟩
  refine ⟨d1, hd, hsse, ?_⟩
  have hst : settings d1.nv.config = postedPrivate r.args ++ postedPublic r.args := by
    obtain ⟨s1, h3, h4⟩ := c33_form d.nv r.args .ok hs
    rw [g1] at h3
    rw [hnv, hk, (Prod.mk.inj (Except.ok.inj h3)).1]
    exact h4
  have hi1 : ∃ up hs fs, d1.Inv b.world up hs fs := reach_step (ev := .handle r e) ⟨_, _, _, hi⟩ hd
  have hr1 : NvReach d1.nv := hi1.elim fun _ h => h.elim fun _ h => h.elim fun _ h => h.nv
  have hg : Guarded d1 u p := by
    refine ⟨hr1, ?_, ?_⟩
    · rw [hnv, hk]; exact inFlash_saved d.nv c
    · refine protected_iff.2 ⟨hn, ?_, ?_⟩
      · rw [hst, ← cutText_id hul hu0, ← h1]
        simp [postedPrivate]
      · rw [hst, ← cutText_id hpl hp0, ← h2]
        simp [postedPrivate]
  intro evs d2 es hrun ho
  obtain ⟨q1, q2, q3⟩ := guarded_run hg hi1 hrun ho
  rw [hsse] at q3
  refine ⟨q1.prot, q2, ?_, q3, ?_, ?_⟩
  · intro r e hcr ha
    obtain ⟨l, m1, -, m2, -⟩ := c39_handlers_partial (b := b) q1.prot q1.prot hcr hcr ha (e := e) (e' := e) rfl
    exact ⟨l, m1, m2⟩
  · intro r e d3 l hcr hh
    cases hf : r.forwarded with
    | true => exact admitted (.remote q1.prot hcr hf) (by decide) hh
    | false => exact admitted (.owner q1.prot hcr hf) (by decide) hh
  · intro r e hcr hf hu
    have hj := getJson_eq (c32_terminated q1.reach) false
    exact ⟨_, hj, asked_config hu (.owner q1.prot hcr hf) hj (by simp)⟩

/-- **C125** as stated is false for the streams: saving a user name closes nothing.  Somebody who has opened an event stream before
goes on receiving all that those receive who know the password, until they hang up or the device restarts. -/
theorem c125_refuted_stream {b : Build} {f m a q k1 k2 k3} {d0 d : Device} {before : List Event} {es0}
    (h0 : Device.boot b f m a q k1 k2 k3 = .ok d0) (h : d0.run b before = .ok (d, es0)) {r : Req} {e : Env}
    (hu : r.uri = bs "/config_form.json") (hc : Client d.nv.config r .full) (hs : isPosted r.args "save" = true) :
    ∃ d1 code text, d.handle b e r = .ok (d1, [.send code text]) ∧
      ∀ evs d2 es, d1.run b evs = .ok (d2, es) → ∃ sent : List Str, ∀ c ∈ d.sse.clients, (∀ ev ∈ evs, stays c ev = true) →
        c ∈ d2.sse.clients ∧ received c (sseEffs es.flatten) = sent := by
  obtain ⟨c, g1, -⟩ := handleForm_ok d.nv r.args false e.commit hs
  obtain ⟨d1, hd, hsse⟩ : ∃ d1, d.handle b e r = .ok (d1, [.send 200 (bs "OK")]) ∧ d1.sse = d.sse :=
    ⟨_, form_handled (b := b) hu hc (by decide) g1, rfl⟩
  refine ⟨d1, _, _, hd, fun evs d2 es hrun => ?_⟩
  obtain ⟨sent, hx⟩ := c43_same_events h0 (run_snoc h (show d.step b (.handle r e) = _ from hd)) hrun
  refine ⟨sent, fun c hcl hst => ?_⟩
  obtain ⟨y1, y2, -⟩ := hx c (by rw [hsse]; exact hcl) hst
  exact ⟨y1, y2⟩

/-- Somebody without credentials, for the example below. -/
def passer (uri : Str) : Req := { method := .get, uri := uri, args := [], creds := fun _ _ => false, forwarded := false }

/-- The form of `userForm`, posted by somebody without credentials. -/
def userPost : Req := { passer (bs "/config_form.json") with method := .post, args := userForm }

/-- A blank device: somebody listens, a user name and a password are saved.  The listener still hears; the same person asks for the
settings and is refused. -/
theorem c125_refuted_stream_case (b : Build) (m : Vector (Option Byte) MAX_FRAME_SIZE) (e : Env) (hk : e.commit = .ok) (text : Str) :
    ∃ d0 d, Device.boot b blankFlash m [] [] .ok .ok .ok = .ok d0 ∧
      d0.run b [.handle (passer (bs "/tic")) e, .handle userPost e, .cliSse text (fun _ => true),
        .handle (passer (bs "/config.json")) e] =
      .ok (d, [[.sse (.opened 0 e.up)], [.send 200 (bs "OK")], [.sse (.event 0 text)], [.needAuth]]) ∧
      Protected d.nv.config (bs "admin") (bs "secret") := by
  obtain ⟨d0, h0, hr, hs⟩ := first_start b blankFlash blank_not_accepted m [] .ok .ok .ok
  have user : HasText d0.nv.config.username [] := by
    have := congrArg (fun l => l[6]?) hs
    simpa [settings, privateSettings, factory, HasText, bs] using this
  have e1 : d0.handle b e (passer (bs "/tic")) = .ok ({ d0 with sse := ⟨[0], 1⟩ }, [.sse (.opened 0 e.up)]) := by
    unfold Device.handle
    rw [show route b.cpuload e.static (passer (bs "/tic")).method (passer (bs "/tic")).uri = .sse from if_pos (Or.inr rfl)]
    simp only [access_ok (.anybody user), ok_bind, boot_sse h0]
    rfl
  obtain ⟨s', g1, g2⟩ := c33_form d0.nv userForm .ok (by decide +kernel)
  have hp : Protected s'.config (bs "admin") (bs "secret") := by
    refine protected_iff.2 ⟨by decide, ?_, ?_⟩
    · rw [g2]; exact List.mem_of_getElem? (i := 6) rfl
    · rw [g2]; exact List.mem_of_getElem? (i := 7) rfl
  have e2 := form_handled (b := b) (d := { d0 with sse := ⟨[0], 1⟩ }) (e := e) (r := userPost) rfl (a := .full) (.anybody user)
    (by decide) (s' := s') (code := 200) (by rw [hk]; exact g1)
  have e3 : ∀ d : Device, d.nv = s' → d.handle b e (passer (bs "/config.json")) = .ok (d, [.needAuth]) := by
    rintro d rfl
    unfold Device.handle
    rw [show (passer (bs "/config.json")).uri = bs "/config.json" from rfl, route_config]
    simp only [sendJson, client_auth (.stranger hp (r := passer (bs "/config.json")) rfl), ok_bind, if_true, pure_ok]
  refine ⟨d0, { d0 with nv := s', timers := ticMakeTimers s'.config, sse := ⟨[0], 1⟩ }, h0, ?_, hp⟩
  simp only [Device.run, Device.step, e1, ok_bind, e2]
  simp only [Sse.handle, sseLoop, pure_ok, ok_bind, if_true]
  rw [e3 _ rfl]
  rfl

/-- **C125** as stated is false when the flash fails: the answer is OK and the password is in use, but after a restart it is gone. -/
theorem c125_refuted_flash {b : Build} {d : Device} {e : Env} {r : Req} {g : Arr 1024} (hs : NvReach d.nv)
    (hk : e.commit = .failed g) (hg : ¬ Accepted g) (hu : r.uri = bs "/config_form.json")
    (hp : isPosted r.args "save" = true) (hc : Client d.nv.config r .full) (mem k1 k2 k3) :
    ∃ d1, d.handle b e r = .ok (d1, [.send 200 (bs "OK")]) ∧
      ∃ d2, d1.step b (.boot none mem [] [] k1 k2 k3) = .ok (d2, []) ∧ ∀ r', Client d2.nv.config r' .full := by
  obtain ⟨c, g1, -⟩ := handleForm_ok d.nv r.args false e.commit hp
  refine ⟨_, form_handled (b := b) hu hc (by decide) g1, ?_⟩
  obtain ⟨s, h1, h2⟩ := c30_boot g hg b.world.chipId k1 k2
  have user : HasText s.config.username [] := by
    have := congrArg (fun l => l[6]?) h2
    simpa [settings, privateSettings, factory, HasText, bs] using this
  have h3 : s.wifiSetup [] [] k3 = .ok s := by
    unfold Nv.wifiSetup
    split <;> simp [pure_ok]
  have hf : (Nv.configSave { d.nv with config := c } e.commit).1.ee.flash = g := by
    rw [hk, Nv.configSave_eq]; rfl
  refine ⟨{ nv := s, timers := ticMakeTimers s.config, tic := Tic.init mem.toList, sse := Sse.init, updOk := false }, ?_,
    fun r' => .anybody user⟩
  simp only [Device.step, Device.boot, Option.getD_none, hf, h1, ok_bind, h3, pure_ok]

/-! ## A concrete case -/

/-- What follows the form in the example: somebody without credentials asks for the factory settings, a restart, the owner reads
the settings. -/
example (m : Vector (Option Byte) MAX_FRAME_SIZE) (e : Env) (hk : e.commit = .ok) (creds : Str → Str → Bool) :
    ∀ ev ∈ [Event.handle (passer (bs "/factory_reset")) e, .boot none m (bs "x") [] .ok .ok .ok,
      .handle { passer (bs "/config.json") with creds := creds } e, .cliWifi (bs "a") (bs "b") .ok],
      Unowned (bs "admin") (bs "secret") ev := by
  intro ev h
  simp only [List.mem_cons, List.not_mem_nil, or_false] at h
  rcases h with rfl | rfl | rfl | rfl
  · exact ⟨hk, .inl rfl⟩
  · exact ⟨⟨rfl, rfl, rfl⟩, rfl⟩
  · exact ⟨hk, .inr (.inr ⟨show bs "/config.json" ≠ bs "/config_form.json" by decide +kernel, show bs "/config.json" ≠ bs "/factory_reset" by decide +kernel⟩)⟩
  · exact ⟨rfl, trivial⟩

/-- The form of the theorem. -/
example : isPosted userForm "save" = true ∧ posted userForm "username" = bs "admin" ∧ posted userForm "password" = bs "secret" := by
  decide +kernel

end Wifinfo
