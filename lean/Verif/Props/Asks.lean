import Verif.Model.Asks
import Verif.Props.Buttons
import Verif.Props.Tabs
import Verif.Props.Notice

/-!
# C110: nothing that the page asks is refused
-/

namespace Wifinfo
open Spec

namespace Spec

/-- The device does not do what it is asked: it wants credentials, or tells an error. -/
def Refuses (l : List Eff) : Prop := .needAuth ∈ l ∨ ∃ code text, .send code text ∈ l ∧ code ≠ 200

/-- What was asked is sent: a text, a file, or an event stream. -/
def Serves (l : List Eff) : Prop :=
  (∃ text, .send 200 text ∈ l) ∨ (∃ path, .stream path ∈ l) ∨ ∃ id up, .sse (.opened id up) ∈ l

/-- What the forms of a visit have in common: the hidden field `save`. -/
def HasSave (form : Args) (evs : List PageEvent) : Prop :=
  isPosted form "save" = true ∧ ∀ f, .act (.edit f) ∈ evs → isPosted f "save" = true

/-- The rights that a page is made for. -/
def MadeFor (restricted : Bool) (a : Access) : Prop := a = .full ∨ restricted = true ∧ a = .restricted

end Spec

/-! ## What the page asks -/

/-- The requests of the page, by what they need. -/
inductive Wanted (restricted : Bool) : PageReq → Prop
  | look {u : Str} : u ∈ [bs "/tinfo.json", bs "/system.json", bs "/config.json"] → Wanted restricted ⟨.get, u, []⟩
  | scan : restricted = false → Wanted restricted ⟨.get, bs "/wifiscan.json", []⟩
  | version : Wanted restricted ⟨.get, bs "/version", []⟩
  | stream : Wanted restricted ⟨.get, bs "/sse/json", []⟩
  | beat : Wanted restricted ⟨.get, bs "/hb.htm", []⟩
  | reboot : Wanted restricted ⟨.post, bs "/reset", []⟩
  | save {f : Args} : isPosted f "save" = true → Wanted restricted ⟨.post, bs "/config_form.json", f⟩
  | reset : restricted = false → Wanted restricted ⟨.post, bs "/factory_reset", []⟩
  | update : restricted = false → Wanted restricted ⟨.post, bs "/update", []⟩

theorem ask_wanted {restricted : Bool} {a : Ask} {q : PageReq} (h : q ∈ a.reqs restricted) : Wanted restricted q := by
  unfold Ask.reqs at h
  split at h
  · rw [List.mem_singleton.1 h]; exact .look (by simp)
  · rw [List.mem_singleton.1 h]; exact .look (by simp)
  · cases restricted with
    | true => simp at h
    | false => rw [List.mem_singleton.1 h]; exact .scan rfl
  · rw [List.mem_singleton.1 h]; exact .look (by simp)
  · rw [List.mem_singleton.1 h]; exact .version
  · rw [List.mem_singleton.1 h]; exact .stream
  · cases h

theorem run_wanted (restricted : Bool) : ∀ (evs : List PageEvent) (p : WholePage), HasSave p.panel.form evs →
    ∀ q ∈ p.run restricted evs, Wanted restricted q := by
  intro evs
  induction evs with
  | nil => intro p _ q h; cases h
  | cons ev evs ih =>
    intro p hs q h
    have hr : ∀ f, .act (.edit f) ∈ evs → isPosted f "save" = true := fun f hf => hs.2 f (List.mem_cons_of_mem _ hf)
    rcases List.mem_append.1 h with h | h
    · cases ev with
      | tab e =>
        obtain ⟨a, -, ha⟩ := List.mem_flatMap.1 h
        exact ask_wanted ha
      | act a =>
        rcases (act_cases restricted p.panel a).2 q h with ⟨rfl, hn, -⟩ | ⟨rfl, -⟩ | ⟨rfl, hn, -⟩ | ⟨rfl, -⟩
        · exact .reset hn
        · exact .reboot
        · exact .scan hn
        · exact .save hs.1
      | upload done =>
        cases restricted with
        | true => simp [WholePage.step] at h
        | false =>
          rw [List.mem_singleton.1 (show q ∈ [(⟨.post, bs "/update", []⟩ : PageReq)] from h)]
          exact .update rfl
      | beat =>
        simp only [WholePage.step] at h
        split at h
        · rw [List.mem_singleton.1 h]; exact .beat
        · cases h
    · refine ih _ ⟨?_, hr⟩ q h
      cases ev with
      | tab e => exact hs.1
      | act a =>
        show isPosted (p.panel.act restricted a).1.form "save" = true
        rw [act_form]
        cases a with
        | edit f => exact hs.2 f List.mem_cons_self
        | enter v => exact hs.1
        | press b v => exact hs.1
        | leave => exact hs.1
      | upload done =>
        simp only [WholePage.step]
        split
        · exact hs.1
        · exact hs.1
      | beat => exact hs.1

theorem visit_wanted {restricted : Bool} {hash : Option Tab} {form : Args} {evs : List PageEvent} (hs : HasSave form evs)
    {q : PageReq} (h : q ∈ visit restricted hash form evs) : Wanted restricted q := by
  rcases List.mem_append.1 h with h | h
  · obtain ⟨a, -, ha⟩ := List.mem_flatMap.1 h
    exact ask_wanted ha
  · exact run_wanted restricted evs _ hs q h

/-! ## What the device answers -/

theorem madeFor_in {restricted : Bool} {a : Access} (h : MadeFor restricted a) : a ≠ .none := by
  rcases h with rfl | ⟨-, rfl⟩ <;> decide

theorem send_ok (l : List Eff) (hl : ∀ x ∈ l, isAnswer x = false) (text : Str) (r : List Eff) (hr : ∀ x ∈ r, isAnswer x = false) :
    ¬ Refuses (l ++ .send 200 text :: r) := by
  rintro (h | ⟨code, t, h, hc⟩)
  · rcases List.mem_append.1 h with h | h
    · exact absurd (hl _ h) (by simp [isAnswer])
    · rcases List.mem_cons.1 h with h | h
      · cases h
      · exact absurd (hr _ h) (by simp [isAnswer])
  · rcases List.mem_append.1 h with h | h
    · exact absurd (hl _ h) (by simp [isAnswer])
    · rcases List.mem_cons.1 h with h | h
      · cases h; exact hc rfl
      · exact absurd (hr _ h) (by simp [isAnswer])

theorem json_served {d d' : Device} {r : Req} {get} {l} {a : Access} (hc : Client d.nv.config r a) (ha : a ≠ .none)
    (h : sendJson d r get = .ok (d', l)) : ¬ Refuses l ∧ Serves l := by
  unfold sendJson at h
  rw [client_auth hc] at h
  simp only [ok_bind, if_neg ha] at h
  obtain ⟨s, _, h⟩ := bind_ok h
  obtain ⟨rfl, rfl⟩ := Prod.mk.inj (Except.ok.inj h)
  exact ⟨send_ok [] (by simp) _ [] (by simp), .inl ⟨_, List.mem_singleton.2 rfl⟩⟩

/-- **C110 (partial).** A page in use for as long as one wants, full or restricted, opened at any tab: whatever the user does, the
device refuses no request of the page to a client who has the rights the page was made for, and sends what the page asks for; the
answer to a sent file is that of the upload (C73, C105).

Partial: the client still has the rights (`c110_refuted_saved`), and there is room for an event stream (`c110_refuted_stream`). -/
theorem c110_answered_partial {b : Build} {d d' : Device} {e : Env} {restricted : Bool} {hash : Option Tab} {form : Args}
    {evs : List PageEvent} (hs : HasSave form evs) {q : PageReq} (hq : q ∈ visit restricted hash form evs)
    {creds : Str → Str → Bool} {forwarded : Bool} {a : Access} (hc : Client d.nv.config (sentBy creds forwarded q) a)
    (ha : MadeFor restricted a) (hroom : q.uri = bs "/sse/json" → d.sse.clients.length < 2) {l : List Eff}
    (h : d.handle b e (sentBy creds forwarded q) = .ok (d', l)) :
    ¬ Refuses l ∧ (Serves l ∨ q.uri = bs "/update") := by
  have hn := madeFor_in ha
  have full : restricted = false → a = .full := by
    rintro rfl
    rcases ha with ha | ⟨ha, -⟩
    · exact ha
    · cases ha
  cases visit_wanted hs hq with
  | look hu =>
    rename_i u
    have : ∃ get, sendJson d (sentBy creds forwarded ⟨.get, u, []⟩) get = .ok (d', l) := by
      simp only [List.mem_cons, List.not_mem_nil, or_false] at hu
      rcases hu with rfl | rfl | rfl
      · have hr : route b.cpuload e.static .get (bs "/tinfo.json") = .tinfo := by unfold route; cases b.cpuload <;> rfl
        unfold Device.handle at h
        simp only [sentBy, hr] at h
        exact ⟨_, h⟩
      · have hr : route b.cpuload e.static .get (bs "/system.json") = .system := by unfold route; cases b.cpuload <;> rfl
        unfold Device.handle at h
        simp only [sentBy, hr] at h
        exact ⟨_, h⟩
      · have hr : route b.cpuload e.static .get (bs "/config.json") = .config := by unfold route; cases b.cpuload <;> rfl
        unfold Device.handle at h
        simp only [sentBy, hr] at h
        exact ⟨_, h⟩
    obtain ⟨get, h'⟩ := this
    exact (json_served hc hn h').imp id .inl
  | scan hr =>
    have hr : route b.cpuload e.static .get (bs "/wifiscan.json") = .wifiscan := by unfold route; cases b.cpuload <;> rfl
    unfold Device.handle at h
    simp only [sentBy, hr] at h
    exact (json_served hc hn h).imp id .inl
  | version =>
    have hr : route b.cpuload e.static .get (bs "/version") = .version := by unfold route; cases b.cpuload <;> rfl
    unfold Device.handle at h
    simp only [sentBy, hr] at h
    obtain ⟨-, rfl⟩ := Prod.mk.inj (Except.ok.inj h)
    exact ⟨by simp [Refuses], .inl (.inr (.inl ⟨_, List.mem_singleton.2 rfl⟩))⟩
  | stream =>
    have hstep : d.step b (.handle (sentBy creds forwarded ⟨.get, bs "/sse/json", []⟩) e) = .ok (d', l) := h
    rcases c42_third (.inr rfl) hstep with ⟨rfl, -⟩ | ⟨h2, -⟩ | ⟨-, id, up, rfl, -⟩
    · have hr : route b.cpuload e.static .get (bs "/sse/json") = .sse := by unfold route; cases b.cpuload <;> rfl
      unfold Device.handle at h
      simp only [sentBy, hr] at h
      have ho := access_ok hc
      rw [if_neg hn] at ho
      have hb : (a != .none) = true := by cases a <;> first | rfl | exact absurd rfl hn
      simp only [sentBy] at ho
      rw [ho, hb] at h
      simp only [ok_bind, if_true] at h
      split at h <;> · have := (Prod.mk.inj (Except.ok.inj h)).2; simp at this
    · exact absurd (hroom rfl) (by omega)
    · exact ⟨by simp [Refuses], .inl (.inr (.inr ⟨id, up, List.mem_singleton.2 rfl⟩))⟩
  | beat =>
    rw [heartbeat b d e rfl rfl] at h
    obtain ⟨-, rfl⟩ := Prod.mk.inj (Except.ok.inj h)
    exact ⟨send_ok [] (by simp) _ [] (by simp), .inl (.inl ⟨_, List.mem_singleton.2 rfl⟩)⟩
  | reboot =>
    have hg : Guest d.nv.config (sentBy creds forwarded ⟨.post, bs "/reset", []⟩) := by
      rcases ha with rfl | ⟨-, rfl⟩
      · exact .inl hc
      · exact .inr hc
    rw [(c91_restart rfl).1 hg] at h
    obtain ⟨-, rfl⟩ := Prod.mk.inj (Except.ok.inj h)
    exact ⟨send_ok [] (by simp) _ [.restart] (by simp [isAnswer]), .inl (.inl ⟨_, List.mem_cons_self⟩)⟩
  | save hf =>
    rename_i f
    obtain ⟨c, h1, -⟩ := handleForm_ok d.nv f (decide (a = .restricted)) e.commit hf
    rw [form_handled rfl hc hn h1] at h
    obtain ⟨-, rfl⟩ := Prod.mk.inj (Except.ok.inj h)
    exact ⟨send_ok [] (by simp) _ [] (by simp), .inl (.inl ⟨_, List.mem_singleton.2 rfl⟩)⟩
  | reset hr =>
    cases full hr
    obtain ⟨d'', h1, -⟩ := c70_web (b := b) (e := e) rfl hc
    rw [h1] at h
    obtain ⟨-, rfl⟩ := Prod.mk.inj (Except.ok.inj h)
    exact ⟨send_ok [.eraseSdk] (by simp [isAnswer]) _ [.restart] (by simp [isAnswer]), .inl (.inl ⟨bs "Reset", by simp⟩)⟩
  | update hr =>
    cases full hr
    refine ⟨?_, .inr rfl⟩
    rw [update_posted b d e rfl rfl hc] at h
    obtain ⟨-, rfl⟩ := Prod.mk.inj (Except.ok.inj h)
    cases d.updOk <;> simp [Refuses, refusal]

/-- **C110 (partial), from the home page on.** The page that the device gave at `/`, of a user name and a password that are the
same now: the device refuses nothing that this page asks.

Partial: as `c110_answered_partial`. -/
theorem c110_given_partial {b : Build} {d0 d d' : Device} {e0 e : Env} {creds : Str → Str → Bool} {forwarded : Bool}
    {args : Args} {file : Str} (h0 : d0.handle b e0 ⟨.get, bs "/", args, creds, forwarded⟩ = .ok (d0, [.stream file]))
    (hr : NvReach d0.nv) {restricted : Bool}
    (hfile : file ∈ if restricted then [bs "/index.restrict.html", bs "/index.restrict.html.gz"]
      else [bs "/index.html", bs "/index.html.gz"])
    (hsame : ∀ t, HasText d0.nv.config.username t → HasText d.nv.config.username t)
    (hsame' : ∀ t, HasText d0.nv.config.password t → HasText d.nv.config.password t)
    {hash : Option Tab} {form : Args} {evs : List PageEvent} (hs : HasSave form evs) {q : PageReq}
    (hq : q ∈ visit restricted hash form evs) (hroom : q.uri = bs "/sse/json" → d.sse.clients.length < 2) {l : List Eff}
    (h : d.handle b e (sentBy creds forwarded q) = .ok (d', l)) :
    ¬ Refuses l ∧ (Serves l ∨ q.uri = bs "/update") := by
  obtain ⟨a, hc⟩ := client_exists (c32_terminated hr) (⟨.get, bs "/", args, creds, forwarded⟩ : Req)
  have hq' : Client d.nv.config (sentBy creds forwarded q) a := by
    cases hc with
    | anybody h => exact .anybody (hsame _ h)
    | owner h h1 h2 => exact .owner ⟨hsame _ h.name, h.nonempty, hsame' _ h.pwd⟩ h1 h2
    | remote h h1 h2 => exact .remote ⟨hsame _ h.name, h.nonempty, hsame' _ h.pwd⟩ h1 h2
    | stranger h h1 => exact .stranger ⟨hsame _ h.name, h.nonempty, hsame' _ h.pwd⟩ h1
  refine c110_answered_partial hs hq hq' ?_ hroom h
  obtain ⟨-, p2, p3⟩ := c72_home_partial (b := b) (d := d0) (e := e0) (r := ⟨.get, bs "/", args, creds, forwarded⟩) rfl
  cases a with
  | full => exact .inl rfl
  | none =>
    rw [p3 hc] at h0
    cases h0
  | restricted =>
    cases restricted with
    | true => exact .inr ⟨rfl, rfl⟩
    | false =>
      exfalso
      by_cases hm : Missing e0.fileExists (bs "/index.restrict.html")
      · obtain ⟨body, x, y, h1, -⟩ := c72_missing (b := b) (e := e0) (r := ⟨.get, bs "/", args, creds, forwarded⟩) rfl
          (.inr ⟨hc, hm⟩)
        rw [h1] at h0
        cases h0
      · obtain ⟨l1, h1, h2⟩ := p2 hc hm
        rw [h1] at h0
        obtain ⟨-, rfl⟩ := Prod.mk.inj (Except.ok.inj h0)
        cases h2 with
        | compressed _ => exact absurd hfile (by decide +kernel)
        | plain _ _ => exact absurd hfile (by decide +kernel)

/-! ## What is refused all the same -/

/-- **C110** as stated is false: on a device without user name, somebody who comes through a proxy gets the full page; once they
have set a user name, this page shows buttons that are refused to them, even with the right password. -/
theorem c110_refuted_saved {b : Build} {d : Device} {e : Env} (hd : HasText d.nv.config.username []) (creds : Str → Str → Bool)
    {form : Args} (hf : isPosted form "save" = true) {user pass : Str}
    (hu : cutText (posted form "username") 31 = .text (some user)) (hu0 : user ≠ [])
    (hp : cutText (posted form "password") 31 = .text (some pass)) (v w : Bool) :
    ∃ q q' d' l, q ∈ visit false none form [.act (.press saveButton true)] ∧
      q' ∈ visit false none form [.act (.press saveButton true), .act (.press razButton v), .act (.press yesButton w)] ∧
      (∀ r, Client d.nv.config (sentBy creds true r) .full) ∧
      d.handle b e (sentBy creds true q) = .ok (d', l) ∧ ¬ Refuses l ∧
      ∀ d'' l, d'.handle b e (sentBy creds true q') = .ok (d'', l) → Refuses l := by
  obtain ⟨s', h1, h2⟩ := c33_form d.nv form e.commit hf
  have hany : ∀ r, Client d.nv.config (sentBy creds true r) .full := fun r => .anybody hd
  have hprot : Protected s'.config user pass := by
    refine ⟨?_, hu0, ?_⟩
    · have := congrArg (fun l => l[6]?) h2
      have e : (postedPrivate form ++ postedPublic form)[6]? = some ("username", cutText (posted form "username") 31) := rfl
      rw [e, hu] at this
      simpa [settings, privateSettings, HasText] using this
    · have := congrArg (fun l => l[7]?) h2
      have e : (postedPrivate form ++ postedPublic form)[7]? = some ("password", cutText (posted form "password") 31) := rfl
      rw [e, hp] at this
      simpa [settings, privateSettings, HasText] using this
  have hsave : (Panel.mk form []).act false (.press saveButton true) = (⟨form, []⟩, [⟨.post, bs "/config_form.json", form⟩]) := by
    have hb : saveButton ∈ (Panel.mk form []).buttons false := show saveButton ∈ formButtons false by decide +kernel
    rw [act_press, if_pos hb]
    exact (clicks _ true).1
  have hraz := c106_raz (p := ⟨form, []⟩) rfl v
  have hyes : ((Panel.mk form [bs "#confirm-raz"]).act false (.press yesButton w)).2 = [⟨.post, bs "/factory_reset", []⟩] := by
    have hb : yesButton ∈ (Panel.mk form [bs "#confirm-raz"]).buttons false :=
      show yesButton ∈ dialogButtons false (bs "#confirm-raz") by decide +kernel
    rw [act_press, if_pos hb]
    rfl
  refine ⟨⟨.post, bs "/config_form.json", form⟩, ⟨.post, bs "/factory_reset", []⟩, _, _, ?_, ?_, hany,
    form_handled rfl (hany _) (by decide) h1, send_ok [] (by simp) _ [] (by simp), ?_⟩
  · refine List.mem_append_right _ ?_
    simp only [WholePage.run, WholePage.step, hsave, List.mem_append, List.mem_singleton, true_or]
  · refine List.mem_append_right _ ?_
    simp only [WholePage.run, WholePage.step, hsave, hraz, hyes, List.mem_append, List.mem_singleton, true_or, or_true]
  · intro d'' l h
    have hacc : ∃ a, Client s'.config (sentBy creds true ⟨.post, bs "/factory_reset", []⟩) a ∧ a ≠ .full := by
      cases hcr : creds user pass with
      | true => exact ⟨_, .remote hprot hcr rfl, by decide⟩
      | false => exact ⟨_, .stranger hprot hcr, by decide⟩
    obtain ⟨a, ha, hn⟩ := hacc
    unfold Device.handle at h
    simp only [sentBy, route_factory] at h
    have hacc' := access_full ha
    simp only [sentBy] at hacc'
    rw [hacc', decide_eq_false hn] at h
    obtain ⟨-, rfl⟩ := Prod.mk.inj (Except.ok.inj h)
    cases a with
    | full => exact absurd rfl hn
    | none => exact .inl (by simp [refusal])
    | restricted => exact .inr ⟨403, bs "failed", by simp [refusal], by decide⟩

/-- **C110** as stated is false: a third page that shows the gauges gets no event stream. -/
theorem c110_refuted_stream {b : Build} {d : Device} {e : Env} (hd : 2 ≤ d.sse.clients.length) (restricted : Bool) (form : Args)
    (creds : Str → Str → Bool) (forwarded : Bool) :
    ∃ q ∈ visit restricted (some .gauges) form [.tab .shown], ∀ d' l, d.handle b e (sentBy creds forwarded q) = .ok (d', l) →
      Refuses l := by
  refine ⟨⟨.get, bs "/sse/json", []⟩, ?_, fun d' l h => ?_⟩
  · have hg : (⟨.get, bs "/sse/json", []⟩ : PageReq) ∈
        ((Tabs.load (some .gauges)).1.step .shown).2.flatMap (Ask.reqs restricted) := by
      cases restricted <;> decide +kernel
    exact List.mem_append_right _ (List.mem_append_left _ hg)
  · have hstep : d.step b (.handle (sentBy creds forwarded ⟨.get, bs "/sse/json", []⟩) e) = .ok (d', l) := h
    rcases c42_third (.inr rfl) hstep with ⟨rfl, -⟩ | ⟨-, ⟨s, rfl⟩, -⟩ | ⟨h2, -⟩
    · exact .inl (List.mem_singleton.2 rfl)
    · exact .inr ⟨503, s, List.mem_singleton.2 rfl, by decide⟩
    · omega

/-! ## Cases -/

-- A visit of the full page: the gauges, then the configuration, which is saved, and a factory reset with its wait.
example : visit false (some .gauges) [(bs "save", bs "1")]
    [.tab .shown, .tab (.click .cfg), .tab .shown, .act (.press saveButton true), .act (.press razButton false),
     .act (.press yesButton true), .beat] =
    [⟨.get, bs "/tinfo.json", []⟩, ⟨.get, bs "/version", []⟩, ⟨.get, bs "/sse/json", []⟩, ⟨.get, bs "/config.json", []⟩,
     ⟨.get, bs "/wifiscan.json", []⟩, ⟨.post, bs "/config_form.json", [(bs "save", bs "1")]⟩, ⟨.post, bs "/factory_reset", []⟩,
     ⟨.get, bs "/hb.htm", []⟩] := by decide +kernel

-- The restricted page asks for less, and is not made for those who may do everything only.
example : visit true (some .cfg) [(bs "save", bs "1")] [.tab .shown, .act (.press scanButton true), .upload true, .beat,
      .act (.press rebootButton true), .beat] =
    [⟨.get, bs "/tinfo.json", []⟩, ⟨.get, bs "/version", []⟩, ⟨.get, bs "/config.json", []⟩, ⟨.post, bs "/reset", []⟩,
     ⟨.get, bs "/hb.htm", []⟩] ∧ MadeFor true .restricted ∧ MadeFor true .full ∧ ¬ MadeFor false .restricted := by
  refine ⟨by decide +kernel, .inr ⟨rfl, rfl⟩, .inl rfl, ?_⟩
  rintro (h | ⟨h, -⟩) <;> cases h

-- The form has its hidden field, and a form with a user name sets one.
example : HasSave [(bs "save", bs "1")] [.act (.edit [(bs "save", bs "1"), (bs "ssid", bs "x")]), .beat] := by
  refine ⟨by decide +kernel, fun f hf => ?_⟩
  simp only [List.mem_cons, PageEvent.act.injEq, Act.edit.injEq, reduceCtorEq, List.not_mem_nil, or_false] at hf
  rw [hf]
  decide +kernel

example : cutText (posted [(bs "save", bs "1"), (bs "username", bs "admin")] "username") 31 = .text (some (bs "admin")) ∧
    cutText (posted [(bs "save", bs "1"), (bs "username", bs "admin")] "password") 31 = .text (some []) := by decide +kernel

end Wifinfo
