import Verif.Props.KeysLife
import Verif.Props.NotifyRun
import Verif.Props.RunExact

/-!
# C141: each service is told what is set for it, and nothing of the others

Emoncms, jeedom and the HTTP requests each have a host, a path and a period; the first two have a key, and the path of the third often holds
one.  What is set for one service is of no effect on what the others get, nor on the rest, if two devices that differ only by the settings of
this service cannot be told apart by anybody else.
-/

namespace Wifinfo
namespace Spec

/-- The services that the device sends to. -/
inductive Dest
  | emoncms | jeedom | http
deriving DecidableEq

/-- The same settings, but for those of the service and for the checksum. -/
def Apart (s : Dest) (c c' : Config) : Prop :=
  ∃ e j h crc, c' = { c with emoncms := e, jeedom := j, httpreq := h, crc := crc } ∧
    (s ≠ .emoncms → e = c.emoncms) ∧ (s ≠ .jeedom → j = c.jeedom) ∧ (s ≠ .http → h = c.httpreq)

/-- A request to the service. -/
def goesTo (s : Dest) : Eff → Bool
  | .out (.emoncms _) => s = .emoncms
  | .out (.jeedom _) => s = .jeedom
  | .out (.http ..) => s = .http
  | _ => false

/-- What an event makes the device do, without the requests to the service and without the answers to `/config.json`. -/
def butFor (s : Dest) : Event → List Eff → List Eff
  | .handle r _, l => if r.uri = bs "/config.json" then [] else l
  | _, l => l.filter fun x => !goesTo s x

end Spec
open Spec

/-! ## Lemmas -/

/-- Two devices that differ by the settings of a service, the clock of its notifications and, for the HTTP requests, their memory. -/
structure ApartDev (s : Dest) (d d' : Device) : Prop where
  config : Apart s d.nv.config d'.nv.config
  sseTimer : d'.timers.sse = d.timers.sse
  emonTimer : s ≠ .emoncms → d'.timers.emoncms = d.timers.emoncms
  jdomTimer : s ≠ .jeedom → d'.timers.jeedom = d.timers.jeedom
  httpTimer : s ≠ .http → d'.timers.http = d.timers.http
  tinfo : d'.tic.tinfo = d.tic.tinfo
  dec : d'.tic.dec = d.tic.dec
  pause : d'.tic.pause = d.tic.pause
  ns : s ≠ .http → d'.tic.ns = d.tic.ns
  sse : d'.sse = d.sse
  updOk : d'.updOk = d.updOk

theorem apart_refl (s : Dest) (c : Config) : Apart s c c := ⟨_, _, _, _, rfl, fun _ => rfl, fun _ => rfl, fun _ => rfl⟩

theorem apart_save {s : Dest} {c c' : Config} (h : Apart s c c') : Apart s c.stamp.securize c'.stamp.securize := by
  obtain ⟨e, j, t, x, rfl, h1, h2, h3⟩ := h
  refine ⟨_, _, _, _, rfl, fun h => ?_, fun h => ?_, fun h => ?_⟩
  · show _ = c.stamp.securize.emoncms
    obtain rfl := h1 h
    rfl
  · show _ = c.stamp.securize.jeedom
    obtain rfl := h2 h
    rfl
  · show _ = c.stamp.securize.httpreq
    obtain rfl := h3 h
    rfl

theorem apart_user {s : Dest} {c c' : Config} (h : Apart s c c') : c'.username = c.username ∧ c'.password = c.password ∧ c'.ssid = c.ssid := by
  obtain ⟨e, j, t, x, rfl, h1, h2, h3⟩ := h
  exact ⟨rfl, rfl, rfl⟩

theorem apart_auth {s : Dest} {c c' : Config} (h : Apart s c c') (r : Req) : getAuth c' r = getAuth c r := by
  obtain ⟨h1, h2, _⟩ := apart_user h
  unfold getAuth
  rw [h1, h2]

theorem apart_timers {s : Dest} {c c' : Config} (h : Apart s c c') : (ticMakeTimers c').sse = (ticMakeTimers c).sse ∧
    (s ≠ .emoncms → (ticMakeTimers c').emoncms = (ticMakeTimers c).emoncms) ∧
    (s ≠ .jeedom → (ticMakeTimers c').jeedom = (ticMakeTimers c).jeedom) ∧
    (s ≠ .http → (ticMakeTimers c').http = (ticMakeTimers c).http) := by
  obtain ⟨e, j, t, x, rfl, h1, h2, h3⟩ := h
  refine ⟨rfl, fun h => ?_, fun h => ?_, fun h => ?_⟩
  · obtain rfl := h1 h; rfl
  · obtain rfl := h2 h; rfl
  · obtain rfl := h3 h; rfl

theorem apart_filled {s : Dest} {c c' : Config} (h : Apart s c c') (a : Args) : Apart s (filledIn c a) (filledIn c' a) := by
  obtain ⟨e, j, t, x, rfl, h1, h2, h3⟩ := h
  obtain ⟨p1, p2, p3⟩ := filled_parts c a
  exact ⟨e, j, t, x, rfl, fun h => (h1 h).trans p1.symm, fun h => (h2 h).trans p2.symm, fun h => (h3 h).trans p3.symm⟩

theorem apart_open {s : Dest} {c c' : Config} (h : Apart s c c') (a : Args) {em em' je je' ht ht'} (h1 : s ≠ .emoncms → em' = em)
    (h2 : s ≠ .jeedom → je' = je) (h3 : s ≠ .http → ht' = ht) : Apart s (openPart c a em je ht) (openPart c' a em' je' ht') := by
  obtain ⟨e, j, t, x, rfl, _, _, _⟩ := h
  exact ⟨em', je', ht', x, rfl, h1, h2, h3⟩

theorem apart_parts {s : Dest} {c c' : Config} (h : Apart s c c') : (s ≠ .emoncms → c'.emoncms = c.emoncms) ∧
    (s ≠ .jeedom → c'.jeedom = c.jeedom) ∧ (s ≠ .http → c'.httpreq = c.httpreq) := by
  obtain ⟨e, j, t, x, rfl, h1, h2, h3⟩ := h
  exact ⟨h1, h2, h3⟩

/-- The form. -/
theorem apart_form {x : Dest} {s s' : Nv} (h : Apart x s.config s'.config) (a : Args) (restricted : Bool) (k : Commit) :
    ∃ t t' n, s.handleForm a restricted k = .ok (t, n) ∧ s'.handleForm a restricted k = .ok (t', n) ∧ Apart x t.config t'.config := by
  cases hsave : hasArg a "save" with
  | false =>
    refine ⟨s, s', 400, ?_, ?_, h⟩ <;>
    · unfold Nv.handleForm
      rw [if_neg (by rw [hsave]; decide)]
      rfl
  | true =>
    have key : ∀ {c c' : Config}, Apart x c c' → (if restricted then pure s.config else s.config.formFull a : Res Config) = .ok c →
        (if restricted then pure s'.config else s'.config.formFull a : Res Config) = .ok c' →
        ∃ t t' n, s.handleForm a restricted k = .ok (t, n) ∧ s'.handleForm a restricted k = .ok (t', n) ∧ Apart x t.config t'.config := by
      intro c c' hc g g'
      obtain ⟨em, e1, _⟩ := c.emoncms.form_ok a
      obtain ⟨je, e2, _⟩ := c.jeedom.form_ok a
      obtain ⟨ht, e3, _⟩ := c.httpreq.form_ok a
      obtain ⟨em', e1', _⟩ := c'.emoncms.form_ok a
      obtain ⟨je', e2', _⟩ := c'.jeedom.form_ok a
      obtain ⟨ht', e3', _⟩ := c'.httpreq.form_ok a
      obtain ⟨p1, p2, p3⟩ := apart_parts hc
      refine ⟨_, _, _, form_save hsave g e1 e2 e3, form_save hsave g' e1' e2' e3', ?_⟩
      rw [Nv.configSave_eq, Nv.configSave_eq]
      refine apart_save (apart_open hc a (fun h => ?_) (fun h => ?_) fun h => ?_)
      · rw [p1 h] at e1'; exact Except.ok.inj (e1'.symm.trans e1)
      · rw [p2 h] at e2'; exact Except.ok.inj (e2'.symm.trans e2)
      · rw [p3 h] at e3'; exact Except.ok.inj (e3'.symm.trans e3)
    cases restricted with
    | true => exact key h rfl rfl
    | false => exact key (apart_filled h a) (formFull_eq _ _) (formFull_eq _ _)

theorem apart_wifi {x : Dest} {s s' : Nv} (h : Apart x s.config s'.config) (a p : Str) (k : Commit) :
    ∃ t t', s.wifiSetup a p k = .ok t ∧ s'.wifiSetup a p k = .ok t' ∧ Apart x t.config t'.config := by
  obtain ⟨e, j, y, z, hc, h1, h2, h3⟩ := h
  have hs : s'.config.ssid = s.config.ssid := by rw [hc]
  unfold Nv.wifiSetup
  rw [hs]
  by_cases h0 : s.config.ssid[0] = 0
  · rw [if_pos h0, if_pos h0]
    by_cases ha : a = []
    · rw [if_pos ha, if_pos ha]
      exact ⟨s, s', rfl, rfl, e, j, y, z, hc, h1, h2, h3⟩
    · rw [if_neg ha, if_neg ha, strncpyS_put _ _ (by decide), ok_bind, ok_bind]
      by_cases hp : p ≠ []
      · rw [if_pos hp, if_pos hp, strncpyS_put _ _ (by decide), strncpyS_put _ _ (by decide), ok_bind, ok_bind]
        refine ⟨_, _, rfl, rfl, ?_⟩
        rw [Nv.configSave_eq, Nv.configSave_eq, hc]
        exact apart_save ⟨e, j, y, z, rfl, h1, h2, h3⟩
      · rw [if_neg hp, if_neg hp, pure_ok, pure_ok, ok_bind, ok_bind]
        refine ⟨_, _, rfl, rfl, ?_⟩
        rw [Nv.configSave_eq, Nv.configSave_eq, hc]
        exact apart_save ⟨e, j, y, z, rfl, h1, h2, h3⟩
  · rw [if_neg h0, if_neg h0]
    exact ⟨s, s', rfl, rfl, e, j, y, z, hc, h1, h2, h3⟩

theorem apart_cliWifi {x : Dest} {s s' : Nv} (h : Apart x s.config s'.config) (a p : Str) (k : Commit) :
    ∃ t t', s.cliWifi a p k = .ok t ∧ s'.cliWifi a p k = .ok t' ∧ Apart x t.config t'.config := by
  obtain ⟨e, j, y, z, hc, h1, h2, h3⟩ := h
  unfold Nv.cliWifi
  simp only [strncpyS_put _ _ (show 32 < 33 by decide), strncpyS_put _ _ (show 64 < 65 by decide), ok_bind]
  refine ⟨_, _, rfl, rfl, ?_⟩
  rw [Nv.configSave_eq, Nv.configSave_eq, hc]
  exact apart_save ⟨e, j, y, z, rfl, h1, h2, h3⟩

theorem apart_cliAp {x : Dest} {s s' : Nv} (h : Apart x s.config s'.config) (a p : Str) (k : Commit) :
    ∃ t t', s.cliAp a p k = .ok t ∧ s'.cliAp a p k = .ok t' ∧ Apart x t.config t'.config := by
  obtain ⟨e, j, y, z, hc, h1, h2, h3⟩ := h
  unfold Nv.cliAp
  simp only [strncpyS_put _ _ (show 16 < 17 by decide), strncpyS_put _ _ (show 64 < 65 by decide), ok_bind]
  refine ⟨_, _, rfl, rfl, ?_⟩
  rw [Nv.configSave_eq, Nv.configSave_eq, hc]
  exact apart_save ⟨e, j, y, z, rfl, h1, h2, h3⟩

/-! ### What is sent -/

/-- A message to the service. -/
def outTo (s : Dest) : Out → Bool
  | .emoncms _ => s = .emoncms
  | .jeedom _ => s = .jeedom
  | .http .. => s = .http
  | .sse _ => false

theorem deliver_but (x : Dest) (conn : Nat → Bool) : ∀ (o : List Out) (s : Sse),
    (deliver conn s o).1 = (deliver conn s (o.filter fun y => !outTo x y)).1 ∧
    (deliver conn s o).2.filter (fun y => !goesTo x y) = (deliver conn s (o.filter fun y => !outTo x y)).2
  | [], s => ⟨rfl, rfl⟩
  | o :: r, s => by
    have plain' : ∀ {o : Out} {r : List Out}, (∀ d, o ≠ .sse d) →
        deliver conn s (o :: r) = ((deliver conn s r).1, .out o :: (deliver conn s r).2) := by
      intro o r h
      cases o with
      | sse d => exact absurd rfl (h d)
      | _ => rfl
    have other : ∀ {o : Out}, (∀ d, o ≠ .sse d) → goesTo x (.out o) = outTo x o →
        (deliver conn s (o :: r)).1 = (deliver conn s ((o :: r).filter fun y => !outTo x y)).1 ∧
        (deliver conn s (o :: r)).2.filter (fun y => !goesTo x y) = (deliver conn s ((o :: r).filter fun y => !outTo x y)).2 := by
      intro o h he
      obtain ⟨i1, i2⟩ := deliver_but x conn r s
      rw [plain' h]
      cases ho : outTo x o with
      | true =>
        rw [List.filter_cons_of_neg (by simp [ho]), List.filter_cons_of_neg (by simp [he, ho])]
        exact ⟨i1, i2⟩
      | false =>
        rw [List.filter_cons_of_pos (by simp [ho]), List.filter_cons_of_pos (by simp [he, ho]), plain' h]
        exact ⟨i1, by rw [i2]⟩
    cases o with
    | http n q => exact other (fun _ h => nomatch h) rfl
    | jeedom q => exact other (fun _ h => nomatch h) rfl
    | emoncms q => exact other (fun _ h => nomatch h) rfl
    | sse data =>
      obtain ⟨i1, i2⟩ := deliver_but x conn r (s.handle conn (some data)).1
      rw [List.filter_cons_of_pos (by rfl)]
      refine ⟨i1, ?_⟩
      show ((s.handle conn (some data)).2.map Eff.sse ++ _).filter _ = (s.handle conn (some data)).2.map Eff.sse ++ _
      rw [List.filter_append]
      refine congr (congrArg _ ?_) i2
      rw [List.filter_eq_self]
      intro y hy
      obtain ⟨z, _, rfl⟩ := List.mem_map.1 hy
      rfl

theorem sendIf_http {w : World} {c : Config} {t : Teleinfo} {n : Option Notif} {o} (h : sendIf w c t n = .ok o) :
    ∀ y ∈ o, outTo .http y = true := by
  cases n with
  | none => obtain rfl := Except.ok.inj h; exact fun y hy => nomatch hy
  | some n =>
    obtain ⟨z, hz, h⟩ := bind_ok h
    obtain rfl := Except.ok.inj h
    intro y hy
    rw [List.mem_singleton.1 hy]
    unfold httpNotif at hz
    obtain ⟨_, _, hz⟩ := bind_ok hz
    obtain ⟨_, _, hz⟩ := bind_ok hz
    split at hz
    · obtain ⟨_, _, hz⟩ := bind_ok hz
      rw [← Except.ok.inj hz]; rfl
    · rw [← Except.ok.inj hz]; rfl

theorem httpNotifs_http {w : World} {c : Config} {tm : Timers} {k : Tick} {t : Teleinfo} {s s' : NotifState} {o}
    (h : httpNotifs w c tm k t s = .ok (s', o)) : ∀ y ∈ o, outTo .http y = true := by
  unfold httpNotifs at h
  split at h
  · obtain ⟨⟨s1, n1⟩, _, h⟩ := bind_ok h
    obtain ⟨o1, g1, h⟩ := bind_ok h
    obtain ⟨⟨s2, n2⟩, _, h⟩ := bind_ok h
    obtain ⟨o2, g2, h⟩ := bind_ok h
    obtain ⟨⟨s3, n3⟩, _, h⟩ := bind_ok h
    obtain ⟨o3, g3, h⟩ := bind_ok h
    obtain ⟨o4, g4, h⟩ := bind_ok h
    obtain ⟨_, rfl⟩ := Prod.mk.inj (Except.ok.inj h)
    intro y hy
    simp only [List.mem_append] at hy
    rcases hy with ((hy | hy) | hy) | hy
    · exact sendIf_http g1 y hy
    · exact sendIf_http g2 y hy
    · exact sendIf_http g3 y hy
    · exact sendIf_http g4 y hy
  · obtain ⟨_, rfl⟩ := Prod.mk.inj (Except.ok.inj h)
    exact fun y hy => nomatch hy

theorem httpNotifs_apart {x : Dest} (hx : x ≠ .http) {c c' : Config} (h : Apart x c c') {tm tm' : Timers} (ht : tm'.http = tm.http)
    (w : World) (k : Tick) (t : Teleinfo) (s : NotifState) : httpNotifs w c' tm' k t s = httpNotifs w c tm k t s := by
  obtain ⟨e, j, y, z, rfl, h1, h2, h3⟩ := h
  obtain rfl := h3 hx
  unfold httpNotifs
  rw [ht]
  rfl

theorem jeedom_jeedom {p : Bool} {c : Config} {t : Teleinfo} {o} (h : (if p then jeedomNotif c t else pure [] : Res (List Out)) = .ok o) :
    ∀ y ∈ o, outTo .jeedom y = true := by
  split at h
  · unfold jeedomNotif at h
    split at h
    · obtain rfl := Except.ok.inj h; exact fun y hy => nomatch hy
    · obtain ⟨_, _, h⟩ := bind_ok h
      obtain ⟨_, _, h⟩ := bind_ok h
      obtain ⟨_, _, h⟩ := bind_ok h
      obtain ⟨_, _, h⟩ := bind_ok h
      obtain rfl := Except.ok.inj h
      intro y hy
      rw [List.mem_singleton.1 hy]; rfl
  · obtain rfl := Except.ok.inj h; exact fun y hy => nomatch hy

theorem emoncms_emoncms {p : Bool} {c : Config} {t : Teleinfo} {o} (h : (if p then emoncmsNotif c t else pure [] : Res (List Out)) = .ok o) :
    ∀ y ∈ o, outTo .emoncms y = true := by
  split at h
  · unfold emoncmsNotif at h
    split at h
    · obtain rfl := Except.ok.inj h; exact fun y hy => nomatch hy
    · obtain ⟨_, _, h⟩ := bind_ok h
      obtain ⟨_, _, h⟩ := bind_ok h
      obtain ⟨_, _, h⟩ := bind_ok h
      obtain ⟨_, _, h⟩ := bind_ok h
      obtain rfl := Except.ok.inj h
      intro y hy
      rw [List.mem_singleton.1 hy]; rfl
  · obtain rfl := Except.ok.inj h; exact fun y hy => nomatch hy

theorem filter_sent {x : Dest} {o : List Out} (h : ∀ y ∈ o, outTo x y = true) : o.filter (fun y => !outTo x y) = [] := by
  rw [List.filter_eq_nil_iff]
  intro y hy
  simp [h y hy]

/-- The notifications of a frame. -/
theorem notifs_apart {x : Dest} {w : World} {c c' : Config} (h : Apart x c c') {tm tm' : Timers} (t0 : tm'.sse = tm.sse)
    (t1 : x ≠ .emoncms → tm'.emoncms = tm.emoncms) (t2 : x ≠ .jeedom → tm'.jeedom = tm.jeedom) (t3 : x ≠ .http → tm'.http = tm.http)
    {k : Tick} {t : Teleinfo} {s s' n n' : NotifState} {o o'} (hs : x ≠ .http → s' = s) (g : ticNotifs w c tm k t s = .ok (n, o))
    (g' : ticNotifs w c' tm' k t s' = .ok (n', o')) :
    o.filter (fun y => !outTo x y) = o'.filter (fun y => !outTo x y) ∧ (x ≠ .http → n' = n) := by
  unfold ticNotifs at g g'
  obtain ⟨⟨s1, o1⟩, a1, g⟩ := bind_ok g
  obtain ⟨o2, a2, g⟩ := bind_ok g
  obtain ⟨o3, a3, g⟩ := bind_ok g
  obtain ⟨o4, a4, g⟩ := bind_ok g
  obtain ⟨rfl, rfl⟩ := Prod.mk.inj (Except.ok.inj g)
  obtain ⟨⟨s1', o1'⟩, a1', g'⟩ := bind_ok g'
  obtain ⟨o2', a2', g'⟩ := bind_ok g'
  obtain ⟨o3', a3', g'⟩ := bind_ok g'
  obtain ⟨o4', a4', g'⟩ := bind_ok g'
  obtain ⟨rfl, rfl⟩ := Prod.mk.inj (Except.ok.inj g')
  have e4 : o4' = o4 := by
    rw [t0] at a4'
    exact Except.ok.inj (a4'.symm.trans a4)
  have e1 : (x ≠ .http → s1' = s1 ∧ o1' = o1) := by
    intro hx
    rw [httpNotifs_apart hx h (t3 hx), hs hx] at a1'
    exact Prod.mk.inj (Except.ok.inj (a1'.symm.trans a1))
  have e2 : (x ≠ .jeedom → o2' = o2) := by
    intro hx
    obtain ⟨e, j, y, z, rfl, h1, h2, h3⟩ := h
    obtain rfl := h2 hx
    rw [t2 hx] at a2'
    exact Except.ok.inj (a2'.symm.trans a2)
  have e3 : (x ≠ .emoncms → o3' = o3) := by
    intro hx
    obtain ⟨e, j, y, z, rfl, h1, h2, h3⟩ := h
    obtain rfl := h1 hx
    rw [t1 hx] at a3'
    exact Except.ok.inj (a3'.symm.trans a3)
  refine ⟨?_, fun hx => (e1 hx).1⟩
  simp only [List.filter_append]
  rw [e4]
  cases x with
  | emoncms =>
    rw [(e1 (by decide)).2, e2 (by decide), filter_sent (emoncms_emoncms a3), filter_sent (emoncms_emoncms a3')]
  | jeedom =>
    rw [(e1 (by decide)).2, e3 (by decide), filter_sent (jeedom_jeedom a2), filter_sent (jeedom_jeedom a2')]
  | http =>
    rw [e2 (by decide), e3 (by decide), filter_sent (httpNotifs_http a1), filter_sent (httpNotifs_http a1')]

/-- A byte of the meter. -/
theorem byte_apart {x : Dest} {b : Build} {d d' d1 d1' : Device} {l l'} (hv : ApartDev x d d') {now : TimeVal} {k : Tick} {conn : Nat → Bool}
    {y : Byte} (h : d.byte b now k conn y = .ok (d1, l)) (h' : d'.byte b now k conn y = .ok (d1', l')) :
    l.filter (fun z => !goesTo x z) = l'.filter (fun z => !goesTo x z) ∧ ApartDev x d1 d1' := by
  unfold Device.byte at h h'
  obtain ⟨⟨tic, out⟩, g, h⟩ := bind_ok h
  obtain ⟨⟨tic', out'⟩, g', h'⟩ := bind_ok h'
  obtain ⟨rfl, rfl⟩ := Prod.mk.inj (Except.ok.inj h)
  obtain ⟨rfl, rfl⟩ := Prod.mk.inj (Except.ok.inj h')
  have key : out.filter (fun y => !outTo x y) = out'.filter (fun y => !outTo x y) ∧ tic'.tinfo = tic.tinfo ∧ tic'.dec = tic.dec ∧
      tic'.pause = tic.pause ∧ (x ≠ .http → tic'.ns = tic.ns) := by
    unfold Tic.decode at g g'
    rw [hv.pause, hv.dec, hv.tinfo, hv.sse] at g'
    by_cases hp : d.tic.pause = true
    · rw [if_pos hp] at g g'
      obtain ⟨rfl, rfl⟩ := Prod.mk.inj (Except.ok.inj g)
      obtain ⟨rfl, rfl⟩ := Prod.mk.inj (Except.ok.inj g')
      exact ⟨rfl, hv.tinfo, hv.dec, hv.pause, hv.ns⟩
    · rw [if_neg hp] at g g'
      obtain ⟨dc, a1, g⟩ := bind_ok g
      rw [a1, ok_bind] at g'
      by_cases hr : dc.ready = true
      · rw [if_pos hr] at g g'
        obtain ⟨t, a2, g⟩ := bind_ok g
        rw [a2, ok_bind] at g'
        obtain ⟨⟨ns, o⟩, a3, g⟩ := bind_ok g
        obtain ⟨⟨ns', o'⟩, a3', g'⟩ := bind_ok g'
        obtain ⟨rfl, rfl⟩ := Prod.mk.inj (Except.ok.inj g)
        obtain ⟨rfl, rfl⟩ := Prod.mk.inj (Except.ok.inj g')
        obtain ⟨q1, q2⟩ := notifs_apart hv.config hv.sseTimer hv.emonTimer hv.jdomTimer hv.httpTimer hv.ns a3 a3'
        exact ⟨q1, rfl, rfl, rfl, q2⟩
      · rw [if_neg hr] at g g'
        obtain ⟨rfl, rfl⟩ := Prod.mk.inj (Except.ok.inj g)
        obtain ⟨rfl, rfl⟩ := Prod.mk.inj (Except.ok.inj g')
        exact ⟨rfl, rfl, rfl, rfl, hv.ns⟩
  obtain ⟨k1, k2, k3, k4, k5⟩ := key
  obtain ⟨q1, q2⟩ := deliver_but x conn out d.sse
  obtain ⟨q1', q2'⟩ := deliver_but x conn out' d.sse
  refine ⟨?_, hv.config, hv.sseTimer, hv.emonTimer, hv.jdomTimer, hv.httpTimer, k2, k3, k4, k5, ?_, hv.updOk⟩
  · rw [hv.sse, q2, q2', k1]
  · show (deliver conn d'.sse out').1 = (deliver conn d.sse out).1
    rw [hv.sse, q1, q1', k1]

/-! ### Requests -/

theorem apart_system {x : Dest} {c c' : Config} (h : Apart x c c') (e : SysEnv) (s : Sse) (b : Bool) :
    sysInfoJson e c' s b = sysInfoJson e c s b := by
  obtain ⟨_, _, _, _, rfl, _⟩ := h
  rfl

/-- A request, but for the configuration. -/
theorem handle_apart {x : Dest} {b : Build} {d d' : Device} {e : Env} {r : Req} (hv : ApartDev x d d') (hu : r.uri ≠ bs "/config.json") :
    Untold (ApartDev x) (d.handle b e r) (d'.handle b e r) := by
  have ha := apart_auth hv.config r
  have ok : accessOk d'.nv.config r = accessOk d.nv.config r := by unfold accessOk; rw [ha]
  have full : accessFull d'.nv.config r = accessFull d.nv.config r := by unfold accessFull; rw [ha]
  have same : ∀ l, Untold (ApartDev x) (.ok (d, l)) (.ok (d', l)) := fun l => Or.inr ⟨d, d', l, rfl, rfl, hv⟩
  have hpath := route_path b.cpuload e.static r.method r.uri
  unfold Device.handle
  cases hroute : route b.cpuload e.static r.method r.uri with
  | sse =>
    dsimp only
    refine untold_access ok _ _ fun y _ => ?_
    obtain ⟨a, l⟩ := y
    cases a with
    | false => exact same _
    | true =>
      simp only [if_true]
      rw [hv.sse]
      cases d.sse.accept e.up with
      | none => exact same _
      | some y => exact Or.inr ⟨_, _, _, rfl, rfl, { hv with sse := rfl }⟩
  | cpuload =>
    dsimp only
    exact untold_access ok _ _ fun y _ => same _
  | configForm =>
    dsimp only
    rw [ha]
    cases hh : getAuth d.nv.config r with
    | error f => exact Or.inl ⟨f, rfl, rfl⟩
    | ok y =>
      obtain ⟨a, l⟩ := y
      simp only [ok_bind]
      by_cases hn : a = .none
      · rw [if_pos hn, if_pos hn]
        exact same _
      · rw [if_neg hn, if_neg hn]
        obtain ⟨t, t', n, h1, h2, h3⟩ := apart_form hv.config r.args (a = .restricted) e.commit
        rw [h1, h2, ok_bind, ok_bind]
        obtain ⟨t0, t1, t2, t3⟩ := apart_timers h3
        exact Or.inr ⟨_, _, _, rfl, rfl,
          { hv with config := h3, sseTimer := t0, emonTimer := t1, jdomTimer := t2, httpTimer := t3 }⟩
  | json => exact untold_json hv ha fun a l _ _ => by rw [hv.tinfo]
  | tinfo => exact untold_json hv ha fun a l _ _ => by rw [hv.tinfo]
  | emoncms => exact untold_json hv ha fun a l _ _ => by rw [hv.tinfo]
  | system => exact untold_json hv ha fun a l _ _ => by rw [hv.sse]; exact apart_system hv.config _ _ _
  | config =>
    rw [hroute] at hpath
    exact absurd hpath hu
  | spiffs => exact untold_json hv ha fun a l _ _ => rfl
  | wifiscan => exact untold_json hv ha fun a l _ _ => rfl
  | factoryReset =>
    dsimp only
    refine untold_access full _ _ fun y _ => ?_
    obtain ⟨a, l⟩ := y
    cases a with
    | false => exact same _
    | true =>
      simp only [if_true]
      obtain ⟨t, t', h1, h2, h3⟩ := reset_same d.nv d'.nv b.world.chipId e.commit
      rw [h1, h2, ok_bind, ok_bind]
      refine Or.inr ⟨_, _, _, rfl, rfl, { hv with config := ?_ }⟩
      show Apart x t.config t'.config
      rw [h3]; exact apart_refl _ _
  | reset =>
    dsimp only
    exact untold_access ok _ _ fun y _ => same _
  | heartbeat => exact same _
  | updatePage =>
    dsimp only
    exact untold_access full _ _ fun y _ => same _
  | updatePost =>
    dsimp only
    rw [hv.updOk]
    exact untold_access full _ _ fun y _ => same _
  | root =>
    dsimp only
    have : handleRoot d' e r = handleRoot d e r := by unfold handleRoot; rw [ha]
    rw [this]
    exact untold_pure hv _
  | version => exact same _
  | static p => exact same _
  | notFound =>
    dsimp only
    have : notFound b.world d' r = notFound b.world d r := by
      obtain ⟨h1, h2, _⟩ := apart_user hv.config
      unfold notFound
      rw [h1, h2, hv.tinfo]
    rw [this]
    exact untold_pure hv _

/-- A request for the configuration leaves the device as it is. -/
theorem config_still {b : Build} {d d1 : Device} {e : Env} {r : Req} {l} (hu : r.uri = bs "/config.json") (h : d.handle b e r = .ok (d1, l)) :
    d1 = d := by
  unfold Device.handle at h
  rw [hu, route_config] at h
  dsimp only at h
  unfold sendJson at h
  obtain ⟨⟨a, f⟩, _, h⟩ := bind_ok h
  dsimp only at h
  by_cases hn : a = .none
  · rw [if_pos hn] at h
    exact (Prod.mk.inj (Except.ok.inj h)).1.symm
  · rw [if_neg hn] at h
    obtain ⟨_, _, h⟩ := bind_ok h
    exact (Prod.mk.inj (Except.ok.inj h)).1.symm

theorem finish_apart {x : Dest} {d d' : Device} (hv : ApartDev x d d') (f o : Bool) :
    (d.updFinish f o).2 = (d'.updFinish f o).2 ∧ ApartDev x (d.updFinish f o).1 (d'.updFinish f o).1 :=
  ⟨rfl, { hv with pause := rfl, updOk := rfl, config := hv.config }⟩

theorem upload_apart {x : Dest} {b : Build} {d d' : Device} (hv : ApartDev x d d') (u : UploadEv) :
    (d.upload b u).2 = (d'.upload b u).2 ∧ ApartDev x (d.upload b u).1 (d'.upload b u).1 := by
  cases u with
  | start n len bo eo =>
    cases bo with
    | true => exact ⟨rfl, { hv with pause := rfl, updOk := rfl, config := hv.config }⟩
    | false => exact ⟨rfl, { hv with pause := rfl, updOk := rfl, config := hv.config }⟩
  | write buf ok eo =>
    cases ok with
    | true => exact ⟨rfl, hv⟩
    | false => exact ⟨rfl, (finish_apart hv false eo).2⟩
  | fin eo => exact finish_apart hv true eo
  | abort eo => exact finish_apart hv false eo

/-- Two devices that start with flashes that differ by the settings of the service. -/
theorem boot_apart {x : Dest} {b : Build} {f f' : Arr 1024} (h : FlashTwin (Apart x) f f') (m : Vector (Option Byte) MAX_FRAME_SIZE)
    (a p : Str) (k1 k2 k3 : Commit) :
    ∃ d d', Device.boot b f m a p k1 k2 k3 = .ok d ∧ Device.boot b f' m a p k1 k2 k3 = .ok d' ∧ NvReach d.nv ∧ NvReach d'.nv ∧
      ApartDev x d d' ∧ FlashTwin (Apart x) d.nv.ee.flash d'.nv.ee.flash := by
  obtain ⟨s, s', h1, h2, h3, h5⟩ := twin_setup (apart_refl x) h b.world.chipId k1 k2
  have n : NvReach s := .boot h1
  have n' : NvReach s' := .boot h2
  obtain ⟨t, t', g1, g2, g3⟩ := apart_wifi h3 a p k3
  obtain ⟨t0, t1, t2, t3⟩ := apart_timers g3
  unfold Device.boot
  rw [h1, h2, ok_bind, ok_bind, g1, g2, ok_bind, ok_bind]
  exact ⟨_, _, rfl, rfl, .step (op := .wifi a p k3) n g1, .step (op := .wifi a p k3) n' g2,
    ⟨g3, t0, t1, t2, t3, rfl, rfl, rfl, fun _ => rfl, rfl, rfl⟩, twin_wifi (apart_user h3).2.2 g1 g2 g3 h5⟩

theorem step_apart {x : Dest} {b : Build} {d d' d1 d1' : Device} {ev : Event} {l l'} (hs : NvReach d.nv) (hs' : NvReach d'.nv)
    (hf : FlashTwin (Apart x) d.nv.ee.flash d'.nv.ee.flash) (hv : ApartDev x d d') (h : d.step b ev = .ok (d1, l))
    (h' : d'.step b ev = .ok (d1', l')) :
    butFor x ev l = butFor x ev l' ∧ NvReach d1.nv ∧ NvReach d1'.nv ∧ ApartDev x d1 d1' ∧
      FlashTwin (Apart x) d1.nv.ee.flash d1'.nv.ee.flash := by
  have reach : ∀ {d d1 : Device} {l}, NvReach d.nv → d.step b ev = .ok (d1, l) → NvReach d1.nv := by
    intro d d1 l hs h
    have he : InLife [] [] ev := by cases ev <;> first | exact trivial | exact fun _ => rfl
    obtain ⟨_, _, _, _, n, _⟩ := life_step hs hs (.inl rfl) ⟨⟨other_refl _, rfl, rfl, rfl, rfl⟩, .inl rfl⟩ he h
    exact n
  refine (fun H => ⟨H.1, reach hs h, reach hs' h', H.2⟩ :
    (butFor x ev l = butFor x ev l' ∧ ApartDev x d1 d1' ∧ FlashTwin (Apart x) d1.nv.ee.flash d1'.nv.ee.flash) → _) ?_
  cases ev with
  | byte now k conn y =>
    obtain ⟨g1, g2⟩ := byte_apart hv h h'
    refine ⟨g1, g2, ?_⟩
    obtain ⟨⟨tic, out⟩, _, h⟩ := bind_ok h
    obtain ⟨rfl, _⟩ := Prod.mk.inj (Except.ok.inj h)
    obtain ⟨⟨tic', out'⟩, _, h'⟩ := bind_ok h'
    obtain ⟨rfl, _⟩ := Prod.mk.inj (Except.ok.inj h')
    exact hf
  | poll conn =>
    obtain ⟨rfl, rfl⟩ := Prod.mk.inj (Except.ok.inj h)
    obtain ⟨rfl, rfl⟩ := Prod.mk.inj (Except.ok.inj h')
    rw [hv.sse]
    exact ⟨rfl, { hv with sse := rfl }, hf⟩
  | upload r u =>
    have g := Except.ok.inj h
    have g' := Except.ok.inj h'
    obtain ⟨q1, q2⟩ := upload_apart (b := b) hv u
    rw [g, g'] at q1 q2
    refine ⟨congrArg _ q1, q2, ?_⟩
    have n := (upload_tic b d u).1
    have n' := (upload_tic b d' u).1
    rw [g] at n
    rw [g'] at n'
    show FlashTwin (Apart x) d1.nv.ee.flash d1'.nv.ee.flash
    rw [show d1.nv = d.nv from n, show d1'.nv = d'.nv from n']
    exact hf
  | cliSse t conn =>
    obtain ⟨rfl, rfl⟩ := Prod.mk.inj (Except.ok.inj h)
    obtain ⟨rfl, rfl⟩ := Prod.mk.inj (Except.ok.inj h')
    rw [hv.sse]
    exact ⟨rfl, { hv with sse := rfl }, hf⟩
  | cliTimers =>
    obtain ⟨rfl, rfl⟩ := Prod.mk.inj (Except.ok.inj h)
    obtain ⟨rfl, rfl⟩ := Prod.mk.inj (Except.ok.inj h')
    obtain ⟨t0, t1, t2, t3⟩ := apart_timers hv.config
    exact ⟨rfl, { hv with sseTimer := t0, emonTimer := t1, jdomTimer := t2, httpTimer := t3 }, hf⟩
  | handle r e =>
    have h : d.handle b e r = .ok (d1, l) := h
    have h' : d'.handle b e r = .ok (d1', l') := h'
    by_cases hu : r.uri = bs "/config.json"
    · obtain rfl := config_still hu h
      obtain rfl := config_still hu h'
      simp only [butFor, if_pos hu]
      exact ⟨trivial, hv, hf⟩
    · rcases handle_apart (b := b) (e := e) hv hu with ⟨f, g, _⟩ | ⟨y, y', n, g, g', hy⟩
      · rw [g] at h; exact nomatch h
      · rw [g] at h
        rw [g'] at h'
        obtain ⟨rfl, rfl⟩ := Prod.mk.inj (Except.ok.inj h)
        obtain ⟨rfl, rfl⟩ := Prod.mk.inj (Except.ok.inj h')
        exact ⟨rfl, hy, twin_handle hs hs' (apart_auth hv.config r) g g' hy.config hf⟩
  | cliReset k =>
    obtain ⟨rfl, rfl⟩ := Prod.mk.inj (Except.ok.inj h)
    obtain ⟨rfl, rfl⟩ := Prod.mk.inj (Except.ok.inj h')
    refine ⟨rfl, { hv with config := hv.config }, .inl ?_⟩
    cases k <;> rfl
  | cliWifi a p k =>
    obtain ⟨t, t', g1, g2, g3⟩ := apart_cliWifi hv.config a p k
    simp only [Device.step, g1, g2, ok_bind] at h h'
    obtain ⟨rfl, rfl⟩ := Prod.mk.inj (Except.ok.inj h)
    obtain ⟨rfl, rfl⟩ := Prod.mk.inj (Except.ok.inj h')
    refine ⟨rfl, { hv with config := g3 }, ?_⟩
    obtain ⟨_, _, g1⟩ := bind_ok g1
    obtain ⟨_, _, g1⟩ := bind_ok g1
    obtain ⟨_, _, g2⟩ := bind_ok g2
    obtain ⟨_, _, g2⟩ := bind_ok g2
    obtain rfl := Except.ok.inj g1
    obtain rfl := Except.ok.inj g2
    exact twin_save d.nv d'.nv k g3
  | cliAp a p k =>
    obtain ⟨t, t', g1, g2, g3⟩ := apart_cliAp hv.config a p k
    simp only [Device.step, g1, g2, ok_bind] at h h'
    obtain ⟨rfl, rfl⟩ := Prod.mk.inj (Except.ok.inj h)
    obtain ⟨rfl, rfl⟩ := Prod.mk.inj (Except.ok.inj h')
    refine ⟨rfl, { hv with config := g3 }, ?_⟩
    obtain ⟨_, _, g1⟩ := bind_ok g1
    obtain ⟨_, _, g1⟩ := bind_ok g1
    obtain ⟨_, _, g2⟩ := bind_ok g2
    obtain ⟨_, _, g2⟩ := bind_ok g2
    obtain rfl := Except.ok.inj g1
    obtain rfl := Except.ok.inj g2
    exact twin_save d.nv d'.nv k g3
  | boot f m a p k1 k2 k3 =>
    have ht : FlashTwin (Apart x) (f.getD d.nv.ee.flash) (f.getD d'.nv.ee.flash) := by
      cases f with
      | none => exact hf
      | some f => exact .inl rfl
    obtain ⟨y, y', g1, g2, g3, g4, g5, g6⟩ := boot_apart (b := b) ht m a p k1 k2 k3
    simp only [Device.step, g1, g2, ok_bind] at h h'
    obtain ⟨rfl, rfl⟩ := Prod.mk.inj (Except.ok.inj h)
    obtain ⟨rfl, rfl⟩ := Prod.mk.inj (Except.ok.inj h')
    exact ⟨rfl, g5, g6⟩

theorem run_apart {x : Dest} {b : Build} {evs : List Event} : ∀ {d d' dn dn' : Device} {es es'}, NvReach d.nv → NvReach d'.nv →
    FlashTwin (Apart x) d.nv.ee.flash d'.nv.ee.flash → ApartDev x d d' → d.run b evs = .ok (dn, es) → d'.run b evs = .ok (dn', es') →
    List.zipWith (butFor x) evs es = List.zipWith (butFor x) evs es' ∧ Apart x dn.nv.config dn'.nv.config := by
  induction evs with
  | nil =>
    intro d d' dn dn' es es' _ _ _ hv h h'
    obtain ⟨rfl, rfl⟩ := Prod.mk.inj (Except.ok.inj h)
    obtain ⟨rfl, rfl⟩ := Prod.mk.inj (Except.ok.inj h')
    exact ⟨rfl, hv.config⟩
  | cons ev evs ih =>
    intro d d' dn dn' es es' hs hs' hf hv h h'
    obtain ⟨⟨d1, l⟩, h1, h⟩ := bind_ok h
    obtain ⟨⟨d2, l2⟩, h2, h⟩ := bind_ok h
    obtain ⟨rfl, rfl⟩ := Prod.mk.inj (Except.ok.inj h)
    obtain ⟨⟨d1', l'⟩, h1', h'⟩ := bind_ok h'
    obtain ⟨⟨d2', l2'⟩, h2', h'⟩ := bind_ok h'
    obtain ⟨rfl, rfl⟩ := Prod.mk.inj (Except.ok.inj h')
    obtain ⟨g2, n, n', k, f⟩ := step_apart hs hs' hf hv h1 h1'
    obtain ⟨g4, g5⟩ := ih n n' f k h2 h2'
    exact ⟨by simp only [List.zipWith_cons_cons, g2, g4], g5⟩

/-- A byte of the meter, when the service is not that of the HTTP requests: if one device gets through it, so does the other. -/
theorem apart_byte_ok {x : Dest} (hx : x ≠ .http) {b : Build} {d d' : Device} {up hist fs} (hd : d.Inv b.world up hist fs) (hn : NvReach d'.nv)
    (hv : ApartDev x d d') {now : TimeVal} {k : Tick} {conn : Nat → Bool} {y : Byte} {z} (h : d.byte b now k conn y = .ok z) :
    ∃ z', d'.byte b now k conn y = .ok z' := by
  obtain ⟨_, _, ⟨mem, hm, hdec⟩, _, ht, _⟩ := hd
  unfold Device.byte at h ⊢
  obtain ⟨w, g, h⟩ := bind_ok h
  refine bindSafe ?_ fun _ _ => ⟨_, rfl⟩
  unfold Tic.decode at g ⊢
  rw [hv.pause, hv.dec, hv.tinfo, hv.sse, hv.ns hx]
  by_cases hp : d.tic.pause = true
  · rw [if_pos hp]
    exact ⟨_, rfl⟩
  · rw [if_neg hp] at g ⊢
    obtain ⟨dc, a1, g⟩ := bind_ok g
    rw [a1, ok_bind]
    by_cases hr : dc.ready = true
    · rw [if_pos hr] at g ⊢
      obtain ⟨t, a2, g⟩ := bind_ok g
      rw [a2, ok_bind]
      obtain ⟨w, a3, g⟩ := bind_ok g
      have h3 : (Dec.init mem).puts (hist ++ [(now, y)]) = .ok dc := puts_snoc hdec a1
      obtain ⟨ts, gs, he⟩ := (c02_ready_iff_valid_frame mem hm _ dc h3).1 hr
      have hreach : TinfoReach t ((ts, gs) :: fs) := .copy ht hm h3 he a2
      refine bindSafe ?_ fun _ _ => ⟨_, rfl⟩
      have ho : (⟨d'.nv.config, d'.timers, { k with clients := !d.sse.clients.isEmpty }, t, gs⟩ : Rcv).Ok := ⟨ts, fs, hreach⟩
      unfold ticNotifs at a3 ⊢
      obtain ⟨⟨n1, o1⟩, c1, a3⟩ := bind_ok a3
      rw [httpNotifs_apart hx hv.config (hv.httpTimer hx), c1, ok_bind]
      refine bindEx (ite_ok (jeedom_ok ho (c32_terminated hn)) ⟨_, rfl⟩) fun o2 => ?_
      refine bindEx (ite_ok (emoncms_ok ho (c32_terminated hn)) ⟨_, rfl⟩) fun o3 => ?_
      exact bindEx (ite_ok (bindEx (c27_safe b.world hreach none) fun j => ⟨_, rfl⟩) ⟨_, rfl⟩) fun o4 => ⟨_, rfl⟩
    · rw [if_neg hr]
      exact ⟨_, rfl⟩

theorem apart_step_ok {x : Dest} (hx : x ≠ .http) {b : Build} {d d' : Device} {up hist fs} (hd : d.Inv b.world up hist fs) (hn : NvReach d'.nv)
    (hv : ApartDev x d d') {ev : Event} {z} (h : d.step b ev = .ok z) : ∃ z', d'.step b ev = .ok z' := by
  cases ev with
  | byte now k conn y => exact apart_byte_ok hx hd hn hv h
  | handle r e =>
    by_cases hu : r.uri = bs "/config.json"
    · show ∃ z', d'.handle b e r = .ok z'
      unfold Device.handle
      rw [hu, route_config]
      dsimp only
      obtain ⟨a, hc⟩ := client_exists (c32_terminated hn) r
      unfold sendJson
      rw [client_auth hc, ok_bind]
      exact ite_ok ⟨_, rfl⟩ (bindEx (c36_safe hn _) fun j => ⟨_, rfl⟩)
    · rcases handle_apart (b := b) (e := e) hv hu with ⟨f, g, _⟩ | ⟨_, _, _, _, g', _⟩
      · rw [show d.step b (.handle r e) = .error f from g] at h
        exact nomatch h
      · exact ⟨_, g'⟩
  | poll conn => exact ⟨_, rfl⟩
  | upload r u => exact ⟨_, rfl⟩
  | cliSse t conn => exact ⟨_, rfl⟩
  | cliTimers => exact ⟨_, rfl⟩
  | cliReset k => exact ⟨_, rfl⟩
  | cliWifi a p k => exact bindSafe (step_ok d'.nv (.cliWifi a p k)) fun _ _ => ⟨_, rfl⟩
  | cliAp a p k => exact bindSafe (step_ok d'.nv (.cliAp a p k)) fun _ _ => ⟨_, rfl⟩
  | boot f m a p k1 k2 k3 =>
    obtain ⟨_, h1, _⟩ := device_boot_ok b (f.getD d'.nv.ee.flash) m a p k1 k2 k3
    exact bindSafe ⟨_, h1⟩ fun _ _ => ⟨_, rfl⟩

theorem apart_run_ok {x : Dest} (hx : x ≠ .http) {b : Build} {evs : List Event} : ∀ {d d' : Device} {up hist fs z}, d.Inv b.world up hist fs →
    NvReach d'.nv → FlashTwin (Apart x) d.nv.ee.flash d'.nv.ee.flash → ApartDev x d d' → d.run b evs = .ok z →
    ∃ z', d'.run b evs = .ok z' := by
  induction evs with
  | nil => exact fun _ _ _ _ _ => ⟨_, rfl⟩
  | cons ev evs ih =>
    intro d d' up hist fs z hd hn hf hv h
    obtain ⟨⟨d1, l⟩, h1, h⟩ := bind_ok h
    obtain ⟨w, h2, _⟩ := bind_ok h
    obtain ⟨⟨d1', l'⟩, h1'⟩ := apart_step_ok hx hd hn hv h1
    obtain ⟨_, _, n', k, f⟩ := step_apart hd.nv hn hf hv h1 h1'
    obtain ⟨fs', hi⟩ := step_inv hd h1
    obtain ⟨w', h2'⟩ := ih hi n' f k h2
    simp only [Device.run, h1', h2', ok_bind]
    exact ⟨_, rfl⟩

/-! ## C141 -/

/-- **C141**: two devices whose flash holds settings that differ only by those of one service, and to which the same happens, whatever it is
and however often they restart, send the same to the other services and to the event stream and give the same answers, but for the
configuration itself; and their settings still differ only by those of this service. -/
theorem c141_apart (s : Dest) {b : Build} {c c' : Config} (hc : Apart s c c') (m : Vector (Option Byte) MAX_FRAME_SIZE) (a p : Str)
    (k1 k2 k3 : Commit) {evs : List Event} :
    ∃ d d', Device.boot b (eepromImage c.stamp) m a p k1 k2 k3 = .ok d ∧ Device.boot b (eepromImage c'.stamp) m a p k1 k2 k3 = .ok d' ∧
      ∀ {dn dn' es es'}, d.run b evs = .ok (dn, es) → d'.run b evs = .ok (dn', es') →
        List.zipWith (butFor s) evs es = List.zipWith (butFor s) evs es' ∧ Apart s dn.nv.config dn'.nv.config := by
  have hv : ∀ c : Config, crcOf (eepromImage c.stamp).toList = 0 := fun c => by rw [eepromImage_toList, Config.crcOf_stamp]
  have ht : FlashTwin (Apart s) (eepromImage c.stamp) (eepromImage c'.stamp) := by
    refine .inr ⟨hv c, hv c', ?_⟩
    rw [eepromImage_toList, eepromImage_toList, Config.ofBytes_bytes, Config.ofBytes_bytes]
    exact apart_save hc
  obtain ⟨d, d', g1, g2, g3, g4, g5, g6⟩ := boot_apart (b := b) ht m a p k1 k2 k3
  exact ⟨d, d', g1, g2, fun h h' => run_apart g3 g4 g6 g5 h h'⟩

/-- **C141** (no fault): the settings of emoncms and of jeedom do not make the device fault either: what one of the devices gets through, the
other gets through.  Of the HTTP requests this is false: their URL setting can stop the device (`c24_refuted`, `c60_exact`). -/
theorem c141_alive {s : Dest} (hs : s ≠ .http) {b : Build} {c c' : Config} (hc : Apart s c c') {m : Vector (Option Byte) MAX_FRAME_SIZE}
    {a p : Str} {k1 k2 k3 : Commit} {d d' : Device} (h : Device.boot b (eepromImage c.stamp) m a p k1 k2 k3 = .ok d)
    (h' : Device.boot b (eepromImage c'.stamp) m a p k1 k2 k3 = .ok d') {evs : List Event} {y} (hr : d.run b evs = .ok y) :
    ∃ y', d'.run b evs = .ok y' := by
  have hv : ∀ c : Config, crcOf (eepromImage c.stamp).toList = 0 := fun c => by rw [eepromImage_toList, Config.crcOf_stamp]
  have ht : FlashTwin (Apart s) (eepromImage c.stamp) (eepromImage c'.stamp) := by
    refine .inr ⟨hv c, hv c', ?_⟩
    rw [eepromImage_toList, eepromImage_toList, Config.ofBytes_bytes, Config.ofBytes_bytes]
    exact apart_save hc
  obtain ⟨e, e', g1, g2, g3, g4, g5, g6⟩ := boot_apart (b := b) ht m a p k1 k2 k3
  rw [h] at g1
  rw [h'] at g2
  obtain rfl := Except.ok.inj g1
  obtain rfl := Except.ok.inj g2
  exact apart_run_ok hs (boot_inv h) g4 g6 g5 hr

/-- What is compared: all but the requests to the service. -/
example (r : Req) (e : Env) (now : TimeVal) (k : Tick) (conn : Nat → Bool) (y : Byte) (q q' : Request) (hr : r.uri = bs "/tinfo.json") :
    butFor .jeedom (.byte now k conn y) [.out (.jeedom q), .out (.emoncms q')] = [.out (.emoncms q')] ∧
    butFor .emoncms (.byte now k conn y) [.out (.jeedom q), .out (.emoncms q')] = [.out (.jeedom q)] ∧
    butFor .http (.handle r e) [.send 200 (bs "{}")] = [.send 200 (bs "{}")] := by
  refine ⟨rfl, rfl, ?_⟩
  simp only [butFor, hr]
  exact if_neg (by decide)

/-- The hypotheses can be met: another key for jeedom, which leaves the other settings. -/
example (c : Config) (j : JeedomConfig) : Apart .jeedom c { c with jeedom := j } :=
  ⟨_, _, _, _, rfl, fun _ => rfl, fun h => absurd rfl h, fun _ => rfl⟩

end Wifinfo
