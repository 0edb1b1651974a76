import Verif.Props.Notify

/-!
# C17–C22: no fault, counterexamples, overload, destinations, order
-/

namespace Wifinfo
open Spec

/-! ## Every reception ends normally -/

/-- The configuration has terminated texts and a URL the expansion can read (C24). -/
def Rcv.Safe (x : Rcv) : Prop := Terminated x.c ∧ UrlSafe x.c

theorem httpNotif_ok (w : World) {x : Rcv} (hx : x.Ok) (hs : x.Safe) (n : Notif) :
    ∃ r, httpNotif w x.c x.t n = .ok (.http n r) ∧ x.c.httpreq.host.cstr = .ok r.host ∧
      r.port = x.c.httpreq.port ∧ expandUrl w x.c x.t n.text = .ok r.url ∧
      (r.data = none ↔ x.c.httpreq.usePost = false) ∧
      (∀ d, r.data = some d → ticJsonDict w x.t (some n.text) = .ok d) := by
  obtain ⟨ts, l, h⟩ := hx
  obtain ⟨u, hu⟩ := c24_safe_partial w x.c h n.text hs.2
  obtain ⟨j, hj⟩ := c27_safe w h (some n.text)
  have ht := hs.1
  rw [terminated_iff] at ht
  obtain ⟨_, _, _, _, _, _, _, _, _, _, _, _, _, _, h15, _⟩ := ht
  have hc := cstr_ok h15
  unfold httpNotif
  rw [hu, ok_bind, hc, ok_bind]
  by_cases hp : x.c.httpreq.usePost = true
  · rw [if_pos hp, hj, ok_bind]
    exact ⟨_, rfl, rfl, rfl, rfl, by simp [hp], fun d hd => by rw [← Option.some.inj hd]⟩
  · rw [if_neg hp]
    exact ⟨_, rfl, rfl, rfl, rfl, by simp [hp], fun d hd => by simp at hd⟩

theorem sendIf_ok (w : World) {x : Rcv} (hx : x.Ok) (hs : x.Safe) (n : Option Notif) :
    ∃ o, sendIf w x.c x.t n = .ok o := by
  cases n with
  | none => exact ⟨_, rfl⟩
  | some n =>
    obtain ⟨r, h, _⟩ := httpNotif_ok w hx hs n
    exact ⟨[.http n r], by simp only [sendIf]; rw [h, ok_bind]; rfl⟩

theorem periodeStep_ok {x : Rcv} (hx : x.Ok) (s : NotifState) : ∃ y, periodeStep s x.t.fr = .ok y := by
  unfold periodeStep
  rw [value_get hx, ok_bind]
  cases x.value "PTEC" with
  | none => exact ⟨_, rfl⟩
  | some p =>
    simp only
    split
    · obtain ⟨a, h1, _⟩ := strncpyS_text s.periode p 7 (by decide)
      rw [h1, ok_bind]
      split <;> exact ⟨_, rfl⟩
    · exact ⟨_, rfl⟩

theorem seuilsStep_ok {x : Rcv} (hx : x.Ok) (s : NotifState) :
    ∃ y, seuilsStep x.c s x.t.fr = .ok y := by
  unfold seuilsStep
  rw [value_get hx, ok_bind]
  cases x.value "PAPP" with
  | none => exact ⟨_, rfl⟩
  | some p =>
    simp only
    split
    · exact ⟨_, rfl⟩
    · split
      · exact ⟨_, rfl⟩
      · split <;> exact ⟨_, rfl⟩

theorem adpsStep_ok {x : Rcv} (hx : x.Ok) (s : NotifState) : ∃ y, adpsStep s x.t.fr = .ok y := by
  unfold adpsStep
  rw [value_get hx, ok_bind]
  cases x.value "ADPS" with
  | none => simp only; split <;> exact ⟨_, rfl⟩
  | some p => simp only; split <;> exact ⟨_, rfl⟩

theorem ite_ok {α} {b : Prop} [Decidable b] {x y : Res α} (hx : ∃ a, x = .ok a) (hy : ∃ a, y = .ok a) :
    ∃ a, (if b then x else y) = .ok a := by
  split
  · exact hx
  · exact hy

/-- Jeedom: nothing without a host, one request otherwise. -/
theorem jeedom_ok {x : Rcv} (hx : x.Ok) (ht : Terminated x.c) :
    ∃ o, jeedomNotif x.c x.t = .ok o := by
  obtain ⟨ts, l, h⟩ := hx
  rw [terminated_iff] at ht
  obtain ⟨_, _, _, _, _, _, _, _, _, _, h11, h12, h13, h14, _, _⟩ := ht
  by_cases h0 : x.c.jeedom.host[0] = 0
  · exact ⟨[], by unfold jeedomNotif; rw [if_pos h0]; rfl⟩
  · exact ⟨_, c25_jeedom x.c h (textOf_mem h11) (textOf_mem h12) (textOf_mem h13) (textOf_mem h14)
      (fun e => h0 ((HasText.first (textOf_mem h11)).2 e))⟩

theorem emoncms_ok {x : Rcv} (hx : x.Ok) (ht : Terminated x.c) :
    ∃ o, emoncmsNotif x.c x.t = .ok o := by
  obtain ⟨ts, l, h⟩ := hx
  rw [terminated_iff] at ht
  obtain ⟨_, _, _, _, _, _, _, h8, h9, h10, _, _, _, _, _, _⟩ := ht
  by_cases h0 : x.c.emoncms.host[0] = 0
  · exact ⟨[], by unfold emoncmsNotif; rw [if_pos h0]; rfl⟩
  · exact ⟨_, c26_emoncms x.c h (textOf_mem h8) (textOf_mem h9) (textOf_mem h10)
      (fun e => h0 ((HasText.first (textOf_mem h8)).2 e))⟩

theorem bindEx {α β} {a : Res α} {f : α → Res β} (h : ∃ x, a = .ok x)
    (hf : ∀ x, ∃ y, f x = .ok y) : ∃ y, a >>= f = .ok y := by
  obtain ⟨x, h⟩ := h
  rw [h, ok_bind]
  exact hf x

/-- **C22.** The reception of a frame always ends normally, whatever the state and the timers. -/
theorem c22_total (w : World) {x : Rcv} (hx : x.Ok) (hs : x.Safe) (s : NotifState) :
    ∃ s' o, ticNotifs w x.c x.tm x.k x.t s = .ok (s', o) := by
  have key : ∃ y, ticNotifs w x.c x.tm x.k x.t s = .ok y := by
    have h1 : ∃ y, httpNotifs w x.c x.tm x.k x.t s = .ok y := by
      unfold httpNotifs
      refine ite_ok ?_ ⟨_, rfl⟩
      refine bindEx (ite_ok (periodeStep_ok hx s) ⟨_, rfl⟩) fun ⟨sa, n1⟩ => ?_
      refine bindEx (sendIf_ok w hx hs n1) fun o1 => ?_
      refine bindEx (ite_ok (seuilsStep_ok hx sa) ⟨_, rfl⟩) fun ⟨sb, n2⟩ => ?_
      refine bindEx (sendIf_ok w hx hs n2) fun o2 => ?_
      refine bindEx (ite_ok (adpsStep_ok hx sb) ⟨_, rfl⟩) fun ⟨sc, n3⟩ => ?_
      refine bindEx (sendIf_ok w hx hs n3) fun o3 => ?_
      exact bindEx (sendIf_ok w hx hs _) fun o4 => ⟨_, rfl⟩
    unfold ticNotifs
    refine bindEx h1 fun ⟨s1, o1⟩ => ?_
    refine bindEx (ite_ok (jeedom_ok hx hs.1) ⟨_, rfl⟩) fun o2 => ?_
    refine bindEx (ite_ok (emoncms_ok hx hs.1) ⟨_, rfl⟩) fun o3 => ?_
    refine bindEx (ite_ok (bindEx ?_ fun j => ⟨_, rfl⟩) ⟨_, rfl⟩) fun o4 => ⟨_, rfl⟩
    obtain ⟨ts, l, hr⟩ := hx
    exact c27_safe w hr none
  obtain ⟨⟨s', o⟩, h⟩ := key
  exact ⟨s', o, h⟩

theorem notifRun_ok (w : World) : ∀ (pre : List Rcv) (s : NotifState), (∀ x ∈ pre, x.Ok ∧ x.Safe) →
    ∃ s' os, notifRun w s pre = .ok (s', os) ∧ os.length = pre.length := by
  intro pre
  induction pre with
  | nil => intro s _; exact ⟨s, [], rfl, rfl⟩
  | cons x pre ih =>
    intro s h
    obtain ⟨s1, o, h1⟩ := c22_total w (h x (by simp)).1 (h x (by simp)).2 s
    obtain ⟨s2, os, h2, h3⟩ := ih s1 (fun y hy => h y (by simp [hy]))
    refine ⟨s2, o :: os, ?_, by simp [h3]⟩
    show (ticNotifs w x.c x.tm x.k x.t s >>= fun p => notifRun w p.1 pre >>= fun q =>
      pure (q.1, p.2 :: q.2)) = _
    rw [h1, ok_bind, h2]
    rfl

/-! ## The parts of what is sent -/

theorem frame_parts {w : World} {c : Config} {tm : Timers} {k : Tick} {t : Teleinfo} {s s' : NotifState}
    {o : List Out} (h : ticNotifs w c tm k t s = .ok (s', o)) :
    ∃ oh oj oe os, httpNotifs w c tm k t s = .ok (s', oh) ∧
      (if tm.jeedom.poll k.jeedom then jeedomNotif c t else pure []) = .ok oj ∧
      (if tm.emoncms.poll k.emoncms then emoncmsNotif c t else pure []) = .ok oe ∧
      (os = [] ∨ (tm.sse.poll k.sse = true ∧ k.clients = true ∧ ∃ d, ticJsonDict w t none = .ok d ∧
        os = [.sse d])) ∧
      (tm.sse.poll k.sse = true → k.clients = true → os ≠ []) ∧ o = oh ++ oj ++ oe ++ os := by
  unfold ticNotifs at h
  obtain ⟨⟨s1, o1⟩, h1, h⟩ := bind_ok h
  obtain ⟨o2, h2, h⟩ := bind_ok h
  obtain ⟨o3, h3, h⟩ := bind_ok h
  obtain ⟨o4, h4, h⟩ := bind_ok h
  obtain ⟨rfl, rfl⟩ := Prod.mk.inj (Except.ok.inj h)
  refine ⟨o1, o2, o3, o4, h1, h2, h3, ?_, ?_, rfl⟩
  · split at h4
    · rename_i hc
      obtain ⟨d, e, h4⟩ := bind_ok h4
      exact Or.inr ⟨hc.1, hc.2, d, e, (Except.ok.inj h4).symm⟩
    · exact Or.inl (Except.ok.inj h4).symm
  · intro a b
    rw [if_pos ⟨a, b⟩] at h4
    obtain ⟨d, e, h4⟩ := bind_ok h4
    rw [← Except.ok.inj h4]; simp

theorem sendIf_mem {w c t n o} (h : sendIf w c t n = .ok o) : ∀ y ∈ o, ∃ n, httpNotif w c t n = .ok y := by
  cases n with
  | none => rw [← Except.ok.inj h]; simp
  | some n =>
    simp only [sendIf] at h
    obtain ⟨y, h1, h⟩ := bind_ok h
    rw [← Except.ok.inj h]
    intro z hz
    rw [List.mem_singleton.1 hz]
    exact ⟨n, h1⟩

theorem http_parts {w : World} {c : Config} {tm : Timers} {k : Tick} {t : Teleinfo} {s s' : NotifState}
    {o : List Out} (h : httpNotifs w c tm k t s = .ok (s', o)) :
    ∀ y ∈ o, c.httpreq.host[0] ≠ 0 ∧ ∃ n, httpNotif w c t n = .ok y := by
  unfold httpNotifs at h
  split at h
  · rename_i h0
    obtain ⟨⟨sa, n1⟩, e1, h1⟩ := bind_ok h
    obtain ⟨p1, f1, h1⟩ := bind_ok h1
    obtain ⟨⟨sb, n2⟩, e2, h1⟩ := bind_ok h1
    obtain ⟨p2, f2, h1⟩ := bind_ok h1
    obtain ⟨⟨sc, n3⟩, e3, h1⟩ := bind_ok h1
    obtain ⟨p3, f3, h1⟩ := bind_ok h1
    obtain ⟨p4, f4, h1⟩ := bind_ok h1
    obtain ⟨rfl, rfl⟩ := Prod.mk.inj (Except.ok.inj h1)
    intro y hy
    refine ⟨h0, ?_⟩
    simp only [List.mem_append] at hy
    rcases hy with ((hy | hy) | hy) | hy
    · exact sendIf_mem f1 y hy
    · exact sendIf_mem f2 y hy
    · exact sendIf_mem f3 y hy
    · exact sendIf_mem f4 y hy
  · obtain ⟨rfl, rfl⟩ := Prod.mk.inj (Except.ok.inj h)
    simp

theorem cstr_hasText {n} {a : Arr n} {s : Str} (h : a.cstr = .ok s) : HasText a s := by
  unfold Arr.cstr at h
  split at h
  · rename_i h0
    unfold HasText
    rw [textOf_mem h0, ← Except.ok.inj h]
  · cases h

theorem httpNotif_form {w c t n y} (h : httpNotif w c t n = .ok y) : ∃ r, y = .http n r ∧
    HasText c.httpreq.host r.host ∧ r.port = c.httpreq.port ∧ expandUrl w c t n.text = .ok r.url ∧
    (if c.httpreq.usePost then ∃ d, r.data = some d ∧ ticJsonDict w t (some n.text) = .ok d
      else r.data = none) := by
  unfold httpNotif at h
  obtain ⟨u, h1, h⟩ := bind_ok h
  obtain ⟨host, h2, h⟩ := bind_ok h
  split at h
  · rename_i hp
    obtain ⟨d, h3, h⟩ := bind_ok h
    refine ⟨_, (Except.ok.inj h).symm, cstr_hasText h2, rfl, h1, ?_⟩
    rw [if_pos hp]
    exact ⟨d, rfl, h3⟩
  · rename_i hp
    refine ⟨_, (Except.ok.inj h).symm, cstr_hasText h2, rfl, h1, ?_⟩
    rw [if_neg hp]

theorem jeedom_form {c t o} (h : jeedomNotif c t = .ok o) : o = [] ∨ ∃ r, o = [.jeedom r] ∧
    c.jeedom.host[0] ≠ 0 ∧ HasText c.jeedom.host r.host ∧ r.port = c.jeedom.port := by
  unfold jeedomNotif at h
  split at h
  · exact Or.inl (Except.ok.inj h).symm
  · rename_i h0
    obtain ⟨_, _, h⟩ := bind_ok h
    obtain ⟨_, _, h⟩ := bind_ok h
    obtain ⟨_, _, h⟩ := bind_ok h
    obtain ⟨_, h2, h⟩ := bind_ok h
    exact Or.inr ⟨_, (Except.ok.inj h).symm, h0, cstr_hasText h2, rfl⟩

theorem emoncms_form {c t o} (h : emoncmsNotif c t = .ok o) : o = [] ∨ ∃ r, o = [.emoncms r] ∧
    c.emoncms.host[0] ≠ 0 ∧ HasText c.emoncms.host r.host ∧ r.port = c.emoncms.port := by
  unfold emoncmsNotif at h
  split at h
  · exact Or.inl (Except.ok.inj h).symm
  · rename_i h0
    obtain ⟨_, _, h⟩ := bind_ok h
    obtain ⟨_, _, h⟩ := bind_ok h
    obtain ⟨_, _, h⟩ := bind_ok h
    obtain ⟨_, h2, h⟩ := bind_ok h
    exact Or.inr ⟨_, (Except.ok.inj h).symm, h0, cstr_hasText h2, rfl⟩

/-! ## C21 -/

/-- Where an output goes: the configured host, which is not empty, and the configured port. -/
def ToConfigured (c : Config) : Out → Prop
  | .http _ r => HasText c.httpreq.host r.host ∧ r.host ≠ [] ∧ r.port = c.httpreq.port
  | .jeedom r => HasText c.jeedom.host r.host ∧ r.host ≠ [] ∧ r.port = c.jeedom.port
  | .emoncms r => HasText c.emoncms.host r.host ∧ r.host ≠ [] ∧ r.port = c.emoncms.port
  | .sse _ => True

theorem ite_nil {α} {b : Bool} {a : Res (List α)} {o : List α} (h : (if b then a else pure []) = .ok o) :
    o = [] ∨ (b = true ∧ a = .ok o) := by
  cases b
  · exact Or.inl (Except.ok.inj h).symm
  · exact Or.inr ⟨rfl, h⟩

/-- **C21.** Everything sent goes to the configured host, which is not empty, and port of its
destination, whatever the triggers, timers and state. -/
theorem c21_destination {w : World} {c : Config} {tm : Timers} {k : Tick} {t : Teleinfo}
    {s s' : NotifState} {o : List Out} (h : ticNotifs w c tm k t s = .ok (s', o)) :
    ∀ y ∈ o, ToConfigured c y := by
  obtain ⟨oh, oj, oe, os, h1, h2, h3, h4, -, rfl⟩ := frame_parts h
  intro y hy
  simp only [List.mem_append] at hy
  rcases hy with ((hy | hy) | hy) | hy
  · obtain ⟨h0, n, hn⟩ := http_parts h1 y hy
    obtain ⟨r, rfl, e1, e2, -⟩ := httpNotif_form hn
    exact ⟨e1, fun e => h0 (e1.first.2 e), e2⟩
  · rcases ite_nil h2 with rfl | ⟨-, h2⟩
    · simp at hy
    · rcases jeedom_form h2 with rfl | ⟨r, rfl, h0, e1, e2⟩
      · simp at hy
      · rw [List.mem_singleton.1 hy]
        exact ⟨e1, fun e => h0 (e1.first.2 e), e2⟩
  · rcases ite_nil h3 with rfl | ⟨-, h3⟩
    · simp at hy
    · rcases emoncms_form h3 with rfl | ⟨r, rfl, h0, e1, e2⟩
      · simp at hy
      · rw [List.mem_singleton.1 hy]
        exact ⟨e1, fun e => h0 (e1.first.2 e), e2⟩
  · rcases h4 with rfl | ⟨-, -, d, -, rfl⟩
    · simp at hy
    · rw [List.mem_singleton.1 hy]; trivial

/-- Is it an output of that destination? -/
def Out.isHttp : Out → Bool
  | .http _ _ => true
  | _ => false
def Out.isJeedom : Out → Bool
  | .jeedom _ => true
  | _ => false
def Out.isEmoncms : Out → Bool
  | .emoncms _ => true
  | _ => false
def Out.isSse : Out → Bool
  | .sse _ => true
  | _ => false

/-- **C21.** Nothing is sent to a destination without host, over any sequence of frames. -/
theorem c21_no_host {w : World} : ∀ {xs : List Rcv} {s s' : NotifState} {os},
    notifRun w s xs = .ok (s', os) →
    ((∀ x ∈ xs, HasText x.c.httpreq.host []) → ∀ o ∈ os, ∀ y ∈ o, y.isHttp = false) ∧
    ((∀ x ∈ xs, HasText x.c.jeedom.host []) → ∀ o ∈ os, ∀ y ∈ o, y.isJeedom = false) ∧
    ((∀ x ∈ xs, HasText x.c.emoncms.host []) → ∀ o ∈ os, ∀ y ∈ o, y.isEmoncms = false) := by
  intro xs
  induction xs with
  | nil =>
    intro s s' os h
    obtain ⟨rfl, rfl⟩ := Prod.mk.inj (Except.ok.inj h)
    simp
  | cons x xs ih =>
    intro s s' os h
    obtain ⟨⟨s1, o⟩, h1, h⟩ := bind_ok (show notifRun w s (x :: xs) = _ from h)
    obtain ⟨⟨s2, os2⟩, h2, h⟩ := bind_ok h
    obtain ⟨rfl, rfl⟩ := Prod.mk.inj (Except.ok.inj h)
    obtain ⟨i1, i2, i3⟩ := ih h2
    have hd := c21_destination h1
    refine ⟨fun hh => ?_, fun hh => ?_, fun hh => ?_⟩
    all_goals
      simp only [List.forall_mem_cons] at hh ⊢
      refine ⟨fun y hy => ?_, by first | exact i1 hh.2 | exact i2 hh.2 | exact i3 hh.2⟩
      have := hd y hy
      cases y <;> first | rfl | skip
      have e := Option.some.inj ((show textOf _ = _ from hh.1).symm.trans this.1)
      exact absurd e.symm this.2.1

/-- **C21.** With the timers programmed from a configuration where the host, the port or the frequency
of a destination is unset, that destination never gets a periodic notification. -/
theorem c21_no_periodic {w : World} {x : Rcv} {c : Config} (hx : x.Ok) {s s' : NotifState} {o : List Out}
    (htm : x.tm = ticMakeTimers c) (h : ticNotifs w x.c x.tm x.k x.t s = .ok (s', o)) :
    (HasText c.httpreq.host [] ∨ c.httpreq.port = 0 ∨ c.httpreq.freq = 0 → Notif.maj ∉ kinds o) ∧
    (HasText c.jeedom.host [] ∨ c.jeedom.port = 0 ∨ c.jeedom.freq = 0 → ∀ y ∈ o, y.isJeedom = false) ∧
    (HasText c.emoncms.host [] ∨ c.emoncms.port = 0 ∨ c.emoncms.freq = 0 →
      ∀ y ∈ o, y.isEmoncms = false) := by
  refine ⟨fun hc => ?_, fun hc => ?_, fun hc => ?_⟩
  · obtain ⟨n1, f1, _, _, f4⟩ := frame_step hx h
    have hn : x.tm.http = .never := by
      rw [htm]; unfold ticMakeTimers; simp only
      rw [if_pos]
      rcases hc with e | e | e
      · exact Or.inr (Or.inl (e.first.2 rfl))
      · exact Or.inr (Or.inr e)
      · exact Or.inl e
    rw [f4, hn]
    simp only [Timer.poll, Bool.and_false, Bool.false_eq_true, if_false, List.append_nil]
    intro hm
    simp only [List.mem_append] at hm
    rcases hm with (hm | hm) | hm
    · rcases periode_kind f1 with e | e
      · rw [e] at hm; simp at hm
      · rw [e.1] at hm; simp at hm
    · split at hm
      · rcases hautNext_kinds x.c s.haut (x.value "PAPP") with g | g | g <;> rw [g.1] at hm <;> simp at hm
      · simp at hm
    · split at hm
      · rw [(adpsNext_kinds s.adps (x.value "ADPS")).2] at hm
        split at hm
        · simp at hm
        · split at hm <;> simp at hm
      · simp at hm
  · obtain ⟨oh, oj, oe, os, h1, h2, h3, h4, -, rfl⟩ := frame_parts h
    have hn : x.tm.jeedom = .never := by
      rw [htm]; unfold ticMakeTimers; simp only
      rw [if_pos]
      rcases hc with e | e | e
      · exact Or.inr (Or.inl (e.first.2 rfl))
      · exact Or.inr (Or.inr e)
      · exact Or.inl e
    rw [hn] at h2
    have e : oj = [] := (Except.ok.inj h2).symm
    subst e
    intro y hy
    simp only [List.append_nil, List.mem_append] at hy
    rcases hy with (hy | hy) | hy
    · obtain ⟨h0, n, hn⟩ := http_parts h1 y hy
      obtain ⟨r, rfl, -⟩ := httpNotif_form hn
      rfl
    · rcases ite_nil h3 with rfl | ⟨-, h3⟩
      · simp at hy
      · rcases emoncms_form h3 with rfl | ⟨r, rfl, -⟩
        · simp at hy
        · rw [List.mem_singleton.1 hy]; rfl
    · rcases h4 with rfl | ⟨-, -, d, -, rfl⟩
      · simp at hy
      · rw [List.mem_singleton.1 hy]; rfl
  · obtain ⟨oh, oj, oe, os, h1, h2, h3, h4, -, rfl⟩ := frame_parts h
    have hn : x.tm.emoncms = .never := by
      rw [htm]; unfold ticMakeTimers; simp only
      rw [if_pos]
      rcases hc with e | e | e
      · exact Or.inr (Or.inl (e.first.2 rfl))
      · exact Or.inr (Or.inr e)
      · exact Or.inl e
    rw [hn] at h3
    have e : oe = [] := (Except.ok.inj h3).symm
    subst e
    intro y hy
    simp only [List.append_nil, List.mem_append] at hy
    rcases hy with (hy | hy) | hy
    · obtain ⟨h0, n, hn⟩ := http_parts h1 y hy
      obtain ⟨r, rfl, -⟩ := httpNotif_form hn
      rfl
    · rcases ite_nil h2 with rfl | ⟨-, h2⟩
      · simp at hy
      · rcases jeedom_form h2 with rfl | ⟨r, rfl, -⟩
        · simp at hy
        · rw [List.mem_singleton.1 hy]; rfl
    · rcases h4 with rfl | ⟨-, -, d, -, rfl⟩
      · simp at hy
      · rw [List.mem_singleton.1 hy]; rfl

/-! ## C22 -/

/-- **C22.** From any state: the HTTP notifications of a frame are at most one PTEC, one threshold, one
overload, one MAJ, in that order, each only if its trigger is on (MAJ: if its timer fires); they come
first, then at most one Jeedom request, at most one emoncms request, at most one event. -/
theorem c22_order {w : World} {x : Rcv} (hx : x.Ok) {s s' : NotifState} {o : List Out}
    (h : ticNotifs w x.c x.tm x.k x.t s = .ok (s', o)) :
    (∃ a b c d : Option Notif, kinds o = a.toList ++ b.toList ++ c.toList ++ d.toList ∧
      (∀ n ∈ a, n = .ptec ∧ x.c.httpreq.triggerPtec = true) ∧
      (∀ n ∈ b, (n = .haut ∨ n = .bas) ∧ x.c.httpreq.triggerSeuils = true) ∧
      (∀ n ∈ c, (n = .adps ∨ n = .norm) ∧ x.c.httpreq.triggerAdps = true) ∧
      (∀ n ∈ d, n = .maj) ∧
      (d = some .maj ↔ x.hasHost = true ∧ x.tm.http.poll x.k.http = true)) ∧
    ∃ oh oj oe os, o = oh ++ oj ++ oe ++ os ∧ (∀ y ∈ oh, y.isHttp = true) ∧
      (∀ y ∈ oj, y.isJeedom = true) ∧ oj.length ≤ 1 ∧ (∀ y ∈ oe, y.isEmoncms = true) ∧ oe.length ≤ 1 ∧
      (∀ y ∈ os, y.isSse = true) ∧ os.length ≤ 1 := by
  constructor
  · obtain ⟨n1, f1, _, _, f4⟩ := frame_step hx h
    refine ⟨n1, if x.hasHost && x.c.httpreq.triggerSeuils then (hautNext x.c s.haut (x.value "PAPP")).2
        else none, if x.hasHost && x.c.httpreq.triggerAdps then (adpsNext s.adps (x.value "ADPS")).2
        else none, if x.hasHost && x.tm.http.poll x.k.http then some .maj else none, ?_, ?_, ?_, ?_, ?_, ?_⟩
    · rw [f4]
      cases (x.hasHost && x.c.httpreq.triggerSeuils) <;> cases (x.hasHost && x.c.httpreq.triggerAdps) <;>
        cases (x.hasHost && x.tm.http.poll x.k.http) <;> rfl
    · intro n hn
      rcases periode_kind f1 with e | e
      · rw [e] at hn; simp at hn
      · rw [e.1] at hn
        have := e.2
        rw [Bool.and_eq_true] at this
        exact ⟨(Option.some.inj hn).symm, this.2⟩
    · intro n hn
      split at hn
      · rename_i ht
        rw [Bool.and_eq_true] at ht
        refine ⟨?_, ht.2⟩
        rcases hautNext_kinds x.c s.haut (x.value "PAPP") with g | g | g <;> rw [g.1] at hn
        · simp at hn
        · exact Or.inl (Option.some.inj hn).symm
        · exact Or.inr (Option.some.inj hn).symm
      · simp at hn
    · intro n hn
      split at hn
      · rename_i ht
        rw [Bool.and_eq_true] at ht
        refine ⟨?_, ht.2⟩
        rw [(adpsNext_kinds s.adps (x.value "ADPS")).2] at hn
        split at hn
        · exact Or.inl (Option.some.inj hn).symm
        · split at hn
          · exact Or.inr (Option.some.inj hn).symm
          · simp at hn
      · simp at hn
    · intro n hn
      split at hn
      · exact (Option.some.inj hn).symm
      · simp at hn
    · split
      · rename_i ht
        rw [Bool.and_eq_true] at ht
        simp [ht]
      · rename_i ht
        rw [Bool.and_eq_true] at ht
        simpa using ht
  · obtain ⟨oh, oj, oe, os, h1, h2, h3, h4, -, rfl⟩ := frame_parts h
    refine ⟨oh, oj, oe, os, rfl, ?_, ?_, ?_, ?_, ?_, ?_, ?_⟩
    · intro y hy
      obtain ⟨h0, n, hn⟩ := http_parts h1 y hy
      obtain ⟨r, rfl, -⟩ := httpNotif_form hn
      rfl
    · rcases ite_nil h2 with rfl | ⟨-, h2⟩
      · simp
      · rcases jeedom_form h2 with rfl | ⟨r, rfl, -⟩ <;> simp [Out.isJeedom]
    · rcases ite_nil h2 with rfl | ⟨-, h2⟩
      · simp
      · rcases jeedom_form h2 with rfl | ⟨r, rfl, -⟩ <;> simp
    · rcases ite_nil h3 with rfl | ⟨-, h3⟩
      · simp
      · rcases emoncms_form h3 with rfl | ⟨r, rfl, -⟩ <;> simp [Out.isEmoncms]
    · rcases ite_nil h3 with rfl | ⟨-, h3⟩
      · simp
      · rcases emoncms_form h3 with rfl | ⟨r, rfl, -⟩ <;> simp
    · rcases h4 with rfl | ⟨-, -, d, -, rfl⟩ <;> simp [Out.isSse]
    · rcases h4 with rfl | ⟨-, -, d, -, rfl⟩ <;> simp

/-- The names of README.md:64. -/
def Spec.typeName : Notif → Str
  | .maj => bs "MAJ"
  | .ptec => bs "PTEC"
  | .haut => bs "HAUT"
  | .bas => bs "BAS"
  | .adps => bs "ADPS"
  | .norm => bs "NORM"

/-- **C22.** What an HTTP notification carries: the template expanded with the documented name of the notification
and, with POST, the dictionary of the frame with that name. -/
theorem c22_request {w : World} {c : Config} {tm : Timers} {k : Tick} {t : Teleinfo}
    {s s' : NotifState} {o : List Out} (h : ticNotifs w c tm k t s = .ok (s', o))
    {n : Notif} {r : Request} (hy : .http n r ∈ o) :
    expandUrl w c t (Spec.typeName n) = .ok r.url ∧
    (if c.httpreq.usePost then ∃ d, r.data = some d ∧ ticJsonDict w t (some (Spec.typeName n)) = .ok d
      else r.data = none) := by
  rw [show Spec.typeName n = n.text by cases n <;> rfl]
  obtain ⟨oh, oj, oe, os, h1, h2, h3, h4, -, rfl⟩ := frame_parts h
  simp only [List.mem_append] at hy
  rcases hy with ((hy | hy) | hy) | hy
  · obtain ⟨h0, n', hn⟩ := http_parts h1 _ hy
    obtain ⟨r', e, -, -, e1, e2⟩ := httpNotif_form hn
    obtain ⟨rfl, rfl⟩ := Out.http.inj e
    exact ⟨e1, e2⟩
  · rcases ite_nil h2 with rfl | ⟨-, h2⟩
    · simp at hy
    · rcases jeedom_form h2 with rfl | ⟨r, rfl, -⟩ <;> simp at hy
  · rcases ite_nil h3 with rfl | ⟨-, h3⟩
    · simp at hy
    · rcases emoncms_form h3 with rfl | ⟨r, rfl, -⟩ <;> simp at hy
  · rcases h4 with rfl | ⟨-, -, d, -, rfl⟩ <;> simp at hy

/-! ## C20 -/

/-- The overload notifications sent. -/
def overloadKinds (os : List (List Out)) : List Notif :=
  (os.flatMap kinds).filter fun n => n = .adps || n = .norm

theorem adps_inv {w : World} : ∀ (pre : List Rcv) {s : NotifState} {os}, (∀ x ∈ pre, x.Ok) →
    notifRun w NotifState.init pre = .ok (s, os) →
    s.adps = (overloads pre).getLast?.getD false := by
  intro pre
  induction pre using snoc_induction with
  | h0 =>
    intro s os _ h
    obtain ⟨rfl, rfl⟩ := Prod.mk.inj (Except.ok.inj h)
    rfl
  | h1 pre x ih =>
    intro s os hok h
    obtain ⟨s1, os1, o, e1, e2, rfl⟩ := notifRun_snoc h
    obtain ⟨n1, f1, _, f3, f4⟩ := frame_step (hok x (by simp)) e2
    have i := ih (fun y hy => hok y (by simp [hy])) e1
    have ho : overloads (pre ++ [x]) = overloads pre ++ overloads [x] := by simp [overloads]
    rw [f3, ho]
    by_cases ht : (x.hasHost && x.c.httpreq.triggerAdps) = true
    · rw [if_pos ht, (adpsNext_kinds s1.adps (x.value "ADPS")).1]
      have : overloads [x] = [(x.value "ADPS").isSome] := by simp [overloads, ht]
      rw [this]; simp
    · rw [if_neg ht]
      have : overloads [x] = [] := by simp [overloads, ht]
      rw [this, List.append_nil, i]

/-- **C20.** After any sequence of frames: ADPS is sent for a frame exactly when the overload trigger is
on, the frame carries ADPS and the previous frame seen with the trigger on (if any) did not; NORM exactly
when it does not carry it and the previous one did. -/
theorem c20_overload {w : World} {pre : List Rcv} {x : Rcv} {s : NotifState} {os o}
    (hok : ∀ y ∈ pre ++ [x], y.Ok)
    (h : notifRun w NotifState.init (pre ++ [x]) = .ok (s, os ++ [o])) :
    (Notif.adps ∈ kinds o ↔ x.hasHost = true ∧ x.c.httpreq.triggerAdps = true ∧
      (x.value "ADPS").isSome = true ∧ (overloads pre).getLast? ≠ some true) ∧
    (Notif.norm ∈ kinds o ↔ x.hasHost = true ∧ x.c.httpreq.triggerAdps = true ∧
      (x.value "ADPS").isSome = false ∧ (overloads pre).getLast? = some true) := by
  obtain ⟨s1, os1, o', e1, e2, e3⟩ := notifRun_snoc h
  obtain ⟨rfl, e3⟩ := List.append_inj' e3 rfl
  obtain rfl : o = o' := by simpa using e3
  have i := adps_inv pre (fun y hy => hok y (by simp [hy])) e1
  obtain ⟨_, _, k3, k4⟩ := threshold_kinds (hok x (by simp)) e2
  rw [k3, k4, Bool.and_eq_true, (adpsNext_kinds _ _).2, i]
  rcases hl : (overloads pre).getLast? with _ | ⟨_ | _⟩ <;> cases (x.value "ADPS").isSome <;>
    simp

theorem step_overloads {w : World} {x : Rcv} (hx : x.Ok) {s s' : NotifState} {o : List Out}
    (h : ticNotifs w x.c x.tm x.k x.t s = .ok (s', o)) :
    (kinds o).filter (fun n => n = .adps || n = .norm) =
      (if x.hasHost && x.c.httpreq.triggerAdps then
        (adpsNext s.adps (x.value "ADPS")).2.toList else []) := by
  obtain ⟨n1, f1, f2, _, f4⟩ := frame_step hx h
  rw [f4]
  have m1 : (n1.toList).filter (fun n => n = .adps || n = .norm) = [] := by
    rcases periode_kind f1 with h | h
    · rw [h]; rfl
    · rw [h.1]; rfl
  have m2 : (if x.hasHost && x.c.httpreq.triggerSeuils then
      (hautNext x.c s.haut (x.value "PAPP")).2.toList else []).filter (fun n => n = .adps || n = .norm) = [] := by
    split
    · rcases hautNext_kinds x.c s.haut (x.value "PAPP") with g | g | g <;> rw [g.1] <;> rfl
    · rfl
  have m4 : (if x.hasHost && x.tm.http.poll x.k.http then [Notif.maj] else []).filter
      (fun n => n = .adps || n = .norm) = [] := by
    split <;> rfl
  rw [List.filter_append, List.filter_append, List.filter_append, m1, m2, m4]
  simp only [List.nil_append, List.append_nil]
  split
  · rw [(adpsNext_kinds s.adps (x.value "ADPS")).2]
    split
    · rfl
    · split <;> rfl
  · rfl

theorem overloads_inv {w : World} : ∀ (pre : List Rcv) {s : NotifState} {os}, (∀ x ∈ pre, x.Ok) →
    notifRun w NotifState.init pre = .ok (s, os) →
    (s.adps = true ↔ (overloadKinds os).getLast? = some .adps) ∧
    Alternate .adps .norm (overloadKinds os) := by
  intro pre
  induction pre using snoc_induction with
  | h0 =>
    intro s os _ h
    obtain ⟨rfl, rfl⟩ := Prod.mk.inj (Except.ok.inj h)
    exact ⟨by simp [NotifState.init, overloadKinds], trivial⟩
  | h1 pre x ih =>
    intro s os hok h
    obtain ⟨s1, os1, o, e1, e2, rfl⟩ := notifRun_snoc h
    obtain ⟨n1, f1, _, f3, f4⟩ := frame_step (hok x (by simp)) e2
    obtain ⟨i, a⟩ := ih (fun y hy => hok y (by simp [hy])) e1
    have ht : overloadKinds (os1 ++ [o]) =
        overloadKinds os1 ++ (kinds o).filter fun n => n = .adps || n = .norm := by
      simp [overloadKinds]
    have hl : overloadKinds os1 = [] ∨ (overloadKinds os1).getLast? = some .adps ∨
        (overloadKinds os1).getLast? = some .norm := by
      rcases List.eq_nil_or_concat (overloadKinds os1) with h | ⟨r, u, h⟩
      · exact Or.inl h
      · have hm : u ∈ overloadKinds os1 := by rw [h]; simp
        simp only [overloadKinds, List.mem_filter, Bool.or_eq_true, decide_eq_true_eq] at hm
        rw [h]
        rcases hm.2 with e | e <;> simp [e]
    rw [ht, step_overloads (hok x (by simp)) e2, f3]
    split
    · obtain ⟨g1, g2⟩ := adpsNext_kinds s1.adps (x.value "ADPS")
      rw [g1, g2]
      cases hv : (x.value "ADPS").isSome <;> cases hs : s1.adps
      · rw [hs] at i
        simpa [← i] using a
      · rw [hs] at i
        simp only [Bool.false_eq_true, false_and, if_false, and_self, if_true, Option.toList_some]
        exact ⟨by simp, a.snoc (by decide) (Or.inr (Or.inl ⟨i.1 rfl, rfl⟩))⟩
      · rw [hs] at i
        simp only [and_self, if_true, Option.toList_some]
        refine ⟨by simp, a.snoc (by decide) ?_⟩
        rcases hl with h0 | h0 | h0
        · exact Or.inl ⟨h0, rfl⟩
        · exact absurd (i.2 h0) (by simp)
        · exact Or.inr (Or.inr ⟨h0, rfl⟩)
      · rw [hs] at i
        simpa [← i] using a
    · simpa using ⟨i, a⟩

/-- **C20.** The overload notifications alternate, starting with ADPS. -/
theorem c20_alternate {w : World} {pre : List Rcv} {s : NotifState} {os} (hok : ∀ x ∈ pre, x.Ok)
    (h : notifRun w NotifState.init pre = .ok (s, os)) : Alternate .adps .norm (overloadKinds os) :=
  (overloads_inv pre hok h).2

/-! ## Concrete runs -/

/-- HTTP notifications with the three triggers, thresholds 4000 and 1000. -/
def notifConfig : Config :=
  { Config.zero with
    httpreq := { Config.zero.httpreq with host := padArr 33 (bs "h"), url := padArr 151 (bs "/~TYPE~"),
                                          port := 80, flags := 7, seuilHaut := 4000, seuilBas := 1000 } }

/-- Reception of a frame of one group with that configuration and no timer. -/
def rcvOf (t : Teleinfo) (l v : String) : Rcv :=
  { c := notifConfig, tm := Timers.init, k := ⟨false, false, false, false, false⟩, t := t,
    gs := (oneFrame l v).map MeterGroup.raw }

theorem notifConfig_safe : Terminated notifConfig ∧ UrlSafe notifConfig := by
  refine ⟨(terminated_iff _).2 (by decide +kernel), ?_⟩
  exact urlSafe_of ⟨bs "/~TYPE~", List.replicate 143 0, by decide +kernel, Or.inr rfl⟩

theorem rcvOf_ok {l v : String} (h1 : ∀ b ∈ bs l, printable b = true ∧ b ≠ 32)
    (h2 : ∀ b ∈ bs v, printable b = true) (h3 : bs l ≠ [])
    (h4 : (bs l).length + (bs v).length ≤ 340) : ∃ t, (rcvOf t l v).Ok ∧ (rcvOf t l v).Safe := by
  obtain ⟨t, h⟩ := reach_next .init ⟨7, 5⟩ (oneFrame_valid l v h1 h2 h3 h4)
  exact ⟨t, ⟨_, _, h⟩, notifConfig_safe⟩

/-- Two receptions in a row. -/
theorem run_two {w : World} {x y : Rcv} (hx : x.Ok ∧ x.Safe) (hy : y.Ok ∧ y.Safe) :
    ∃ s s' o o', notifRun w NotifState.init ([x] ++ [y]) = .ok (s', [o] ++ [o']) ∧
      ticNotifs w x.c x.tm x.k x.t NotifState.init = .ok (s, o) ∧
      ticNotifs w y.c y.tm y.k y.t s = .ok (s', o') := by
  obtain ⟨s, o, h1⟩ := c22_total w hx.1 hx.2 NotifState.init
  obtain ⟨s', o', h2⟩ := c22_total w hy.1 hy.2 s
  refine ⟨s, s', o, o', ?_, h1, h2⟩
  show (ticNotifs w x.c x.tm x.k x.t NotifState.init >>= fun p => notifRun w p.1 [y] >>= fun q =>
      pure (q.1, p.2 :: q.2)) = _
  rw [h1, ok_bind]
  show (ticNotifs w y.c y.tm y.k y.t s >>= fun p => notifRun w p.1 [] >>= fun q =>
      pure (q.1, p.2 :: q.2)) >>= _ = _
  rw [h2]
  rfl

/-- **C17** as stated is false: with a value of eight characters, the notification is sent again for a
frame with the same value. -/
theorem c17_refuted_long (w : World) : ∃ (x y : Rcv) (s : NotifState) (o o' : List Out), x.Ok ∧ y.Ok ∧
    notifRun w NotifState.init ([x] ++ [y]) = .ok (s, [o] ++ [o']) ∧
    x.value "PTEC" = some (bs "ABCDEFGH") ∧ y.value "PTEC" = some (bs "ABCDEFGH") ∧
    Notif.ptec ∈ kinds o' := by
  obtain ⟨t, ht⟩ := rcvOf_ok (l := "PTEC") (v := "ABCDEFGH") (by decide) (by decide) (by decide) (by decide)
  obtain ⟨s, s', o, o', h, h1, h2⟩ := run_two (w := w) ht ht
  have hv : (rcvOf t "PTEC" "ABCDEFGH").value "PTEC" = some (bs "ABCDEFGH") := by
    unfold Rcv.value rcvOf; dsimp only; decide +kernel
  refine ⟨_, _, s', o, o', ht.1, ht.1, h, hv, hv, ?_⟩
  obtain ⟨n1, f1, _⟩ := frame_step ht.1 h1
  obtain ⟨n2, g1, _, _, g4⟩ := frame_step ht.1 h2
  have hc : ((rcvOf t "PTEC" "ABCDEFGH").hasHost &&
      (rcvOf t "PTEC" "ABCDEFGH").c.httpreq.triggerPtec) = true := by
    unfold Rcv.hasHost rcvOf; dsimp only; decide +kernel
  rw [if_pos hc, hv] at f1 g1
  have e1 : periodeNext (NotifState.init.periode, NotifState.init.initPeriode) (some (bs "ABCDEFGH")) =
      .ok ((⟨#[65, 66, 67, 68, 69, 70, 71, 0], rfl⟩, false), none) := by decide +kernel
  rw [e1] at f1
  obtain ⟨f1, -⟩ := Prod.mk.inj (Except.ok.inj f1)
  obtain ⟨f2, f3⟩ := Prod.mk.inj f1
  rw [← f2, ← f3] at g1
  have e2 : periodeNext (⟨#[65, 66, 67, 68, 69, 70, 71, 0], rfl⟩, false) (some (bs "ABCDEFGH")) =
      .ok ((⟨#[65, 66, 67, 68, 69, 70, 71, 0], rfl⟩, false), some .ptec) := by decide +kernel
  rw [e2] at g1
  obtain ⟨-, g1⟩ := Prod.mk.inj (Except.ok.inj g1)
  rw [g4, ← g1]
  simp

/-- **C17** as stated is false: after a first empty value (a field of dots), the first change is not
notified. -/
theorem c17_refuted_empty (w : World) : ∃ (x y : Rcv) (s : NotifState) (o o' : List Out), x.Ok ∧ y.Ok ∧
    notifRun w NotifState.init ([x] ++ [y]) = .ok (s, [o] ++ [o']) ∧
    y.hasHost = true ∧ y.c.httpreq.triggerPtec = true ∧
    ptecs [x] = [[]] ∧ y.value "PTEC" = some (bs "HP") ∧ Notif.ptec ∉ kinds o' := by
  obtain ⟨t, ht⟩ := rcvOf_ok (l := "PTEC") (v := "....") (by decide) (by decide) (by decide) (by decide)
  obtain ⟨u, hu⟩ := rcvOf_ok (l := "PTEC") (v := "HP..") (by decide) (by decide) (by decide) (by decide)
  obtain ⟨s, s', o, o', h, h1, h2⟩ := run_two (w := w) ht hu
  have hv : (rcvOf t "PTEC" "....").value "PTEC" = some [] := by
    unfold Rcv.value rcvOf; dsimp only; decide +kernel
  have hw : (rcvOf u "PTEC" "HP..").value "PTEC" = some (bs "HP") := by
    unfold Rcv.value rcvOf; dsimp only; decide +kernel
  obtain ⟨n1, f1, _⟩ := frame_step ht.1 h1
  obtain ⟨n2, g1, _, _, g4⟩ := frame_step hu.1 h2
  have hc : ((rcvOf t "PTEC" "....").hasHost && (rcvOf t "PTEC" "....").c.httpreq.triggerPtec) = true := by
    unfold Rcv.hasHost rcvOf; dsimp only; decide +kernel
  have hd : ((rcvOf u "PTEC" "HP..").hasHost && (rcvOf u "PTEC" "HP..").c.httpreq.triggerPtec) = true := by
    unfold Rcv.hasHost rcvOf; dsimp only; decide +kernel
  have hd' := hd
  rw [Bool.and_eq_true] at hd'
  refine ⟨_, _, s', o, o', ht.1, hu.1, h, hd'.1, hd'.2, ?_, hw, ?_⟩
  · simp [ptecs, hc, hv]
  rw [if_pos hc, hv] at f1
  rw [if_pos hd, hw] at g1
  have e1 : periodeNext (NotifState.init.periode, NotifState.init.initPeriode) (some []) =
      .ok ((Vector.replicate 8 0, true), none) := by decide +kernel
  rw [e1] at f1
  obtain ⟨f1, -⟩ := Prod.mk.inj (Except.ok.inj f1)
  obtain ⟨f2, f3⟩ := Prod.mk.inj f1
  rw [← f2, ← f3] at g1
  have e2 : periodeNext (Vector.replicate 8 0, true) (some (bs "HP")) =
      .ok ((⟨#[72, 80, 0, 0, 0, 0, 0, 0], rfl⟩, false), none) := by decide +kernel
  rw [e2] at g1
  obtain ⟨-, g1⟩ := Prod.mk.inj (Except.ok.inj g1)
  have k0 : (rcvOf u "PTEC" "HP..").value "PAPP" = none := by unfold Rcv.value rcvOf; dsimp only; decide +kernel
  have k0' : (rcvOf u "PTEC" "HP..").value "ADPS" = none := by unfold Rcv.value rcvOf; dsimp only; decide +kernel
  rw [g4, ← g1, k0, k0']
  have hp : (rcvOf u "PTEC" "HP..").tm.http.poll (rcvOf u "PTEC" "HP..").k.http = false := rfl
  rw [hp]
  simp only [hautNext, adpsNext, Option.toList_none, List.nil_append, Bool.and_false,
    Bool.false_eq_true, if_false, List.append_nil, ite_self]
  split
  · split <;> simp
  · simp

/-- **C19 (partial).** When the power falls to or below the low threshold after a HAUT notification, BAS
is sent, provided the power is not zero.  Missing with respect to the property as stated: zero, for
which it is false (`c19_refuted`). -/
theorem c19_drop_partial {w : World} {pre : List Rcv} {x : Rcv} {s : NotifState} {os o}
    (hok : ∀ y ∈ pre ++ [x], y.Ok)
    (h : notifRun w NotifState.init (pre ++ [x]) = .ok (s, os ++ [o])) (hh : x.hasHost = true)
    (ht : x.c.httpreq.triggerSeuils = true) {p : Int} (hp : x.power = some p) (h0 : p ≠ 0)
    (hl : p ≤ x.c.httpreq.seuilBas.toNat) (hlast : (thresholds os).getLast? = some .haut) :
    Notif.bas ∈ kinds o :=
  (c18_thresholds_partial hok h (by rw [hp]; simpa using h0)).2.2 ⟨hh, ht, ⟨p, hp, hl⟩, hlast⟩

/-- A power of zero never causes a threshold notification. -/
theorem zero_ignored {w : World} {x : Rcv} (hx : x.Ok) (hp : x.power = some 0) {s s' : NotifState}
    {o : List Out} (h : ticNotifs w x.c x.tm x.k x.t s = .ok (s', o)) :
    Notif.haut ∉ kinds o ∧ Notif.bas ∉ kinds o := by
  obtain ⟨k1, k2, _, _⟩ := threshold_kinds hx h
  unfold Rcv.power at hp
  rw [k1, k2]
  cases hv : x.value "PAPP" with
  | none => rw [hv] at hp; simp at hp
  | some p =>
    rw [hv] at hp
    have h0 : strtol p = 0 := (strtol_zero p).2 (by simpa using hp)
    simp [hautNext, h0]

/-- **C18 and C19, exactly.**  After any sequence of frames, HAUT is sent for a frame if and only if the threshold trigger
is on, the power is not zero and at or above the high threshold, and the last threshold notification was not HAUT; BAS if
and only if the power is not zero and at or below the low threshold, and the last one was HAUT. -/
theorem c18_exact {w : World} {pre : List Rcv} {x : Rcv} {s : NotifState} {os o}
    (hok : ∀ y ∈ pre ++ [x], y.Ok)
    (h : notifRun w NotifState.init (pre ++ [x]) = .ok (s, os ++ [o])) :
    (Notif.haut ∈ kinds o ↔ x.hasHost = true ∧ x.c.httpreq.triggerSeuils = true ∧
      (∃ p, x.power = some p ∧ p ≠ 0 ∧ p ≥ x.c.httpreq.seuilHaut.toNat) ∧
      (thresholds os).getLast? ≠ some .haut) ∧
    (Notif.bas ∈ kinds o ↔ x.hasHost = true ∧ x.c.httpreq.triggerSeuils = true ∧
      (∃ p, x.power = some p ∧ p ≠ 0 ∧ p ≤ x.c.httpreq.seuilBas.toNat) ∧
      (thresholds os).getLast? = some .haut) := by
  by_cases h0 : x.power = some 0
  · obtain ⟨s1, os1, o', e1, e2, e3⟩ := notifRun_snoc h
    obtain ⟨rfl, e3⟩ := List.append_inj' e3 rfl
    obtain rfl : o = o' := by simpa using e3
    obtain ⟨k1, k2⟩ := zero_ignored (hok x (by simp)) h0 e2
    refine ⟨⟨fun k => absurd k k1, ?_⟩, ⟨fun k => absurd k k2, ?_⟩⟩ <;>
    · rintro ⟨_, _, ⟨p, hp, hp0, _⟩, _⟩
      rw [h0] at hp
      exact absurd (Option.some.inj hp).symm hp0
  · obtain ⟨h1, h2⟩ := c18_thresholds_partial hok h h0
    have e : ∀ (P : Int → Prop), (∃ p, x.power = some p ∧ P p) ↔ (∃ p, x.power = some p ∧ p ≠ 0 ∧ P p) := by
      intro P
      constructor
      · rintro ⟨p, hp, hP⟩
        exact ⟨p, hp, fun hz => h0 (by rw [hp, hz]), hP⟩
      · rintro ⟨p, hp, _, hP⟩
        exact ⟨p, hp, hP⟩
    rw [e] at h1 h2
    exact ⟨h1, h2⟩

/-- **C19** as stated is false: 5000 VA then 0 VA, with thresholds 4000 and 1000, sends HAUT and no
BAS. -/
theorem c19_refuted (w : World) : ∃ (x y : Rcv) (s : NotifState) (o o' : List Out), x.Ok ∧ y.Ok ∧
    notifRun w NotifState.init ([x] ++ [y]) = .ok (s, [o] ++ [o']) ∧
    y.hasHost = true ∧ y.c.httpreq.triggerSeuils = true ∧ y.c.httpreq.seuilBas = 1000 ∧
    x.power = some 5000 ∧ y.power = some 0 ∧ Notif.haut ∈ kinds o ∧ Notif.bas ∉ kinds o' := by
  obtain ⟨t, ht⟩ := rcvOf_ok (l := "PAPP") (v := "05000") (by decide) (by decide) (by decide) (by decide)
  obtain ⟨u, hu⟩ := rcvOf_ok (l := "PAPP") (v := "00000") (by decide) (by decide) (by decide) (by decide)
  obtain ⟨s, s', o, o', h, h1, h2⟩ := run_two (w := w) ht hu
  have hx : (rcvOf t "PAPP" "05000").power = some 5000 := by
    unfold Rcv.power Rcv.value rcvOf; dsimp only; decide +kernel
  have hy : (rcvOf u "PAPP" "00000").power = some 0 := by
    unfold Rcv.power Rcv.value rcvOf; dsimp only; decide +kernel
  have hc : (rcvOf t "PAPP" "05000").hasHost = true ∧
      (rcvOf t "PAPP" "05000").c.httpreq.triggerSeuils = true := by
    unfold Rcv.hasHost rcvOf; dsimp only; decide +kernel
  refine ⟨_, _, s', o, o', ht.1, hu.1, h, hc.1, hc.2, rfl, hx, hy, ?_, (zero_ignored hu.1 hy h2).2⟩
  have hr : notifRun w NotifState.init ([] ++ [rcvOf t "PAPP" "05000"]) = .ok (s, [] ++ [o]) := by
    show (ticNotifs w _ _ _ _ NotifState.init >>= fun p => notifRun w p.1 [] >>= fun q =>
      pure (q.1, p.2 :: q.2)) = _
    rw [h1]
    rfl
  refine (c18_thresholds_partial (pre := []) (by simpa using ht.1) hr (by rw [hx]; decide)).1.2
    ⟨hc.1, hc.2, ⟨5000, hx, by show (4000 : Int) ≤ 5000; decide⟩, by simp [thresholds]⟩

/-- The hypotheses of `c17_ptec_partial` hold of a change from HC to HP, which is notified. -/
example (w : World) : ∃ (x y : Rcv) (s : NotifState) (o o' : List Out), (∀ z ∈ [x] ++ [y], z.Ok) ∧
    notifRun w NotifState.init ([x] ++ [y]) = .ok (s, [o] ++ [o']) ∧ ShortPtec (ptecs ([x] ++ [y])) ∧
    Notif.ptec ∈ kinds o' := by
  obtain ⟨t, ht⟩ := rcvOf_ok (l := "PTEC") (v := "HC..") (by decide) (by decide) (by decide) (by decide)
  obtain ⟨u, hu⟩ := rcvOf_ok (l := "PTEC") (v := "HP..") (by decide) (by decide) (by decide) (by decide)
  obtain ⟨s, s', o, o', h, h1, h2⟩ := run_two (w := w) ht hu
  have hok : ∀ z ∈ [rcvOf t "PTEC" "HC.."] ++ [rcvOf u "PTEC" "HP.."], z.Ok := by
    intro z hz
    simp at hz
    rcases hz with rfl | rfl
    · exact ht.1
    · exact hu.1
  have hd : (rcvOf u "PTEC" "HP..").hasHost = true ∧ (rcvOf u "PTEC" "HP..").c.httpreq.triggerPtec = true := by
    unfold Rcv.hasHost rcvOf; dsimp only; decide +kernel
  have hc : (rcvOf t "PTEC" "HC..").hasHost = true ∧ (rcvOf t "PTEC" "HC..").c.httpreq.triggerPtec = true := by
    unfold Rcv.hasHost rcvOf; dsimp only; decide +kernel
  have hw : (rcvOf u "PTEC" "HP..").value "PTEC" = some (bs "HP") := by
    unfold Rcv.value rcvOf; dsimp only; decide +kernel
  have hv : (rcvOf t "PTEC" "HC..").value "PTEC" = some (bs "HC") := by
    unfold Rcv.value rcvOf; dsimp only; decide +kernel
  have e1 : ptecs [rcvOf t "PTEC" "HC.."] = [bs "HC"] := by simp [ptecs, hc, hv]
  have e2 : ptecs ([rcvOf t "PTEC" "HC.."] ++ [rcvOf u "PTEC" "HP.."]) = [bs "HC", bs "HP"] := by
    simp [ptecs, hc, hv, hd, hw]
  have hs : ShortPtec (ptecs ([rcvOf t "PTEC" "HC.."] ++ [rcvOf u "PTEC" "HP.."])) := by
    rw [e2]; exact ⟨by decide, by decide⟩
  refine ⟨_, _, s', o, o', hok, h, hs, (c17_ptec_partial hok h hs).2 ?_⟩
  exact ⟨hd.1, hd.2, bs "HP", bs "HC", hw, by rw [e1]; rfl, by decide⟩

/-- The hypotheses of `c20_overload` hold of an overload that ends: ADPS then NORM. -/
example (w : World) : ∃ (x y : Rcv) (s : NotifState) (o o' : List Out), (∀ z ∈ [x] ++ [y], z.Ok) ∧
    notifRun w NotifState.init ([x] ++ [y]) = .ok (s, [o] ++ [o']) ∧ Notif.norm ∈ kinds o' := by
  obtain ⟨t, ht⟩ := rcvOf_ok (l := "ADPS") (v := "030") (by decide) (by decide) (by decide) (by decide)
  obtain ⟨u, hu⟩ := rcvOf_ok (l := "PTEC") (v := "HP..") (by decide) (by decide) (by decide) (by decide)
  obtain ⟨s, s', o, o', h, h1, h2⟩ := run_two (w := w) ht hu
  have hok : ∀ z ∈ [rcvOf t "ADPS" "030"] ++ [rcvOf u "PTEC" "HP.."], z.Ok := by
    intro z hz
    simp at hz
    rcases hz with rfl | rfl
    · exact ht.1
    · exact hu.1
  refine ⟨_, _, s', o, o', hok, h, (c20_overload hok h).2.2 ?_⟩
  have hd : (rcvOf u "PTEC" "HP..").hasHost = true ∧ (rcvOf u "PTEC" "HP..").c.httpreq.triggerAdps = true := by
    unfold Rcv.hasHost rcvOf; dsimp only; decide +kernel
  have hw : (rcvOf u "PTEC" "HP..").value "ADPS" = none := by
    unfold Rcv.value rcvOf; dsimp only; decide +kernel
  have hc : (rcvOf t "ADPS" "030").hasHost = true ∧ (rcvOf t "ADPS" "030").c.httpreq.triggerAdps = true := by
    unfold Rcv.hasHost rcvOf; dsimp only; decide +kernel
  have hv : (rcvOf t "ADPS" "030").value "ADPS" = some (bs "030") := by
    unfold Rcv.value rcvOf; dsimp only; decide +kernel
  exact ⟨hd.1, hd.2, by rw [hw]; rfl, by simp [overloads, hc, hv]⟩

/-- The hypotheses of C21 hold of a configuration with HTTP only. -/
example : HasText notifConfig.jeedom.host [] ∧ HasText notifConfig.emoncms.host [] ∧
    HasText notifConfig.httpreq.host (bs "h") ∧ notifConfig.httpreq.freq = 0 := by
  unfold HasText; decide +kernel

end Wifinfo
