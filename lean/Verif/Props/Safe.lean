import Verif.Props.PowerCut

/-!
# C139: looking at the device changes nothing

The requests with the method GET are those that a browser makes to show something: an address, a link, an image of any page, a preview.
-/

namespace Wifinfo
namespace Spec

/-- The addresses at which something is done. -/
def actionPaths : List Str := [bs "/config_form.json", bs "/factory_reset", bs "/reset"]

/-- The addresses of the event stream. -/
def streamPaths : List Str := [bs "/sse/json", bs "/tic"]

/-- An image, in a page of another site, whose address is at the device: the browser asks for it with the method GET, from the same place and
with the credentials that it remembers for the device. -/
def imageOf (own : Req) (uri : Str) (args : Args) : Req :=
  { method := .get, uri := uri, args := args, creds := own.creds, forwarded := own.forwarded }

end Spec
open Spec

/-! ## Lemmas -/

theorem client_as {c : Config} {r r' : Req} {a : Access} (h : Client c r a) (h1 : r'.creds = r.creds) (h2 : r'.forwarded = r.forwarded) :
    Client c r' a := by
  cases h with
  | anybody h => exact .anybody h
  | owner h g1 g2 => exact .owner h (by rw [h1]; exact g1) (by rw [h2]; exact g2)
  | remote h g1 g2 => exact .remote h (by rw [h1]; exact g1) (by rw [h2]; exact g2)
  | stranger h g1 => exact .stranger h (by rw [h1]; exact g1)

theorem route_cfg_form (cpu : Bool) (st : Str → Option Str) (m : Method) : route cpu st m (bs "/config_form.json") = .configForm := by
  unfold route
  rw [if_neg (by decide +kernel), if_neg (fun h => absurd h.2 (by decide +kernel)), if_pos rfl]

/-! ## C139 -/

/-- **C139 (partial)**: a GET changes nothing of the device, restarts, erases and installs nothing.  Missing with respect to the property as
stated: the three addresses at which something is done, for which it is false; those of the event stream add a client. -/
theorem c139_safe_partial {b : Build} {d d' : Device} {e : Env} {r : Req} {l} (hs : NvReach d.nv) (hm : r.method = .get)
    (hu : r.uri ∉ actionPaths) (hu' : r.uri ∉ streamPaths) (h : d.handle b e r = .ok (d', l)) :
    d' = d ∧ ∀ x ∈ l, dangerous x = false := by
  obtain ⟨h1, h2, h3, h4, h5, h6⟩ := c71_changes hs h
  simp only [actionPaths, streamPaths, List.mem_cons, List.not_mem_nil, or_false, not_or] at hu hu'
  have e3 : d'.nv = d.nv := Classical.byContradiction fun hn => by
    rcases h3 hn with g | g
    · exact hu.1 g.1
    · exact hu.2.1 g.1
  have e4 : d'.timers = d.timers := Classical.byContradiction fun hn => hu.1 (h4 hn).1
  have e5 : d'.sse = d.sse := Classical.byContradiction fun hn => by
    rcases (h5 hn).1 with g | g
    · exact hu'.1 g
    · exact hu'.2 g
  refine ⟨?_, fun x hx => ?_⟩
  · cases d
    cases d'
    simp only at h1 h2 e3 e4 e5
    rw [h1, h2, e3, e4, e5]
  · cases hd : dangerous x with
    | false => rfl
    | true =>
      rcases h6 x hx hd with ⟨_, g | g⟩ | g | g
      · exact absurd g.1 hu.2.2
      · exact absurd g.1 hu.2.1
      · exact absurd g.2.1 hu.2.1
      · rw [hm] at g
        exact absurd g.2.2.1 (by decide)

/-- **C139**, at the event stream: a GET changes nothing but the list of the clients. -/
theorem c139_stream_partial {b : Build} {d d' : Device} {e : Env} {r : Req} {l} (hs : NvReach d.nv) (hm : r.method = .get)
    (hu : r.uri ∉ actionPaths) (h : d.handle b e r = .ok (d', l)) :
    d' = { d with sse := d'.sse } ∧ ∀ x ∈ l, dangerous x = false := by
  obtain ⟨h1, h2, h3, h4, _, h6⟩ := c71_changes hs h
  simp only [actionPaths, List.mem_cons, List.not_mem_nil, or_false, not_or] at hu
  have e3 : d'.nv = d.nv := Classical.byContradiction fun hn => by
    rcases h3 hn with g | g
    · exact hu.1 g.1
    · exact hu.2.1 g.1
  have e4 : d'.timers = d.timers := Classical.byContradiction fun hn => hu.1 (h4 hn).1
  refine ⟨?_, fun x hx => ?_⟩
  · cases d
    cases d'
    simp only at h1 h2 e3 e4
    rw [h1, h2, e3, e4]
  · cases hd : dangerous x with
    | false => rfl
    | true =>
      rcases h6 x hx hd with ⟨_, g | g⟩ | g | g
      · exact absurd g.1 hu.2.2
      · exact absurd g.1 hu.2.1
      · exact absurd g.2.1 hu.2.1
      · rw [hm] at g
        exact absurd g.2.2.1 (by decide)

/-- **C139**, exactly which GET restarts the device: that of `/reset` by anybody who is let in, and that of `/factory_reset` with full
access. -/
theorem c139_restart_exact {b : Build} {d d' : Device} {e : Env} {r : Req} {l} (hs : NvReach d.nv) (hm : r.method = .get)
    (h : d.handle b e r = .ok (d', l)) :
    (∃ x ∈ l, dangerous x = true) ↔
      (r.uri = bs "/reset" ∧ Guest d.nv.config r) ∨ (r.uri = bs "/factory_reset" ∧ Client d.nv.config r .full) := by
  obtain ⟨_, _, _, _, _, h6⟩ := c71_changes hs h
  constructor
  · rintro ⟨x, hx, hd⟩
    rcases h6 x hx hd with ⟨_, g⟩ | g | g
    · exact g
    · exact .inr g.2
    · rw [hm] at g
      exact absurd g.2.2.1 (by decide)
  · rintro (⟨hu, hc⟩ | ⟨hu, hc⟩)
    · have : ∀ a, a ≠ Access.none → Client d.nv.config r a → ∃ x ∈ l, dangerous x = true := by
        intro a ha hc
        unfold Device.handle at h
        rw [hu, route_reset] at h
        simp only [access_ok hc, ok_bind, if_neg ha] at h
        rw [if_pos (by simpa using ha)] at h
        obtain ⟨_, rfl⟩ := Prod.mk.inj (Except.ok.inj h)
        exact ⟨.restart, by simp, rfl⟩
      rcases hc with hc | hc
      · exact this _ (by decide) hc
      · exact this _ (by decide) hc
    · obtain ⟨d1, h1, _⟩ := c70_web (b := b) (e := e) hu hc
      rw [h1] at h
      obtain ⟨_, rfl⟩ := Prod.mk.inj (Except.ok.inj h)
      exact ⟨.restart, by simp, rfl⟩

/-- **C139** as stated is false: the method of a request plays no part at the three addresses, a GET does what a POST does. -/
theorem c139_refuted_method (b : Build) (d : Device) (e : Env) (r : Req) (hu : r.uri ∈ actionPaths) (m : Method) :
    d.handle b e { r with method := m } = d.handle b e r := by
  have hr : ∀ m, route b.cpuload e.static m r.uri = route b.cpuload e.static r.method r.uri := by
    intro m
    simp only [actionPaths, List.mem_cons, List.not_mem_nil, or_false] at hu
    rcases hu with hu | hu | hu <;> rw [hu]
    · rw [route_cfg_form, route_cfg_form]
    · rw [route_factory, route_factory]
    · rw [route_reset, route_reset]
  simp only [actionPaths, List.mem_cons, List.not_mem_nil, or_false] at hu
  unfold Device.handle
  simp only [hr m]
  rcases hu with hu | hu | hu
  · rw [hu, route_cfg_form]; rfl
  · rw [hu, route_factory]; rfl
  · rw [hu, route_reset]; rfl

/-- **C139** as stated is false: an image in a page of another site, opened in the browser of the owner, puts the device back to the factory
settings and restarts it. -/
theorem c139_refuted_image {b : Build} {d : Device} {e : Env} {own : Req} (hc : Client d.nv.config own .full) :
    ∃ d', d.handle b e (imageOf own (bs "/factory_reset") []) = .ok (d', [.eraseSdk, .send 200 (bs "Reset"), .restart]) ∧
      settings d'.nv.config = factory (bs "WifInfo-" ++ hex06 b.world.chipId) := by
  obtain ⟨d', h1, h2, _⟩ := c70_web (b := b) (d := d) (e := e) (r := imageOf own (bs "/factory_reset") []) rfl (client_as hc rfl rfl)
  exact ⟨d', h1, h2⟩

/-- **C139** as stated is false: an image can also save any settings, such as a user name and a password of which the owner does not know. -/
theorem c139_refuted_form {b : Build} {d : Device} {e : Env} {own : Req} (hc : Client d.nv.config own .full) (a : Args)
    (hs : isPosted a "save" = true) : ∃ d', d.handle b e (imageOf own (bs "/config_form.json") a) = .ok (d', [.send 200 (bs "OK")]) ∧
      settings d'.nv.config = postedPrivate a ++ postedPublic a := by
  obtain ⟨nv, h1, h2⟩ := c33_form d.nv a e.commit hs
  have hc' : Client d.nv.config (imageOf own (bs "/config_form.json") a) .full := client_as hc rfl rfl
  refine ⟨{ d with nv := nv, timers := ticMakeTimers nv.config }, ?_, h2⟩
  unfold Device.handle
  have hr := route_cfg_form b.cpuload e.static (imageOf own (bs "/config_form.json") a).method
  rw [show (imageOf own (bs "/config_form.json") a).uri = bs "/config_form.json" from rfl, hr]
  simp only [client_auth hc', ok_bind]
  have h1' : d.nv.handleForm (imageOf own (bs "/config_form.json") a).args (decide (Access.full = Access.restricted)) e.commit = .ok (nv, 200) := h1
  rw [if_neg (by decide), h1']
  rfl

/-- The hypotheses can be met: a protected device, its owner in a browser that remembers the password, addresses that only show something, and
a form that takes the device over. -/
example : ∃ s : Nv, NvReach s ∧
    Client s.config ⟨.get, bs "/", [], fun u p => u = bs "admin" ∧ p = bs "secret", false⟩ .full ∧
    bs "/config.json" ∉ actionPaths ++ streamPaths ∧
    isPosted [(bs "save", bs "1"), (bs "username", bs "mallory"), (bs "password", bs "x")] "save" = true := by
  obtain ⟨s, h1, h2⟩ := reach_protected
  exact ⟨s, h1, .owner h2 (by decide) rfl, by decide +kernel, by decide +kernel⟩

end Wifinfo
