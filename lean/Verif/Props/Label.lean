import Verif.Props.Web

/-!
# C74: asking for one value, `http://wifinfo/<label>`
-/

namespace Wifinfo
open Spec

namespace Spec

/-- The pages of the device. -/
def pageNames : List Str :=
  [bs "/sse/json", bs "/tic", bs "/cpuload", bs "/config_form.json", bs "/json", bs "/tinfo.json",
   bs "/emoncms.json", bs "/system.json", bs "/config.json", bs "/spiffs.json", bs "/wifiscan.json",
   bs "/factory_reset", bs "/reset", bs "/hb.htm", bs "/update", bs "/", bs "/version"]

/-- Not a page and not a file. -/
def Label (e : Env) (r : Req) (label : Str) : Prop :=
  r.uri = 47 :: label ∧ NulFree label ∧ r.uri ∉ pageNames ∧ (r.method = .get → e.static r.uri = none) ∧
    r.args.length ≤ 255

/-- The three words that are not labels of the meter. -/
def special : List Str := [bs "watt", bs "seconds", bs "timestamp"]

end Spec

theorem label_route {b : Build} {e : Env} {r : Req} {label : Str} (h : Label e r label) :
    route b.cpuload e.static r.method r.uri = .notFound := by
  obtain ⟨_, _, h2, h3, _⟩ := h
  have hp := route_path b.cpuload e.static r.method r.uri
  generalize route b.cpuload e.static r.method r.uri = rt at hp
  simp only [pageNames, List.mem_cons, List.not_mem_nil, or_false, not_or] at h2
  obtain ⟨n1, n2, n3, n4, n5, n6, n7, n8, n9, n10, n11, n12, n13, n14, n15, n16, n17⟩ := h2
  cases rt with
  | sse => exact hp.elim (fun h => absurd h n1) fun h => absurd h n2
  | cpuload => exact absurd hp n3
  | configForm => exact absurd hp n4
  | json => exact absurd hp n5
  | tinfo => exact absurd hp n6
  | emoncms => exact absurd hp n7
  | system => exact absurd hp n8
  | config => exact absurd hp n9
  | spiffs => exact absurd hp n10
  | wifiscan => exact absurd hp n11
  | factoryReset => exact absurd hp n12
  | reset => exact absurd hp n13
  | heartbeat => exact absurd hp.1 n14
  | updatePage => exact absurd hp.1 n15
  | updatePost => exact absurd hp.1 n15
  | root => exact absurd hp n16
  | version => exact absurd hp n17
  | static p =>
    have h := hp.2
    rw [h3 hp.1] at h
    cases h
  | notFound => rfl

/-- **C74 (partial).**  When the request carries the stored user name and password, the label of a group
of the last frame gets the value of the first such group, without the leading zeros of a number; any
other word gets the error page.  Nothing changes.

Missing with respect to the property as stated: requests without credentials on a device without user
name, for which it is false (`c74_refuted`). -/
theorem c74_value_partial {b : Build} {d : Device} {e : Env} {r : Req} {label u p : Str} {ts gs fs}
    (ht : TinfoReach d.tic.tinfo ((ts, gs) :: fs)) (hu : HasText d.nv.config.username u)
    (hp : HasText d.nv.config.password p) (hr : r.creds u p = true) (hl : Label e r label)
    (hn : label ∉ special) :
    d.handle b e r = .ok (d, match lookup label (pairs (storedAll gs)) with
      | some v => [.send 200 (normNum v)]
      | none => [.send 404 (errorPage r)]) := by
  unfold Device.handle
  rw [label_route hl]
  simp only [special, List.mem_cons, List.not_mem_nil, or_false, not_or] at hn
  have hv : ticGetValue b.world d.tic.tinfo (cstrOf label) =
      .ok ((lookup label (pairs (storedAll gs))).map fun v => normNum v) := by
    rw [cstrOf_self hl.2.1, ticGetValue, if_neg hn.1, if_neg hn.2.1, if_neg hn.2.2]
    exact c09_lookup (.copied ht) label true
  simp only [c41_answer_partial hu hp hl.2.2.2.2 hl.1 hv, hr, if_true, ok_bind]
  cases lookup label (pairs (storedAll gs)) <;> rfl

/-- **C74**, the estimated power, the seconds and the date. -/
theorem c74_special {b : Build} {d : Device} {e : Env} {r : Req} {label u p : Str} {fs}
    (ht : TinfoReach d.tic.tinfo fs) (hu : HasText d.nv.config.username u)
    (hp : HasText d.nv.config.password p) (hr : r.creds u p = true) (hl : Label e r label) :
    (label = bs "watt" → ∃ w, d.tic.tinfo.watt = .ok w ∧
      d.handle b e r = .ok (d, [.send 200 (decText w.toNat)])) ∧
    (label = bs "seconds" → d.handle b e r = .ok (d, [.send 200 d.tic.tinfo.fr.seconds])) ∧
    (label = bs "timestamp" → d.handle b e r = .ok (d, [.send 200 (b.world.iso d.tic.tinfo.fr.ts.sec)])) := by
  have key : ∀ {v}, ticGetValue b.world d.tic.tinfo label = .ok (some v) →
      d.handle b e r = .ok (d, [.send 200 v]) := by
    intro v hv
    unfold Device.handle
    rw [label_route hl]
    rw [← cstrOf_self hl.2.1] at hv
    simp only [c41_answer_partial hu hp hl.2.2.2.2 hl.1 hv, hr, if_true, ok_bind]
    rfl
  refine ⟨?_, ?_, ?_⟩
  · intro h
    obtain ⟨w, hw⟩ := c14_watt_default ht
    refine ⟨w, hw, key ?_⟩
    rw [ticGetValue, if_pos h, hw]
    rfl
  · intro h
    exact key (by rw [ticGetValue, h, if_neg (by decide +kernel), if_pos rfl]; rfl)
  · intro h
    exact key (by rw [ticGetValue, h, if_neg (by decide +kernel), if_neg (by decide +kernel), if_pos rfl]; rfl)

/-- **C74**, somebody without the right credentials learns nothing. -/
theorem c74_stranger {b : Build} {d : Device} {e : Env} {r : Req} {label u p : Str}
    (hu : HasText d.nv.config.username u) (hp : HasText d.nv.config.password p) (hr : r.creds u p = false)
    (hl : Label e r label) : d.handle b e r = .ok (d, [.send 404 (errorPage r)]) := by
  unfold Device.handle
  rw [label_route hl]
  simp only [notFound_unknown hu hp hr hl.2.2.2.2, ok_bind]
  rfl

/-- **C74** as stated is false: on a device without user name, where everybody has full access, a
request without credentials for a label that the last frame has gets the error page. -/
theorem c74_refuted {b : Build} {d : Device} {e : Env} {p : Str} (hu : HasText d.nv.config.username [])
    (hp : HasText d.nv.config.password p) (hs : e.static (bs "/PAPP") = none) :
    ∃ r : Req, Client d.nv.config r .full ∧ Label e r (bs "PAPP") ∧
      d.handle b e r = .ok (d, [.send 404 (errorPage r)]) := by
  have hl : Label e ⟨.get, bs "/PAPP", [], fun _ _ => false, false⟩ (bs "PAPP") :=
    ⟨by decide +kernel, by unfold NulFree; decide +kernel, by decide +kernel, fun _ => hs, by decide⟩
  exact ⟨_, .anybody hu, hl, c74_stranger hu hp rfl hl⟩

/-- A label, a frame that has it, and its value. -/
example : (∀ e : Env, e.static (bs "/PAPP") = none →
      Label e ⟨.get, bs "/PAPP", [], fun u p => u = bs "admin" ∧ p = bs "secret", false⟩ (bs "PAPP")) ∧
    bs "PAPP" ∉ special ∧
    (lookup (bs "PAPP") (pairs (storedAll [(⟨bs "PAPP", bs "00750", 32⟩ : MeterGroup).raw]))).map normNum =
      some (bs "750") :=
  ⟨fun _ hs => ⟨by decide +kernel, by unfold NulFree; decide +kernel, by decide +kernel, fun _ => hs, by decide⟩,
    by decide +kernel, by decide +kernel⟩

end Wifinfo
