import Verif.Props.Label
import Verif.Props.Device
import Verif.Props.Power
import Verif.Props.Timed

/-!
# C143: what a device tells is in the last frame

Two devices with any past and any settings, that have last heard the same frame at the same time, tell the
same: a device that has just been restarted, or put in the place of another one, tells the same as if it had
always been there.  Only the estimated power needs what came before, and no more than the last 48 frames.
-/

namespace Wifinfo
open Spec

namespace Spec

/-- A device that was booted in any way and has run in any way since; the frames it has heard since its last
boot, while no upload was under way, latest first. -/
def Heard (b : Build) (d : Device) (fs : List (TimeVal × List RawGroup)) : Prop :=
  ∃ f m a p k1 k2 k3 d0 evs es, Device.boot b f m a p k1 k2 k3 = .ok d0 ∧ d0.run b evs = .ok (d, es) ∧
    Frames (hears false [] evs).2 fs

/-- The device tells `x` to the request and does nothing else. -/
def Tells (b : Build) (d : Device) (e : Env) (r : Req) (x : List Eff) : Prop :=
  d.step b (.handle r e) = .ok (d, x)

end Spec

theorem heard_reach {b : Build} {d : Device} {fs} (h : Heard b d fs) : TinfoReach d.tic.tinfo fs := by
  obtain ⟨f, m, a, p, k1, k2, k3, d0, evs, es, h0, h1, h2⟩ := h
  obtain ⟨_, fs', h3, h4⟩ := c51_heard h0 h1
  rw [frames_unique h2 h3]
  exact h4

theorem seconds_same {f g : Frame} (h : f.ts = g.ts) : f.seconds = g.seconds := by
  unfold Frame.seconds; rw [h]

theorem dict_same (w : World) {t t' : Teleinfo} {ts gs l l'} (h : TinfoReach t ((ts, gs) :: l))
    (h' : TinfoReach t' ((ts, gs) :: l')) (n : Option Str) : ∃ j, ticJsonDict w t n = .ok j ∧ ticJsonDict w t' n = .ok j := by
  obtain ⟨a1, a2, a3⟩ := (reach_inv h).2.2.2
  obtain ⟨b1, b2, b3⟩ := (reach_inv h').2.2.2
  refine ⟨_, ticJsonDict_eq a1 a2 w n, ?_⟩
  rw [ticJsonDict_eq b1 b2 w n]
  have e : t'.fr.ts = t.fr.ts := b3.trans a3.symm
  have : dictHead w t'.fr n = dictHead w t.fr n := by
    unfold dictHead
    rw [e, seconds_same e]
  rw [this]

theorem emon_same {t t' : Teleinfo} {ts gs l l'} (h : TinfoReach t ((ts, gs) :: l))
    (h' : TinfoReach t' ((ts, gs) :: l')) : ∃ j, ticEmoncmsData t.fr [] = .ok j ∧ ticEmoncmsData t'.fr [] = .ok j := by
  obtain ⟨a1, a2, _⟩ := (reach_inv h).2.2.2
  obtain ⟨b1, b2, _⟩ := (reach_inv h').2.2.2
  exact ⟨_, emonData_spec a1 a2 [], emonData_spec b1 b2 []⟩

theorem powerSpan_take (n : Nat) (l : List Measure) : powerSpan n (l.take 48) = powerSpan n l := by
  cases l with
  | nil => rfl
  | cons a l => simp only [List.take_succ_cons, powerSpan, List.take_take]; rfl

theorem watt_same {t t' : Teleinfo} {l l'} (h : TinfoReach t l) (h' : TinfoReach t' l') (hp : Plausible 60 l)
    (hp' : Plausible 60 l') (he : l.take 48 = l'.take 48) : ∃ w, t.watt = .ok w ∧ t'.watt = .ok w := by
  obtain ⟨w, a1, a2, _⟩ := c15_exact h 60 hp (by decide)
  obtain ⟨w', b1, b2, _⟩ := c15_exact h' 60 hp' (by decide)
  have : w' = w := by
    apply UInt32.toNat_inj.1
    rw [a2, b2]
    unfold wrappedPower
    rw [← powerSpan_take, ← powerSpan_take _ (l.map measure), ← List.map_take, ← List.map_take, he]
  exact ⟨w, a1, this ▸ b1⟩

theorem array_same (w : World) {t t' : Teleinfo} {ts gs l l'} (h : TinfoReach t ((ts, gs) :: l))
    (h' : TinfoReach t' ((ts, gs) :: l')) {x : UInt32} (hx : t.watt = .ok x) (hx' : t'.watt = .ok x) :
    ∃ j, ticJsonArray w t = .ok j ∧ ticJsonArray w t' = .ok j := by
  obtain ⟨a1, a2, a3⟩ := (reach_inv h).2.2.2
  obtain ⟨b1, b2, b3⟩ := (reach_inv h').2.2.2
  refine ⟨_, ticJsonArray_eq a1 a2 w hx, ?_⟩
  rw [ticJsonArray_eq b1 b2 w hx', b3, a3]

theorem json_guest {d : Device} {r : Req} (hc : Guest d.nv.config r) {get : Bool → Res Str} {j : Str}
    (hg : ∀ x, get x = .ok j) : sendJson d r get = .ok (d, [.send 200 (if j = [] then bs "{}" else j)]) := by
  obtain ⟨a, ha, h1⟩ : ∃ a : Access, a ≠ .none ∧ getAuth d.nv.config r = .ok (a, []) := by
    rcases hc with h | h
    · exact ⟨.full, by decide, client_auth h⟩
    · exact ⟨.restricted, by decide, client_auth h⟩
  unfold sendJson
  rw [h1, ok_bind]
  dsimp only
  rw [if_neg ha, hg]
  rfl

/-- **C143, pages.** Two devices that have last heard the same frame at the same time, whatever they have heard or done
before and whatever their settings, show the same values to whoever is let in. -/
theorem c143_pages {b : Build} {d d' : Device} {ts gs l l'} (h : Heard b d ((ts, gs) :: l)) (h' : Heard b d' ((ts, gs) :: l'))
    {e e' : Env} {r r' : Req} (hr : Guest d.nv.config r) (hr' : Guest d'.nv.config r')
    (hu : r.uri = bs "/json" ∨ r.uri = bs "/emoncms.json") (hu' : r'.uri = r.uri) :
    ∃ s, Tells b d e r [.send 200 s] ∧ Tells b d' e' r' [.send 200 s] := by
  have t := heard_reach h
  have t' := heard_reach h'
  unfold Tells
  show ∃ s, d.handle b e r = _ ∧ d'.handle b e' r' = _
  unfold Device.handle
  rw [hu']
  rcases hu with hu | hu
  · have p : ∀ st m, route b.cpuload st m r.uri = .json := by
      intro st m
      rw [hu]
      unfold route
      rw [if_neg (by decide +kernel), if_neg (fun h => absurd h.2 (by decide +kernel)), if_neg (by decide +kernel), if_pos rfl]
    rw [p, p]
    obtain ⟨j, j1, j2⟩ := dict_same b.world t t' none
    exact ⟨_, json_guest hr fun _ => j1, json_guest hr' fun _ => j2⟩
  · have p : ∀ st m, route b.cpuload st m r.uri = .emoncms := by
      intro st m
      rw [hu]
      unfold route
      rw [if_neg (by decide +kernel), if_neg (fun h => absurd h.2 (by decide +kernel)), if_neg (by decide +kernel),
        if_neg (by decide +kernel), if_neg (by decide +kernel), if_pos rfl]
    rw [p, p]
    obtain ⟨j, j1, j2⟩ := emon_same t t'
    exact ⟨_, json_guest hr fun _ => j1, json_guest hr' fun _ => j2⟩

/-- **C143, single values.** So it is for each value asked by its label, for the date and for the seconds. -/
theorem c143_value {b : Build} {d d' : Device} {ts gs l l'} (h : Heard b d ((ts, gs) :: l)) (h' : Heard b d' ((ts, gs) :: l'))
    {e e' : Env} {r : Req} {u p u' p' : Str} (hu : HasText d.nv.config.username u) (hp : HasText d.nv.config.password p)
    (hu' : HasText d'.nv.config.username u') (hp' : HasText d'.nv.config.password p') (hr : r.creds u p = true)
    (hr' : r.creds u' p' = true) {label : Str} (hl : Label e r label) (hl' : Label e' r label) (hw : label ≠ bs "watt") :
    ∃ x, Tells b d e r x ∧ Tells b d' e' r x := by
  have t := heard_reach h
  have t' := heard_reach h'
  have es : d'.tic.tinfo.fr.ts = d.tic.tinfo.fr.ts := ((reach_inv t').2.2.2).2.2.trans ((reach_inv t).2.2.2).2.2.symm
  unfold Tells
  show ∃ x, d.handle b e r = _ ∧ d'.handle b e' r = _
  by_cases hs : label ∈ special
  · obtain ⟨_, a2, a3⟩ := c74_special (b := b) t hu hp hr hl
    obtain ⟨_, b2, b3⟩ := c74_special (b := b) t' hu' hp' hr' hl'
    simp only [special, List.mem_cons, List.not_mem_nil, or_false] at hs
    rcases hs with hs | hs | hs
    · exact absurd hs hw
    · exact ⟨_, a2 hs, by rw [b2 hs, seconds_same es]⟩
    · exact ⟨_, a3 hs, by rw [b3 hs, es]⟩
  · exact ⟨_, c74_value_partial t hu hp hr hl hs, c74_value_partial t' hu' hp' hr' hl' hs⟩

/-- **C143, the power.** When the last 48 frames are the same and nothing before was out of the ordinary, the page of the values with
the estimated power and the power alone are the same too. -/
theorem c143_power {b : Build} {d d' : Device} {ts gs l l'} (h : Heard b d ((ts, gs) :: l)) (h' : Heard b d' ((ts, gs) :: l'))
    (hp : Plausible 60 ((ts, gs) :: l)) (hp' : Plausible 60 ((ts, gs) :: l')) (he : l.take 47 = l'.take 47) :
    (∀ {e e' : Env} {r r' : Req}, Guest d.nv.config r → Guest d'.nv.config r' → r.uri = bs "/tinfo.json" →
      r'.uri = bs "/tinfo.json" → ∃ s, Tells b d e r [.send 200 s] ∧ Tells b d' e' r' [.send 200 s]) ∧
    ∀ {e e' : Env} {r : Req} {u p u' p' : Str}, HasText d.nv.config.username u → HasText d.nv.config.password p →
      HasText d'.nv.config.username u' → HasText d'.nv.config.password p' → r.creds u p = true → r.creds u' p' = true →
      Label e r (bs "watt") → Label e' r (bs "watt") → ∃ s, Tells b d e r [.send 200 s] ∧ Tells b d' e' r [.send 200 s] := by
  have t := heard_reach h
  have t' := heard_reach h'
  obtain ⟨w, w1, w2⟩ := watt_same t t' hp hp' (by rw [List.take_succ_cons, List.take_succ_cons, he])
  refine ⟨?_, ?_⟩
  · intro e e' r r' hr hr' hu hu'
    unfold Tells
    show ∃ s, d.handle b e r = _ ∧ d'.handle b e' r' = _
    unfold Device.handle
    have p : ∀ st m, route b.cpuload st m (bs "/tinfo.json") = .tinfo := by
      intro st m
      unfold route
      rw [if_neg (by decide +kernel), if_neg (fun h => absurd h.2 (by decide +kernel)), if_neg (by decide +kernel),
        if_neg (by decide +kernel), if_pos rfl]
    rw [hu, hu', p, p]
    obtain ⟨j, j1, j2⟩ := array_same b.world t t' w1 w2
    exact ⟨_, json_guest hr fun _ => j1, json_guest hr' fun _ => j2⟩
  · intro e e' r u p u' p' hu hq hu' hq' hr hr' hl hl'
    obtain ⟨x, x1, x2⟩ := (c74_special (b := b) t hu hq hr hl).1 rfl
    obtain ⟨x', y1, y2⟩ := (c74_special (b := b) t' hu' hq' hr' hl').1 rfl
    obtain rfl : x = w := Except.ok.inj (x1.symm.trans w1)
    obtain rfl : x' = x := Except.ok.inj (y1.symm.trans w2)
    exact ⟨_, x2, y2⟩

namespace Spec

/-- A device that has run in any way without being erased, that listens, sends every frame to those who follow it, and whose next byte
completes the frame: `seen` are those who follow it, `l` is what it then does. -/
def Completing (b : Build) (d' : Device) (conn : Nat → Bool) (seen : Seen) (l : List Eff) (ts : TimeVal) (gs : List RawGroup) : Prop :=
  ∃ f m a p k1 k2 k3 d0 evs es d now k x, Device.boot b f m a p k1 k2 k3 = .ok d0 ∧ d0.run b evs = .ok (d, es) ∧
    (∀ l ∈ es, Eff.eraseSdk ∉ l) ∧ d.nv.config.sseFreq = 0 ∧ (hears false [] evs).1 = false ∧
    EndsWithFrame ((hears false [] evs).2 ++ [(now, x)]) ts gs ∧ d.step b (.byte now k conn x) = .ok (d', l) ∧
    Seen.none.follow (evs.zip es) = some seen

end Spec

/-- **C143, the stream.** Those who follow either of two devices that hear the same frame at the same time get the same event. -/
theorem c143_stream {b : Build} {d d' : Device} {conn conn' : Nat → Bool} {seen seen' : Seen} {l l' : List Eff} {ts gs}
    (h : Completing b d conn seen l ts gs) (h' : Completing b d' conn' seen' l' ts gs) :
    ∃ j, (∀ c, received c (sseEffs l) = if c ∈ seen.live ∧ conn c = true then [j] else []) ∧
      ∀ c, received c (sseEffs l') = if c ∈ seen'.live ∧ conn' c = true then [j] else [] := by
  obtain ⟨f, m, a, p, k1, k2, k3, d0, evs, es, d1, now, k, x, h0, h1, h2, h3, h4, h5, h6, h7⟩ := h
  obtain ⟨f', m', a', p', k1', k2', k3', d0', evs', es', d1', now', k', x', g0, g1, g2, g3, g4, g5, g6, g7⟩ := h'
  obtain ⟨fs, j, t, hj, q⟩ := c57_one_event h0 h1 h2 h3 h4 h5 h6 h7
  obtain ⟨fs', j', t', hj', q'⟩ := c57_one_event g0 g1 g2 g3 g4 g5 g6 g7
  obtain ⟨y, y1, y2⟩ := dict_same b.world t t' none
  obtain rfl : j = y := Except.ok.inj (hj.symm.trans y1)
  obtain rfl : j' = j := Except.ok.inj (hj'.symm.trans y2)
  exact ⟨j', q, q'⟩

/-! ### It happens -/

/-- A device as above that listens and whose path for the HTTP requests is harmless. -/
def Listening (b : Build) (d : Device) (fs : List (TimeVal × List RawGroup)) : Prop :=
  ∃ f m a p k1 k2 k3 d0 evs es h, Device.boot b f m a p k1 k2 k3 = .ok d0 ∧ d0.run b evs = .ok (d, es) ∧
    hears false [] evs = (false, h) ∧ Frames h fs ∧ UrlSafe d.nv.config

theorem Listening.heard {b : Build} {d : Device} {fs} (h : Listening b d fs) : Heard b d fs := by
  obtain ⟨f, m, a, p, k1, k2, k3, d0, evs, es, x, h0, h1, h2, h3, _⟩ := h
  exact ⟨f, m, a, p, k1, k2, k3, d0, evs, es, h0, h1, by rw [h2]; exact h3⟩

theorem listening_frame {b : Build} {d : Device} {fs gs} (h : Listening b d fs) (ts : TimeVal) (hv : ValidFrame gs)
    (h3 : ∀ y ∈ gs.flatMap RawGroup.wire, y ≠ 3) : ∃ d', Listening b d' ((ts, gs) :: fs) := by
  obtain ⟨f, m, a, p, k1, k2, k3, d0, evs, es, x, h0, h1, h2, hf, hu⟩ := h
  have key : ∀ (ys : List Byte), (∀ y ∈ ys, y ≠ 3) → ∃ d1 evs es, d0.run b evs = .ok (d1, es) ∧
      hears false [] evs = (false, x ++ ys.map fun y => (ts, y)) ∧ Frames (x ++ ys.map fun y => (ts, y)) fs ∧
      UrlSafe d1.nv.config := by
    intro ys
    induction ys using snoc_induction with
    | h0 => intro _; exact ⟨d, evs, es, h1, by simp [h2], by simpa using hf, hu⟩
    | h1 ys y ih =>
      intro hy
      obtain ⟨d1, evs1, es1, g1, g2, g3, g4⟩ := ih fun z hz => hy z (by simp [hz])
      obtain ⟨fs1, hi⟩ := run_inv evs1 (boot_inv h0) g1
      rw [g2] at hi
      obtain ⟨⟨d2, l⟩, g5⟩ := c60_step hi (.byte ts ⟨false, false, false, false, false⟩ (fun _ => true) y) trivial g4
      refine ⟨d2, _, _, run_snoc g1 g5, ?_, ?_, ?_⟩
      · rw [hears_snoc, g2]
        simp [hears]
      · rw [List.map_append, List.map_cons, List.map_nil, ← List.append_assoc]
        exact .skip g3 fun ⟨ts', gs', he⟩ => hy y (by simp) (ends_etx he)
      · rw [(byte_inv hi g5).1]
        exact g4
  obtain ⟨d1, evs1, es1, g1, g2, g3, g4⟩ := key (2 :: gs.flatMap RawGroup.wire) (by
    intro y hy
    rcases List.mem_cons.1 hy with rfl | hy
    · decide
    · exact h3 y hy)
  obtain ⟨fs1, hi⟩ := run_inv evs1 (boot_inv h0) g1
  rw [g2] at hi
  obtain ⟨⟨d2, l⟩, g5⟩ := c60_step hi (.byte ts ⟨false, false, false, false, false⟩ (fun _ => true) 3) trivial g4
  have he : EndsWithFrame ((x ++ (2 :: gs.flatMap RawGroup.wire).map fun y => (ts, y)) ++ [(ts, 3)]) ts gs := by
    refine ⟨x, (gs.flatMap RawGroup.wire).map (fun y => (ts, y)) ++ [(ts, 3)], by simp, ?_, hv⟩
    unfold bytesOf frameWire
    simp [Function.comp_def]
  refine ⟨d2, f, m, a, p, k1, k2, k3, d0, _, _, _, h0, run_snoc g1 g5, ?_, .frame g3 he, ?_⟩
  · rw [hears_snoc, g2]
    simp [hears]
  · rw [(byte_inv hi g5).1]
    exact g4

theorem listening_start (b : Build) : ∃ d, Listening b d [] := by
  obtain ⟨d0, hb, hnv⟩ : ∃ d0, Device.boot b (eepromImage minuteConfig.stamp) (.replicate _ none) [] [] .ok .ok .ok = .ok d0 ∧
      d0.nv.config = minuteConfig.stamp.securize := by
    unfold Device.boot
    rw [configSetup_image, ok_bind]
    have : ∀ s : Nv, s.wifiSetup [] [] .ok = .ok s := by
      intro s
      unfold Nv.wifiSetup
      split <;> simp [pure_ok]
    rw [this, ok_bind]
    exact ⟨_, rfl, rfl⟩
  refine ⟨d0, _, _, _, _, _, _, _, d0, [], [], [], hb, rfl, rfl, .nil, ?_⟩
  rw [hnv]
  exact urlSafe_of ⟨[], List.replicate 150 0, by decide +kernel, Or.inl (by simp)⟩

/-- **C143**: the estimated power does need the frames before: two devices that have last heard the same frame, one of them just
started, tell 2950 W and 0 W. -/
theorem c143_remembers (b : Build) : ∃ d d' ts gs l l', Heard b d ((ts, gs) :: l) ∧ Heard b d' ((ts, gs) :: l') ∧
    Plausible 60 ((ts, gs) :: l) ∧ Plausible 60 ((ts, gs) :: l') ∧
    ∀ e : Env, e.static (bs "/watt") = none →
      Tells b d e ⟨.get, bs "/watt", [], fun _ _ => true, false⟩ [.send 200 (bs "2950")] ∧
      Tells b d' e ⟨.get, bs "/watt", [], fun _ _ => true, false⟩ [.send 200 (bs "0")] := by
  obtain ⟨d0, h0⟩ := listening_start b
  have v1 := hchpFrame_valid "012345678" (by decide) (by decide)
  have v2 := hchpFrame_valid "012345703" (by decide) (by decide)
  obtain ⟨d1, h1⟩ := listening_frame h0 ⟨100, 0⟩ v1 (by decide +kernel)
  obtain ⟨d, h2⟩ := listening_frame h1 ⟨130, 500000⟩ v2 (by decide +kernel)
  obtain ⟨d', h2'⟩ := listening_frame h0 ⟨130, 500000⟩ v2 (by decide +kernel)
  have hp : Plausible 60 normalHistory := by
    refine ⟨by decide +kernel, by decide +kernel, ?_, by decide +kernel⟩
    intro p hp
    simp [normalHistory] at hp
    subst hp; decide
  have hp' : Plausible 60 [(⟨130, 500000⟩, hchpFrame "012345703")] := by
    refine ⟨by decide +kernel, by decide +kernel, ?_, by decide +kernel⟩
    intro p hp
    simp at hp
    subst hp; decide
  have tells : ∀ {d : Device} {fs : List (TimeVal × List RawGroup)} {n : Nat}, Listening b d fs → Plausible 60 fs →
      wrappedPower 60 (fs.map measure) = n → ∀ e : Env, e.static (bs "/watt") = none →
      Tells b d e ⟨.get, bs "/watt", [], fun _ _ => true, false⟩ [.send 200 (decText n)] := by
    intro d fs n h hp hn e hs
    have hl : Label e ⟨.get, bs "/watt", [], fun _ _ => true, false⟩ (bs "watt") :=
      ⟨by decide +kernel, by unfold NulFree; decide +kernel, by decide +kernel, fun _ => hs, by decide⟩
    have ht : Terminated d.nv.config := by
      obtain ⟨f, m, a, p, k1, k2, k3, d0, evs, es, x, h0, h1, h2, h3, _⟩ := h
      obtain ⟨_, hi⟩ := run_inv evs (boot_inv h0) h1
      exact c32_terminated hi.nv
    obtain ⟨_, _, _, _, _, t1, t2, _⟩ := (terminated_iff _).1 ht
    have t := heard_reach h.heard
    obtain ⟨w, w1, w2⟩ := (c74_special (b := b) (e := e) t (textOf_mem t1) (textOf_mem t2) rfl hl).1 rfl
    obtain ⟨w', q1, q2, _⟩ := c15_exact t 60 hp (by decide)
    obtain rfl : w = w' := Except.ok.inj (w1.symm.trans q1)
    rw [← hn]
    rw [show (60 : UInt32).toNat = 60 from rfl] at q2
    rw [← q2]
    exact w2
  refine ⟨d, d', _, _, _, _, h2.heard, h2'.heard, hp, hp', fun e hs => ⟨?_, ?_⟩⟩
  · have := tells (n := 2950) h2 hp (by decide +kernel) e hs
    rwa [show decText 2950 = bs "2950" by decide +kernel] at this
  · have := tells (n := 0) h2' hp' (by decide +kernel) e hs
    rwa [show decText 0 = bs "0" by decide +kernel] at this

/-- Two devices with different pasts that have last heard the same frame. -/
example (b : Build) : ∃ d d' ts gs l l', Heard b d ((ts, gs) :: l) ∧ Heard b d' ((ts, gs) :: l') ∧ l ≠ l' ∧
    lookup (bs "HCHP") (pairs (storedAll gs)) = some (bs "012345703") := by
  obtain ⟨d0, h0⟩ := listening_start b
  have v1 := hchpFrame_valid "012345678" (by decide) (by decide)
  have v2 := hchpFrame_valid "012345703" (by decide) (by decide)
  obtain ⟨d1, h1⟩ := listening_frame h0 ⟨100, 0⟩ v1 (by decide +kernel)
  obtain ⟨d, h2⟩ := listening_frame h1 ⟨130, 500000⟩ v2 (by decide +kernel)
  obtain ⟨d', h2'⟩ := listening_frame h0 ⟨130, 500000⟩ v2 (by decide +kernel)
  exact ⟨d, d', _, _, _, _, h2.heard, h2'.heard, by simp, by decide +kernel⟩

/-- A device that hears its first frame, with an event for each frame. -/
example (b : Build) : ∃ d seen l, Completing b d (fun _ => true) seen l ⟨100, 0⟩ (hchpFrame "012345678") := by
  obtain ⟨d0, hb, hnv⟩ : ∃ d0, Device.boot b (eepromImage minuteConfig.stamp) (.replicate _ none) [] [] .ok .ok .ok = .ok d0 ∧
      d0.nv.config = minuteConfig.stamp.securize := by
    unfold Device.boot
    rw [configSetup_image, ok_bind]
    have : ∀ s : Nv, s.wifiSetup [] [] .ok = .ok s := by
      intro s
      unfold Nv.wifiSetup
      split <;> simp [pure_ok]
    rw [this, ok_bind]
    exact ⟨_, rfl, rfl⟩
  have hu : UrlSafe d0.nv.config := by
    rw [hnv]
    exact urlSafe_of ⟨[], List.replicate 150 0, by decide +kernel, Or.inl (by simp)⟩
  have hz : d0.nv.config.sseFreq = 0 := by rw [hnv]; decide +kernel
  have key : ∀ (ys : List Byte), (∀ y ∈ ys, y ≠ 3) → ∃ d1 evs es, d0.run b evs = .ok (d1, es) ∧ (∀ l ∈ es, Eff.eraseSdk ∉ l) ∧
      hears false [] evs = (false, ys.map fun y => (⟨100, 0⟩, y)) ∧ d1.nv = d0.nv := by
    intro ys
    induction ys using snoc_induction with
    | h0 => intro _; exact ⟨d0, [], [], rfl, by simp, rfl, rfl⟩
    | h1 ys y ih =>
      intro hy
      obtain ⟨d1, evs1, es1, g1, g2, g3, g4⟩ := ih fun z hz => hy z (by simp [hz])
      obtain ⟨fs1, hi⟩ := run_inv evs1 (boot_inv hb) g1
      rw [g3] at hi
      obtain ⟨⟨d2, l⟩, g5⟩ := c60_step hi (.byte ⟨100, 0⟩ ⟨false, false, false, false, false⟩ (fun _ => true) y) trivial (by rw [g4]; exact hu)
      obtain ⟨q1, _, _, _, ⟨_, _, q2, _⟩ | ⟨ts, gs, out, he, _⟩⟩ := byte_inv hi g5
      · refine ⟨d2, _, _, run_snoc g1 g5, ?_, ?_, q1.trans g4⟩
        · intro x hx
          rcases List.mem_append.1 hx with hx | hx
          · exact g2 x hx
          · rw [List.mem_singleton.1 hx, q2]; exact List.not_mem_nil
        · rw [hears_snoc, g3]
          simp [hears]
      · exact absurd (ends_etx he) (hy y (by simp))
  obtain ⟨d1, evs, es, g1, g2, g3, g4⟩ := key (2 :: (hchpFrame "012345678").flatMap RawGroup.wire) (by decide +kernel)
  obtain ⟨fs1, hi⟩ := run_inv evs (boot_inv hb) g1
  rw [g3] at hi
  obtain ⟨⟨d2, l⟩, g5⟩ := c60_step hi (.byte ⟨100, 0⟩ ⟨false, false, false, false, false⟩ (fun _ => true) 3) trivial (by rw [g4]; exact hu)
  obtain ⟨seen, hk, _⟩ := run_follow evs (by rw [boot_sse hb]; exact agrees_init) g1
  refine ⟨d2, seen, l, _, _, _, _, _, _, _, d0, evs, es, d1, ⟨100, 0⟩, _, 3, hb, g1, g2, by rw [g4]; exact hz, by rw [g3], ?_, g5, hk⟩
  rw [g3]
  refine ⟨[], ((hchpFrame "012345678").flatMap RawGroup.wire).map (fun y => (⟨100, 0⟩, y)) ++ [(⟨100, 0⟩, 3)], by simp, ?_,
    hchpFrame_valid "012345678" (by decide) (by decide)⟩
  unfold bytesOf frameWire
  simp [Function.comp_def]

end Wifinfo
