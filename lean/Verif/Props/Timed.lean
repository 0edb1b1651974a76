import Verif.Model.Timed
import Verif.Props.Clock
import Verif.Props.Upload
import Verif.Props.Session

/-!
# C85: from the wire to the services, on time
-/

namespace Wifinfo
open Spec

namespace Spec

/-- A moment of the life of a device: the time in milliseconds, what happens, what it does. -/
structure Moment where
  at_ : Nat
  ev : Event
  eff : List Eff

/-- The periods begin anew: the device starts, somebody posts the configuration form and is not refused, or types
`set timers`. -/
def Moment.Restarts (x : Moment) : Prop :=
  match x.ev with
  | .boot .. => True
  | .cliTimers => True
  | .handle r _ => r.uri = bs "/config_form.json" ∧ .needAuth ∉ x.eff
  | _ => False

/-- What has been heard of the meter, and whether an upload is under way. -/
def heardIn (tr : List Moment) : Bool × List (TimeVal × Byte) := hears false [] (tr.map (·.ev))

/-- After that past, a meter byte comes and completes a valid frame. -/
def Completes (tr : List Moment) (x : Moment) (ts : TimeVal) (gs : List RawGroup) : Prop :=
  ∃ now k conn y, x.ev = .byte now k conn y ∧ (heardIn tr).1 = false ∧
    EndsWithFrame ((heardIn tr).2 ++ [(now, y)]) ts gs

/-- A device started at `m0` has this past; the periods count from `m`, the last frame since then was at `before` (`m` if
there was none), and frames were never more than `gap` apart. -/
inductive Since (gap m0 : Nat) : List Moment → Nat → Nat → Prop
  | start : Since gap m0 [] m0 m0
  | restart {tr x} : x.Restarts → Since gap m0 (tr ++ [x]) x.at_ x.at_
  | frame {tr x m before ts gs} : Since gap m0 tr m before → Completes tr x ts gs → before ≤ x.at_ →
      x.at_ ≤ before + gap → Since gap m0 (tr ++ [x]) m x.at_
  | other {tr x m before} : Since gap m0 tr m before → ¬ x.Restarts → (¬ ∃ ts gs, Completes tr x ts gs) →
      Since gap m0 (tr ++ [x]) m before

end Spec

/-- A device with its clock goes through these moments. -/
inductive Clocked.Run (b : Build) (s0 : Clocked) : List Moment → Clocked → Prop
  | nil : Clocked.Run b s0 [] s0
  | snoc {tr s s' x} : Clocked.Run b s0 tr s → s.step b (UInt32.ofNat x.at_) x.ev = .ok (s', x.eff) →
      Clocked.Run b s0 (tr ++ [x]) s'

/-! ### The same run without clock -/

theorem run_snoc {b : Build} : ∀ {evs : List Event} {d d1 d2 : Device} {es ev l}, d.run b evs = .ok (d1, es) →
    d1.step b ev = .ok (d2, l) → d.run b (evs ++ [ev]) = .ok (d2, es ++ [l]) := by
  intro evs
  induction evs with
  | nil =>
    intro d d1 d2 es ev l h1 h2
    obtain ⟨rfl, rfl⟩ := Prod.mk.inj (Except.ok.inj h1)
    show (d.step b ev >>= fun p => Device.run b p.1 [] >>= fun q => pure (q.1, p.2 :: q.2)) = _
    rw [h2]; rfl
  | cons e evs ih =>
    intro d d1 d2 es ev l h1 h2
    obtain ⟨⟨d3, l3⟩, h3, h1⟩ := bind_ok h1
    obtain ⟨⟨d4, l4⟩, h4, h1⟩ := bind_ok h1
    obtain ⟨rfl, rfl⟩ := Prod.mk.inj (Except.ok.inj h1)
    show (d.step b e >>= fun p => Device.run b p.1 (evs ++ [ev]) >>= fun q => pure (q.1, p.2 :: q.2)) = _
    rw [h3, ok_bind, ih h4 h2]; rfl

theorem hears_snoc (ev : Event) : ∀ (evs : List Event) (up : Bool) (h : List (TimeVal × Byte)),
    hears up h (evs ++ [ev]) = hears (hears up h evs).1 (hears up h evs).2 [ev] := by
  intro evs
  induction evs with
  | nil => intro up h; rfl
  | cons e evs ih =>
    intro up h
    rw [List.cons_append, hears_cons, ih, ← hears_cons]

theorem follow_snoc (y : Event × List Eff) : ∀ (l : List (Event × List Eff)) (s : Seen),
    s.follow (l ++ [y]) = (s.follow l).bind fun s => s.follow [y] := by
  intro l
  induction l with
  | nil => intro s; rfl
  | cons e l ih =>
    intro s
    obtain ⟨ev, ef⟩ := e
    cases ev with
    | boot => exact ih Seen.none
    | _ =>
      rw [List.cons_append, follow_other (by intros; exact nofun), follow_other (by intros; exact nofun)]
      cases s.notes (sseEffs ef) with
      | none => rfl
      | some s => exact ih s

/-- An event with the clock is an event without. -/
theorem clock_step {b : Build} {s s' : Clocked} {ms ev l} (h : s.step b ms ev = .ok (s', l)) :
    ∃ ev', s.d.step b ev' = .ok (s'.d, l) ∧ (∀ up h, hears up h [ev'] = hears up h [ev]) ∧
      ∀ k : Seen, k.follow [(ev', l)] = k.follow [(ev, l)] := by
  have key : (∀ now k conn x, ev ≠ .byte now k conn x) → s.d.step b ev = .ok (s'.d, l) := by
    intro hb
    unfold Clocked.step at h
    split at h
    · exact absurd rfl (hb _ _ _ _)
    · obtain ⟨mk, h1, h⟩ := bind_ok h
      obtain ⟨⟨d, l'⟩, h2, h⟩ := bind_ok h
      obtain ⟨rfl, rfl⟩ := Prod.mk.inj (Except.ok.inj h)
      exact h2
  cases ev with
  | byte now k conn x =>
    have h : s.byte b ms now conn x = .ok (s', l) := h
    obtain ⟨⟨d, l'⟩, h2, h⟩ := bind_ok h
    obtain ⟨rfl, rfl⟩ := Prod.mk.inj (Except.ok.inj h)
    exact ⟨.byte now _ conn x, h2, fun _ _ => rfl, fun _ => rfl⟩
  | _ => exact ⟨_, key (by intros; exact nofun), fun _ _ => rfl, fun _ => rfl⟩

theorem clock_run {b : Build} {s0 s : Clocked} {tr} (h : Clocked.Run b s0 tr s) :
    ∃ evs, s0.d.run b evs = .ok (s.d, tr.map (·.eff)) ∧ hears false [] evs = heardIn tr ∧
      evs.length = tr.length ∧
      Seen.none.follow (evs.zip (tr.map (·.eff))) = Seen.none.follow (tr.map fun x => (x.ev, x.eff)) := by
  induction h with
  | nil => exact ⟨[], rfl, rfl, rfl, rfl⟩
  | @snoc tr s s' x _ h2 ih =>
    obtain ⟨evs, i1, i2, i3, i4⟩ := ih
    obtain ⟨ev', h3, h4, h5⟩ := clock_step h2
    refine ⟨evs ++ [ev'], ?_, ?_, by simp [i3], ?_⟩
    · rw [List.map_append]
      exact run_snoc i1 h3
    · unfold heardIn at *
      rw [hears_snoc, i2, h4, List.map_append, List.map_cons, List.map_nil, hears_snoc]
    · rw [List.map_append, List.map_append, List.zip_append (by simp [i3])]
      rw [List.map_cons, List.map_nil, List.map_cons, List.map_nil, List.zip_cons_cons, List.zip_nil_right,
        follow_snoc, follow_snoc, i4]
      congr 1
      funext k
      exact h5 k

/-! ### When the timers are made -/

theorem route_form (cpu : Bool) (st : Str → Option Str) (m : Method) (u : Str) :
    route cpu st m u = .configForm ↔ u = bs "/config_form.json" := by
  constructor
  · intro h
    have := route_path cpu st m u
    rw [h] at this
    exact this
  · rintro rfl
    unfold route
    cases cpu <;> rfl

theorem handle_same {b : Build} {d d' : Device} {e : Env} {r : Req} {l} (h : d.handle b e r = .ok (d', l))
    (hr : route b.cpuload e.static r.method r.uri ≠ .configForm) : d'.timers = d.timers := by
  have sj : ∀ {g}, sendJson d r g = .ok (d', l) → d' = d := by
    intro g h
    obtain ⟨⟨a, ef⟩, _, h⟩ := bind_ok h
    dsimp only at h
    split at h
    · exact ((Prod.mk.inj (Except.ok.inj h)).1).symm
    · obtain ⟨s, _, h⟩ := bind_ok h
      exact ((Prod.mk.inj (Except.ok.inj h)).1).symm
  unfold Device.handle at h
  split at h
  · obtain ⟨⟨ok, ef⟩, _, h⟩ := bind_ok h
    dsimp only at h
    split at h
    · split at h <;> (obtain ⟨rfl, _⟩ := Prod.mk.inj (Except.ok.inj h); rfl)
    · obtain ⟨rfl, _⟩ := Prod.mk.inj (Except.ok.inj h); rfl
  · obtain ⟨⟨ok, ef⟩, _, h⟩ := bind_ok h
    obtain ⟨rfl, _⟩ := Prod.mk.inj (Except.ok.inj h); rfl
  · rename_i e0
    exact absurd e0 hr
  · rw [sj h]
  · rw [sj h]
  · rw [sj h]
  · rw [sj h]
  · rw [sj h]
  · rw [sj h]
  · rw [sj h]
  · obtain ⟨⟨ok, ef⟩, _, h⟩ := bind_ok h
    dsimp only at h
    split at h
    · obtain ⟨nv, h1, h⟩ := bind_ok h
      obtain ⟨rfl, rfl⟩ := Prod.mk.inj (Except.ok.inj h)
      rfl
    · obtain ⟨rfl, _⟩ := Prod.mk.inj (Except.ok.inj h); rfl
  · obtain ⟨⟨ok, ef⟩, _, h⟩ := bind_ok h
    obtain ⟨rfl, _⟩ := Prod.mk.inj (Except.ok.inj h); rfl
  · obtain ⟨rfl, _⟩ := Prod.mk.inj (Except.ok.inj h); rfl
  · obtain ⟨⟨ok, ef⟩, _, h⟩ := bind_ok h
    obtain ⟨rfl, _⟩ := Prod.mk.inj (Except.ok.inj h); rfl
  · obtain ⟨⟨ok, ef⟩, _, h⟩ := bind_ok h
    obtain ⟨rfl, _⟩ := Prod.mk.inj (Except.ok.inj h); rfl
  · obtain ⟨x, _, h⟩ := bind_ok h
    obtain ⟨rfl, _⟩ := Prod.mk.inj (Except.ok.inj h); rfl
  · obtain ⟨rfl, _⟩ := Prod.mk.inj (Except.ok.inj h); rfl
  · obtain ⟨rfl, _⟩ := Prod.mk.inj (Except.ok.inj h); rfl
  · obtain ⟨x, _, h⟩ := bind_ok h
    obtain ⟨rfl, _⟩ := Prod.mk.inj (Except.ok.inj h); rfl

/-- The form: refused, or the timers are made. -/
theorem handle_form_made {b : Build} {d d' : Device} {e : Env} {r : Req} {l} (h : d.handle b e r = .ok (d', l))
    (hr : route b.cpuload e.static r.method r.uri = .configForm) {a ef} (ha : getAuth d.nv.config r = .ok (a, ef)) :
    (.needAuth ∉ l ↔ a ≠ .none) ∧ (a = .none → d' = d) := by
  unfold Device.handle at h
  rw [hr] at h
  dsimp only at h
  rw [ha, ok_bind] at h
  dsimp only at h
  rcases getAuth_form ha with ⟨rfl, rfl⟩ | ⟨h1, rfl⟩
  · rw [if_pos rfl] at h
    obtain ⟨rfl, rfl⟩ := Prod.mk.inj (Except.ok.inj h)
    exact ⟨by simp, fun _ => rfl⟩
  · rw [if_neg h1] at h
    obtain ⟨⟨nv, code⟩, h2, h⟩ := bind_ok h
    obtain ⟨rfl, rfl⟩ := Prod.mk.inj (Except.ok.inj h)
    exact ⟨by simp [h1], fun e => absurd e h1⟩

/-- What an event other than a meter byte does to the clocks. -/
theorem step_clocks {b : Build} {s s' : Clocked} {x : Moment} {ms} (h : s.step b ms x.ev = .ok (s', x.eff))
    (hb : ∀ now k conn y, x.ev ≠ .byte now k conn y) :
    (x.Restarts → s'.clk = Clocks.make ms) ∧ (¬ x.Restarts → s'.clk = s.clk ∧ s'.d.timers = s.d.timers) := by
  obtain ⟨t, ev, l⟩ := x
  unfold Moment.Restarts
  unfold Clocked.step at h
  dsimp only at h hb ⊢
  split at h
  · exact absurd rfl (hb _ _ _ _)
  · obtain ⟨mk, h1, h⟩ := bind_ok h
    obtain ⟨⟨d, l'⟩, h2, h⟩ := bind_ok h
    obtain ⟨rfl, rfl⟩ := Prod.mk.inj (Except.ok.inj h)
    cases ev with
    | byte now k conn x => exact absurd rfl (hb _ _ _ _)
    | boot =>
      obtain rfl := Except.ok.inj h1
      exact ⟨fun _ => rfl, fun h => absurd trivial h⟩
    | cliTimers =>
      obtain rfl := Except.ok.inj h1
      exact ⟨fun _ => rfl, fun h => absurd trivial h⟩
    | handle r e =>
      dsimp only
      rw [← route_form b.cpuload e.static r.method]
      simp only [Device.makesTimers] at h1
      split at h1
      · rename_i hr
        obtain ⟨⟨a, ef⟩, ha, h1⟩ := bind_ok h1
        obtain rfl := Except.ok.inj h1
        obtain ⟨g1, g2⟩ := handle_form_made h2 hr ha
        rw [g1]
        refine ⟨fun h => by simp [h.2], fun h => ?_⟩
        have : a = .none := Decidable.of_not_not fun x => h ⟨hr, x⟩
        rw [this, g2 this]
        exact ⟨rfl, rfl⟩
      · rename_i hr
        obtain rfl := Except.ok.inj h1
        exact ⟨fun h => absurd h.1 hr, fun _ => ⟨rfl, handle_same h2 hr⟩⟩
    | upload r u =>
      obtain rfl := Except.ok.inj h1
      have e := Except.ok.inj h2
      obtain ⟨_, h4, h3⟩ := upload_tic b s.d u
      rw [e] at h4
      exact ⟨False.elim, fun _ => ⟨rfl, h4⟩⟩
    | poll conn =>
      obtain rfl := Except.ok.inj h1
      obtain ⟨rfl, rfl⟩ := Prod.mk.inj (Except.ok.inj h2)
      exact ⟨False.elim, fun _ => ⟨rfl, rfl⟩⟩
    | cliSse t conn =>
      obtain rfl := Except.ok.inj h1
      obtain ⟨rfl, rfl⟩ := Prod.mk.inj (Except.ok.inj h2)
      exact ⟨False.elim, fun _ => ⟨rfl, rfl⟩⟩
    | cliWifi a p k =>
      obtain rfl := Except.ok.inj h1
      obtain ⟨nv, _, h2⟩ := bind_ok h2
      obtain ⟨rfl, rfl⟩ := Prod.mk.inj (Except.ok.inj h2)
      exact ⟨False.elim, fun _ => ⟨rfl, rfl⟩⟩
    | cliAp a p k =>
      obtain rfl := Except.ok.inj h1
      obtain ⟨nv, _, h2⟩ := bind_ok h2
      obtain ⟨rfl, rfl⟩ := Prod.mk.inj (Except.ok.inj h2)
      exact ⟨False.elim, fun _ => ⟨rfl, rfl⟩⟩
    | cliReset k =>
      obtain rfl := Except.ok.inj h1
      obtain ⟨rfl, rfl⟩ := Prod.mk.inj (Except.ok.inj h2)
      exact ⟨False.elim, fun _ => ⟨rfl, rfl⟩⟩

/-- What a poll of the four timers leaves. -/
def Clocked.polled (s : Clocked) (ms : UInt32) : Clocks :=
  ⟨(if s.d.nv.config.httpreq.host[0] ≠ 0 then s.d.timers.http.check s.clk.http ms else (false, s.clk.http)).2,
    (s.d.timers.jeedom.check s.clk.jeedom ms).2, (s.d.timers.emoncms.check s.clk.emoncms ms).2,
    (s.d.timers.sse.check s.clk.sse ms).2⟩

/-- What it answers. -/
def Clocked.answers (s : Clocked) (ms : UInt32) : Tick :=
  ⟨(if s.d.nv.config.httpreq.host[0] ≠ 0 then s.d.timers.http.check s.clk.http ms else (false, s.clk.http)).1,
    (s.d.timers.jeedom.check s.clk.jeedom ms).1, (s.d.timers.emoncms.check s.clk.emoncms ms).1,
    (s.d.timers.sse.check s.clk.sse ms).1, !s.d.sse.clients.isEmpty⟩

/-- A meter byte. -/
theorem byte_clocks {b : Build} {s s' : Clocked} {ms now conn x l up h fs} (hd : s.d.Inv b.world up h fs)
    (hs : s.byte b ms now conn x = .ok (s', l)) :
    s'.d.timers = s.d.timers ∧
    ((¬ (up = false ∧ ∃ ts gs, EndsWithFrame (h ++ [(now, x)]) ts gs)) → s'.clk = s.clk) ∧
    (∀ ts gs, up = false → EndsWithFrame (h ++ [(now, x)]) ts gs → s'.clk = s.polled ms ∧ s'.d.nv = s.d.nv ∧
      TinfoReach s'.d.tic.tinfo ((ts, gs) :: fs) ∧
      ∃ out, ticNotifs b.world s.d.nv.config s.d.timers (s.answers ms) s'.d.tic.tinfo s.d.tic.ns =
        .ok (s'.d.tic.ns, out) ∧ (s'.d.sse, l) = deliver conn s.d.sse out) := by
  obtain ⟨⟨d, l'⟩, h2, hs⟩ := bind_ok hs
  obtain ⟨rfl, rfl⟩ := Prod.mk.inj (Except.ok.inj hs)
  dsimp only
  cases up with
  | true =>
    refine ⟨?_, ?_, fun ts gs h => by cases h⟩
    · obtain ⟨⟨tic, out⟩, h1, h2⟩ := bind_ok h2
      obtain ⟨rfl, _⟩ := Prod.mk.inj (Except.ok.inj h2)
      rfl
    · intro _
      rw [hd.pause]
      rfl
  | false =>
    have hp : s.d.tic.pause = false := hd.pause
    obtain ⟨g0, g1, g2, g3, ⟨g4, g5, g6, g7⟩ | ⟨ts', gs', out, g4, g5, g6, g7⟩⟩ := byte_inv hd h2
    · refine ⟨g1, fun _ => ?_, fun ts gs _ he => absurd ⟨ts, gs, he⟩ g4⟩
      obtain ⟨mem, hm, hput⟩ := g5.dec
      have hrd : d.tic.dec.ready = false := by
        rw [← Bool.not_eq_true]
        intro hrd
        exact g4 ((c02_ready_iff_valid_frame mem hm _ _ hput).1 hrd)
      rw [hrd, Bool.and_false]
      rfl
    · refine ⟨g1, fun h => absurd ⟨rfl, _, _, g4⟩ h, fun ts gs _ he => ?_⟩
      obtain ⟨rfl, rfl⟩ := c02_frame_unique he g4
      obtain ⟨mem, hm, hput⟩ := g5.dec
      have hrd : d.tic.dec.ready = true := (c02_ready_iff_valid_frame mem hm _ _ hput).2 ⟨_, _, g4⟩
      rw [hrd, hp]
      exact ⟨rfl, g0, g5.tinfo, out, g6, g7⟩

/-- The periods of the timers are visible on the 32-bit clock, frames being at most `gap` apart. -/
def Visible (gap : Nat) (tm : Timers) : Prop :=
  ∀ t ∈ [tm.http, tm.jeedom, tm.emoncms, tm.sse], t ≠ .every 0 ∧ ∀ p, timerMs t = some p → gap + p ≤ 4294967296

/-- Where the periods of the four timers began. -/
def AllBegan (tm : Timers) (m before : Nat) (k : Clocks) : Prop :=
  Began tm.http m before k.http ∧ Began tm.jeedom m before k.jeedom ∧ Began tm.emoncms m before k.emoncms ∧
    Began tm.sse m before k.sse

theorem began_make (tm : Timers) (m : Nat) : AllBegan tm m 0 (Clocks.make (UInt32.ofNat m)) := by
  have hb : ∀ t : Timer, Began t m 0 (UInt32.ofNat m) := by
    intro t
    cases t with
    | every p =>
      show _ = beginsAt m p.toNat 0
      unfold beginsAt
      rw [Nat.zero_div, Nat.zero_mul, Nat.add_zero]
    | _ => trivial
  exact ⟨hb _, hb _, hb _, hb _⟩

theorem visible_gap {gap p before now : Nat} (h : now ≤ before + gap) (hp : gap + p ≤ 4294967296) (h0 : 0 < p) :
    now - before / p * p < 4294967296 := by
  have h1 : before < before / p * p + p := by
    have := Nat.lt_div_mul_add h0 (a := before)
    omega
  omega

theorem run_last {b : Build} {s0 s' : Clocked} {tr x} (h : Clocked.Run b s0 (tr ++ [x]) s') :
    ∃ s, Clocked.Run b s0 tr s ∧ s.step b (UInt32.ofNat x.at_) x.ev = .ok (s', x.eff) := by
  generalize e : tr ++ [x] = tr' at h
  cases h with
  | nil => simp at e
  | snoc h1 h2 =>
    obtain ⟨rfl, e1⟩ := List.append_inj' e rfl
    obtain rfl := (List.cons.inj e1).1
    exact ⟨_, h1, h2⟩

/-- The four polls. -/
theorem polls {s : Clocked} {gap m before now : Nat} (hv : Visible gap s.d.timers)
    (hb : AllBegan s.d.timers m (before - m) s.clk) (hm : m ≤ before) (h1 : before ≤ now) (h2 : now ≤ before + gap)
    (ht : s.d.timers = ticMakeTimers s.d.nv.config) :
    AllBegan s.d.timers m (now - m) (s.polled (UInt32.ofNat now)) ∧
    (s.d.timers.http.poll (s.answers (UInt32.ofNat now)).http = true ↔
      DueFor (timerMs s.d.timers.http) (before - m) (now - m)) ∧
    (s.d.timers.jeedom.poll (s.answers (UInt32.ofNat now)).jeedom = true ↔
      DueFor (timerMs s.d.timers.jeedom) (before - m) (now - m)) ∧
    (s.d.timers.emoncms.poll (s.answers (UInt32.ofNat now)).emoncms = true ↔
      DueFor (timerMs s.d.timers.emoncms) (before - m) (now - m)) ∧
    (s.d.timers.sse.poll (s.answers (UInt32.ofNat now)).sse = true ↔
      DueFor (timerMs s.d.timers.sse) (before - m) (now - m)) := by
  obtain ⟨b1, b2, b3, b4⟩ := hb
  have e : now = m + (now - m) := by omega
  have key : ∀ t ∈ [s.d.timers.http, s.d.timers.jeedom, s.d.timers.emoncms, s.d.timers.sse], ∀ start,
      Began t m (before - m) start →
      Began t m (now - m) (t.check start (UInt32.ofNat now)).2 ∧
      (t.poll (t.check start (UInt32.ofNat now)).1 = true ↔ DueFor (timerMs t) (before - m) (now - m)) := by
    intro t ht start hs
    obtain ⟨v1, v2⟩ := hv t ht
    have := check_step (now := now - m) v1 hs (by omega)
      (fun p hp h0 => visible_gap (by omega) (v2 p hp) h0)
    rw [← e] at this
    exact this
  obtain ⟨c2, d2⟩ := key _ (by simp) _ b2
  obtain ⟨c3, d3⟩ := key _ (by simp) _ b3
  obtain ⟨c4, d4⟩ := key _ (by simp) _ b4
  obtain ⟨c1, d1⟩ := key _ (by simp) _ b1
  unfold Clocked.polled Clocked.answers AllBegan
  dsimp only
  by_cases h0 : s.d.nv.config.httpreq.host[0] = 0
  · have : s.d.timers.http = .never := by
      rw [ht]; exact if_pos (.inr (.inl h0))
    rw [this] at d1 ⊢
    exact ⟨⟨trivial, c2, c3, c4⟩, d1, d2, d3, d4⟩
  · rw [if_pos h0]
    exact ⟨⟨c1, c2, c3, c4⟩, d1, d2, d3, d4⟩

theorem restarts_not_byte {x : Moment} (h : x.Restarts) : ∀ now k conn y, x.ev ≠ .byte now k conn y := by
  intro now k conn y e
  unfold Moment.Restarts at h
  rw [e] at h
  exact h

/-- The clocks of a device with a past. -/
theorem since_began {b : Build} {f mem a p k1 k2 k3} {d0 : Device}
    (h0 : Device.boot b f mem a p k1 k2 k3 = .ok d0) {gap m0 : Nat} {tr m before} (hs : Since gap m0 tr m before) :
    ∀ s, Clocked.Run b ⟨d0, Clocks.make (UInt32.ofNat m0)⟩ tr s → (∀ x ∈ tr, .eraseSdk ∉ x.eff) →
      Visible gap s.d.timers → m ≤ before ∧ AllBegan s.d.timers m (before - m) s.clk := by
  induction hs with
  | start =>
    intro s h _ _
    have : s = ⟨d0, Clocks.make (UInt32.ofNat m0)⟩ := by
      generalize e : ([] : List Moment) = tr at h
      cases h with
      | nil => rfl
      | snoc _ _ => simp at e
    rw [this, Nat.sub_self]
    exact ⟨Nat.le_refl _, began_make _ _⟩
  | @restart tr x hx =>
    intro s' h _ _
    obtain ⟨s, h1, h2⟩ := run_last h
    rw [(step_clocks h2 (restarts_not_byte hx)).1 hx, Nat.sub_self]
    exact ⟨Nat.le_refl _, began_make _ _⟩
  | @frame tr x m before ts gs hs hc hle hgap ih =>
    intro s' h hr hv
    obtain ⟨s, h1, h2⟩ := run_last h
    obtain ⟨evs, r1, r2, -⟩ := clock_run h1
    obtain ⟨fs, hi⟩ := run_inv evs (boot_inv h0) r1
    have hr' : ∀ x ∈ tr, .eraseSdk ∉ x.eff := fun y hy => hr y (by simp [hy])
    have ht := run_timers evs (boot_inv h0) r1 (by
      intro l hl
      obtain ⟨y, hy, rfl⟩ := List.mem_map.1 hl
      exact hr' y hy) (boot_timers h0)
    obtain ⟨now, k, conn, y, e1, e2, e3⟩ := hc
    rw [e1] at h2
    rw [r2, e2] at hi
    obtain ⟨g1, -, g3⟩ := byte_clocks hi h2
    obtain ⟨g3, -⟩ := g3 ts gs rfl e3
    rw [g1] at hv ⊢
    obtain ⟨i1, i2⟩ := ih s h1 hr' hv
    rw [g3]
    exact ⟨by omega, (polls hv i2 i1 hle hgap ht).1⟩
  | @other tr x m before hs hn hc ih =>
    intro s' h hr hv
    obtain ⟨s, h1, h2⟩ := run_last h
    have hr' : ∀ x ∈ tr, .eraseSdk ∉ x.eff := fun y hy => hr y (by simp [hy])
    by_cases hb : ∃ now k conn y, x.ev = .byte now k conn y
    · obtain ⟨now, k, conn, y, e1⟩ := hb
      obtain ⟨evs, r1, r2, -⟩ := clock_run h1
      obtain ⟨fs, hi⟩ := run_inv evs (boot_inv h0) r1
      rw [e1] at h2
      rw [r2] at hi
      obtain ⟨g1, g2, -⟩ := byte_clocks hi h2
      rw [g1] at hv ⊢
      rw [g2 (fun ⟨c1, ts, gs, c2⟩ => hc ⟨ts, gs, now, k, conn, y, e1, c1, c2⟩)]
      exact ih s h1 hr' hv
    · obtain ⟨g1, g2⟩ := (step_clocks h2 (fun now k conn y e => hb ⟨now, k, conn, y, e⟩)).2 hn
      rw [g2] at hv ⊢
      rw [g1]
      exact ih s h1 hr' hv

/-! ### One more frame -/

/-- A device started at `m0`, its past, its settings `c`, and a moment `x` that completes a frame at most `gap` after the
last one.  The periods count from `m`. -/
structure Waiting (b : Build) (d0 : Device) (gap m0 m before : Nat) (tr : List Moment) (s s' : Clocked) (x : Moment)
    (ts : TimeVal) (gs : List RawGroup) : Prop where
  boot : ∃ f mem a p k1 k2 k3, Device.boot b f mem a p k1 k2 k3 = .ok d0
  run : Clocked.Run b ⟨d0, Clocks.make (UInt32.ofNat m0)⟩ tr s
  /-- no return to the factory settings -/
  kept : ∀ y ∈ tr, .eraseSdk ∉ y.eff
  since : Since gap m0 tr m before
  /-- no period beyond what the 32-bit clock can see -/
  http : s.d.nv.config.httpreq.freq.toNat * 1000 + gap ≤ 4294967296
  jeedom : s.d.nv.config.jeedom.freq.toNat * 1000 + gap ≤ 4294967296
  emoncms : s.d.nv.config.emoncms.freq.toNat * 1000 + gap ≤ 4294967296
  sse : s.d.nv.config.sseFreq.toNat * 1000 + gap ≤ 4294967296
  step : s.step b (UInt32.ofNat x.at_) x.ev = .ok (s', x.eff)
  completes : Completes tr x ts gs
  later : before ≤ x.at_
  soon : x.at_ ≤ before + gap

theorem visible_make {c : Config} {gap : Nat} (h1 : c.httpreq.freq.toNat * 1000 + gap ≤ 4294967296)
    (h2 : c.jeedom.freq.toNat * 1000 + gap ≤ 4294967296) (h3 : c.emoncms.freq.toNat * 1000 + gap ≤ 4294967296)
    (h4 : c.sseFreq.toNat * 1000 + gap ≤ 4294967296) : Visible gap (ticMakeTimers c) := by
  obtain ⟨z1, z2, z3, z4⟩ := timers_pos (c := c) (by omega) (by omega) (by omega)
  have key : ∀ f : UInt32, ∀ p, timerMs (.every (f * 1000)) = some p → p ≤ f.toNat * 1000 := by
    intro f p h
    obtain rfl := Option.some.inj h
    rw [UInt32.toNat_mul]
    exact Nat.mod_le _ _
  have k2 : ∀ {f : UInt32} {q : Prop} [Decidable q], ∀ p,
      timerMs (if q then Timer.never else .every (f * 1000)) = some p → p ≤ f.toNat * 1000 := by
    intro f q _ p h
    split at h
    · cases h
    · exact key f p h
  intro t ht
  simp only [List.mem_cons, List.not_mem_nil, or_false] at ht
  rcases ht with rfl | rfl | rfl | rfl
  · exact ⟨z1, fun p hp => by have := k2 p hp; omega⟩
  · exact ⟨z2, fun p hp => by have := k2 p hp; omega⟩
  · exact ⟨z3, fun p hp => by have := k2 p hp; omega⟩
  · refine ⟨z4, fun p hp => ?_⟩
    have hp : timerMs (if c.sseFreq = 0 then Timer.always else .every (c.sseFreq.toUInt32 * 1000)) = some p := hp
    split at hp
    · obtain rfl := Option.some.inj hp
      omega
    · have := key _ p hp
      rw [UInt16.toNat_toUInt32] at this
      omega

/-- What is decided for that frame. -/
theorem frame_now {b : Build} {d0 : Device} {gap m0 m before : Nat} {tr s s' x ts gs}
    (h : Waiting b d0 gap m0 m before tr s s' x ts gs) :
    ∃ fs out, NvReach s.d.nv ∧ TinfoReach s'.d.tic.tinfo ((ts, gs) :: fs) ∧
      s.d.timers = ticMakeTimers s.d.nv.config ∧
      ticNotifs b.world s.d.nv.config s.d.timers (s.answers (UInt32.ofNat x.at_)) s'.d.tic.tinfo s.d.tic.ns =
        .ok (s'.d.tic.ns, out) ∧
      (∃ now k conn y, x.ev = .byte now k conn y ∧ x.eff = (deliver conn s.d.sse out).2) ∧
      requests x.eff = out.filter (fun o => !Event? o) ∧
      (s.d.timers.http.poll (s.answers (UInt32.ofNat x.at_)).http = true ↔
        DueFor (askedMs (publicSettings s.d.nv.config) "httpreq_host" "httpreq_port" "httpreq_freq") (before - m) (x.at_ - m)) ∧
      (s.d.timers.jeedom.poll (s.answers (UInt32.ofNat x.at_)).jeedom = true ↔
        DueFor (askedMs (publicSettings s.d.nv.config) "jdom_host" "jdom_port" "jdom_freq") (before - m) (x.at_ - m)) ∧
      (s.d.timers.emoncms.poll (s.answers (UInt32.ofNat x.at_)).emoncms = true ↔
        DueFor (askedMs (publicSettings s.d.nv.config) "emon_host" "emon_port" "emon_freq") (before - m) (x.at_ - m)) ∧
      (s.d.timers.sse.poll (s.answers (UInt32.ofNat x.at_)).sse = true ↔
        DueFor (askedStreamMs (publicSettings s.d.nv.config)) (before - m) (x.at_ - m)) := by
  obtain ⟨⟨f, mem, a, p, k1, k2, k3, h0⟩, hrun, hkept, hsince, f1, f2, f3, f4, hstep, hc, hle, hgap⟩ := h
  obtain ⟨evs, r1, r2, -⟩ := clock_run hrun
  obtain ⟨fs, hi⟩ := run_inv evs (boot_inv h0) r1
  have ht := run_timers evs (boot_inv h0) r1 (by
    intro l hl
    obtain ⟨y, hy, rfl⟩ := List.mem_map.1 hl
    exact hkept y hy) (boot_timers h0)
  have hv : Visible gap s.d.timers := by rw [ht]; exact visible_make f1 f2 f3 f4
  obtain ⟨i1, i2⟩ := since_began h0 hsince s hrun hkept hv
  obtain ⟨-, p1, p2, p3, p4⟩ := polls hv i2 i1 hle hgap ht
  obtain ⟨l1, l2, l3, l4⟩ := c65_period_partial (c32_terminated hi.nv) (by omega) (by omega) (by omega)
  rw [← ht] at l1 l2 l3 l4
  obtain ⟨now, k, conn, y, e1, e2, e3⟩ := hc
  rw [e1] at hstep
  rw [r2, e2] at hi
  obtain ⟨-, -, g3⟩ := byte_clocks hi hstep
  obtain ⟨-, -, g4, out, g5, g6⟩ := g3 ts gs rfl e3
  have g7 : x.eff = (deliver conn s.d.sse out).2 := congrArg Prod.snd g6
  refine ⟨fs, out, hi.nv, g4, ht, g5, ⟨now, k, conn, y, e1, g7⟩, by rw [g7, deliver_requests], ?_, ?_, ?_, ?_⟩
  · rw [← l1]; exact p1
  · rw [← l2]; exact p2
  · rw [← l3]; exact p3
  · rw [← l4]; exact p4

theorem filter_event {kind : Out → Bool} (hk : ∀ o, kind o = true → Event? o = false) (l : List Out) :
    (l.filter (fun o => !Event? o)).filter kind = l.filter kind := by
  rw [List.filter_filter]
  congr 1
  funext o
  cases h : kind o with
  | false => rfl
  | true => simp [hk o h]

theorem filter_none {kind : Out → Bool} {l : List Out} (h : ∀ y ∈ l, kind y = false) : l.filter kind = [] := by
  rw [List.filter_eq_nil_iff]
  intro y hy
  simp [h y hy]

theorem filter_all {kind : Out → Bool} {l : List Out} (h : ∀ y ∈ l, kind y = true) : l.filter kind = l :=
  List.filter_eq_self.2 h

theorem parts_filter {w : World} {c : Config} {tm : Timers} {k : Tick} {t : Teleinfo} {s s' : NotifState} {o : List Out}
    (h : ticNotifs w c tm k t s = .ok (s', o)) :
    (if tm.jeedom.poll k.jeedom then jeedomNotif c t else pure []) = .ok (o.filter Out.isJeedom) ∧
    (if tm.emoncms.poll k.emoncms then emoncmsNotif c t else pure []) = .ok (o.filter Out.isEmoncms) ∧
    ∀ n r, .http n r ∈ o → httpNotif w c t n = .ok (.http n r) := by
  obtain ⟨oh, oj, oe, os, h1, h2, h3, h4, -, rfl⟩ := frame_parts h
  have fh : ∀ y ∈ oh, ∃ n r, y = .http n r ∧ httpNotif w c t n = .ok y := fun y hy => by
    obtain ⟨-, n, hn⟩ := http_parts h1 y hy
    obtain ⟨r, e, -⟩ := httpNotif_form hn
    exact ⟨n, r, e, hn⟩
  have fj : ∀ y ∈ oj, ∃ r, y = .jeedom r := fun y hy => by
    rcases ite_nil h2 with rfl | ⟨-, h2⟩
    · cases hy
    · rcases jeedom_form h2 with rfl | ⟨r, rfl, -⟩
      · cases hy
      · exact ⟨r, List.mem_singleton.1 hy⟩
  have fe : ∀ y ∈ oe, ∃ r, y = .emoncms r := fun y hy => by
    rcases ite_nil h3 with rfl | ⟨-, h3⟩
    · cases hy
    · rcases emoncms_form h3 with rfl | ⟨r, rfl, -⟩
      · cases hy
      · exact ⟨r, List.mem_singleton.1 hy⟩
  have fs : ∀ y ∈ os, ∃ d, y = .sse d := fun y hy => by
    rcases h4 with rfl | ⟨-, -, d, -, rfl⟩
    · cases hy
    · exact ⟨d, List.mem_singleton.1 hy⟩
  refine ⟨?_, ?_, ?_⟩
  · rw [List.filter_append, List.filter_append, List.filter_append,
      filter_none (l := oh) fun y hy => by obtain ⟨_, _, rfl, _⟩ := fh y hy; rfl,
      filter_all (l := oj) fun y hy => by obtain ⟨_, rfl⟩ := fj y hy; rfl,
      filter_none (l := oe) fun y hy => by obtain ⟨_, rfl⟩ := fe y hy; rfl,
      filter_none (l := os) fun y hy => by obtain ⟨_, rfl⟩ := fs y hy; rfl]
    simpa using h2
  · rw [List.filter_append, List.filter_append, List.filter_append,
      filter_none (l := oh) fun y hy => by obtain ⟨_, _, rfl, _⟩ := fh y hy; rfl,
      filter_none (l := oj) fun y hy => by obtain ⟨_, rfl⟩ := fj y hy; rfl,
      filter_all (l := oe) fun y hy => by obtain ⟨_, rfl⟩ := fe y hy; rfl,
      filter_none (l := os) fun y hy => by obtain ⟨_, rfl⟩ := fs y hy; rfl]
    simpa using h3
  · intro n r hr
    simp only [List.mem_append] at hr
    rcases hr with ((hr | hr) | hr) | hr
    · obtain ⟨n', r', e, hn⟩ := fh _ hr
      obtain ⟨rfl, rfl⟩ := Out.http.inj e
      exact hn
    · obtain ⟨_, e⟩ := fj _ hr; cases e
    · obtain ⟨_, e⟩ := fe _ hr; cases e
    · obtain ⟨_, e⟩ := fs _ hr; cases e

/-- **C85**, Jeedom: when a frame of the meter is complete, one request with the groups of that frame if a multiple of
the period has passed since the frame before, otherwise none. -/
theorem c85_jeedom {b : Build} {d0 : Device} {gap m0 m before : Nat} {tr s s' x ts} {gs : List MeterGroup}
    (h : Waiting b d0 gap m0 m before tr s s' x ts (gs.map MeterGroup.raw)) (hl : ∀ g ∈ gs, g.Legal)
    {host path key adco : Str} (hh : HasText s.d.nv.config.jeedom.host host) (hu : HasText s.d.nv.config.jeedom.url path)
    (hk : HasText s.d.nv.config.jeedom.apikey key) (ha : HasText s.d.nv.config.jeedom.adco adco) :
    (DueFor (askedMs (publicSettings s.d.nv.config) "jdom_host" "jdom_port" "jdom_freq") (before - m) (x.at_ - m) →
      (requests x.eff).filter Out.isJeedom = [.jeedom
        { host := host, port := s.d.nv.config.jeedom.port, url := jeedomUrl path key adco (meterPairs gs),
          data := none }]) ∧
    (¬ DueFor (askedMs (publicSettings s.d.nv.config) "jdom_host" "jdom_port" "jdom_freq") (before - m) (x.at_ - m) →
      (requests x.eff).filter Out.isJeedom = []) := by
  obtain ⟨fs, out, hn, hr, ht, hout, -, hreq, -, hj, -, -⟩ := frame_now h
  have g := (parts_filter hout).1
  rw [hreq, filter_event (by intro o h; cases o <;> first | rfl | cases h), ← hj]
  constructor
  · intro hd
    rw [if_pos hd] at g
    have hne : host ≠ [] := by
      intro e
      have h0 : s.d.nv.config.jeedom.host[0] = 0 := (hh.first).2 e
      rw [ht, show (ticMakeTimers s.d.nv.config).jeedom = .never from if_pos (.inr (.inl h0))] at hd
      cases hd
    have := c25_jeedom s.d.nv.config hr hh hu hk ha hne
    rw [meter_pairs hl, g] at this
    exact Except.ok.inj this
  · intro hd
    rw [if_neg hd] at g
    exact (Except.ok.inj g).symm

/-- **C85**, emoncms. -/
theorem c85_emoncms {b : Build} {d0 : Device} {gap m0 m before : Nat} {tr s s' x ts} {gs : List MeterGroup}
    (h : Waiting b d0 gap m0 m before tr s s' x ts (gs.map MeterGroup.raw)) (hl : ∀ g ∈ gs, g.Legal)
    {host path key : Str} (hh : HasText s.d.nv.config.emoncms.host host)
    (hu : HasText s.d.nv.config.emoncms.url path) (hk : HasText s.d.nv.config.emoncms.apikey key) :
    (DueFor (askedMs (publicSettings s.d.nv.config) "emon_host" "emon_port" "emon_freq") (before - m) (x.at_ - m) →
      (requests x.eff).filter Out.isEmoncms = [.emoncms
        { host := host, port := s.d.nv.config.emoncms.port,
          url := emonUrl path key s.d.nv.config.emoncms.node.toNat (meterPairs gs), data := none }]) ∧
    (¬ DueFor (askedMs (publicSettings s.d.nv.config) "emon_host" "emon_port" "emon_freq") (before - m) (x.at_ - m) →
      (requests x.eff).filter Out.isEmoncms = []) := by
  obtain ⟨fs, out, hn, hr, ht, hout, -, hreq, -, -, hj, -⟩ := frame_now h
  have g := (parts_filter hout).2.1
  rw [hreq, filter_event (by intro o h; cases o <;> first | rfl | cases h), ← hj]
  constructor
  · intro hd
    rw [if_pos hd] at g
    have hne : host ≠ [] := by
      intro e
      have h0 : s.d.nv.config.emoncms.host[0] = 0 := (hh.first).2 e
      rw [ht, show (ticMakeTimers s.d.nv.config).emoncms = .never from if_pos (.inr (.inl h0))] at hd
      cases hd
    have := c26_emoncms s.d.nv.config hr hh hu hk hne
    rw [meter_pairs hl, g] at this
    exact Except.ok.inj this
  · intro hd
    rw [if_neg hd] at g
    exact (Except.ok.inj g).symm

/-- **C85**, HTTP: the periodic notification is sent when a multiple of the period has passed, to the configured server,
with the URL of the settings filled with the values of that frame. -/
theorem c85_http {b : Build} {d0 : Device} {gap m0 m before : Nat} {tr s s' x ts} {gs : List MeterGroup}
    (h : Waiting b d0 gap m0 m before tr s s' x ts (gs.map MeterGroup.raw)) (hl : ∀ g ∈ gs, g.Legal)
    (hus : ts.usec < 1000000) {host : Str} (hh : HasText s.d.nv.config.httpreq.host host) {tmpl : List Tok}
    (hg : GoodTmpl tmpl) (hu : HasText s.d.nv.config.httpreq.url (tmplText tmpl)) :
    ((∃ r, .http .maj r ∈ requests x.eff) ↔
      DueFor (askedMs (publicSettings s.d.nv.config) "httpreq_host" "httpreq_port" "httpreq_freq") (before - m) (x.at_ - m)) ∧
    (∀ n r, .http n r ∈ requests x.eff → r.host = host ∧ r.port = s.d.nv.config.httpreq.port ∧
      ∃ e : TmplEnv, r.url = tmplValue e tmpl ∧ e.notif = n.text ∧ e.iso = b.world.iso ts.sec ∧ e.sec = ts.sec ∧
        IsSeconds e.seconds ts.sec ts.usec ∧ IsHex6 e.chipId b.world.chipId.toNat ∧ e.groups = meterPairs gs) := by
  obtain ⟨fs, out, hn, hr, ht, hout, -, hreq, hp, -, -, -⟩ := frame_now h
  obtain ⟨e1, -⟩ := sent_iff (x := ⟨_, _, _, _, _⟩) ⟨ts, fs, hr⟩ ht hout
  have hm : ∀ n r, Out.http n r ∈ requests x.eff ↔ Out.http n r ∈ out := by
    intro n r
    rw [hreq, List.mem_filter]
    exact ⟨fun h => h.1, fun h => ⟨h, rfl⟩⟩
  refine ⟨?_, fun n r hy => ?_⟩
  · simp only [hm]
    exact e1.trans hp
  · rw [hm] at hy
    obtain ⟨r', e, g1, g2, g3, -⟩ := httpNotif_form ((parts_filter hout).2.2 n r hy)
    obtain ⟨-, rfl⟩ := Out.http.inj e
    obtain ⟨env, v1, v2⟩ := c23_expand_meter b.world s.d.nv.config hr hl hus n hg hu
    rw [g3] at v1
    refine ⟨?_, g2, env, Except.ok.inj v1, v2⟩
    have : some r.host = some host := g1.symm.trans hh
    exact Option.some.inj this

/-- **C85**, event stream: every client connected gets the same event when a multiple of the period has passed (always
if the period is 0), nobody gets anything otherwise. -/
theorem c85_stream {b : Build} {d0 : Device} {gap m0 m before : Nat} {tr s s' x ts gs}
    (h : Waiting b d0 gap m0 m before tr s s' x ts gs) {seen : Seen}
    (hk : Seen.none.follow (tr.map fun x => (x.ev, x.eff)) = some seen) :
    ∃ fs j now k conn y, TinfoReach s'.d.tic.tinfo ((ts, gs) :: fs) ∧ ticJsonDict b.world s'.d.tic.tinfo none = .ok j ∧
      x.ev = .byte now k conn y ∧
      (DueFor (askedStreamMs (publicSettings s.d.nv.config)) (before - m) (x.at_ - m) →
        ∀ c, received c (sseEffs x.eff) = if c ∈ seen.live ∧ conn c = true then [j] else []) ∧
      (¬ DueFor (askedStreamMs (publicSettings s.d.nv.config)) (before - m) (x.at_ - m) →
        ∀ c, received c (sseEffs x.eff) = []) := by
  obtain ⟨fs, out, hn, hr, ht, hout, ⟨now, k, conn, y, e1, e2⟩, -, -, -, -, hp⟩ := frame_now h
  obtain ⟨⟨f, mem, a, p, k1, k2, k3, h0⟩, hrun, -⟩ := h
  obtain ⟨evs, r1, -, -, r4⟩ := clock_run hrun
  obtain ⟨seen', q1, q2⟩ := run_follow evs (by rw [boot_sse h0]; exact agrees_init) r1
  obtain rfl : seen' = seen := by rw [r4, hk] at q1; exact (Option.some.inj q1).symm
  obtain ⟨j, hj⟩ := c27_safe b.world hr none
  refine ⟨fs, j, now, k, conn, y, hr, hj, e1, ?_, ?_⟩
  · intro hd c
    rw [e2, frame_events q2 rfl hout hj c]
    simp only [hp.2 hd, true_and]
  · intro hd c
    rw [e2, frame_events q2 rfl hout hj c, if_neg (fun h => hd (hp.1 h.1))]

/-! ### It happens -/

/-- A device with a past, ready for a frame. -/
structure Alive (b : Build) (d0 : Device) (gap m0 m before : Nat) (tr : List Moment) (s : Clocked) : Prop where
  boot : ∃ f mem a p k1 k2 k3, Device.boot b f mem a p k1 k2 k3 = .ok d0
  run : Clocked.Run b ⟨d0, Clocks.make (UInt32.ofNat m0)⟩ tr s
  kept : ∀ y ∈ tr, .eraseSdk ∉ y.eff
  since : Since gap m0 tr m before
  up : (heardIn tr).1 = false
  url : UrlSafe s.d.nv.config

theorem heard_snoc (tr : List Moment) {t now k conn y l} (hu : (heardIn tr).1 = false) :
    heardIn (tr ++ [⟨t, .byte now k conn y, l⟩]) = (false, (heardIn tr).2 ++ [(now, y)]) := by
  unfold heardIn at *
  rw [List.map_append, List.map_cons, List.map_nil, hears_snoc, hu]
  rfl

/-- A byte can always come. -/
theorem alive_step {b : Build} {d0 : Device} {gap m0 m before : Nat} {tr s} (h : Alive b d0 gap m0 m before tr s)
    (t : Nat) (now : TimeVal) (k : Tick) (conn : Nat → Bool) (y : Byte) :
    ∃ s' l, s.step b (UInt32.ofNat t) (.byte now k conn y) = .ok (s', l) ∧ .eraseSdk ∉ l ∧ s'.d.nv = s.d.nv := by
  obtain ⟨⟨f, mem, a, p, k1, k2, k3, h0⟩, hrun, -, -, hup, hurl⟩ := h
  obtain ⟨evs, r1, r2, -⟩ := clock_run hrun
  obtain ⟨fs, hi⟩ := run_inv evs (boot_inv h0) r1
  rw [r2, hup] at hi
  have key : ∀ k, ∃ z, s.d.byte b now k conn y = .ok z := fun k => c60_step hi (.byte now k conn y) trivial hurl
  have hs : ∃ z, s.byte b (UInt32.ofNat t) now conn y = .ok z := bindEx (key _) fun _ => ⟨_, rfl⟩
  obtain ⟨⟨s', l⟩, hs⟩ := hs
  refine ⟨s', l, hs, ?_, ?_⟩
  · obtain ⟨⟨d, l'⟩, h2, hs⟩ := bind_ok hs
    obtain ⟨rfl, rfl⟩ := Prod.mk.inj (Except.ok.inj hs)
    obtain ⟨⟨tic, out⟩, h1, h2⟩ := bind_ok h2
    obtain ⟨-, rfl⟩ := Prod.mk.inj (Except.ok.inj h2)
    have : ∀ (out : List Out) (sse : Sse), .eraseSdk ∉ (deliver conn sse out).2 := by
      intro out
      induction out with
      | nil => intro sse; exact List.not_mem_nil
      | cons o out ih =>
        intro sse
        cases o with
        | sse data =>
          intro hm
          rcases List.mem_append.1 hm with hm | hm
          · obtain ⟨_, _, e⟩ := List.mem_map.1 hm
            cases e
          · exact ih _ hm
        | _ =>
          intro hm
          rcases List.mem_cons.1 hm with hm | hm
          · cases hm
          · exact ih _ hm
    exact this _ _
  · obtain ⟨⟨d, l'⟩, h2, hs⟩ := bind_ok hs
    obtain ⟨rfl, rfl⟩ := Prod.mk.inj (Except.ok.inj hs)
    obtain ⟨⟨tic, out⟩, h1, h2⟩ := bind_ok h2
    obtain ⟨rfl, -⟩ := Prod.mk.inj (Except.ok.inj h2)
    rfl

theorem ends_etx {h : List (TimeVal × Byte)} {now y ts gs} (he : EndsWithFrame (h ++ [(now, y)]) ts gs) : y = 3 := by
  obtain ⟨pre, body, e1, e2, -⟩ := he
  have h1 : (bytesOf (h ++ [(now, y)])).getLast? = some 3 := by
    rw [e1]
    have : bytesOf (pre ++ (ts, 2) :: body) = bytesOf pre ++ (2 :: bytesOf body) := by
      unfold bytesOf; simp
    rw [this, e2]
    unfold frameWire
    rw [← List.append_assoc, List.getLast?_append]
    rfl
  have h2 : (bytesOf (h ++ [(now, y)])).getLast? = some y := by
    unfold bytesOf; simp
  exact Option.some.inj (h2.symm.trans h1)

theorem alive_bytes {b : Build} {d0 : Device} {gap m0 m before : Nat} (t : Nat) (now : TimeVal) (k : Tick)
    (conn : Nat → Bool) : ∀ (ys : List Byte) (tr s), (∀ y ∈ ys, y ≠ 3) → Alive b d0 gap m0 m before tr s →
      ∃ tr' s', Alive b d0 gap m0 m before tr' s' ∧ s'.d.nv = s.d.nv ∧
        (heardIn tr').2 = (heardIn tr).2 ++ ys.map fun y => (now, y) := by
  intro ys
  induction ys with
  | nil => intro tr s _ h; exact ⟨tr, s, h, rfl, by simp⟩
  | cons y ys ih =>
    intro tr s hy h
    obtain ⟨s1, l, h1, h2, h3⟩ := alive_step h t now k conn y
    have hu := heard_snoc tr (t := t) (now := now) (k := k) (conn := conn) (y := y) (l := l) h.up
    have a1 : Alive b d0 gap m0 m before (tr ++ [⟨t, .byte now k conn y, l⟩]) s1 :=
      { boot := h.boot
        run := .snoc h.run h1
        kept := by
          intro z hz
          rcases List.mem_append.1 hz with hz | hz
          · exact h.kept z hz
          · rw [List.mem_singleton.1 hz]; exact h2
        since := .other h.since (fun x => x) fun ⟨ts, gs, _, _, _, _, e, _, he⟩ => by
          cases e
          exact hy y (by simp) (ends_etx he)
        up := by rw [hu]
        url := by rw [h3]; exact h.url }
    obtain ⟨tr', s', i1, i2, i3⟩ := ih _ s1 (fun z hz => hy z (by simp [hz])) a1
    exact ⟨tr', s', i1, i2.trans h3, by rw [i3, hu]; simp⟩

/-- A frame of the meter can come at any time, and the device is then ready for the next one. -/
theorem alive_frame {b : Build} {d0 : Device} {gap m0 m before : Nat} {tr s} (h : Alive b d0 gap m0 m before tr s)
    (hf : s.d.nv.config.httpreq.freq.toNat * 1000 + gap ≤ 4294967296 ∧
      s.d.nv.config.jeedom.freq.toNat * 1000 + gap ≤ 4294967296 ∧
      s.d.nv.config.emoncms.freq.toNat * 1000 + gap ≤ 4294967296 ∧ s.d.nv.config.sseFreq.toNat * 1000 + gap ≤ 4294967296)
    {gs : List RawGroup} (hv : ValidFrame gs) (h3 : ∀ y ∈ gs.flatMap RawGroup.wire, y ≠ 3) (ts : TimeVal) {t : Nat}
    (h1 : before ≤ t) (h2 : t ≤ before + gap) :
    ∃ tr' s1 s' x, Waiting b d0 gap m0 m before tr' s1 s' x ts gs ∧ x.at_ = t ∧ s1.d.nv = s.d.nv ∧ s'.d.nv = s.d.nv ∧
      Alive b d0 gap m0 m t (tr' ++ [x]) s' := by
  obtain ⟨tr', s1, a1, a2, a3⟩ := alive_bytes t ts ⟨false, false, false, false, false⟩ (fun _ => true)
    (2 :: gs.flatMap RawGroup.wire) tr s (by
      intro y hy
      rcases List.mem_cons.1 hy with rfl | hy
      · decide
      · exact h3 y hy) h
  obtain ⟨s', l, b1, b2, b3⟩ := alive_step a1 t ts ⟨false, false, false, false, false⟩ (fun _ => true) 3
  have hu := heard_snoc tr' (t := t) (now := ts) (k := ⟨false, false, false, false, false⟩) (conn := fun _ => true)
    (y := 3) (l := l) a1.up
  have he : EndsWithFrame ((heardIn tr').2 ++ [(ts, 3)]) ts gs := by
    rw [a3]
    refine ⟨(heardIn tr).2, (gs.flatMap RawGroup.wire).map (fun y => (ts, y)) ++ [(ts, 3)], by simp, ?_, hv⟩
    unfold bytesOf frameWire
    simp [Function.comp_def]
  have hc : Completes tr' ⟨t, .byte ts ⟨false, false, false, false, false⟩ (fun _ => true) 3, l⟩ ts gs :=
    ⟨_, _, _, _, rfl, a1.up, he⟩
  refine ⟨tr', s1, s', ⟨t, .byte ts ⟨false, false, false, false, false⟩ (fun _ => true) 3, l⟩, ?_, rfl, a2,
    b3.trans a2, ?_⟩
  · rw [← a2] at hf
    exact ⟨h.boot, a1.run, a1.kept, a1.since, hf.1, hf.2.1, hf.2.2.1, hf.2.2.2, b1, hc, h1, h2⟩
  · exact
      { boot := h.boot
        run := .snoc a1.run b1
        kept := by
          intro z hz
          rcases List.mem_append.1 hz with hz | hz
          · exact a1.kept z hz
          · rw [List.mem_singleton.1 hz]; exact b2
        since := .frame a1.since hc h1 h2
        up := by rw [hu]
        url := by rw [b3]; exact a1.url }

/-- Jeedom once a minute. -/
def minuteConfig : Config :=
  { pushConfig with jeedom := { pushConfig.jeedom with port := 80, freq := 60 } }

/-- Started at any time, this device gets a frame 50 s later and another one 20 s after that: the first is not sent to
Jeedom, the second is. -/
example (b : Build) (mem : Vector (Option Byte) MAX_FRAME_SIZE) (m0 : Nat) : ∃ d0 tr1 tr2 s1 s1' s2 s2' x1 x2,
    Waiting b d0 60000 m0 m0 m0 tr1 s1 s1' x1 ⟨7, 5⟩ ((oneFrame "PAPP" "00100").map MeterGroup.raw) ∧
    Waiting b d0 60000 m0 m0 (m0 + 50000) tr2 s2 s2' x2 ⟨27, 5⟩ ((oneFrame "PAPP" "00200").map MeterGroup.raw) ∧
    x1.at_ = m0 + 50000 ∧ x2.at_ = m0 + 70000 ∧
    (requests x1.eff).filter Out.isJeedom = [] ∧
    (requests x2.eff).filter Out.isJeedom = [.jeedom
      { host := bs "jee", port := 80, url := bs "/j.php?api=K&PAPP=00200", data := none }] := by
  obtain ⟨d0, hb, hnv⟩ : ∃ d0, Device.boot b (eepromImage minuteConfig.stamp) mem [] [] .ok .ok .ok = .ok d0 ∧
      d0.nv.config = minuteConfig.stamp.securize := by
    unfold Device.boot
    rw [configSetup_image, ok_bind]
    have : ∀ s : Nv, s.wifiSetup [] [] .ok = .ok s := by
      intro s
      unfold Nv.wifiSetup
      split <;> simp [pure_ok]
    rw [this, ok_bind]
    exact ⟨_, rfl, rfl⟩
  have hc : ∀ P : Config → Prop, P minuteConfig.stamp.securize → P d0.nv.config := fun P h => by rw [hnv]; exact h
  have a0 : Alive b d0 60000 m0 m0 m0 [] ⟨d0, Clocks.make (UInt32.ofNat m0)⟩ :=
    { boot := ⟨_, _, _, _, _, _, _, hb⟩
      run := .nil
      kept := by simp
      since := .start
      up := rfl
      url := hc UrlSafe (urlSafe_of ⟨[], List.replicate 150 0, by decide +kernel, Or.inl (by simp)⟩) }
  have hf : ∀ s : Clocked, s.d.nv = d0.nv → s.d.nv.config.httpreq.freq.toNat * 1000 + 60000 ≤ 4294967296 ∧
      s.d.nv.config.jeedom.freq.toNat * 1000 + 60000 ≤ 4294967296 ∧
      s.d.nv.config.emoncms.freq.toNat * 1000 + 60000 ≤ 4294967296 ∧
      s.d.nv.config.sseFreq.toNat * 1000 + 60000 ≤ 4294967296 := by
    intro s hs
    rw [hs]
    exact hc (fun c => c.httpreq.freq.toNat * 1000 + 60000 ≤ 4294967296 ∧
      c.jeedom.freq.toNat * 1000 + 60000 ≤ 4294967296 ∧
      c.emoncms.freq.toNat * 1000 + 60000 ≤ 4294967296 ∧
      c.sseFreq.toNat * 1000 + 60000 ≤ 4294967296) (by decide +kernel)
  obtain ⟨tr1, s1, s1', x1, w1, t1, n1, n1', a1⟩ := alive_frame a0 (hf _ rfl)
    (oneFrame_valid "PAPP" "00100" (by decide +kernel) (by decide +kernel) (by decide +kernel) (by decide +kernel))
    (by decide +kernel) ⟨7, 5⟩ (t := m0 + 50000) (by omega) (by omega)
  obtain ⟨tr2, s2, s2', x2, w2, t2, n2, n2', a2⟩ := alive_frame a1 (hf _ n1')
    (oneFrame_valid "PAPP" "00200" (by decide +kernel) (by decide +kernel) (by decide +kernel) (by decide +kernel))
    (by decide +kernel) ⟨27, 5⟩ (t := m0 + 70000) (by omega) (by omega)
  have legal : ∀ v, (∀ b ∈ bs v, printable b = true) → ∀ g ∈ oneFrame "PAPP" v, g.Legal := fun v hv =>
    oneFrame_legal "PAPP" v (by decide +kernel) hv (by decide +kernel)
  have texts : HasText d0.nv.config.jeedom.host (bs "jee") ∧ HasText d0.nv.config.jeedom.url (bs "/j.php") ∧
      HasText d0.nv.config.jeedom.apikey (bs "K") ∧ HasText d0.nv.config.jeedom.adco (bs "42") ∧
      d0.nv.config.jeedom.port = 80 :=
    hc (fun c => HasText c.jeedom.host (bs "jee") ∧ HasText c.jeedom.url (bs "/j.php") ∧
      HasText c.jeedom.apikey (bs "K") ∧ HasText c.jeedom.adco (bs "42") ∧ c.jeedom.port = 80)
      (by unfold HasText; decide +kernel)
  have asked : askedMs (publicSettings d0.nv.config) "jdom_host" "jdom_port" "jdom_freq" = some 60000 :=
    hc (fun c => askedMs (publicSettings c) "jdom_host" "jdom_port" "jdom_freq" = some 60000) (by decide +kernel)
  refine ⟨d0, tr1, tr2, s1, s1', s2, s2', x1, x2, w1, w2, t1, t2, ?_, ?_⟩
  · have e : s1.d.nv = d0.nv := n1
    obtain ⟨q1, q2, q3, q4, q5⟩ := texts
    rw [← e] at q1 q2 q3 q4 asked
    refine (c85_jeedom w1 (legal _ (by decide +kernel)) q1 q2 q3 q4).2 ?_
    rw [asked, t1]
    rintro ⟨k, h1, h2⟩
    omega
  · have e : s2.d.nv = d0.nv := n2.trans n1'
    obtain ⟨q1, q2, q3, q4, q5⟩ := texts
    rw [← e] at q1 q2 q3 q4 q5 asked
    rw [(c85_jeedom w2 (legal _ (by decide +kernel)) q1 q2 q3 q4).1 (by
      rw [asked, t2]
      exact ⟨1, by omega, by omega⟩), q5]
    have : jeedomUrl (bs "/j.php") (bs "K") (bs "42") (meterPairs (oneFrame "PAPP" "00200")) =
      bs "/j.php?api=K&PAPP=00200" := by decide +kernel
    rw [this]

end Wifinfo
