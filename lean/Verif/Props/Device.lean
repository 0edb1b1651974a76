import Verif.Props.Sse
import Verif.Props.NotifyRun

/-!
# C51 and C57: the whole device

A run starts with a boot and continues with any sequence of events.  `hears` (Spec/Stream.lean) says
which bytes reach the decoder, `Frames` which frames these bytes contain.
-/

namespace Wifinfo
open Spec

/-- The frames contained in a byte history, latest first: one for each prefix that ends with a complete
valid frame. -/
inductive Frames : List (TimeVal × Byte) → List (TimeVal × List RawGroup) → Prop
  | nil : Frames [] []
  | skip {h l x} : Frames h l → (¬ ∃ ts gs, EndsWithFrame (h ++ [x]) ts gs) → Frames (h ++ [x]) l
  | frame {h l x ts gs} : Frames h l → EndsWithFrame (h ++ [x]) ts gs → Frames (h ++ [x]) ((ts, gs) :: l)

/-- What is true of a device after a run: `up` and `h` are what `hears` says, `fs` the frames. -/
structure Device.Inv (w : World) (d : Device) (up : Bool) (h : List (TimeVal × Byte))
    (fs : List (TimeVal × List RawGroup)) : Prop where
  nv : NvReach d.nv
  pause : d.tic.pause = up
  dec : ∃ mem : Mem, mem.length = 350 ∧ (Dec.init mem).puts h = .ok d.tic.dec
  frames : Frames h fs
  tinfo : TinfoReach d.tic.tinfo fs
  ns : ∃ xs os, (∀ x ∈ xs, x.Ok) ∧ notifRun w NotifState.init xs = .ok (d.tic.ns, os) ∧
    xs.map Rcv.gs = (fs.map Prod.snd).reverse

theorem puts_snoc {d d' d'' : Dec} {h x} (h1 : d.puts h = .ok d') (h2 : d'.put x.1 x.2 = .ok d'') :
    d.puts (h ++ [x]) = .ok d'' := by
  induction h generalizing d with
  | nil =>
    obtain rfl := Except.ok.inj h1
    simp only [List.nil_append, Dec.puts]
    rw [h2]; rfl
  | cons y h ih =>
    obtain ⟨d1, h3, h4⟩ := bind_ok h1
    simp only [List.cons_append, Dec.puts]
    rw [h3]
    exact ih h4

theorem notifRun_add {w : World} {x : Rcv} : ∀ {xs : List Rcv} {s s' s'' : NotifState} {os o},
    notifRun w s xs = .ok (s', os) → ticNotifs w x.c x.tm x.k x.t s' = .ok (s'', o) →
    notifRun w s (xs ++ [x]) = .ok (s'', os ++ [o]) := by
  intro xs
  induction xs with
  | nil =>
    intro s s' s'' os o h1 h2
    obtain ⟨rfl, rfl⟩ := Prod.mk.inj (Except.ok.inj h1)
    show (ticNotifs w x.c x.tm x.k x.t s >>= fun p => notifRun w p.1 [] >>= fun q =>
      pure (q.1, p.2 :: q.2)) = _
    rw [h2]; rfl
  | cons y xs ih =>
    intro s s' s'' os o h1 h2
    obtain ⟨⟨s1, o1⟩, h3, h4⟩ := bind_ok (show notifRun w s (y :: xs) = _ from h1)
    obtain ⟨⟨s2, o2⟩, h5, h6⟩ := bind_ok h4
    obtain ⟨rfl, rfl⟩ := Prod.mk.inj (Except.ok.inj h6)
    show (ticNotifs w y.c y.tm y.k y.t s >>= fun p => notifRun w p.1 (xs ++ [x]) >>= fun q =>
      pure (q.1, p.2 :: q.2)) = _
    rw [h3, ok_bind, ih h5 h2]; rfl

theorem boot_inv {b : Build} {f m a p k1 k2 k3 d} (h : Device.boot b f m a p k1 k2 k3 = .ok d) :
    d.Inv b.world false [] [] := by
  obtain ⟨nv, h1, h⟩ := bind_ok h
  obtain ⟨nv', h2, h⟩ := bind_ok h
  rw [← Except.ok.inj h]
  exact
    { nv := .step (op := .wifi a p k3) (.boot h1) h2
      pause := rfl
      dec := ⟨m.toList, Vector.length_toList, rfl⟩
      frames := .nil
      tinfo := .init
      ns := ⟨[], [], by simp, rfl, rfl⟩ }

/-- A byte on a device that listens. -/
theorem byte_inv {b : Build} {d d' : Device} {h fs now k conn x l} (hd : d.Inv b.world false h fs)
    (hs : d.byte b now k conn x = .ok (d', l)) :
    d'.nv = d.nv ∧ d'.timers = d.timers ∧ d'.updOk = d.updOk ∧ d'.tic.pause = false ∧
    (((¬ ∃ ts gs, EndsWithFrame (h ++ [(now, x)]) ts gs) ∧ d'.Inv b.world false (h ++ [(now, x)]) fs ∧
        l = [] ∧ d'.sse = d.sse) ∨
     ∃ ts gs out, EndsWithFrame (h ++ [(now, x)]) ts gs ∧
        d'.Inv b.world false (h ++ [(now, x)]) ((ts, gs) :: fs) ∧
        ticNotifs b.world d.nv.config d.timers { k with clients := !d.sse.clients.isEmpty } d'.tic.tinfo
          d.tic.ns = .ok (d'.tic.ns, out) ∧
        (d'.sse, l) = deliver conn d.sse out) := by
  obtain ⟨hn, hp, ⟨mem, hm, hdec⟩, hf, ht, ⟨xs, os, hx, hr, hg⟩⟩ := hd
  obtain ⟨⟨tic, out⟩, h1, hs⟩ := bind_ok hs
  obtain ⟨e1, rfl⟩ := Prod.mk.inj (Except.ok.inj hs)
  subst e1
  unfold Tic.decode at h1
  rw [hp, if_neg (by simp)] at h1
  obtain ⟨dc, h2, h1⟩ := bind_ok h1
  have h3 : (Dec.init mem).puts (h ++ [(now, x)]) = .ok dc := puts_snoc hdec h2
  have hiff := c02_ready_iff_valid_frame mem hm _ dc h3
  dsimp only at h1
  split at h1
  · rename_i hrd
    obtain ⟨ts, gs, he⟩ := hiff.1 hrd
    obtain ⟨t, h4, h1⟩ := bind_ok h1
    obtain ⟨⟨ns, o⟩, h5, h1⟩ := bind_ok h1
    obtain ⟨e2, e3⟩ := Prod.mk.inj (Except.ok.inj h1)
    subst e2 e3
    refine ⟨rfl, rfl, rfl, rfl, Or.inr ⟨ts, gs, o, he, ?_, h5, rfl⟩⟩
    have hreach : TinfoReach t ((ts, gs) :: fs) := .copy ht hm h3 he h4
    exact
      { nv := hn
        pause := rfl
        dec := ⟨mem, hm, h3⟩
        frames := .frame hf he
        tinfo := hreach
        ns := ⟨xs ++ [⟨d.nv.config, d.timers, { k with clients := !d.sse.clients.isEmpty }, t, gs⟩],
          os ++ [o], by
            intro y hy
            rcases List.mem_append.1 hy with hy | hy
            · exact hx y hy
            · rw [List.mem_singleton.1 hy]; exact ⟨ts, fs, hreach⟩,
          notifRun_add hr h5, by simp [hg]⟩ }
  · rename_i hrd
    obtain ⟨e2, e3⟩ := Prod.mk.inj (Except.ok.inj h1)
    subst e2 e3
    have hno : ¬ ∃ ts gs, EndsWithFrame (h ++ [(now, x)]) ts gs := fun he => hrd (hiff.2 he)
    exact ⟨rfl, rfl, rfl, rfl, Or.inl ⟨hno,
      { nv := hn, pause := rfl, dec := ⟨mem, hm, h3⟩, frames := .skip hf hno, tinfo := ht,
        ns := ⟨xs, os, hx, hr, hg⟩ }, rfl, rfl⟩⟩

/-- What a request to a handler leaves as it was. -/
theorem handle_tic {b : Build} {d d' : Device} {e : Env} {r : Req} {l}
    (h : d.handle b e r = .ok (d', l)) : d'.tic = d.tic ∧ (NvReach d.nv → NvReach d'.nv) := by
  have sj : ∀ {g}, sendJson d r g = .ok (d', l) → d' = d := by
    intro g h
    obtain ⟨⟨a, ef⟩, _, h⟩ := bind_ok h
    dsimp only at h
    split at h
    · exact ((Prod.mk.inj (Except.ok.inj h)).1).symm
    · obtain ⟨s, _, h⟩ := bind_ok h
      exact ((Prod.mk.inj (Except.ok.inj h)).1).symm
  unfold Device.handle at h
  split at h
  · obtain ⟨⟨ok, ef⟩, _, h⟩ := bind_ok h
    dsimp only at h
    split at h
    · split at h <;> (obtain ⟨rfl, _⟩ := Prod.mk.inj (Except.ok.inj h); exact ⟨rfl, id⟩)
    · obtain ⟨rfl, _⟩ := Prod.mk.inj (Except.ok.inj h); exact ⟨rfl, id⟩
  · obtain ⟨⟨ok, ef⟩, _, h⟩ := bind_ok h
    obtain ⟨rfl, _⟩ := Prod.mk.inj (Except.ok.inj h); exact ⟨rfl, id⟩
  · obtain ⟨⟨a, ef⟩, _, h⟩ := bind_ok h
    dsimp only at h
    split at h
    · obtain ⟨rfl, _⟩ := Prod.mk.inj (Except.ok.inj h); exact ⟨rfl, id⟩
    · obtain ⟨⟨nv, code⟩, h1, h⟩ := bind_ok h
      obtain ⟨rfl, _⟩ := Prod.mk.inj (Except.ok.inj h)
      exact ⟨rfl, fun hn => .step hn (step_form h1)⟩
  · rw [sj h]; exact ⟨rfl, id⟩
  · rw [sj h]; exact ⟨rfl, id⟩
  · rw [sj h]; exact ⟨rfl, id⟩
  · rw [sj h]; exact ⟨rfl, id⟩
  · rw [sj h]; exact ⟨rfl, id⟩
  · rw [sj h]; exact ⟨rfl, id⟩
  · rw [sj h]; exact ⟨rfl, id⟩
  · obtain ⟨⟨ok, ef⟩, _, h⟩ := bind_ok h
    dsimp only at h
    split at h
    · obtain ⟨nv, h1, h⟩ := bind_ok h
      obtain ⟨rfl, _⟩ := Prod.mk.inj (Except.ok.inj h)
      exact ⟨rfl, fun hn => .step (op := .factoryReset _ _) hn h1⟩
    · obtain ⟨rfl, _⟩ := Prod.mk.inj (Except.ok.inj h); exact ⟨rfl, id⟩
  · obtain ⟨⟨ok, ef⟩, _, h⟩ := bind_ok h
    obtain ⟨rfl, _⟩ := Prod.mk.inj (Except.ok.inj h); exact ⟨rfl, id⟩
  · obtain ⟨rfl, _⟩ := Prod.mk.inj (Except.ok.inj h); exact ⟨rfl, id⟩
  · obtain ⟨⟨ok, ef⟩, _, h⟩ := bind_ok h
    obtain ⟨rfl, _⟩ := Prod.mk.inj (Except.ok.inj h); exact ⟨rfl, id⟩
  · obtain ⟨⟨ok, ef⟩, _, h⟩ := bind_ok h
    obtain ⟨rfl, _⟩ := Prod.mk.inj (Except.ok.inj h); exact ⟨rfl, id⟩
  · obtain ⟨x, _, h⟩ := bind_ok h
    obtain ⟨rfl, _⟩ := Prod.mk.inj (Except.ok.inj h); exact ⟨rfl, id⟩
  · obtain ⟨rfl, _⟩ := Prod.mk.inj (Except.ok.inj h); exact ⟨rfl, id⟩
  · obtain ⟨rfl, _⟩ := Prod.mk.inj (Except.ok.inj h); exact ⟨rfl, id⟩
  · obtain ⟨x, _, h⟩ := bind_ok h
    obtain ⟨rfl, _⟩ := Prod.mk.inj (Except.ok.inj h); exact ⟨rfl, id⟩

/-- What the upload handler leaves as it was. -/
theorem upload_tic (b : Build) (d : Device) (u : UploadEv) :
    (d.upload b u).1.nv = d.nv ∧ (d.upload b u).1.timers = d.timers ∧
    (d.upload b u).1.tic = { d.tic with pause := uploading d.tic.pause u } := by
  cases u with
  | start f n ok e => cases ok <;> exact ⟨rfl, rfl, rfl⟩
  | write s ok e =>
    cases ok
    · refine ⟨rfl, rfl, ?_⟩
      simp [Device.upload, Device.updFinish, uploading]
    · refine ⟨rfl, rfl, ?_⟩
      simp [Device.upload, uploading]
  | fin e => exact ⟨rfl, rfl, rfl⟩
  | abort e => exact ⟨rfl, rfl, rfl⟩

theorem Device.Inv.same {w : World} {d d' : Device} {up h fs} (hd : d.Inv w up h fs)
    (hn : NvReach d'.nv) (ht : d'.tic = d.tic) : d'.Inv w up h fs := by
  obtain ⟨_, hp, hdec, hf, ht', hns⟩ := hd
  exact ⟨hn, by rw [ht]; exact hp, by rw [ht]; exact hdec, hf, by rw [ht]; exact ht',
    by rw [ht]; exact hns⟩

/-- Any event. -/
theorem step_inv {b : Build} {d d' : Device} {up h fs ev l} (hd : d.Inv b.world up h fs)
    (hs : d.step b ev = .ok (d', l)) :
    ∃ fs', d'.Inv b.world (hears up h [ev]).1 (hears up h [ev]).2 fs' := by
  cases ev with
  | boot f m a p k1 k2 k3 =>
    obtain ⟨x, h1, hs⟩ := bind_ok hs
    obtain ⟨rfl, rfl⟩ := Prod.mk.inj (Except.ok.inj hs)
    exact ⟨[], boot_inv h1⟩
  | byte now k conn x =>
    cases up with
    | true =>
      refine ⟨fs, ?_⟩
      obtain ⟨⟨tic, out⟩, h1, hs⟩ := bind_ok hs
      obtain ⟨rfl, rfl⟩ := Prod.mk.inj (Except.ok.inj hs)
      unfold Tic.decode at h1
      rw [hd.pause, if_pos rfl] at h1
      obtain ⟨e, -⟩ := Prod.mk.inj (Except.ok.inj h1)
      exact hd.same hd.nv e.symm
    | false =>
      obtain ⟨_, _, _, _, ⟨_, h1, _⟩ | ⟨ts, gs, out, _, h1, _⟩⟩ := byte_inv hd hs
      · exact ⟨fs, h1⟩
      · exact ⟨_, h1⟩
  | poll conn =>
    obtain ⟨rfl, rfl⟩ := Prod.mk.inj (Except.ok.inj hs)
    exact ⟨fs, hd.same hd.nv rfl⟩
  | upload r u =>
    have e := Except.ok.inj hs
    obtain ⟨h1, h2, h3⟩ := upload_tic b d u
    rw [e] at h1 h2 h3
    obtain ⟨hn, hp, hdec, hf, ht', hns⟩ := hd
    refine ⟨fs, ⟨by rw [h1]; exact hn, ?_, by rw [h3]; exact hdec, hf, by rw [h3]; exact ht',
      by rw [h3]; exact hns⟩⟩
    rw [h3]
    show uploading d.tic.pause u = _
    rw [hp]; rfl
  | handle r e =>
    obtain ⟨h1, h2⟩ := handle_tic hs
    exact ⟨fs, hd.same (h2 hd.nv) h1⟩
  | cliSse t conn =>
    obtain ⟨rfl, rfl⟩ := Prod.mk.inj (Except.ok.inj hs)
    exact ⟨fs, hd.same hd.nv rfl⟩
  | cliTimers =>
    obtain ⟨rfl, rfl⟩ := Prod.mk.inj (Except.ok.inj hs)
    exact ⟨fs, hd.same hd.nv rfl⟩
  | cliWifi a p k =>
    obtain ⟨nv, h1, hs⟩ := bind_ok hs
    obtain ⟨rfl, rfl⟩ := Prod.mk.inj (Except.ok.inj hs)
    exact ⟨fs, hd.same (.step (op := .cliWifi _ _ _) hd.nv h1) rfl⟩
  | cliAp a p k =>
    obtain ⟨nv, h1, hs⟩ := bind_ok hs
    obtain ⟨rfl, rfl⟩ := Prod.mk.inj (Except.ok.inj hs)
    exact ⟨fs, hd.same (.step (op := .cliAp _ _ _) hd.nv h1) rfl⟩
  | cliReset k =>
    obtain ⟨rfl, rfl⟩ := Prod.mk.inj (Except.ok.inj hs)
    exact ⟨fs, hd.same (.step (op := .espReset k) hd.nv rfl) rfl⟩

theorem hears_cons (up : Bool) (h : List (TimeVal × Byte)) (ev : Event) (r : List Event) :
    hears up h (ev :: r) = hears (hears up h [ev]).1 (hears up h [ev]).2 r := by
  cases ev <;> rfl

theorem run_inv {b : Build} : ∀ (evs : List Event) {d d' : Device} {up h fs es}, d.Inv b.world up h fs →
    d.run b evs = .ok (d', es) →
    ∃ fs', d'.Inv b.world (hears up h evs).1 (hears up h evs).2 fs' := by
  intro evs
  induction evs with
  | nil =>
    intro d d' up h fs es hd hs
    obtain ⟨rfl, rfl⟩ := Prod.mk.inj (Except.ok.inj hs)
    exact ⟨fs, hd⟩
  | cons ev r ih =>
    intro d d' up h fs es hd hs
    obtain ⟨⟨d1, l⟩, h1, hs⟩ := bind_ok hs
    obtain ⟨⟨d2, ls⟩, h2, hs⟩ := bind_ok hs
    obtain ⟨rfl, rfl⟩ := Prod.mk.inj (Except.ok.inj hs)
    obtain ⟨fs1, h3⟩ := step_inv hd h1
    rw [hears_cons]
    exact ih h3 h2

/-! ## C51 -/

/-- **C51.** After any run, what the decoder has received since the last boot is exactly what was sent
while no upload was under way, and the frame on display and the previous ones are exactly the frames
contained in these bytes. -/
theorem c51_heard {b : Build} {f m a p k1 k2 k3} {d0 d : Device} {evs : List Event} {es}
    (h0 : Device.boot b f m a p k1 k2 k3 = .ok d0) (h : d0.run b evs = .ok (d, es)) :
    (∃ mem : Mem, mem.length = 350 ∧ (Dec.init mem).puts (hears false [] evs).2 = .ok d.tic.dec) ∧
    ∃ fs, Frames (hears false [] evs).2 fs ∧ TinfoReach d.tic.tinfo fs := by
  obtain ⟨fs, hi⟩ := run_inv evs (boot_inv h0) h
  exact ⟨hi.dec, fs, hi.frames, hi.tinfo⟩

/-- The frames of a history are determined by it. -/
theorem frames_unique : ∀ {h fs fs'}, Frames h fs → Frames h fs' → fs = fs' := by
  intro h fs fs' h1
  induction h1 generalizing fs' with
  | nil =>
    intro h2
    generalize hh : ([] : List (TimeVal × Byte)) = h at h2
    cases h2 with
    | nil => rfl
    | skip _ _ => simp at hh
    | frame _ _ => simp at hh
  | @skip h l x g1 g2 ih =>
    intro h2
    generalize hh : h ++ [x] = h' at h2
    cases h2 with
    | nil => simp at hh
    | skip q1 q2 =>
      obtain ⟨rfl, e⟩ := List.append_inj' hh rfl
      exact ih q1
    | frame q1 q2 => exact absurd ⟨_, _, hh ▸ q2⟩ g2
  | @frame h l x ts gs g1 g2 ih =>
    intro h2
    generalize hh : h ++ [x] = h' at h2
    cases h2 with
    | nil => simp at hh
    | skip q1 q2 => exact absurd ⟨_, _, hh ▸ g2⟩ q2
    | frame q1 q2 =>
      rw [← hh] at q2
      obtain ⟨rfl, rfl⟩ := c02_frame_unique g2 q2
      obtain ⟨rfl, e⟩ := List.append_inj' hh rfl
      rw [ih q1]

/-- **C51.** While an upload is under way a byte of the meter has no effect at all. -/
theorem c51_ignored {b : Build} {f m a p k1 k2 k3} {d0 d : Device} {evs : List Event} {es}
    (h0 : Device.boot b f m a p k1 k2 k3 = .ok d0) (h : d0.run b evs = .ok (d, es))
    (hu : (hears false [] evs).1 = true) (now : TimeVal) (k : Tick) (conn : Nat → Bool) (x : Byte) :
    d.step b (.byte now k conn x) = .ok (d, []) := by
  obtain ⟨fs, hi⟩ := run_inv evs (boot_inv h0) h
  have e : ∀ k', d.tic.decode b.world d.nv.config d.timers now k' x = .ok (d.tic, []) := by
    intro k'
    unfold Tic.decode
    rw [hi.pause, hu, if_pos rfl]
    rfl
  show d.byte b now k conn x = _
  unfold Device.byte
  dsimp only
  rw [e]
  rfl

/-- **C51.** When no upload is under way, a byte that completes a frame makes it the frame on display. -/
theorem c51_listens {b : Build} {f m a p k1 k2 k3} {d0 d d' : Device} {evs : List Event} {es l}
    (h0 : Device.boot b f m a p k1 k2 k3 = .ok d0) (h : d0.run b evs = .ok (d, es))
    (hu : (hears false [] evs).1 = false) {now : TimeVal} {k : Tick} {conn : Nat → Bool} {x : Byte} {ts gs}
    (he : EndsWithFrame ((hears false [] evs).2 ++ [(now, x)]) ts gs)
    (hs : d.step b (.byte now k conn x) = .ok (d', l)) :
    ∃ fs, TinfoReach d.tic.tinfo fs ∧ TinfoReach d'.tic.tinfo ((ts, gs) :: fs) := by
  obtain ⟨fs, hi⟩ := run_inv evs (boot_inv h0) h
  rw [hu] at hi
  refine ⟨fs, hi.tinfo, ?_⟩
  obtain ⟨_, _, _, _, ⟨h1, _⟩ | ⟨ts', gs', out, h1, h2, _⟩⟩ := byte_inv hi hs
  · exact absurd ⟨_, _, he⟩ h1
  · obtain ⟨rfl, rfl⟩ := c02_frame_unique he h1
    exact h2.tinfo

/-! ## C57 -/

/-- The timers follow the configuration until a factory reset (after which the device restarts). -/
theorem save_parts {s : Nv} (hs : NvReach s) {c : Config} (h1 : c.httpreq = s.config.httpreq)
    (h2 : c.jeedom = s.config.jeedom) (h3 : c.emoncms = s.config.emoncms)
    (h4 : c.sseFreq = s.config.sseFreq) (k : Commit) :
    ticMakeTimers (Nv.configSave { s with config := c } k).1.config = ticMakeTimers s.config := by
  rw [Nv.configSave_eq]
  have e := reach_secured hs
  have e1 : c.stamp.securize.httpreq = s.config.httpreq := by
    rw [← e]
    show c.securize.httpreq = _
    unfold Config.securize
    dsimp only
    rw [h1]
  have e2 : c.stamp.securize.jeedom = s.config.jeedom := by
    rw [← e]
    show c.securize.jeedom = _
    unfold Config.securize
    dsimp only
    rw [h2]
  have e3 : c.stamp.securize.emoncms = s.config.emoncms := by
    rw [← e]
    show c.securize.emoncms = _
    unfold Config.securize
    dsimp only
    rw [h3]
  have e4 : c.stamp.securize.sseFreq = s.config.sseFreq := h4
  unfold ticMakeTimers
  dsimp only
  rw [e1, e2, e3, e4]

theorem handle_timers {b : Build} {d d' : Device} {e : Env} {r : Req} {l}
    (h : d.handle b e r = .ok (d', l)) (hr : .eraseSdk ∉ l) (ht : d.timers = ticMakeTimers d.nv.config) :
    d'.timers = ticMakeTimers d'.nv.config := by
  have sj : ∀ {g}, sendJson d r g = .ok (d', l) → d' = d := by
    intro g h
    obtain ⟨⟨a, ef⟩, _, h⟩ := bind_ok h
    dsimp only at h
    split at h
    · exact ((Prod.mk.inj (Except.ok.inj h)).1).symm
    · obtain ⟨s, _, h⟩ := bind_ok h
      exact ((Prod.mk.inj (Except.ok.inj h)).1).symm
  unfold Device.handle at h
  split at h
  · obtain ⟨⟨ok, ef⟩, _, h⟩ := bind_ok h
    dsimp only at h
    split at h
    · split at h <;> (obtain ⟨rfl, _⟩ := Prod.mk.inj (Except.ok.inj h); exact ht)
    · obtain ⟨rfl, _⟩ := Prod.mk.inj (Except.ok.inj h); exact ht
  · obtain ⟨⟨ok, ef⟩, _, h⟩ := bind_ok h
    obtain ⟨rfl, _⟩ := Prod.mk.inj (Except.ok.inj h); exact ht
  · obtain ⟨⟨a, ef⟩, _, h⟩ := bind_ok h
    dsimp only at h
    split at h
    · obtain ⟨rfl, _⟩ := Prod.mk.inj (Except.ok.inj h); exact ht
    · obtain ⟨⟨nv, code⟩, h1, h⟩ := bind_ok h
      obtain ⟨rfl, _⟩ := Prod.mk.inj (Except.ok.inj h)
      rfl
  · rw [sj h]; exact ht
  · rw [sj h]; exact ht
  · rw [sj h]; exact ht
  · rw [sj h]; exact ht
  · rw [sj h]; exact ht
  · rw [sj h]; exact ht
  · rw [sj h]; exact ht
  · obtain ⟨⟨ok, ef⟩, _, h⟩ := bind_ok h
    dsimp only at h
    split at h
    · obtain ⟨nv, h1, h⟩ := bind_ok h
      obtain ⟨rfl, rfl⟩ := Prod.mk.inj (Except.ok.inj h)
      simp at hr
    · obtain ⟨rfl, _⟩ := Prod.mk.inj (Except.ok.inj h); exact ht
  · obtain ⟨⟨ok, ef⟩, _, h⟩ := bind_ok h
    obtain ⟨rfl, _⟩ := Prod.mk.inj (Except.ok.inj h); exact ht
  · obtain ⟨rfl, _⟩ := Prod.mk.inj (Except.ok.inj h); exact ht
  · obtain ⟨⟨ok, ef⟩, _, h⟩ := bind_ok h
    obtain ⟨rfl, _⟩ := Prod.mk.inj (Except.ok.inj h); exact ht
  · obtain ⟨⟨ok, ef⟩, _, h⟩ := bind_ok h
    obtain ⟨rfl, _⟩ := Prod.mk.inj (Except.ok.inj h); exact ht
  · obtain ⟨x, _, h⟩ := bind_ok h
    obtain ⟨rfl, _⟩ := Prod.mk.inj (Except.ok.inj h); exact ht
  · obtain ⟨rfl, _⟩ := Prod.mk.inj (Except.ok.inj h); exact ht
  · obtain ⟨rfl, _⟩ := Prod.mk.inj (Except.ok.inj h); exact ht
  · obtain ⟨x, _, h⟩ := bind_ok h
    obtain ⟨rfl, _⟩ := Prod.mk.inj (Except.ok.inj h); exact ht

theorem step_timers {b : Build} {d d' : Device} {ev l} (hn : NvReach d.nv)
    (hs : d.step b ev = .ok (d', l)) (hr : .eraseSdk ∉ l) (ht : d.timers = ticMakeTimers d.nv.config) :
    d'.timers = ticMakeTimers d'.nv.config := by
  cases ev with
  | boot f m a p k1 k2 k3 =>
    obtain ⟨x, h1, hs⟩ := bind_ok hs
    obtain ⟨rfl, rfl⟩ := Prod.mk.inj (Except.ok.inj hs)
    obtain ⟨nv, _, h1⟩ := bind_ok h1
    obtain ⟨nv', _, h1⟩ := bind_ok h1
    rw [← Except.ok.inj h1]
  | byte now k conn x =>
    obtain ⟨⟨tic, out⟩, h1, hs⟩ := bind_ok hs
    obtain ⟨rfl, rfl⟩ := Prod.mk.inj (Except.ok.inj hs)
    exact ht
  | poll conn =>
    obtain ⟨rfl, rfl⟩ := Prod.mk.inj (Except.ok.inj hs)
    exact ht
  | upload r u =>
    have e := Except.ok.inj hs
    obtain ⟨h1, h2, h3⟩ := upload_tic b d u
    rw [e] at h1 h2 h3
    rw [h1, h2]; exact ht
  | handle r e => exact handle_timers hs hr ht
  | cliSse t conn =>
    obtain ⟨rfl, rfl⟩ := Prod.mk.inj (Except.ok.inj hs)
    exact ht
  | cliTimers =>
    obtain ⟨rfl, rfl⟩ := Prod.mk.inj (Except.ok.inj hs)
    rfl
  | cliWifi a p k =>
    obtain ⟨nv, h1, hs⟩ := bind_ok hs
    obtain ⟨rfl, rfl⟩ := Prod.mk.inj (Except.ok.inj hs)
    obtain ⟨x, _, h1⟩ := bind_ok h1
    obtain ⟨y, _, h1⟩ := bind_ok h1
    rw [← Except.ok.inj h1]
    show d.timers = _
    rw [ht]
    exact (save_parts hn (c := { d.nv.config with ssid := x, psk := y }) rfl rfl rfl rfl k).symm
  | cliAp a p k =>
    obtain ⟨nv, h1, hs⟩ := bind_ok hs
    obtain ⟨rfl, rfl⟩ := Prod.mk.inj (Except.ok.inj hs)
    obtain ⟨x, _, h1⟩ := bind_ok h1
    obtain ⟨y, _, h1⟩ := bind_ok h1
    rw [← Except.ok.inj h1]
    show d.timers = _
    rw [ht]
    exact (save_parts hn (c := { d.nv.config with host := x, apPsk := y }) rfl rfl rfl rfl k).symm
  | cliReset k =>
    obtain ⟨rfl, rfl⟩ := Prod.mk.inj (Except.ok.inj hs)
    exact ht

theorem run_timers {b : Build} : ∀ (evs : List Event) {d d' : Device} {up h fs es}, d.Inv b.world up h fs →
    d.run b evs = .ok (d', es) → (∀ l ∈ es, .eraseSdk ∉ l) → d.timers = ticMakeTimers d.nv.config →
    d'.timers = ticMakeTimers d'.nv.config := by
  intro evs
  induction evs with
  | nil =>
    intro d d' up h fs es hd hs hr ht
    obtain ⟨rfl, rfl⟩ := Prod.mk.inj (Except.ok.inj hs)
    exact ht
  | cons ev r ih =>
    intro d d' up h fs es hd hs hr ht
    obtain ⟨⟨d1, l⟩, h1, hs⟩ := bind_ok hs
    obtain ⟨⟨d2, ls⟩, h2, hs⟩ := bind_ok hs
    obtain ⟨rfl, rfl⟩ := Prod.mk.inj (Except.ok.inj hs)
    obtain ⟨fs1, h3⟩ := step_inv hd h1
    exact ih h3 h2 (fun l hl => hr l (by simp [hl])) (step_timers hd.nv h1 (hr l (by simp)) ht)

theorem boot_timers {b : Build} {f m a p k1 k2 k3 d} (h : Device.boot b f m a p k1 k2 k3 = .ok d) :
    d.timers = ticMakeTimers d.nv.config := by
  obtain ⟨nv, _, h⟩ := bind_ok h
  obtain ⟨nv', _, h⟩ := bind_ok h
  rw [← Except.ok.inj h]

/-- A list of outputs without event, or with one event at the end. -/
theorem deliver_events (conn : Nat → Bool) (o : List Out) (ho : ∀ y ∈ o, y.isSse = false) (s : Sse)
    (r : List Out) : (deliver conn s (o ++ r)).1 = (deliver conn s r).1 ∧
      sseEffs (deliver conn s (o ++ r)).2 = sseEffs (deliver conn s r).2 := by
  induction o with
  | nil => exact ⟨rfl, rfl⟩
  | cons x o ih =>
    obtain ⟨h1, h2⟩ := ih fun y hy => ho y (by simp [hy])
    have hx := ho x (by simp)
    cases x with
    | sse d => simp [Out.isSse] at hx
    | http n r => exact ⟨h1, h2⟩
    | jeedom r => exact ⟨h1, h2⟩
    | emoncms r => exact ⟨h1, h2⟩

/-- What the clients get when the notifications of a frame are delivered. -/
theorem frame_events {w : World} {c : Config} {tm : Timers} {k : Tick} {t : Teleinfo} {s s' : NotifState} {out : List Out}
    {conn : Nat → Bool} {sse : Sse} {seen : Seen} {j : Str} (ha : sse.Agrees seen)
    (hk : k.clients = !sse.clients.isEmpty) (h : ticNotifs w c tm k t s = .ok (s', out))
    (hj : ticJsonDict w t none = .ok j) (x : Nat) :
    received x (sseEffs (deliver conn sse out).2) =
      if tm.sse.poll k.sse = true ∧ x ∈ seen.live ∧ conn x = true then [j] else [] := by
  obtain ⟨oh, oj, oe, os, g1, g2, g3, g4, g5, rfl⟩ := frame_parts h
  have hno : ∀ y ∈ oh ++ oj ++ oe, y.isSse = false := by
    intro y hy
    simp only [List.mem_append] at hy
    rcases hy with (hy | hy) | hy
    · obtain ⟨_, n, hn⟩ := http_parts g1 y hy
      obtain ⟨r, rfl, _⟩ := httpNotif_form hn
      rfl
    · rcases ite_nil g2 with rfl | ⟨-, g2⟩
      · simp at hy
      · rcases jeedom_form g2 with rfl | ⟨r, rfl, _⟩
        · simp at hy
        · rw [List.mem_singleton.1 hy]; rfl
    · rcases ite_nil g3 with rfl | ⟨-, g3⟩
      · simp at hy
      · rcases emoncms_form g3 with rfl | ⟨r, rfl, _⟩
        · simp at hy
        · rw [List.mem_singleton.1 hy]; rfl
  rw [(deliver_events conn _ hno sse os).2, ha.live]
  by_cases hp : tm.sse.poll k.sse = true
  · simp only [hp, true_and]
    by_cases hc : sse.clients = []
    · have : os = [] := by
        rcases g4 with e | ⟨_, e, _⟩
        · exact e
        · rw [hk, hc] at e; cases e
      rw [this, hc]
      simp [deliver, sseEffs, received]
    · have hos : os = [.sse j] := by
        rcases g4 with e | ⟨_, _, j', e1, e2⟩
        · exact absurd e (g5 hp (by rw [hk]; simpa using hc))
        · rw [hj] at e1
          rw [e2, Except.ok.inj e1]
      rw [hos]
      have e : sseEffs (deliver conn sse [.sse j]).2 = (sse.handle conn (some j)).2 := by
        show sseEffs ((sse.handle conn (some j)).2.map .sse ++ []) = _
        rw [List.append_nil, sseEffs_map]
      rw [e]
      exact ((c43_broadcast ha.nodup conn (some j)).2 x).1
  · have : os = [] := by
      rcases g4 with e | ⟨e, _⟩
      · exact e
      · exact absurd e hp
    rw [this, if_neg (fun h => hp h.1)]
    simp [deliver, sseEffs, received]

/-- **C57.** A device has run in any way; no upload is under way, the setting of the event rate is 0 and
the byte that arrives completes a frame.  Then every client connected gets exactly one event, the same
for all, which is the JSON of the frame now on display, and nobody else gets anything. -/
theorem c57_one_event {b : Build} {f m a p k1 k2 k3} {d0 d d' : Device} {evs : List Event} {es l}
    (h0 : Device.boot b f m a p k1 k2 k3 = .ok d0) (h : d0.run b evs = .ok (d, es))
    (hr : ∀ l ∈ es, Eff.eraseSdk ∉ l) (hz : d.nv.config.sseFreq = 0)
    (hu : (hears false [] evs).1 = false) {now : TimeVal} {k : Tick} {conn : Nat → Bool} {x : Byte} {ts gs}
    (he : EndsWithFrame ((hears false [] evs).2 ++ [(now, x)]) ts gs)
    (hs : d.step b (.byte now k conn x) = .ok (d', l)) {seen : Seen}
    (hk : Seen.none.follow (evs.zip es) = some seen) :
    ∃ fs j, TinfoReach d'.tic.tinfo ((ts, gs) :: fs) ∧ ticJsonDict b.world d'.tic.tinfo none = .ok j ∧
      ∀ c, received c (sseEffs l) = if c ∈ seen.live ∧ conn c = true then [j] else [] := by
  obtain ⟨fs, hi⟩ := run_inv evs (boot_inv h0) h
  rw [hu] at hi
  obtain ⟨seen', hk1, hk2⟩ := run_follow evs (by rw [boot_sse h0]; exact agrees_init) h
  obtain rfl : seen' = seen := by rw [hk] at hk1; exact (Option.some.inj hk1).symm
  have ht := run_timers evs (boot_inv h0) h hr (boot_timers h0)
  obtain ⟨_, _, _, _, ⟨h1, _⟩ | ⟨ts', gs', out, h1, h2, h3, h4⟩⟩ := byte_inv hi hs
  · exact absurd ⟨_, _, he⟩ h1
  · obtain ⟨rfl, rfl⟩ := c02_frame_unique he h1
    obtain ⟨j, hj⟩ := c27_safe b.world h2.tinfo none
    refine ⟨fs, j, h2.tinfo, hj, fun c => ?_⟩
    have hp : d.timers.sse.poll k.sse = true := by
      rw [ht]; unfold ticMakeTimers; dsimp only; rw [if_pos hz]; rfl
    have hl : l = (deliver conn d.sse out).2 := congrArg Prod.snd h4
    rw [hl, frame_events hk2 rfl h3 hj c]
    simp only [hp, true_and]

/-- **C57 (partial).** When the frame that is completed is a meter frame, that event is a JSON text which reads back
as the groups of the frame exactly when its texts have no quote and no backslash and its values are not
empty.  Missing with respect to the property as stated: other frames, for which it is false (see also
`c27_refuted_empty_value`, `c27_refuted_quote`). -/
theorem c57_parses_partial {b : Build} {f m a p k1 k2 k3} {d0 d d' : Device} {evs : List Event} {es l}
    (h0 : Device.boot b f m a p k1 k2 k3 = .ok d0) (h : d0.run b evs = .ok (d, es))
    (hr : ∀ l ∈ es, Eff.eraseSdk ∉ l) (hz : d.nv.config.sseFreq = 0)
    (hu : (hears false [] evs).1 = false) {now : TimeVal} {k : Tick} {conn : Nat → Bool} {x : Byte} {ts}
    {gs : List MeterGroup} (he : EndsWithFrame ((hears false [] evs).2 ++ [(now, x)]) ts (gs.map MeterGroup.raw))
    (hs : d.step b (.byte now k conn x) = .ok (d', l)) {seen : Seen}
    (hk : Seen.none.follow (evs.zip es) = some seen) (hus : ts.usec < 1000000)
    (hi : Plain (b.world.iso ts.sec)) (hl : ∀ g ∈ gs, g.Legal) :
    ∃ j sec, IsSeconds sec ts.sec ts.usec ∧
      (parseJson j = some (frameDict (b.world.iso ts.sec) sec none (meterPairs gs)) ↔
        ∀ g ∈ gs, (34 : Byte) ∉ g.label ++ g.value ∧ (92 : Byte) ∉ g.label ++ g.value ∧
          ∃ b ∈ g.value, b ≠ 46) ∧
      ∀ c, received c (sseEffs l) = if c ∈ seen.live ∧ conn c = true then [j] else [] := by
  obtain ⟨fs, j, h1, h2, h3⟩ := c57_one_event h0 h hr hz hu he hs hk
  obtain ⟨j', sec, g1, g2, g3⟩ := c27_meter_partial b.world h1 hus hi none hl
  obtain rfl : j = j' := by
    have : ticJsonDict b.world d'.tic.tinfo none = .ok j' := g1
    rw [h2] at this
    exact Except.ok.inj this
  exact ⟨j, sec, g2, g3, h3⟩

end Wifinfo
