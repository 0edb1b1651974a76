import Verif.Props.Period

/-!
# C60: nothing that happens to the device makes it fault

A step of the model ends in an error when the program reads or writes outside an object, reads a byte
that was never written, divides by zero or never ends.
-/

namespace Wifinfo
open Spec

namespace Spec

/-- A request with a path, at most 255 arguments, on a device that has a file system. -/
def Fine : Event → Prop
  | .handle r e => r.uri ≠ [] ∧ r.args.length ≤ 255 ∧ e.sys.fsTotal ≠ 0
  | _ => True

end Spec

theorem bindSafe {α β} {a : Res α} {f : α → Res β} (h : ∃ x, a = .ok x)
    (hf : ∀ x, a = .ok x → ∃ y, f x = .ok y) : ∃ y, a >>= f = .ok y := by
  obtain ⟨x, hx⟩ := h
  rw [hx]
  exact hf x hx

theorem put_ok {h : List (TimeVal × Byte)} {mem : Mem} (hm : mem.length = 350) {d : Dec}
    (hd : (Dec.init mem).puts h = .ok d) (now : TimeVal) (x : Byte) : ∃ d', d.put now x = .ok d' := by
  obtain ⟨d', h1, _⟩ := c01_decoder_memory_safe mem hm (h ++ [(now, x)])
  have key : ∀ (h : List (TimeVal × Byte)) {a b : Dec}, a.puts h = .ok d → a.puts (h ++ [(now, x)]) = .ok b →
      d.put now x = .ok b := by
    intro h
    induction h with
    | nil =>
      intro a b k1 k2
      obtain rfl := Except.ok.inj k1
      simp only [List.nil_append, Dec.puts] at k2
      obtain ⟨y, k3, k4⟩ := bind_ok k2
      obtain rfl := Except.ok.inj k4
      exact k3
    | cons y h ih =>
      intro a b k1 k2
      obtain ⟨a1, k3, k4⟩ := bind_ok k1
      simp only [List.cons_append, Dec.puts] at k2
      rw [k3] at k2
      exact ih k4 k2
  exact ⟨d', key h hd h1⟩

theorem value_ok (w : World) {t : Teleinfo} {l} (h : TinfoReach t l) (label : Str) :
    ∃ v, ticGetValue w t label = .ok v := by
  unfold ticGetValue
  split
  · obtain ⟨x, hx⟩ := c14_watt_total h 60 (by decide)
    rw [hx]
    exact ⟨_, rfl⟩
  · split
    · exact ⟨_, rfl⟩
    · split
      · exact ⟨_, rfl⟩
      · match l, h with
        | [], h =>
          have e : t = Teleinfo.init := (reach_inv h).2.2.2
          rw [e]
          exact ⟨none, rfl⟩
        | (ts, gs) :: l, h => exact ⟨_, c09_lookup (.copied h) label true⟩

theorem emon_ok {t : Teleinfo} {l} (h : TinfoReach t l) : ∃ s, ticEmoncmsData t.fr [] = .ok s := by
  match l, h with
  | [], h =>
    have e : t = Teleinfo.init := (reach_inv h).2.2.2
    rw [e]
    exact ⟨_, rfl⟩
  | (ts, gs) :: l, h =>
    obtain ⟨h1, h2, _⟩ := (reach_inv h).2.2.2
    exact ⟨_, emonData_spec h1 h2 []⟩

theorem files_ok (files : List (Str × Nat)) (total used : Nat) (restricted : Bool) :
    ∃ j, fsJson files total used restricted = .ok j := by
  cases restricted with
  | true => exact ⟨_, rfl⟩
  | false =>
    have e1 : ∀ (l : List (Str × Nat)) (t : List (List JMember)), ∃ t',
        l.foldl (fun t f => Jt.num t f.1 f.2) (jtState t) = jtState t' := by
      intro l
      induction l with
      | nil => intro t; exact ⟨t, rfl⟩
      | cons f l ih => intro t; rw [List.foldl_cons, jt_num]; exact ih _
    obtain ⟨t', h⟩ := e1 files []
    unfold fsJson
    simp only [Bool.false_eq_true, if_false]
    rw [jt_open, h, jt_finalize]
    exact ⟨_, rfl⟩

theorem getAuth_ok {s : Nv} (hs : NvReach s) (r : Req) : ∃ y, getAuth s.config r = .ok y := by
  obtain ⟨_, _, _, _, _, t1, t2, _⟩ := (terminated_iff _).1 (c32_terminated hs)
  unfold getAuth
  split
  · rw [cstr_ok t1, cstr_ok t2, ok_bind, ok_bind]
    split <;> exact ⟨_, rfl⟩
  · exact ⟨_, rfl⟩

/-- A request does not make the device fault, if the error page has at most 255 arguments and the system page a file system to show. -/
theorem request_ok {b : Build} {d : Device} {fs} (hn : NvReach d.nv) (ht : TinfoReach d.tic.tinfo fs)
    {r : Req} {e : Env} (hu : r.uri ≠ []) (ha : route b.cpuload e.static r.method r.uri = .notFound → r.args.length ≤ 255)
    (hf : route b.cpuload e.static r.method r.uri = .system → e.sys.fsTotal ≠ 0) : ∃ y, d.handle b e r = .ok y := by
  have aok : ∃ y, accessOk d.nv.config r = .ok y := bindSafe (getAuth_ok hn r) fun _ _ => ⟨_, rfl⟩
  have afull : ∃ y, accessFull d.nv.config r = .ok y := bindSafe (getAuth_ok hn r) fun x _ => by
    rcases x with ⟨a, ef⟩
    cases a <;> exact ⟨_, rfl⟩
  have json : ∀ {get : Bool → Res Str}, (∀ x, ∃ j, get x = .ok j) → ∃ y, sendJson d r get = .ok y := by
    intro get hg
    refine bindSafe (getAuth_ok hn r) fun x _ => ?_
    rcases x with ⟨a, ef⟩
    dsimp only
    split
    · exact ⟨_, rfl⟩
    · exact bindSafe (hg _) fun _ _ => ⟨_, rfl⟩
  unfold Device.handle
  cases hroute : route b.cpuload e.static r.method r.uri with
  | sse =>
    refine bindSafe aok fun x _ => ?_
    rcases x with ⟨ok, ef⟩
    dsimp only
    split
    · split <;> exact ⟨_, rfl⟩
    · exact ⟨_, rfl⟩
  | cpuload => exact bindSafe aok fun _ _ => ⟨_, rfl⟩
  | configForm =>
    refine bindSafe (getAuth_ok hn r) fun x _ => ?_
    rcases x with ⟨a, ef⟩
    dsimp only
    split
    · exact ⟨_, rfl⟩
    · refine bindSafe ?_ fun _ _ => ⟨_, rfl⟩
      by_cases hp : isPosted r.args "save" = true
      · obtain ⟨c, h1, _⟩ := handleForm_ok d.nv r.args (a = .restricted) e.commit hp
        exact ⟨_, h1⟩
      · exact ⟨(d.nv, 400), by simp [Nv.handleForm, hasArg_eq, hp]⟩
  | json => exact json fun _ => c27_safe _ ht _
  | tinfo => exact json fun _ => c28_safe _ ht
  | emoncms => exact json fun _ => emon_ok ht
  | system => exact json fun x => (c61_system_safe e.sys hn d.sse x).2 (hf hroute)
  | config => exact json fun x => c36_safe hn x
  | spiffs => exact json fun x => files_ok _ _ _ x
  | wifiscan => exact json fun x => ⟨_, rfl⟩
  | factoryReset =>
    refine bindSafe afull fun x _ => ?_
    rcases x with ⟨ok, ef⟩
    dsimp only
    split
    · obtain ⟨c, h1, _⟩ := configReset_ok d.nv b.world.chipId e.commit
      exact bindSafe ⟨_, h1⟩ fun _ _ => ⟨_, rfl⟩
    · exact ⟨_, rfl⟩
  | reset => exact bindSafe aok fun _ _ => ⟨_, rfl⟩
  | heartbeat => exact ⟨_, rfl⟩
  | updatePage => exact bindSafe afull fun _ _ => ⟨_, rfl⟩
  | updatePost => exact bindSafe afull fun _ _ => ⟨_, rfl⟩
  | root =>
    refine bindSafe ?_ fun _ _ => ⟨_, rfl⟩
    refine bindSafe (getAuth_ok hn r) fun x _ => ?_
    rcases x with ⟨a, ef⟩
    cases a
    · exact ⟨_, rfl⟩
    · dsimp only; split <;> exact ⟨_, rfl⟩
    · dsimp only; split <;> exact ⟨_, rfl⟩
  | version => exact ⟨_, rfl⟩
  | static p => exact ⟨_, rfl⟩
  | notFound =>
    refine bindSafe ?_ fun _ _ => ⟨_, rfl⟩
    obtain ⟨_, _, _, _, _, t1, t2, _⟩ := (terminated_iff _).1 (c32_terminated hn)
    unfold notFound
    rw [cstr_ok t1, cstr_ok t2, ok_bind, ok_bind]
    refine bindSafe ?_ fun v _ => ?_
    · split
      · cases hr : r.uri with
        | nil => exact absurd hr hu
        | cons x y => exact value_ok _ ht _
      · exact ⟨_, rfl⟩
    · cases v with
      | some v => exact ⟨_, rfl⟩
      | none =>
        dsimp only
        have ha := ha hroute
        have := notFoundLoop_ok r.args ha 257 0
        exact bindSafe ⟨_, this _ (by omega) (by omega)⟩ fun _ _ => ⟨_, rfl⟩

/-- A request does not make the device fault. -/
theorem c60_request {b : Build} {d : Device} {fs} (hn : NvReach d.nv) (ht : TinfoReach d.tic.tinfo fs)
    {r : Req} {e : Env} (hu : r.uri ≠ []) (ha : r.args.length ≤ 255) (hf : e.sys.fsTotal ≠ 0) :
    ∃ y, d.handle b e r = .ok y :=
  request_ok hn ht hu (fun _ => ha) fun _ => hf

/-- **C60.** In any state that a run can reach, an event does not make the device fault if the URL
setting is a safe one (C24). -/
theorem c60_step {b : Build} {d : Device} {up h fs} (hd : d.Inv b.world up h fs) (ev : Event)
    (hf : Fine ev) (hu : UrlSafe d.nv.config) : ∃ y, d.step b ev = .ok y := by
  cases ev with
  | boot flash mem ssid psk k1 k2 k3 =>
    obtain ⟨d', h1, _⟩ := device_boot_ok b (flash.getD d.nv.ee.flash) mem ssid psk k1 k2 k3
    exact bindSafe ⟨_, h1⟩ fun _ _ => ⟨_, rfl⟩
  | byte now k conn x =>
    obtain ⟨hn, hp, ⟨mem, hm, hdec⟩, _, ht, _⟩ := hd
    refine bindSafe ?_ fun _ _ => ⟨_, rfl⟩
    unfold Tic.decode
    split
    · exact ⟨_, rfl⟩
    · obtain ⟨dc, h1⟩ := put_ok hm hdec now x
      refine bindSafe ⟨_, h1⟩ fun dc' h1' => ?_
      have h3 : (Dec.init mem).puts (h ++ [(now, x)]) = .ok dc' := puts_snoc hdec h1'
      dsimp only
      split
      · rename_i hrd
        obtain ⟨ts, gs, he⟩ := (c02_ready_iff_valid_frame mem hm _ dc' h3).1 hrd
        obtain ⟨t, h4, _⟩ := reach_copy ht (Published.decoder hm h3 he)
        refine bindSafe ⟨_, h4⟩ fun t' h4' => ?_
        have hreach : TinfoReach t' ((ts, gs) :: fs) := .copy ht hm h3 he h4'
        obtain ⟨s', o, h5⟩ := c22_total b.world
          (x := ⟨d.nv.config, d.timers, { k with clients := !d.sse.clients.isEmpty }, t', gs⟩)
          ⟨ts, fs, hreach⟩ ⟨c32_terminated hn, hu⟩ d.tic.ns
        exact bindSafe ⟨_, h5⟩ fun _ _ => ⟨_, rfl⟩
      · exact ⟨_, rfl⟩
  | poll conn => exact ⟨_, rfl⟩
  | upload r u => exact ⟨_, rfl⟩
  | handle r e => exact c60_request hd.nv hd.tinfo hf.1 hf.2.1 hf.2.2
  | cliSse text conn => exact ⟨_, rfl⟩
  | cliTimers => exact ⟨_, rfl⟩
  | cliWifi ssid psk k => exact bindSafe (step_ok d.nv (.cliWifi ssid psk k)) fun _ _ => ⟨_, rfl⟩
  | cliAp host psk k => exact bindSafe (step_ok d.nv (.cliAp host psk k)) fun _ _ => ⟨_, rfl⟩
  | cliReset k => exact ⟨_, rfl⟩

/-- **C60 (partial).** After a boot, whatever happens, the device does not fault, unless at some point
its URL setting is not a safe one.  Missing with respect to the property as stated: URL settings of 150
bytes with a `~`, requests with more than 255 arguments, and an empty file system, for which it is
false (`c24_refuted`, `c41_refuted`, `c61_system_safe`). -/
theorem c60_run_partial {b : Build} {f m a p k1 k2 k3} (evs : List Event) (hf : ∀ ev ∈ evs, Fine ev) :
    ∃ d, Device.boot b f m a p k1 k2 k3 = .ok d ∧
      ((∃ y, d.run b evs = .ok y) ∨
       ∃ pre d' es, pre <+: evs ∧ d.run b pre = .ok (d', es) ∧ ¬ UrlSafe d'.nv.config) := by
  obtain ⟨d, h0, _⟩ := device_boot_ok b f m a p k1 k2 k3
  refine ⟨d, h0, ?_⟩
  have key : ∀ (evs : List Event) {d : Device} {up h fs}, d.Inv b.world up h fs → (∀ ev ∈ evs, Fine ev) →
      ((∃ y, d.run b evs = .ok y) ∨
       ∃ pre d' es, pre <+: evs ∧ d.run b pre = .ok (d', es) ∧ ¬ UrlSafe d'.nv.config) := by
    intro evs
    induction evs with
    | nil => intro d up h fs _ _; exact Or.inl ⟨_, rfl⟩
    | cons ev evs ih =>
      intro d up h fs hd hf
      by_cases hu : UrlSafe d.nv.config
      · obtain ⟨⟨d1, l⟩, h1⟩ := c60_step hd ev (hf ev (by simp)) hu
        obtain ⟨fs', hd'⟩ := step_inv hd h1
        rcases ih hd' (fun e he => hf e (by simp [he])) with ⟨y, h2⟩ | ⟨pre, d', es, h2, h3, h4⟩
        · refine Or.inl ?_
          simp only [Device.run]
          exact bindSafe ⟨_, h1⟩ fun z hz => by
            rw [h1] at hz
            obtain rfl := Except.ok.inj hz
            exact bindSafe ⟨_, h2⟩ fun _ _ => ⟨_, rfl⟩
        · refine Or.inr ⟨ev :: pre, d', l :: es, ?_, ?_, h4⟩
          · obtain ⟨t, rfl⟩ := h2
            exact ⟨t, rfl⟩
          · simp only [Device.run, h1, h3, ok_bind, pure_ok]
      · exact Or.inr ⟨[], d, [], List.nil_prefix, rfl, hu⟩
  exact key evs (boot_inv h0) hf

end Wifinfo
