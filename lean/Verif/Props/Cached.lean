import Verif.Model.Cached
import Verif.Props.Follow
import Verif.Props.Static

/-!
# C131: what the browser shows is what the device has
-/

namespace Wifinfo

namespace Spec

/-- The addresses of the files: the home page, the version, and what is in the folders of the page. -/
def FileAddress (u : Str) : Prop :=
  u = bs "/" ∨ u = bs "/version" ∨ ∃ f ∈ [bs "/fonts", bs "/js", bs "/css", bs "/favicon.ico"], f <+: u

/-- A day in seconds. -/
def day : Nat := 24 * 60 * 60

/-- The events are in the order of time, after `t`. -/
def InTime : Nat → List CacheEvent → Prop
  | _, [] => True
  | t, e :: r => t ≤ e.time ∧ InTime e.time r

/-- The device through time, asked by a browser: `req u` is the request for the address `u`. -/
structure Through (b : Build) (world : Nat → Moment) (req : Str → Req) : Prop where
  asks : ∀ u, (req u).uri = u ∧ (req u).method = .get
  serves : ∀ t, StaticOn (world t).e

/-- What the device would answer. -/
def through (b : Build) (world : Nat → Moment) (req : Str → Req) (t : Nat) (u : Str) : Res (List Eff × List Str) × Nat :=
  (world t).answer b (req u)

end Spec
open Spec

/-! ## The browser -/

/-- What is kept was received -/
def Keeps {α : Type} (net : Nat → Str → α × Nat) (now : Nat) (s : WebCache α) : Prop :=
  ∀ u t a life, s u = some (t, a, life) → t ≤ now ∧ net t u = (a, life)

theorem step_keeps {α : Type} {net : Nat → Str → α × Nat} {now : Nat} {s : WebCache α} (h : Keeps net now s) {e : CacheEvent}
    (hn : now ≤ e.time) : Keeps net e.time (s.step net e).1 ∧
      ∀ x ∈ (s.step net e).2, ∃ t0, t0 ≤ x.time ∧ x.what = (net t0 x.uri).1 ∧ (t0 = x.time ∨ x.time < t0 + (net t0 x.uri).2) := by
  have fetch : ∀ t u, now ≤ t → Keeps net t (s.fetch net t u).1 ∧
      ∀ x ∈ (s.fetch net t u).2, ∃ t0, t0 ≤ x.time ∧ x.what = (net t0 x.uri).1 ∧ (t0 = x.time ∨ x.time < t0 + (net t0 x.uri).2) := by
    intro t u ht
    constructor
    · intro v t' a life hv
      simp only [WebCache.fetch] at hv
      by_cases e : v = u
      · subst e
        rw [if_pos rfl] at hv
        by_cases hl : 0 < (net t v).2
        · rw [if_pos hl] at hv
          cases hv
          exact ⟨Nat.le_refl _, rfl⟩
        · rw [if_neg hl] at hv; cases hv
      · rw [if_neg e] at hv
        exact ⟨Nat.le_trans (h v t' a life hv).1 ht, (h v t' a life hv).2⟩
    · intro x hx
      simp only [WebCache.fetch, List.mem_singleton] at hx
      subst hx
      exact ⟨t, Nat.le_refl _, rfl, .inl rfl⟩
  cases e with
  | reload t u => exact fetch t u hn
  | forget t u =>
    refine ⟨?_, fun x hx => by simp [WebCache.step] at hx⟩
    intro v t' a life hv
    simp only [WebCache.step] at hv
    by_cases e : v = u
    · rw [if_pos e] at hv; cases hv
    · rw [if_neg e] at hv
      exact ⟨Nat.le_trans (h v t' a life hv).1 hn, (h v t' a life hv).2⟩
  | visit t u =>
    simp only [WebCache.step]
    cases hs : s u with
    | none => exact fetch t u hn
    | some k =>
      obtain ⟨t0, a, life⟩ := k
      simp only []
      obtain ⟨k1, k2⟩ := h u t0 a life hs
      by_cases hl : t < t0 + life
      · rw [if_pos hl]
        refine ⟨fun v t' a life hv => ⟨Nat.le_trans (h v t' a life hv).1 hn, (h v t' a life hv).2⟩, ?_⟩
        intro x hx
        simp only [List.mem_singleton] at hx
        subst hx
        have hn : now ≤ t := hn
        exact ⟨t0, Nat.le_trans k1 hn, by rw [k2], .inr (by rw [k2]; exact hl)⟩
      · rw [if_neg hl]
        exact fetch t u hn

theorem run_keeps {α : Type} {net : Nat → Str → α × Nat} : ∀ (evs : List CacheEvent) (now : Nat) (s : WebCache α), Keeps net now s →
    InTime now evs → ∀ x ∈ (s.run net evs).2, now ≤ x.time ∧
      ∃ t0, t0 ≤ x.time ∧ x.what = (net t0 x.uri).1 ∧ (t0 = x.time ∨ x.time < t0 + (net t0 x.uri).2) := by
  intro evs
  induction evs with
  | nil => intro _ _ _ _ x hx; simp [WebCache.run] at hx
  | cons e r ih =>
    rintro now s h ⟨h1, h2⟩ x hx
    obtain ⟨k1, k2⟩ := step_keeps h h1
    simp only [WebCache.run, List.mem_append] at hx
    rcases hx with hx | hx
    · refine ⟨?_, k2 x hx⟩
      have : x.time = e.time := by
        cases e with
        | visit t u =>
          simp only [WebCache.step] at hx
          split at hx
          · split at hx <;> (simp only [WebCache.fetch, List.mem_singleton] at hx; subst hx; rfl)
          · simp only [WebCache.fetch, List.mem_singleton] at hx; subst hx; rfl
        | reload t u => simp only [WebCache.step, WebCache.fetch, List.mem_singleton] at hx; subst hx; rfl
        | forget t u => simp [WebCache.step] at hx
      omega
    · obtain ⟨j1, j2⟩ := ih e.time _ k1 h2 x hx
      exact ⟨Nat.le_trans h1 j1, j2⟩

/-! ## The headers of the device -/

theorem static_address {ex : Str → Bool} {u p : Str} (h : serveStatic ex u = some p) : FileAddress u := by
  unfold serveStatic at h
  obtain ⟨x, h1, -⟩ := Option.bind_eq_some_iff.1 h
  have hm := List.mem_of_find?_eq_some h1
  have hc : canServe ex x u = true := by simpa using List.find?_some h1
  have hp : x.1 <+: u := by
    unfold canServe at hc
    split at hc
    · rw [of_decide_eq_true hc]; exact List.prefix_refl _
    · exact List.isPrefixOf_iff_prefix.1 hc
  refine .inr (.inr ⟨x.1, ?_, hp⟩)
  simp only [staticPaths, List.mem_cons, List.not_mem_nil, or_false] at hm
  rcases hm with rfl | rfl | rfl | rfl <;> simp

theorem route_file {c : Bool} {s : Str → Option Str} {m : Method} {u : Str} :
    (route c s m u = .root → u = bs "/") ∧ (route c s m u = .version → u = bs "/version") ∧
    ∀ p, route c s m u = .static p → s u = some p := by
  unfold route
  grind (splits := 40)

theorem lifetime_day : lifetime (some (bs "max-age=86400")) = day := by decide +kernel
theorem lifetime_never : lifetime (some (bs "no-cache, no-store, must-revalidate")) = 0 ∧ lifetime (some (bs "no-cache")) = 0 := by
  decide +kernel

theorem answer_life {b : Build} {m : Moment} {r : Req} (hs : StaticOn m.e) (hl : (m.answer b r).2 ≠ 0) :
    FileAddress r.uri ∧ (m.answer b r).2 = day ∧ ∃ p, (m.answer b r).1 = .ok ([.stream p], [m.read p]) := by
  have hr := @route_file b.cpuload m.e.static r.method r.uri
  cases hh : m.d.handle b m.e r with
  | error f => simp [Moment.answer, hh] at hl
  | ok x =>
    obtain ⟨d', l⟩ := x
    simp only [Moment.answer, hh] at hl ⊢
    unfold cacheHeader at hl ⊢
    generalize hrt : route b.cpuload m.e.static r.method r.uri = rt at hl hr ⊢
    unfold Device.handle at hh
    rw [hrt] at hh
    cases rt <;> simp only [] at hl ⊢
    case root =>
      obtain ⟨l', h1, h2⟩ := bind_ok hh
      obtain ⟨rfl, rfl⟩ := Prod.mk.inj (Except.ok.inj h2)
      have hl : lifetime (if (l'.any fun x => match x with | .stream _ => true | _ => false) = true then
          some (bs "max-age=86400") else none) ≠ 0 := hl
      by_cases hany : (l'.any fun x => match x with | .stream _ => true | _ => false) = true
      · refine ⟨.inl (hr.1 rfl), ?_, ?_⟩
        · show lifetime (if (l'.any fun x => match x with | .stream _ => true | _ => false) = true then _ else none) = day
          rw [if_pos hany]
          exact lifetime_day
        · rcases handleRoot_form h1 with rfl | ⟨p, rfl⟩ | ⟨_, _, _, _, rfl⟩
          · simp at hany
          · exact ⟨p, rfl⟩
          · simp at hany
      · rw [if_neg hany] at hl
        exact absurd rfl hl
    case version =>
      obtain ⟨rfl, rfl⟩ := Prod.mk.inj (Except.ok.inj hh)
      exact ⟨.inr (.inl (hr.2.1 rfl)), lifetime_day, _, rfl⟩
    case static p =>
      obtain ⟨rfl, rfl⟩ := Prod.mk.inj (Except.ok.inj hh)
      refine ⟨static_address ((hs _).symm.trans (hr.2.2 p rfl)), lifetime_day, _, rfl⟩
    case notFound =>
      split at hl
      · exact absurd lifetime_never.1 hl
      · exact absurd rfl hl
    case sse =>
      split at hl
      · exact absurd lifetime_never.2 hl
      · exact absurd rfl hl
    all_goals exact absurd rfl hl

theorem stream_life {b : Build} {m : Moment} {r : Req} {d' : Device} {p : Str} (h : m.d.handle b m.e r = .ok (d', [.stream p])) :
    (m.answer b r).1 = .ok ([.stream p], [m.read p]) ∧ (m.answer b r).2 = day := by
  have e : (m.answer b r).1 = .ok ([.stream p], [m.read p]) ∧
      (m.answer b r).2 = lifetime (cacheHeader b m.e r [.stream p]) := by
    simp only [Moment.answer, h]
    exact ⟨rfl, trivial⟩
  refine ⟨e.1, e.2.trans ?_⟩
  unfold cacheHeader
  unfold Device.handle at h
  have json : ∀ {get}, ¬ sendJson m.d r get = .ok (d', [.stream p]) := by
    intro get hj
    obtain ⟨-, k | ⟨s, k⟩⟩ := sendJson_form hj <;> cases k
  generalize route b.cpuload m.e.static r.method r.uri = rt at h
  cases rt <;> simp only [] at h
  case json => exact absurd h json
  case tinfo => exact absurd h json
  case emoncms => exact absurd h json
  case system => exact absurd h json
  case config => exact absurd h json
  case spiffs => exact absurd h json
  case wifiscan => exact absurd h json
  case sse =>
    obtain ⟨⟨ok, ef⟩, h1, h⟩ := bind_ok h
    rcases accessOk_form h1 with ⟨rfl, rfl⟩ | ⟨rfl, rfl⟩
    · cases h
    · simp only [if_true] at h
      split at h
      · rename_i s x hx
        have h := (Prod.mk.inj (Except.ok.inj h)).2
        cases x <;> cases h
      · cases h
  case cpuload =>
    obtain ⟨⟨ok, ef⟩, h1, h⟩ := bind_ok h
    rcases accessOk_form h1 with ⟨rfl, rfl⟩ | ⟨rfl, rfl⟩ <;> cases h
  case configForm =>
    obtain ⟨⟨a, ef⟩, h1, h⟩ := bind_ok h
    dsimp only at h
    split at h
    · rcases getAuth_form h1 with ⟨rfl, rfl⟩ | ⟨h2, rfl⟩ <;> cases h
    · rcases getAuth_form h1 with ⟨rfl, rfl⟩ | ⟨h2, rfl⟩
      · contradiction
      · obtain ⟨⟨nv, code⟩, h2, h⟩ := bind_ok h
        cases h
  case factoryReset =>
    obtain ⟨⟨ok, ef⟩, h1, h⟩ := bind_ok h
    rcases accessFull_form h1 with ⟨rfl, rfl | rfl⟩ | ⟨rfl, rfl⟩
    · cases h
    · cases h
    · obtain ⟨nv, _, h⟩ := bind_ok h
      cases h
  case reset =>
    obtain ⟨⟨ok, ef⟩, h1, h⟩ := bind_ok h
    rcases accessOk_form h1 with ⟨rfl, rfl⟩ | ⟨rfl, rfl⟩ <;> cases h
  case heartbeat => cases h
  case updatePage =>
    obtain ⟨⟨ok, ef⟩, h1, h⟩ := bind_ok h
    rcases accessFull_form h1 with ⟨rfl, rfl | rfl⟩ | ⟨rfl, rfl⟩ <;> cases h
  case updatePost =>
    obtain ⟨⟨ok, ef⟩, h1, h⟩ := bind_ok h
    have h := (Prod.mk.inj (Except.ok.inj h)).2
    rcases accessFull_form h1 with ⟨rfl, rfl | rfl⟩ | ⟨rfl, rfl⟩
    · cases h
    · cases h
    · revert h
      cases m.d.updOk <;> (intro h; cases h)
  case root => exact lifetime_day
  case version => exact lifetime_day
  case static => exact lifetime_day
  case notFound =>
    obtain ⟨l', h1, h⟩ := bind_ok h
    obtain ⟨n, s, rfl⟩ := notFound_form h1
    cases h

theorem keeps_empty {α : Type} (net : Nat → Str → α × Nat) (t : Nat) : Keeps net t WebCache.empty := by
  intro u t a life h
  cases h

/-- **C131, a day.**  Whatever happens to the device, and whatever is visited, reloaded and forgotten: all that a browser shows is what the
device answered at the same address, less than a day before; and it is what the device answers now unless the address is that of a file. -/
theorem c131_day {b : Build} {world : Nat → Moment} {req : Str → Req} (h : Through b world req) {start : Nat} {evs : List CacheEvent}
    (ht : InTime start evs) {x : Shown (Res (List Eff × List Str))} (hx : x ∈ (WebCache.empty.run (through b world req) evs).2) :
    (∃ t, t ≤ x.time ∧ x.time < t + day ∧ x.what = (through b world req t x.uri).1) ∧
    (¬ FileAddress x.uri → x.what = (through b world req x.time x.uri).1) := by
  obtain ⟨-, t0, h1, h2, h3⟩ := run_keeps evs start _ (keeps_empty _ _) ht x hx
  have hd : 0 < day := by decide
  constructor
  · refine ⟨t0, h1, ?_, h2⟩
    rcases h3 with h3 | h3
    · omega
    · by_cases hz : (through b world req t0 x.uri).2 = 0
      · omega
      · have e := (answer_life (h.serves t0) hz).2.1
        rw [show (through b world req t0 x.uri).2 = day from e] at h3
        exact h3
  · intro hu
    rcases h3 with h3 | h3
    · rw [← h3]; exact h2
    · by_cases hz : (through b world req t0 x.uri).2 = 0
      · exact absurd h3 (by omega)
      · have := (answer_life (h.serves t0) hz).1
        rw [(h.asks x.uri).1] at this
        exact absurd this hu

/-- **C131, a day later.**  Once the answer of the device at an address is the same for good (a new file system was installed, say), it is
what any browser shows a day later. -/
theorem c131_settles {b : Build} {world : Nat → Moment} {req : Str → Req} (h : Through b world req) {start : Nat} {evs : List CacheEvent}
    (ht : InTime start evs) {x : Shown (Res (List Eff × List Str))} (hx : x ∈ (WebCache.empty.run (through b world req) evs).2)
    {since : Nat} {a} (hs : ∀ t, since ≤ t → (through b world req t x.uri).1 = a) (hl : since + day ≤ x.time + 1) : x.what = a := by
  obtain ⟨⟨t, h1, h2, h3⟩, -⟩ := c131_day h ht hx
  rw [h3, hs t (by omega)]

theorem run_fresh {α : Type} {net : Nat → Str → α × Nat} {u : Str} {a : α} {since : Nat} (hs : ∀ t, since ≤ t → (net t u).1 = a) :
    ∀ (evs : List CacheEvent) (now : Nat) (s : WebCache α), since ≤ now → (∀ t c life, s u = some (t, c, life) → c = a) →
      InTime now evs → ∀ x ∈ (s.run net evs).2, x.uri = u → x.what = a := by
  intro evs
  induction evs with
  | nil => intro _ _ _ _ _ x hx; simp [WebCache.run] at hx
  | cons e r ih =>
    rintro now s h0 h ⟨h1, h2⟩ x hx hu
    have fetch : ∀ t v, since ≤ t → (∀ t' c life, (s.fetch net t v).1 u = some (t', c, life) → c = a) ∧
        ∀ x ∈ (s.fetch net t v).2, x.uri = u → x.what = a := by
      intro t v htv
      constructor
      · intro t' c life hv
        simp only [WebCache.fetch] at hv
        by_cases e : u = v
        · subst e
          rw [if_pos rfl] at hv
          split at hv
          · cases hv
            exact hs t htv
          · cases hv
        · rw [if_neg e] at hv
          exact h t' c life hv
      · intro x hx hxu
        simp only [WebCache.fetch, List.mem_singleton] at hx
        subst hx
        subst hxu
        exact hs t htv
    have step : (∀ t' c life, (s.step net e).1 u = some (t', c, life) → c = a) ∧ ∀ x ∈ (s.step net e).2, x.uri = u → x.what = a := by
      cases e with
      | reload t v => exact fetch t v (Nat.le_trans h0 h1)
      | forget t v =>
        refine ⟨?_, fun x hx => by simp [WebCache.step] at hx⟩
        intro t' c life hv
        simp only [WebCache.step] at hv
        split at hv
        · cases hv
        · exact h t' c life hv
      | visit t v =>
        simp only [WebCache.step]
        cases hsv : s v with
        | none => exact fetch t v (Nat.le_trans h0 h1)
        | some k =>
          obtain ⟨t0, c, life⟩ := k
          simp only []
          split
          · refine ⟨h, ?_⟩
            intro x hx hxu
            simp only [List.mem_singleton] at hx
            subst hx
            have hxu : v = u := hxu
            subst hxu
            exact h t0 c life hsv
          · exact fetch t v (Nat.le_trans h0 h1)
    simp only [WebCache.run, List.mem_append] at hx
    rcases hx with hx | hx
    · exact step.2 x hx hu
    · exact ih e.time _ (Nat.le_trans h0 h1) step.1 h2 x hx hu

/-- **C131, reload.**  Whatever was kept before: once the answer at an address is the same for good, whoever reloads this address is shown it
from then on. -/
theorem c131_reload {b : Build} {world : Nat → Moment} {req : Str → Req} (s : WebCache (Res (List Eff × List Str))) {T : Nat} {u : Str} {a}
    (hs : ∀ t, T ≤ t → (through b world req t u).1 = a) {evs : List CacheEvent} (ht : InTime T evs)
    {x : Shown (Res (List Eff × List Str))} (hx : x ∈ (s.run (through b world req) (.reload T u :: evs)).2) (hu : x.uri = u) :
    x.what = a := by
  simp only [WebCache.run, List.mem_append] at hx
  rcases hx with hx | hx
  · simp only [WebCache.step, WebCache.fetch, List.mem_singleton] at hx
    subst hx
    exact hs T (Nat.le_refl _)
  · refine run_fresh hs evs T _ (Nat.le_refl _) ?_ ht x hx hu
    intro t c life hv
    simp only [WebCache.step, WebCache.fetch, if_true] at hv
    split at hv
    · cases hv
      exact hs T (Nat.le_refl _)
    · cases hv

/-! ## What is wrong -/

theorem visit_again {b : Build} {world : Nat → Moment} {req : Str → Req} {t1 t2 : Nat} {u p : Str}
    (s : WebCache (Res (List Eff × List Str))) (h0 : s u = none) (hl : (through b world req t1 u).2 = day) (h2 : t2 < t1 + day)
    (h1 : (through b world req t1 u).1 = .ok ([.stream p], [(world t1).read p])) (between : List CacheEvent)
    (hb : ∀ e ∈ between, match e with | .visit _ v => v ≠ u | .reload _ v => v ≠ u | .forget _ v => v ≠ u) :
    ((s.run (through b world req) (.visit t1 u :: between ++ [.visit t2 u])).2.getLast?) =
      some ⟨t2, u, .ok ([.stream p], [(world t1).read p])⟩ := by
  have keep : ∀ (l : List CacheEvent) (s : WebCache (Res (List Eff × List Str))) k, s u = some k →
      (∀ e ∈ l, match e with | .visit _ v => v ≠ u | .reload _ v => v ≠ u | .forget _ v => v ≠ u) →
      (s.run (through b world req) l).1 u = some k := by
    intro l
    induction l with
    | nil => intro s k h _; exact h
    | cons e l ih =>
      intro s k h hv
      have he := hv e List.mem_cons_self
      simp only [WebCache.run]
      refine ih _ k ?_ (fun x hx => hv x (List.mem_cons_of_mem _ hx))
      cases e with
      | visit t v =>
        simp only [WebCache.step]
        split
        · split
          · exact h
          · simp only [WebCache.fetch]; rw [if_neg (Ne.symm he)]; exact h
        · simp only [WebCache.fetch]; rw [if_neg (Ne.symm he)]; exact h
      | reload t v => simp only [WebCache.step, WebCache.fetch]; rw [if_neg (Ne.symm he)]; exact h
      | forget t v => simp only [WebCache.step]; rw [if_neg (Ne.symm he)]; exact h
  have app : ∀ (l l' : List CacheEvent) (s : WebCache (Res (List Eff × List Str))), (s.run (through b world req) (l ++ l')).2 =
      (s.run (through b world req) l).2 ++ ((s.run (through b world req) l).1.run (through b world req) l').2 := by
    intro l
    induction l with
    | nil => intro l' s; rfl
    | cons e l ih => intro l' s; simp only [List.cons_append, WebCache.run, ih, List.append_assoc]
  have first : (s.step (through b world req) (.visit t1 u)).1 u = some (t1, .ok ([.stream p], [(world t1).read p]), day) := by
    have : 0 < day := by decide
    simp only [WebCache.step, h0, WebCache.fetch, if_true, hl, h1, if_pos this]
  rw [app]
  have k := keep between _ _ first hb
  have e : (s.run (through b world req) (.visit t1 u :: between)).1 u = some (t1, .ok ([.stream p], [(world t1).read p]), day) := by
    simp only [WebCache.run]
    exact k
  generalize s.run (through b world req) (.visit t1 u :: between) = R at e ⊢
  simp only [WebCache.run, WebCache.step, e, if_pos h2]
  simp

/-- **C131 is false: an old page.**  A page that was visited is shown again for a day, whatever the device answers meanwhile: another page
(a new file system was installed), a demand of a password, or nothing. -/
theorem c131_refuted_stale {b : Build} {world : Nat → Moment} {req : Str → Req} {t1 t2 : Nat} {u p : Str} {d' : Device}
    (hd : (world t1).d.handle b (world t1).e (req u) = .ok (d', [.stream p])) (h2 : t2 < t1 + day) (between : List CacheEvent)
    (hb : ∀ e ∈ between, match e with | .visit _ v => v ≠ u | .reload _ v => v ≠ u | .forget _ v => v ≠ u) :
    ((WebCache.empty.run (through b world req) (.visit t1 u :: between ++ [.visit t2 u])).2.getLast?) =
      some ⟨t2, u, .ok ([.stream p], [(world t1).read p])⟩ :=
  visit_again _ rfl (stream_life hd).2 h2 (stream_life hd).1 between hb

/-- **C131 is false: a mixture.**  A script that was received a while after its page: when the page is out of date and asked for again, the
script is not.  The browser shows the page that the device has now, with the script of the page that it had a day before. -/
theorem c131_refuted_mixture {b : Build} {world : Nat → Moment} {req : Str → Req} {page script : Str} {p q p' : Str} {d1 d2 d3 : Device}
    (hne : page ≠ script)
    (h1 : (world 0).d.handle b (world 0).e (req page) = .ok (d1, [.stream p]))
    (h2 : (world 100).d.handle b (world 100).e (req script) = .ok (d2, [.stream q]))
    (h3 : (world 86400).d.handle b (world 86400).e (req page) = .ok (d3, [.stream p'])) :
    (WebCache.empty.run (through b world req) [.visit 0 page, .visit 100 script, .visit 86400 page, .visit 86400 script]).2 =
      [⟨0, page, .ok ([.stream p], [(world 0).read p])⟩, ⟨100, script, .ok ([.stream q], [(world 100).read q])⟩,
       ⟨86400, page, .ok ([.stream p'], [(world 86400).read p'])⟩, ⟨86400, script, .ok ([.stream q], [(world 100).read q])⟩] := by
  obtain ⟨a1, b1⟩ := stream_life h1
  obtain ⟨a2, b2⟩ := stream_life h2
  obtain ⟨a3, b3⟩ := stream_life h3
  have e1 : through b world req 0 page = (.ok ([.stream p], [(world 0).read p]), day) := Prod.ext a1 b1
  have e2 : through b world req 100 script = (.ok ([.stream q], [(world 100).read q]), day) := Prod.ext a2 b2
  have e3 : through b world req 86400 page = (.ok ([.stream p'], [(world 86400).read p']), day) := Prod.ext a3 b3
  simp [WebCache.run, WebCache.step, WebCache.fetch, WebCache.empty, e1, e2, e3, hne, Ne.symm hne, day]

/-- **C131 is false: the version.**  On every device, whatever happens to it: the version that a page shows is, for a day, the one of the
first visit (nothing at all, if there was no file `version` then). -/
theorem c131_refuted_version {b : Build} {world : Nat → Moment} {req : Str → Req} (h : Through b world req) {t1 t2 : Nat}
    (h2 : t2 < t1 + day) :
    ((WebCache.empty.run (through b world req) [.visit t1 (bs "/version"), .visit t2 (bs "/version")]).2.getLast?) =
      some ⟨t2, bs "/version", .ok ([.stream (bs "/version")], [(world t1).read (bs "/version")])⟩ := by
  refine c131_refuted_stale (d' := (world t1).d) ?_ h2 [] (fun _ h => by simp at h)
  unfold Device.handle
  rw [(h.asks _).1, route_version]
  rfl

/-- A device on which a file system with another version is installed, and a browser that asks without credentials. -/
def upgraded (d : Device) (e : Env) (t : Nat) : Moment :=
  ⟨d, { e with static := serveStatic e.fileExists }, fun _ => if t < 100 then bs "v1" else bs "v2"⟩

theorem upgraded_through (b : Build) (d : Device) (e : Env) :
    Through b (upgraded d e) (fun u => ⟨.get, u, [], fun _ _ => false, false⟩) :=
  ⟨fun _ => ⟨rfl, rfl⟩, fun _ _ => rfl⟩

example (d : Device) (e : Env) : (upgraded d e 10).read (bs "/version") = bs "v1" ∧ (upgraded d e 86409).read (bs "/version") = bs "v2" ∧
    86409 < 10 + day := ⟨rfl, rfl, by decide⟩

example : FileAddress (bs "/js/a.js") ∧ ¬ FileAddress (bs "/tinfo.json") := by
  constructor
  · exact .inr (.inr ⟨bs "/js", by simp, ⟨bs "/a.js", by decide +kernel⟩⟩)
  · rintro (h | h | ⟨f, hf, h⟩)
    · revert h; decide +kernel
    · revert h; decide +kernel
    · have : ∀ f ∈ [bs "/fonts", bs "/js", bs "/css", bs "/favicon.ico"], f.isPrefixOf (bs "/tinfo.json") = false := by decide +kernel
      rw [← List.isPrefixOf_iff_prefix, this f hf] at h
      cases h

end Wifinfo
