import Verif.Model.Tabs

/-!
# C101: the page keeps itself up to date
-/

namespace Wifinfo

namespace Spec

/-- The tab that the user has chosen, at first `t`. -/
def chosen (t : Option Tab) : List TabEvent → Option Tab
  | [] => t
  | .click u :: r => chosen (some u) r
  | _ :: r => chosen t r

/-- The tabs that are not completely shown yet. -/
def moving (t : Option Tab) (m : List Tab) : List TabEvent → List Tab
  | [] => m
  | .click u :: r => if t = some u then moving t m r else moving (some u) (m ++ [u]) r
  | .shown :: r => moving t m.tail r
  | _ :: r => moving t m r

/-- The event streams that are open after these requests. -/
def openStreams (l : List Nat) : List Ask → List Nat
  | [] => l
  | .stream n :: r => openStreams (l ++ [n]) r
  | .close n :: r => openStreams (l.filter (· ≠ n)) r
  | _ :: r => openStreams l r

/-- How many requests of the table `t` are under way or will be made by a timer. -/
def Loops (s : Tabs) (t : Table) : Nat := s.waiting.count t + s.armed.countP (·.table = t)

/-- No request fails. -/
def AllAnswered (evs : List TabEvent) : Prop := ∀ i now, .answer i false now ∉ evs

/-- How long after an answer the table is asked for again, in milliseconds. -/
def pause : Table → Nat
  | .tinfo => 5000
  | .sys => 1000
  | .scan => 0

/-- The user does nothing. -/
def Idle : TabEvent → Prop
  | .click _ => False
  | .button _ => False
  | _ => True

/-- The user does not use the buttons, and no table is being loaded at the end of a transition. -/
def Gentle : Tabs → List TabEvent → Prop
  | _, [] => True
  | s, ev :: r => (∀ t, ev ≠ .button t) ∧ (ev = .shown → Table.tinfo ∉ s.waiting ∧ Table.sys ∉ s.waiting) ∧ Gentle (s.step ev).1 r

end Spec

open Spec

/-- What is true of the page at any time. -/
structure Tabs.Inv (s : Tabs) : Prop where
  fresh : ∀ a ∈ s.armed, a.handle < s.next
  apart : (s.armed.map (·.handle)).Nodup
  last : ∀ t, s.shows.getLast? = some t → s.active = some t
  streams : s.streams = s.source.toList
  gauges : s.shows = [] → (s.source.isSome ↔ s.active = some .gauges)

theorem clear_inv {s : Tabs} (h : s.Inv) (x : Option Nat) : (s.clear x).Inv where
  fresh a ha := h.fresh a (List.mem_filter.1 ha |>.1)
  apart := h.apart.sublist (List.filter_sublist.map _)
  last := h.last
  streams := h.streams
  gauges := h.gauges

theorem refresh_inv {s : Tabs} (h : s.Inv) (t : Table) : (s.refresh t).1.Inv := ⟨h.fresh, h.apart, h.last, h.streams, h.gauges⟩

theorem init_inv : Tabs.init.Inv where
  fresh := by simp [Tabs.init]
  apart := List.nodup_nil
  last := by simp [Tabs.init]
  streams := rfl
  gauges := by simp [Tabs.init]

theorem click_inv {s : Tabs} (h : s.Inv) (t : Tab) : (s.click t).Inv := by
  unfold Tabs.click
  split
  · exact h
  · exact ⟨h.fresh, h.apart, by simp, h.streams, by simp⟩

/-- The two timers are cleared and the stream is closed. -/
def Tabs.left (s : Tabs) : Tabs :=
  { (s.clear s.timerSys).clear s.timerTinfo with source := none, streams := [] }

theorem onShown_eq {s : Tabs} (h : s.streams = s.source.toList) (t : Tab) :
    s.onShown t = ((s.left.enter t).1, (s.source.toList.map Ask.close) ++ (s.left.enter t).2) := by
  obtain ⟨a, b, c, d, e, f, g, i, j, k, l⟩ := s
  cases c with
  | none => cases h; rfl
  | some n =>
    cases h
    have : [n].filter (· ≠ n) = [] := by simp
    simp only [Tabs.onShown, Tabs.left, Tabs.clear, Option.toList, List.map_cons, List.map_nil, this]
    rfl

theorem shown_inv {s : Tabs} (h : s.Inv) {t : Tab} {r} (hs : s.shows = t :: r) :
    (({ s with shows := r } : Tabs).onShown t).1.Inv := by
  rw [onShown_eq (s := { s with shows := r }) h.streams]
  have h2 := clear_inv (clear_inv h s.timerSys) s.timerTinfo
  have ha : r = [] → s.active = some t := fun hr => h.last t (by rw [hs, hr]; rfl)
  have hl : ∀ u, r.getLast? = some u → s.active = some u := fun u hu => h.last u (by
    rw [hs, List.getLast?_cons, hu]; rfl)
  cases t with
  | gauges =>
    refine ⟨fun a h3 => Nat.lt_succ_of_lt (h2.fresh a h3), h2.apart, hl, rfl, fun hr => ?_⟩
    exact ⟨fun _ => ha hr, fun _ => rfl⟩
  | tinfo => exact ⟨h2.fresh, h2.apart, hl, rfl, fun hr => ⟨fun h => (nomatch h), fun h => by
      have e : s.active = some .gauges := h
      rw [ha hr] at e; cases e⟩⟩
  | sys => exact ⟨h2.fresh, h2.apart, hl, rfl, fun hr => ⟨fun h => (nomatch h), fun h => by
      have e : s.active = some .gauges := h
      rw [ha hr] at e; cases e⟩⟩
  | cfg => exact ⟨h2.fresh, h2.apart, hl, rfl, fun hr => ⟨fun h => (nomatch h), fun h => by
      have e : s.active = some .gauges := h
      rw [ha hr] at e; cases e⟩⟩

/-- What an answer does to the timers. -/
theorem loaded_eq (s : Tabs) (t : Table) (now : Nat) :
    (s.loaded t now).active = s.active ∧ (s.loaded t now).shows = s.shows ∧ (s.loaded t now).source = s.source ∧
    (s.loaded t now).streams = s.streams ∧ (s.loaded t now).waiting = s.waiting ∧
    (s.loaded t now).sysUrl = s.sysUrl ∧ (s.loaded t now).scanUrl = s.scanUrl ∧
    ((t.tab ≠ none ∧ s.active = t.tab ∧ (s.loaded t now).armed = s.armed ++ [⟨s.next, t, now + t.delay⟩] ∧
        (s.loaded t now).next = s.next + 1 ∧
        (s.loaded t now).timerTinfo = (if t = .tinfo then some s.next else s.timerTinfo) ∧
        (s.loaded t now).timerSys = (if t = .sys then some s.next else s.timerSys)) ∨
      (¬ (t.tab ≠ none ∧ s.active = t.tab) ∧ s.loaded t now = s)) := by
  unfold Tabs.loaded
  split
  · rename_i h
    cases t
    · exact ⟨rfl, rfl, rfl, rfl, rfl, rfl, rfl, .inl ⟨h.1, h.2, rfl, rfl, rfl, rfl⟩⟩
    · exact ⟨rfl, rfl, rfl, rfl, rfl, rfl, rfl, .inl ⟨h.1, h.2, rfl, rfl, rfl, rfl⟩⟩
    · exact absurd rfl h.1
  · rename_i h
    exact ⟨rfl, rfl, rfl, rfl, rfl, rfl, rfl, .inr ⟨h, rfl⟩⟩

theorem loaded_inv {s : Tabs} (h : s.Inv) (t : Table) (now : Nat) : (s.loaded t now).Inv := by
  obtain ⟨e1, e2, e3, e4, -, -, -, hc⟩ := loaded_eq s t now
  rcases hc with ⟨-, -, e5, e6, -⟩ | ⟨-, e⟩
  · refine ⟨?_, ?_, ?_, ?_, ?_⟩
    · rw [e5, e6]
      intro a ha
      rcases List.mem_append.1 ha with ha | ha
      · exact Nat.lt_succ_of_lt (h.fresh a ha)
      · rw [List.mem_singleton.1 ha]; exact Nat.lt_succ_self _
    · rw [e5, List.map_append, List.nodup_append]
      refine ⟨h.apart, by simp, ?_⟩
      intro x hx y hy
      obtain ⟨a, ha, rfl⟩ := List.mem_map.1 hx
      have := h.fresh a ha
      simp only [List.map_cons, List.map_nil, List.mem_singleton] at hy
      omega
    · rw [e1, e2]; exact h.last
    · rw [e3, e4]; exact h.streams
    · rw [e1, e2, e3]; exact h.gauges
  · rw [e]; exact h

theorem tabs_step_inv {s : Tabs} (h : s.Inv) (ev : TabEvent) : (s.step ev).1.Inv := by
  cases ev with
  | click t => exact click_inv h t
  | shown =>
    simp only [Tabs.step]
    split
    · exact h
    · rename_i hs
      exact shown_inv h hs
  | button t =>
    cases t with
    | tinfo => exact refresh_inv h _
    | sys =>
      simp only [Tabs.step]
      split
      · exact refresh_inv h _
      · exact h
    | scan => exact ⟨h.fresh, h.apart, h.last, h.streams, h.gauges⟩
  | answer i ok now =>
    simp only [Tabs.step]
    split
    · exact h
    · rename_i t _
      have h2 : ({ s with waiting := s.waiting.eraseIdx i } : Tabs).Inv := ⟨h.fresh, h.apart, h.last, h.streams, h.gauges⟩
      cases ok
      · exact h2
      · exact loaded_inv h2 t now
  | fire n now =>
    simp only [Tabs.step]
    split
    · exact h
    · exact ⟨fun a ha => h.fresh a (List.mem_filter.1 ha |>.1), h.apart.sublist (List.filter_sublist.map _), h.last,
        h.streams, h.gauges⟩

theorem tabs_run_cons (s : Tabs) (ev : TabEvent) (r : List TabEvent) :
    s.run (ev :: r) = (((s.step ev).1.run r).1, (s.step ev).2 :: ((s.step ev).1.run r).2) := rfl

theorem tabs_run_inv : ∀ (evs : List TabEvent) {s : Tabs}, s.Inv → (s.run evs).1.Inv := by
  intro evs
  induction evs with
  | nil => intro s h; exact h
  | cons ev r ih => intro s h; rw [tabs_run_cons]; exact ih (tabs_step_inv h ev)

theorem load_inv (hash : Option Tab) : (Tabs.load hash).1.Inv := by
  cases hash with
  | none => exact refresh_inv init_inv _
  | some t => exact refresh_inv (click_inv init_inv t) _

/-- The active tab and the transitions, in one step. -/
theorem step_active (s : Tabs) (ev : TabEvent) : (s.step ev).1.active = chosen s.active [ev] ∧
    (s.step ev).1.shows = moving s.active s.shows [ev] := by
  cases ev with
  | click t =>
    simp only [Tabs.step, Tabs.click, chosen, moving]
    split <;> simp_all
  | shown =>
    simp only [Tabs.step]
    split
    · rename_i h; exact ⟨rfl, by rw [h]; rfl⟩
    · rename_i t r h
      have key : ∀ (x : Tabs) (t : Tab), (x.onShown t).1.active = x.active ∧ (x.onShown t).1.shows = x.shows := by
        intro x t
        unfold Tabs.onShown Tabs.clear
        cases hx : x.source <;> cases t <;> simp only [hx] <;> exact ⟨rfl, rfl⟩
      refine ⟨(key _ t).1, (key _ t).2.trans ?_⟩
      rw [h]; rfl
  | button t =>
    cases t with
    | sys => simp only [Tabs.step]; split <;> exact ⟨rfl, rfl⟩
    | _ => exact ⟨rfl, rfl⟩
  | answer i ok now =>
    simp only [Tabs.step]
    split
    · exact ⟨rfl, rfl⟩
    · rename_i t _
      cases ok
      · exact ⟨rfl, rfl⟩
      · obtain ⟨e1, e2, -⟩ := loaded_eq { s with waiting := s.waiting.eraseIdx i } t now
        exact ⟨e1, e2⟩
  | fire n now => simp only [Tabs.step]; split <;> exact ⟨rfl, rfl⟩

theorem chosen_cons (t : Option Tab) (ev : TabEvent) (r : List TabEvent) : chosen t (ev :: r) = chosen (chosen t [ev]) r := by
  cases ev <;> rfl

theorem moving_cons (t : Option Tab) (m : List Tab) (ev : TabEvent) (r : List TabEvent) :
    moving t m (ev :: r) = moving (chosen t [ev]) (moving t m [ev]) r := by
  cases ev with
  | click u =>
    simp only [moving, chosen]
    split
    · rename_i h; rw [h]
    · rfl
  | _ => rfl

theorem run_active : ∀ (evs : List TabEvent) (s : Tabs), (s.run evs).1.active = chosen s.active evs ∧
    (s.run evs).1.shows = moving s.active s.shows evs := by
  intro evs
  induction evs with
  | nil => intro s; exact ⟨rfl, rfl⟩
  | cons ev r ih =>
    intro s
    obtain ⟨e1, e2⟩ := step_active s ev
    obtain ⟨e3, e4⟩ := ih (s.step ev).1
    rw [tabs_run_cons, chosen_cons, moving_cons, ← e1, ← e2]
    exact ⟨e3, e4⟩

theorem openStreams_append (l : List Nat) (a b : List Ask) : openStreams l (a ++ b) = openStreams (openStreams l a) b := by
  induction a generalizing l with
  | nil => rfl
  | cons x a ih => cases x <;> exact ih _

theorem step_streams {s : Tabs} (h : s.Inv) (ev : TabEvent) : (s.step ev).1.streams = openStreams s.streams (s.step ev).2 := by
  cases ev with
  | click t => simp only [Tabs.step, Tabs.click]; split <;> rfl
  | shown =>
    simp only [Tabs.step]
    split
    · rfl
    · rename_i t r hs
      rw [onShown_eq (s := { s with shows := r }) h.streams]
      dsimp only
      rw [openStreams_append]
      have e : openStreams s.streams (s.source.toList.map Ask.close) = [] := by
        rw [h.streams]
        cases s.source with
        | none => rfl
        | some n => simp [openStreams]
      rw [e]
      cases t <;> rfl
  | button t =>
    cases t with
    | sys => simp only [Tabs.step]; split <;> rfl
    | _ => rfl
  | answer i ok now =>
    simp only [Tabs.step]
    split
    · rfl
    · rename_i t _
      cases ok
      · rfl
      · exact (loaded_eq { s with waiting := s.waiting.eraseIdx i } t now).2.2.2.1
  | fire n now => simp only [Tabs.step]; split <;> rfl

theorem run_streams : ∀ (evs : List TabEvent) {s : Tabs}, s.Inv →
    (s.run evs).1.streams = openStreams s.streams (s.run evs).2.flatten := by
  intro evs
  induction evs with
  | nil => intro s _; rfl
  | cons ev r ih =>
    intro s h
    rw [tabs_run_cons, List.flatten_cons, openStreams_append, ← step_streams h ev]
    exact ih (tabs_step_inv h ev)

theorem load_state (hash : Option Tab) : (Tabs.load hash).1.active = hash ∧ (Tabs.load hash).1.shows = hash.toList ∧
    (Tabs.load hash).1.streams = [] := by
  cases hash <;> exact ⟨rfl, rfl, rfl⟩

/-- **C101**, the event stream: whatever the user and the device do, the page has never more than one event stream; when the
tab is completely shown it has one if and only if it is the tab of the gauges. -/
theorem c101_stream (hash : Option Tab) (evs : List TabEvent) :
    (openStreams [] ((Tabs.load hash).1.run evs).2.flatten).length ≤ 1 ∧
    (moving hash hash.toList evs = [] →
      ((openStreams [] ((Tabs.load hash).1.run evs).2.flatten).length = 1 ↔ chosen hash evs = some .gauges)) := by
  obtain ⟨l1, l2, l3⟩ := load_state hash
  have hi := tabs_run_inv evs (load_inv hash)
  have hs := run_streams evs (load_inv hash)
  obtain ⟨a1, a2⟩ := run_active evs (Tabs.load hash).1
  rw [l3] at hs
  rw [l1] at a1 a2
  rw [l2] at a2
  rw [← hs, hi.streams, ← a1, ← a2]
  have hg := hi.gauges
  cases hx : ((Tabs.load hash).1.run evs).1.source with
  | none => rw [hx] at hg; exact ⟨by simp, fun h => ⟨fun h1 => by simp at h1, fun h1 => absurd ((hg h).2 h1) (by simp)⟩⟩
  | some n => rw [hx] at hg; exact ⟨by simp, fun h => ⟨fun _ => (hg h).1 rfl, fun _ => rfl⟩⟩

/-- The timer that fires. -/
theorem fire_spec (s : Tabs) (h now : Nat) :
    (s.armed.find? (fun a => a.handle = h ∧ a.due ≤ now) = none ∧ s.step (.fire h now) = (s, [])) ∨
    ∃ a ∈ s.armed, a.handle = h ∧ a.due ≤ now ∧
      s.step (.fire h now) = (({ s with armed := s.armed.filter fun x => x.handle ≠ h } : Tabs).refresh a.table) := by
  simp only [Tabs.step]
  split
  · rename_i hf; exact .inl ⟨hf, rfl⟩
  · rename_i a hf
    have h2 := List.find?_some hf
    simp only [decide_eq_true_eq] at h2
    exact .inr ⟨a, List.mem_of_find?_eq_some hf, h2.1, h2.2, rfl⟩

theorem nodup_map_inj {α β} {f : α → β} : ∀ {l : List α}, (l.map f).Nodup → ∀ {x y}, x ∈ l → y ∈ l → f x = f y → x = y := by
  intro l
  induction l with
  | nil => intro _ x y hx; cases hx
  | cons a l ih =>
    intro hn x y hx hy he
    simp only [List.map_cons, List.nodup_cons] at hn
    rcases List.mem_cons.1 hx with e | h1 <;> rcases List.mem_cons.1 hy with e' | h2
    · exact e.trans e'.symm
    · exact absurd (List.mem_map.2 ⟨y, h2, he.symm.trans (congrArg f e)⟩) hn.1
    · exact absurd (List.mem_map.2 ⟨x, h1, he.trans (congrArg f e')⟩) hn.1
    · exact ih hn.2 h1 h2 he

/-- Removing the timer `h`, which is there once. -/
theorem armed_without {l : List Armed} (hn : (l.map (·.handle)).Nodup) {a : Armed} (ha : a ∈ l) (p : Armed → Bool) :
    (l.filter fun x => x.handle ≠ a.handle).countP p + (if p a then 1 else 0) = l.countP p := by
  induction l with
  | nil => cases ha
  | cons x l ih =>
    simp only [List.map_cons, List.nodup_cons] at hn
    rcases List.mem_cons.1 ha with rfl | ha
    · have hf : (l.filter fun x => decide (x.handle ≠ a.handle)) = l := by
        apply List.filter_eq_self.2
        intro y hy
        simp only [decide_eq_true_eq]
        intro e
        exact hn.1 (List.mem_map.2 ⟨y, hy, e⟩)
      rw [List.filter_cons_of_neg (by simp), hf, List.countP_cons]
    · have hne : x.handle ≠ a.handle := fun e => hn.1 (List.mem_map.2 ⟨a, ha, e.symm⟩)
      rw [List.filter_cons_of_pos (by simpa using hne), List.countP_cons, List.countP_cons, ← ih hn.2 ha]
      omega

theorem count_erase {l : List Table} {i : Nat} {t : Table} (h : l[i]? = some t) (u : Table) :
    (l.eraseIdx i).count u + (if t = u then 1 else 0) = l.count u := by
  induction l generalizing i with
  | nil => cases h
  | cons x l ih =>
    cases i with
    | zero =>
      obtain rfl := Option.some.inj h
      simp only [List.eraseIdx_cons_zero, List.count_cons, beq_iff_eq]
    | succ i =>
      have := ih (i := i) h
      simp only [List.eraseIdx_cons_succ, List.count_cons, beq_iff_eq]
      omega

/-- The page stays alive: what `c101_alive` says, as an invariant. -/
def Tabs.Alive (s : Tabs) : Prop := s.shows = [] → ∀ t : Table, t.tab ≠ none → s.active = t.tab → 1 ≤ Loops s t

theorem Loops.fire {s : Tabs} (h : s.Inv) (n now : Nat) (t : Table) : Loops (s.step (.fire n now)).1 t = Loops s t := by
  rcases fire_spec s n now with ⟨-, e⟩ | ⟨a, ha, rfl, -, e⟩
  · rw [e]
  · rw [e]
    have := armed_without h.apart ha (·.table = t)
    simp only [Loops, Tabs.refresh, List.count_append, List.count_cons, List.count_nil, beq_iff_eq]
    simp only [decide_eq_true_eq] at this
    omega

theorem stays_step {s : Tabs} (h : s.Inv) (ha : s.Alive) (ev : TabEvent) (hev : ∀ i now, ev ≠ .answer i false now) :
    (s.step ev).1.Alive := by
  cases ev with
  | click t =>
    simp only [Tabs.step, Tabs.click]
    split
    · exact ha
    · intro hs; simp at hs
  | shown =>
    simp only [Tabs.step]
    split
    · exact ha
    · rename_i t r hs
      rw [onShown_eq (s := { s with shows := r }) h.streams]
      intro hr u hu hau
      have hr' : r = [] := by cases t <;> exact hr
      have hau' : s.active = u.tab := by cases t <;> exact hau
      have : s.active = some t := h.last t (by rw [hs, hr']; rfl)
      rw [this] at hau'
      cases t <;> cases u <;> simp [Table.tab] at hau'
      · simp [Loops, Tabs.enter, Tabs.refresh]; omega
      · simp [Loops, Tabs.enter, Tabs.refresh]; omega
  | button t =>
    have key : ∀ x : Table, Tabs.Alive (s.refresh x).1 := by
      intro x hs u hu hau
      have := ha hs u hu hau
      simp only [Loops, Tabs.refresh, List.count_append]
      simp only [Loops] at this
      omega
    cases t with
    | tinfo => exact key _
    | sys =>
      simp only [Tabs.step]
      split
      · exact key _
      · exact ha
    | scan => exact key .scan
  | answer i ok now =>
    cases ok with
    | false => exact absurd rfl (hev i now)
    | true =>
      simp only [Tabs.step]
      split
      · exact ha
      · rename_i t ht
        rw [if_pos trivial]
        obtain ⟨e1, e2, -, -, e3, -, -, hc⟩ := loaded_eq { s with waiting := s.waiting.eraseIdx i } t now
        intro hs u hu hau
        rw [e2] at hs
        rw [e1] at hau
        have h1 := ha hs u hu hau
        have h2 := count_erase ht u
        simp only [Loops, e3] at h1 ⊢
        rcases hc with ⟨-, -, e4, -⟩ | ⟨hn, e4⟩
        · rw [e4, List.countP_append, List.countP_singleton]
          simp only [decide_eq_true_eq]
          omega
        · rw [e4]
          have : t ≠ u := fun e => hn ⟨e ▸ hu, e ▸ hau⟩
          rw [if_neg this] at h2
          show 1 ≤ (s.waiting.eraseIdx i).count u + s.armed.countP _
          omega
  | fire n now =>
    intro hs u hu hau
    rw [Loops.fire h]
    obtain ⟨e1, e2⟩ := step_active s (.fire n now)
    rw [e2] at hs
    rw [e1] at hau
    exact ha hs u hu hau

theorem stays_run : ∀ (evs : List TabEvent) {s : Tabs}, s.Inv → s.Alive → AllAnswered evs → (s.run evs).1.Alive := by
  intro evs
  induction evs with
  | nil => intro s _ h _; exact h
  | cons ev r ih =>
    intro s h ha he
    rw [tabs_run_cons]
    exact ih (tabs_step_inv h ev) (stays_step h ha ev (fun i now e => he i now (by simp [e])))
      (fun i now hm => he i now (List.mem_cons_of_mem _ hm))

/-- The user opens the tab of the teleinformation. -/
def openTinfo : List TabEvent := [.answer 0 true 0, .click .tinfo, .shown]

/-- **C101**, the tables are kept up to date: as long as no request fails, the table of the tab that is shown is being loaded,
or a timer is set that will load it.

Partial: after a failure the table is not loaded any more (`c101_refuted_error`). -/
theorem c101_alive_partial (hash : Option Tab) (evs : List TabEvent) (he : AllAnswered evs) (hm : moving hash hash.toList evs = [])
    (t : Table) (ht : t.tab ≠ none) (hc : chosen hash evs = t.tab) :
    t ∈ ((Tabs.load hash).1.run evs).1.waiting ∨ ∃ a ∈ ((Tabs.load hash).1.run evs).1.armed, a.table = t ∧
      ∀ now, a.due ≤ now → Ask.table t ∈ (((Tabs.load hash).1.run evs).1.step (.fire a.handle now)).2 := by
  obtain ⟨l1, l2, -⟩ := load_state hash
  have h0 : (Tabs.load hash).1.Alive := by
    intro hs u hu hau
    rw [l2] at hs
    rw [l1] at hau
    cases hash with
    | none => exact absurd hau.symm hu
    | some x => cases hs
  have hi := tabs_run_inv evs (load_inv hash)
  have ha := stays_run evs (load_inv hash) h0 he
  obtain ⟨a1, a2⟩ := run_active evs (Tabs.load hash).1
  rw [l1] at a1 a2
  rw [l2] at a2
  have h1 := ha (a2.trans hm) t ht (a1.trans hc)
  generalize ((Tabs.load hash).1.run evs).1 = s at hi h1
  by_cases hw : t ∈ s.waiting
  · exact .inl hw
  · right
    rw [Loops, List.count_eq_zero.2 hw, Nat.zero_add] at h1
    obtain ⟨a, h2, h3⟩ := List.countP_pos_iff.1 h1
    simp only [decide_eq_true_eq] at h3
    refine ⟨a, h2, h3, fun now hn => ?_⟩
    rcases fire_spec s a.handle now with ⟨hf, -⟩ | ⟨b, hb, e1, -, e2⟩
    · exfalso
      have := List.find?_eq_none.1 hf a h2
      simp [hn] at this
    · have : b = a := by
        have hap := hi.apart
        exact nodup_map_inj hap hb h2 e1
      rw [e2, this, ← h3]
      exact List.mem_singleton.2 rfl

example : AllAnswered openTinfo ∧ moving none [] openTinfo = [] ∧ chosen none openTinfo = Table.tab .tinfo :=
  ⟨fun _ _ h => by simp [openTinfo] at h, by decide, by decide⟩

/-- A new timer comes from an answer. -/
theorem armed_step (s : Tabs) (ev : TabEvent) {a : Armed} (ha : a ∈ (s.step ev).1.armed) : a ∈ s.armed ∨
    ∃ i t, ev = .answer i true t ∧ s.waiting[i]? = some a.table ∧ a.due = t + pause a.table ∧ s.active = a.table.tab := by
  have hcl : ∀ (x : Tabs) (h : Option Nat), a ∈ (x.clear h).armed → a ∈ x.armed := fun x h hm => (List.mem_filter.1 hm).1
  cases ev with
  | click t =>
    left
    simp only [Tabs.step, Tabs.click] at ha
    split at ha <;> exact ha
  | shown =>
    left
    simp only [Tabs.step] at ha
    split at ha
    · exact ha
    · rename_i t r hs
      have : a ∈ ((({ s with shows := r } : Tabs).clear s.timerSys).clear s.timerTinfo).armed := by
        unfold Tabs.onShown at ha
        cases hx : s.source <;> cases t <;> simp only [Tabs.clear, hx] at ha ⊢ <;> exact ha
      exact hcl ({ s with shows := r } : Tabs) _ (hcl _ _ this)
  | button t =>
    left
    cases t with
    | sys => simp only [Tabs.step] at ha; split at ha <;> exact ha
    | _ => exact ha
  | answer i ok now =>
    simp only [Tabs.step] at ha
    split at ha
    · exact .inl ha
    · rename_i t ht
      cases ok with
      | false => exact .inl ha
      | true =>
        rw [if_pos rfl] at ha
        obtain ⟨-, -, -, -, -, -, -, hc⟩ := loaded_eq { s with waiting := s.waiting.eraseIdx i } t now
        rcases hc with ⟨-, h2, e, -⟩ | ⟨-, e⟩
        · rw [e] at ha
          rcases List.mem_append.1 ha with ha | ha
          · exact .inl ha
          · rw [List.mem_singleton.1 ha]
            exact .inr ⟨i, now, rfl, ht, by cases t <;> rfl, h2⟩
        · rw [e] at ha; exact .inl ha
  | fire n now =>
    left
    rcases fire_spec s n now with ⟨-, e⟩ | ⟨b, -, -, -, e⟩
    · rw [e] at ha; exact ha
    · rw [e] at ha; exact (List.mem_filter.1 ha).1

theorem tabs_run_append (s : Tabs) (a b : List TabEvent) : (s.run (a ++ b)).1 = ((s.run a).1.run b).1 := by
  induction a generalizing s with
  | nil => rfl
  | cons x a ih => exact ih (s.step x).1

/-- The answer a timer comes from. -/
theorem armed_from (s : Tabs) (hs : s.armed = []) (evs : List TabEvent) : ∀ a ∈ (s.run evs).1.armed,
    ∃ pre i t post, evs = pre ++ .answer i true t :: post ∧ (s.run pre).1.waiting[i]? = some a.table ∧
      a.due = t + pause a.table := by
  suffices ∀ r : List TabEvent, ∀ a ∈ (s.run r.reverse).1.armed, ∃ pre i t post, r.reverse = pre ++ .answer i true t :: post ∧
      (s.run pre).1.waiting[i]? = some a.table ∧ a.due = t + pause a.table by
    have := this evs.reverse
    rwa [List.reverse_reverse] at this
  intro r
  induction r with
  | nil => intro a ha; rw [show ((s.run [].reverse).1.armed) = s.armed from rfl, hs] at ha; cases ha
  | cons ev r ih =>
    intro a ha
    rw [List.reverse_cons, tabs_run_append] at ha
    rcases armed_step _ ev ha with ha | ⟨i, t, rfl, hw, hd, -⟩
    · obtain ⟨pre, i, t, post, e, hw, hd⟩ := ih a ha
      exact ⟨pre, i, t, post ++ [ev], by rw [List.reverse_cons, e, List.append_assoc]; rfl, hw, hd⟩
    · exact ⟨r.reverse, i, t, [], by rw [List.reverse_cons], hw, hd⟩

/-- **C101**, the pace: whatever happens, a request that the user has not made comes at least 5 s (teleinformation) or 1 s
(system) after the answer to an earlier request of the same table. -/
theorem c101_pace (hash : Option Tab) (evs : List TabEvent) (h now : Nat) (t : Table)
    (ha : Ask.table t ∈ (((Tabs.load hash).1.run evs).1.step (.fire h now)).2) :
    ∃ pre i at' post, evs = pre ++ .answer i true at' :: post ∧
      ((Tabs.load hash).1.run pre).1.waiting[i]? = some t ∧ at' + pause t ≤ now := by
  rcases fire_spec ((Tabs.load hash).1.run evs).1 h now with ⟨-, e⟩ | ⟨a, hm, -, hd, e⟩
  · rw [e] at ha; cases ha
  · rw [e] at ha
    have e2 : Ask.table t = Ask.table a.table := List.mem_singleton.1 ha
    obtain rfl : t = a.table := by injection e2
    obtain ⟨pre, i, at', post, e3, hw, hdue⟩ := armed_from (Tabs.load hash).1 (by cases hash <;> rfl) evs a hm
    exact ⟨pre, i, at', post, e3, hw, by rw [← hdue]; exact hd⟩

/-- A step without the user, on another tab. -/
theorem quiet_step {s : Tabs} (h : s.Inv) (hs : s.shows = []) (t : Table) (ht : s.active ≠ t.tab) (ev : TabEvent) (hi : Idle ev) :
    (s.step ev).2.count (.table t) + (s.step ev).1.armed.countP (·.table = t) ≤ s.armed.countP (·.table = t) := by
  cases ev with
  | click _ => exact hi.elim
  | button _ => exact hi.elim
  | shown => simp only [Tabs.step, hs]; exact Nat.le_of_eq (Nat.zero_add _)
  | answer i ok now =>
    simp only [Tabs.step]
    split
    · exact Nat.le_of_eq (Nat.zero_add _)
    · rename_i u hu
      cases ok with
      | false => exact Nat.le_of_eq (Nat.zero_add _)
      | true =>
        rw [if_pos rfl]
        obtain ⟨-, -, -, -, -, -, -, hc⟩ := loaded_eq { s with waiting := s.waiting.eraseIdx i } u now
        rcases hc with ⟨-, h2, e, -⟩ | ⟨-, e⟩
        · rw [e, List.countP_append, List.countP_singleton]
          have : u ≠ t := fun e => ht (e ▸ h2)
          simp [this]
        · rw [e]; exact Nat.le_of_eq (Nat.zero_add _)
  | fire n now =>
    rcases fire_spec s n now with ⟨-, e⟩ | ⟨a, ha, rfl, -, e⟩
    · rw [e]; exact Nat.le_of_eq (Nat.zero_add _)
    · rw [e]
      have := armed_without h.apart ha (·.table = t)
      simp only [decide_eq_true_eq] at this
      simp only [Tabs.refresh, List.count_cons, List.count_nil, beq_iff_eq, Ask.table.injEq]
      omega

theorem idle_active {s : Tabs} (hs : s.shows = []) {ev : TabEvent} (hi : Idle ev) :
    (s.step ev).1.active = s.active ∧ (s.step ev).1.shows = [] := by
  obtain ⟨e1, e2⟩ := step_active s ev
  rw [hs] at e2
  cases ev with
  | click _ => exact hi.elim
  | button _ => exact hi.elim
  | _ => exact ⟨e1, e2⟩

theorem quiet_run : ∀ (evs : List TabEvent) {s : Tabs}, s.Inv → s.shows = [] → ∀ t : Table, s.active ≠ t.tab →
    (∀ ev ∈ evs, Idle ev) →
    (s.run evs).2.flatten.count (.table t) + (s.run evs).1.armed.countP (·.table = t) ≤ s.armed.countP (·.table = t) := by
  intro evs
  induction evs with
  | nil => intro s _ _ t _ _; exact Nat.le_of_eq (Nat.zero_add _)
  | cons ev r ih =>
    intro s h hs t ht hi
    have hev := hi ev (List.mem_cons_self ..)
    obtain ⟨e1, e2⟩ := idle_active hs hev
    have h1 := quiet_step h hs t ht ev hev
    have h2 := ih (tabs_step_inv h ev) e2 t (by rw [e1]; exact ht) (fun x hx => hi x (List.mem_cons_of_mem _ hx))
    rw [tabs_run_cons, List.flatten_cons, List.count_append]
    dsimp only
    omega

/-- **C101**, the table of a tab that is not shown: whatever has happened before, it is asked for at most once for each timer
that is left, and then never again. -/
theorem c101_quiet (hash : Option Tab) (evs after : List TabEvent) (hm : moving hash hash.toList evs = []) (t : Table)
    (ht : chosen hash evs ≠ t.tab) (hi : ∀ ev ∈ after, Idle ev) :
    (((Tabs.load hash).1.run evs).1.run after).2.flatten.count (.table t) ≤
      ((Tabs.load hash).1.run evs).1.armed.countP (·.table = t) := by
  obtain ⟨l1, l2, -⟩ := load_state hash
  obtain ⟨a1, a2⟩ := run_active evs (Tabs.load hash).1
  rw [l1] at a1 a2
  rw [l2] at a2
  have := quiet_run after (tabs_run_inv evs (load_inv hash)) (a2.trans hm) t (by rw [a1]; exact ht) hi
  omega

/-- What is true of a calm page. -/
structure Tabs.One (s : Tabs) : Prop where
  once : ∀ t : Table, t.tab ≠ none → Loops s t ≤ 1
  known : ∀ a ∈ s.armed, (a.table = .tinfo ∧ s.timerTinfo = some a.handle) ∨ (a.table = .sys ∧ s.timerSys = some a.handle)
  shown : s.shows = [] → ∀ a ∈ s.armed, s.active = a.table.tab

theorem calm_step {s : Tabs} (h : s.Inv) (ho : s.One) (ev : TabEvent) (hb : ∀ t, ev ≠ .button t)
    (hw : ev = .shown → Table.tinfo ∉ s.waiting ∧ Table.sys ∉ s.waiting) : (s.step ev).1.One := by
  cases ev with
  | click t =>
    simp only [Tabs.step, Tabs.click]
    split
    · exact ho
    · exact ⟨ho.once, ho.known, fun hs => by simp at hs⟩
  | button t => exact absurd rfl (hb t)
  | shown =>
    obtain ⟨w1, w2⟩ := hw rfl
    simp only [Tabs.step]
    split
    · exact ho
    · rename_i t r hs
      rw [onShown_eq (s := { s with shows := r }) h.streams]
      have hnone : ({ s with shows := r } : Tabs).left.armed = [] := by
        simp only [Tabs.left, Tabs.clear, List.filter_filter]
        rw [List.filter_eq_nil_iff]
        intro a ha
        rcases ho.known a ha with ⟨-, e⟩ | ⟨-, e⟩ <;> simp [e]
      have harm : (({ s with shows := r } : Tabs).left.enter t).1.armed = [] := by cases t <;> exact hnone
      refine ⟨fun u hu => ?_, fun a ha => ?_, fun _ a ha => ?_⟩
      · simp only [Loops, harm, List.countP_nil, Nat.add_zero]
        have hu0 : s.waiting.count u = 0 := by
          cases u with
          | tinfo => exact List.count_eq_zero.2 w1
          | sys => exact List.count_eq_zero.2 w2
          | scan => exact absurd rfl hu
        have hle : ∀ x : Table, (s.waiting ++ [x]).count u ≤ 1 := by
          intro x
          rw [List.count_append, hu0, Nat.zero_add]
          exact List.count_le_length
        cases t with
        | gauges => show s.waiting.count u ≤ 1; omega
        | tinfo => exact hle _
        | sys => exact hle _
        | cfg => exact hle _
      · rw [harm] at ha; cases ha
      · rw [harm] at ha; cases ha
  | answer i ok now =>
    simp only [Tabs.step]
    split
    · exact ho
    · rename_i t ht
      have hle : ∀ u, (s.waiting.eraseIdx i).count u ≤ s.waiting.count u := fun u => by
        have := count_erase ht u; omega
      have h2 : ({ s with waiting := s.waiting.eraseIdx i } : Tabs).One := by
        refine ⟨fun u hu => ?_, ho.known, ho.shown⟩
        have h3 := ho.once u hu
        have h4 := hle u
        simp only [Loops] at h3 ⊢
        omega
      cases ok with
      | false => exact h2
      | true =>
        rw [if_pos rfl]
        obtain ⟨e1, e2, -, -, e3, -, -, hc⟩ := loaded_eq { s with waiting := s.waiting.eraseIdx i } t now
        rcases hc with ⟨hn, hact, e4, -, e5, e6⟩ | ⟨-, e⟩
        · have h3 := ho.once t hn
          have h4 := count_erase ht t
          rw [if_pos rfl] at h4
          simp only [Loops] at h3
          have h5 : s.armed.countP (·.table = t) = 0 := by omega
          have h6 : ∀ a ∈ s.armed, a.table ≠ t := fun a ha e => by
            have := List.countP_eq_zero.1 h5 a ha
            simp [e] at this
          refine ⟨fun u hu => ?_, fun a ha => ?_, fun hs a ha => ?_⟩
          · have h7 := ho.once u hu
            have h8 := count_erase ht u
            simp only [Loops] at h7
            simp only [Loops, e3, e4, List.countP_append, List.countP_singleton, decide_eq_true_eq]
            omega
          · rw [e4] at ha
            rw [e5, e6]
            rcases List.mem_append.1 ha with ha | ha
            · have h7 := h6 a ha
              rcases ho.known a ha with ⟨h8, h9⟩ | ⟨h8, h9⟩
              · exact .inl ⟨h8, by rw [if_neg (fun e => h7 (h8.trans e.symm))]; exact h9⟩
              · exact .inr ⟨h8, by rw [if_neg (fun e => h7 (h8.trans e.symm))]; exact h9⟩
            · rw [List.mem_singleton.1 ha]
              cases t with
              | tinfo => exact .inl ⟨rfl, rfl⟩
              | sys => exact .inr ⟨rfl, rfl⟩
              | scan => exact absurd rfl hn
          · rw [e4] at ha
            rw [e2] at hs
            rw [e1]
            rcases List.mem_append.1 ha with ha | ha
            · exact ho.shown hs a ha
            · rw [List.mem_singleton.1 ha]; exact hact
        · rw [e]; exact h2
  | fire n now =>
    have hl := Loops.fire h n now
    rcases fire_spec s n now with ⟨-, e⟩ | ⟨a, ha, rfl, -, e⟩
    · rw [e]; exact ho
    · refine ⟨fun u hu => by rw [hl]; exact ho.once u hu, ?_, ?_⟩
      · rw [e]; exact fun b hb => ho.known b (List.mem_filter.1 hb).1
      · rw [e]; exact fun hs b hb => ho.shown hs b (List.mem_filter.1 hb).1

theorem calm_run : ∀ (evs : List TabEvent) {s : Tabs}, s.Inv → s.One → Gentle s evs → (s.run evs).1.One := by
  intro evs
  induction evs with
  | nil => intro s _ h _; exact h
  | cons ev r ih =>
    intro s h ho hc
    rw [tabs_run_cons]
    exact ih (tabs_step_inv h ev) (calm_step h ho ev hc.1 hc.2.1) hc.2.2

/-- **C101**, one request at a time: if the user leaves the buttons alone and no table is being loaded when a tab becomes
visible, each table has at most one request under way or timer set, and once the tab is shown nothing else is asked for.

Partial: it fails with the buttons (`c101_refuted_button`) and if a tab is shown while its table is being loaded
(`c101_refuted_link`). -/
theorem c101_single_partial (hash : Option Tab) (evs : List TabEvent) (hc : Gentle (Tabs.load hash).1 evs) :
    (∀ t : Table, t.tab ≠ none → Loops ((Tabs.load hash).1.run evs).1 t ≤ 1) ∧
    (moving hash hash.toList evs = [] → ∀ after, (∀ ev ∈ after, Idle ev) → ∀ t, chosen hash evs ≠ t.tab →
      Ask.table t ∉ (((Tabs.load hash).1.run evs).1.run after).2.flatten) := by
  have h0 : (Tabs.load hash).1.One := by
    have e : (Tabs.load hash).1.waiting = [.tinfo] ∧ (Tabs.load hash).1.armed = [] := by cases hash <;> exact ⟨rfl, rfl⟩
    refine ⟨fun t _ => ?_, fun a ha => ?_, fun _ a ha => ?_⟩
    · rw [Loops, e.1, e.2]
      have : [Table.tinfo].count t ≤ 1 := List.count_le_length
      simpa using this
    · rw [e.2] at ha; cases ha
    · rw [e.2] at ha; cases ha
  have ho := calm_run evs (load_inv hash) h0 hc
  refine ⟨ho.once, fun hm after hi t ht => ?_⟩
  obtain ⟨l1, l2, -⟩ := load_state hash
  obtain ⟨a1, a2⟩ := run_active evs (Tabs.load hash).1
  rw [l1] at a1 a2
  rw [l2] at a2
  have h1 := c101_quiet hash evs after hm t ht hi
  have h2 : ((Tabs.load hash).1.run evs).1.armed.countP (·.table = t) = 0 := by
    rw [List.countP_eq_zero]
    intro a ha
    simp only [decide_eq_true_eq]
    intro e
    exact ht (by rw [← a1, ← e]; exact ho.shown (a2.trans hm) a ha)
  rw [h2] at h1
  exact List.count_eq_zero.1 (Nat.le_zero.1 h1)

/-- Without the user, on the tab of the table, and without failures, nothing is lost and nothing is gained. -/
theorem loops_step {s : Tabs} (h : s.Inv) (hs : s.shows = []) {t : Table} (hn : t.tab ≠ none) (ht : s.active = t.tab)
    (ev : TabEvent) (hi : Idle ev) (hev : ∀ i now, ev ≠ .answer i false now) : Loops (s.step ev).1 t = Loops s t := by
  cases ev with
  | click _ => exact hi.elim
  | button _ => exact hi.elim
  | shown => simp only [Tabs.step, hs]
  | answer i ok now =>
    cases ok with
    | false => exact absurd rfl (hev i now)
    | true =>
      simp only [Tabs.step]
      split
      · rfl
      · rename_i u hu
        rw [if_pos trivial]
        obtain ⟨-, -, -, -, e3, -, -, hc⟩ := loaded_eq { s with waiting := s.waiting.eraseIdx i } u now
        have h2 := count_erase hu t
        rcases hc with ⟨-, -, e4, -⟩ | ⟨hu2, e4⟩
        · simp only [Loops, e3, e4, List.countP_append, List.countP_singleton, decide_eq_true_eq]
          omega
        · rw [e4]
          have : u ≠ t := fun e => hu2 ⟨e ▸ hn, e ▸ ht⟩
          rw [if_neg this] at h2
          simp only [Loops]
          omega
  | fire n now => exact Loops.fire h n now t

theorem loops_run : ∀ (evs : List TabEvent) {s : Tabs}, s.Inv → s.shows = [] → ∀ {t : Table}, t.tab ≠ none → s.active = t.tab →
    (∀ ev ∈ evs, Idle ev) → AllAnswered evs → Loops (s.run evs).1 t = Loops s t := by
  intro evs
  induction evs with
  | nil => intro s _ _ t _ _ _ _; rfl
  | cons ev r ih =>
    intro s h hs t hn ht hi he
    have hev := hi ev (List.mem_cons_self ..)
    obtain ⟨e1, e2⟩ := idle_active hs hev
    rw [tabs_run_cons]
    exact (ih (tabs_step_inv h ev) e2 hn (e1.trans ht) (fun x hx => hi x (List.mem_cons_of_mem _ hx))
      (fun i now hm => he i now (List.mem_cons_of_mem _ hm))).trans
      (loops_step h hs hn ht ev hev (fun i now e => he i now (by simp [e])))

theorem press_run : ∀ (n : Nat) (s : Tabs),
    (s.run (List.replicate n (.button .tinfo))).1 = { s with waiting := s.waiting ++ List.replicate n .tinfo } := by
  intro n
  induction n with
  | zero => intro s; simp only [List.replicate_zero, List.append_nil]; rfl
  | succ n ih =>
    intro s
    rw [List.replicate_succ, tabs_run_cons, ih]
    simp only [Tabs.step, Tabs.refresh, List.replicate_succ, List.append_assoc]
    rfl

/-- **C101**, what goes wrong with the buttons: after `n` presses of the button the page loads the table `n + 1` times per
period, until the tab is left or a request fails. -/
theorem c101_refuted_button (n : Nat) (after : List TabEvent) (hi : ∀ ev ∈ after, Idle ev) (he : AllAnswered after) :
    Loops ((Tabs.load none).1.run (openTinfo ++ List.replicate n (.button .tinfo) ++ after)).1 .tinfo = n + 1 := by
  rw [tabs_run_append]
  have e : ((Tabs.load none).1.run (openTinfo ++ List.replicate n (.button .tinfo))).1 =
      { ((Tabs.load none).1.run openTinfo).1 with
        waiting := ((Tabs.load none).1.run openTinfo).1.waiting ++ List.replicate n .tinfo } := by
    rw [tabs_run_append, press_run]
  rw [loops_run after (tabs_run_inv _ (load_inv none)) (by rw [e]; rfl) (by simp [Table.tab]) (by rw [e]; rfl) hi he, e]
  have h1 : ((Tabs.load none).1.run openTinfo).1.waiting = [.tinfo] := by decide
  have h2 : ((Tabs.load none).1.run openTinfo).1.armed = [] := by decide
  simp only [Loops, h1, h2]
  simp [Nat.add_comm]

/-- **C101**, what goes wrong with the address `#tab_tinfo`: the table is loaded twice per period, although the user has done
nothing. -/
theorem c101_refuted_link (after : List TabEvent) (hi : ∀ ev ∈ after, Idle ev) (he : AllAnswered after) :
    Loops ((Tabs.load (some .tinfo)).1.run (.shown :: after)).1 .tinfo = 2 := by
  have h := tabs_step_inv (load_inv (some .tinfo)) .shown
  rw [tabs_run_cons, loops_run after h (by decide) (by decide) (by decide) hi he]
  decide

/-- A page where nothing is under way. -/
theorem idle_dead : ∀ (evs : List TabEvent) {s : Tabs}, s.shows = [] → s.waiting = [] → s.armed = [] → (∀ ev ∈ evs, Idle ev) →
    (s.run evs).2.flatten = [] := by
  intro evs
  induction evs with
  | nil => intro s _ _ _ _; rfl
  | cons ev r ih =>
    intro s h1 h2 h3 hi
    have e : s.step ev = (s, []) := by
      have := hi ev (List.mem_cons_self ..)
      cases ev with
      | click _ => exact this.elim
      | button _ => exact this.elim
      | shown => simp only [Tabs.step, h1]
      | answer i ok now => simp only [Tabs.step, h2, List.getElem?_nil]
      | fire n now => simp only [Tabs.step, h3, List.find?_nil]
    rw [tabs_run_cons, e]
    exact ih h1 h2 h3 (fun x hx => hi x (List.mem_cons_of_mem _ hx))

/-- **C101**, what goes wrong with failures: one request that fails, and the page asks for nothing any more until the user
does something. -/
theorem c101_refuted_error (now : Nat) (after : List TabEvent) (hi : ∀ ev ∈ after, Idle ev) :
    chosen none (openTinfo ++ [.answer 0 false now]) = some .tinfo ∧
    (((Tabs.load none).1.run (openTinfo ++ [.answer 0 false now])).1.run after).2.flatten = [] :=
  ⟨rfl, idle_dead after rfl rfl rfl hi⟩

/-- Two tabs: the gauges, then the system.  The timer of the table makes a request, and the stream is closed. -/
example : Gentle (Tabs.load none).1 [.answer 0 true 0, .click .gauges, .shown, .click .sys, .shown, .answer 0 true 20, .fire 1 1020] ∧
    ((Tabs.load none).1.run [.answer 0 true 0, .click .gauges, .shown, .click .sys, .shown, .answer 0 true 20, .fire 1 1020]).2 =
      [[], [], [.stream 0], [], [.close 0, .table .sys], [], [.table .sys]] := by
  refine ⟨?_, by decide⟩
  simp only [Gentle, ne_eq, reduceCtorEq, not_false_eq_true, implies_true, false_implies, true_and, and_true, true_implies]
  decide

end Wifinfo
