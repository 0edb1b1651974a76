import Verif.Spec.Stream
import Verif.Props.Template

/-!
# C42, C43: event-stream clients
-/

namespace Wifinfo
open Spec

/-- Link between the device and what the bystander knows. -/
structure Sse.Agrees (s : Sse) (k : Seen) : Prop where
  live : k.live = s.clients
  nodup : s.clients.Nodup
  two : s.clients.length ≤ 2
  known : ∀ c ∈ s.clients, c < s.next
  fresh : ∀ c ∈ k.all, c < s.next

theorem Seen.notes_append (s : Seen) (a b : List SseEff) :
    s.notes (a ++ b) = (s.notes a).bind fun s => s.notes b := by
  induction a generalizing s with
  | nil => rfl
  | cons e a ih =>
    simp only [List.cons_append, Seen.notes]
    cases s.note e with
    | none => rfl
    | some s => simp [ih]

theorem sseLoop_fst (conn : Nat → Bool) (data : Option Str) (l : List Nat) :
    (sseLoop conn data l).1 = l.filter conn := by
  induction l with
  | nil => rfl
  | cons c r ih =>
    by_cases h : conn c = true
    · simp only [sseLoop, h, if_true, List.filter_cons_of_pos, ih]
    · simp only [sseLoop, h, if_false, Bool.false_eq_true, List.filter_cons_of_neg, not_false_eq_true, ih]

theorem sseLoop_notes (conn : Nat → Bool) (data : Option Str) (all : List Nat) (l : List Nat) :
    ∀ pre : List Nat, (pre ++ l).Nodup →
    Seen.notes { live := pre ++ l, all := all } (sseLoop conn data l).2 =
      some { live := pre ++ l.filter conn, all := all } := by
  induction l with
  | nil => intro pre _; rfl
  | cons c r ih =>
    intro pre hn
    have hc : c ∈ pre ++ c :: r := by simp
    by_cases h : conn c = true
    · have e : pre ++ c :: r = (pre ++ [c]) ++ r := by simp
      have ih' := ih (pre ++ [c]) (by rw [← e]; exact hn)
      rw [← e] at ih'
      simp only [sseLoop, h, if_true, List.filter_cons_of_pos]
      cases data with
      | none => simpa using ih'
      | some d =>
        simp only [List.singleton_append, Seen.notes, Seen.note, hc, if_true, Option.bind_some]
        simpa using ih'
    · simp only [sseLoop, h, Bool.false_eq_true, if_false, Seen.notes, Seen.note, hc, if_true,
        Option.bind_some, List.filter_cons_of_neg, not_false_eq_true]
      have hp : c ∉ pre := by
        intro hm
        have := (List.nodup_append.1 hn).2.2 c hm c (by simp)
        exact this rfl
      rw [List.erase_append_right _ hp, List.erase_cons_head]
      apply ih
      refine List.Nodup.sublist ?_ hn
      exact List.Sublist.append_left (List.sublist_cons_self c r) pre

theorem handle_notes {s : Sse} {k : Seen} (h : s.Agrees k) (conn : Nat → Bool) (data : Option Str) :
    ∃ k', k.notes (s.handle conn data).2 = some k' ∧ (s.handle conn data).1.Agrees k' ∧ k'.all = k.all := by
  have e := sseLoop_notes conn data k.all s.clients [] (by simpa using h.nodup)
  have hk : k = { live := [] ++ s.clients, all := k.all } := by
    rw [List.nil_append, ← h.live]
  rw [← hk] at e
  refine ⟨_, e, ?_, rfl⟩
  have hs : (s.handle conn data).1 = { s with clients := s.clients.filter conn } := by
    simp only [Sse.handle, sseLoop_fst]
  rw [hs]
  exact {
    live := by simp
    nodup := h.nodup.filter _
    two := Nat.le_trans (List.length_filter_le _ _) h.two
    known := fun c hc => h.known c (List.mem_filter.1 hc).1
    fresh := h.fresh }

theorem accept_notes {s s' : Sse} {k : Seen} (h : s.Agrees k) {up : Bool} {e}
    (ha : s.accept up = some (s', e)) : ∃ k', k.notes e = some k' ∧ s'.Agrees k' := by
  unfold Sse.accept at ha
  split at ha
  · rename_i hlt
    obtain ⟨rfl, rfl⟩ := Prod.mk.inj (Option.some.inj ha)
    have h1 : ¬ (s.next ∈ k.all ∨ 2 ≤ k.live.length) := by
      rw [h.live]
      rintro (h2 | h2)
      · exact Nat.lt_irrefl _ (h.fresh _ h2)
      · omega
    refine ⟨{ live := k.live ++ [s.next], all := s.next :: k.all }, ?_, ?_⟩
    · simp only [Seen.notes, Seen.note, h1, if_false, Option.bind_some]
    · exact {
        live := by rw [h.live]
        nodup := by
          refine List.nodup_append.2 ⟨h.nodup, by simp, ?_⟩
          intro a ha b hb
          rw [List.mem_singleton] at hb
          have := h.known a ha
          omega
        two := by simp; omega
        known := by
          intro c hc
          rcases List.mem_append.1 hc with hc | hc
          · have := h.known c hc; show c < s.next + 1; omega
          · rw [List.mem_singleton] at hc; subst hc; show s.next < s.next + 1; omega
        fresh := by
          intro c hc
          rcases List.mem_cons.1 hc with rfl | hc
          · show s.next < s.next + 1; omega
          · have := h.fresh c hc; show c < s.next + 1; omega }
  · cases ha

theorem sseEffs_append (a b : List Eff) : sseEffs (a ++ b) = sseEffs a ++ sseEffs b :=
  List.filterMap_append

theorem sseEffs_map (l : List SseEff) : sseEffs (l.map .sse) = l := by
  induction l with
  | nil => rfl
  | cons e l ih => simp only [List.map_cons, sseEffs, List.filterMap_cons] at *; rw [ih]

theorem deliver_notes (conn : Nat → Bool) (o : List Out) : ∀ {s : Sse} {k : Seen}, s.Agrees k →
    ∃ k', k.notes (sseEffs (deliver conn s o).2) = some k' ∧ (deliver conn s o).1.Agrees k' := by
  induction o with
  | nil => intro s k h; exact ⟨k, rfl, h⟩
  | cons x o ih =>
    intro s k h
    cases x with
    | sse d =>
      obtain ⟨k1, h1, h2, _⟩ := handle_notes h conn (some d)
      obtain ⟨k2, h3, h4⟩ := ih h2
      refine ⟨k2, ?_, h4⟩
      show k.notes (sseEffs (List.map Eff.sse (s.handle conn (some d)).2 ++ (deliver conn _ o).2)) = _
      rw [sseEffs_append, sseEffs_map, Seen.notes_append, h1]
      exact h3
    | http n r => exact ih h
    | jeedom r => exact ih h
    | emoncms r => exact ih h

/-! ## Handlers -/

theorem getAuth_form {c : Config} {r : Req} {a e} (h : getAuth c r = .ok (a, e)) :
    (a = .none ∧ e = [.needAuth]) ∨ (a ≠ .none ∧ e = []) := by
  unfold getAuth at h
  split at h
  · obtain ⟨u, _, h⟩ := bind_ok h
    obtain ⟨p, _, h⟩ := bind_ok h
    split at h
    · obtain ⟨rfl, rfl⟩ := Prod.mk.inj (Except.ok.inj h)
      right
      refine ⟨?_, rfl⟩
      split <;> simp
    · obtain ⟨rfl, rfl⟩ := Prod.mk.inj (Except.ok.inj h)
      exact Or.inl ⟨rfl, rfl⟩
  · obtain ⟨rfl, rfl⟩ := Prod.mk.inj (Except.ok.inj h)
    exact Or.inr ⟨by simp, rfl⟩

theorem accessOk_form {c : Config} {r : Req} {a e} (h : accessOk c r = .ok (a, e)) :
    (a = false ∧ e = [.needAuth]) ∨ (a = true ∧ e = []) := by
  obtain ⟨⟨x, f⟩, h1, h⟩ := bind_ok h
  obtain ⟨rfl, rfl⟩ := Prod.mk.inj (Except.ok.inj h)
  rcases getAuth_form h1 with ⟨rfl, rfl⟩ | ⟨h2, rfl⟩
  · exact Or.inl ⟨rfl, rfl⟩
  · exact Or.inr ⟨by simpa using h2, rfl⟩

theorem accessFull_form {c : Config} {r : Req} {a e} (h : accessFull c r = .ok (a, e)) :
    (a = false ∧ (e = [.needAuth] ∨ e = [.send 403 (bs "failed")])) ∨ (a = true ∧ e = []) := by
  obtain ⟨⟨x, f⟩, h1, h⟩ := bind_ok h
  rcases getAuth_form h1 with ⟨rfl, rfl⟩ | ⟨h2, rfl⟩
  · obtain ⟨rfl, rfl⟩ := Prod.mk.inj (Except.ok.inj h)
    exact Or.inl ⟨rfl, Or.inl rfl⟩
  · cases x with
    | none => exact absurd rfl h2
    | restricted =>
      obtain ⟨rfl, rfl⟩ := Prod.mk.inj (Except.ok.inj h)
      exact Or.inl ⟨rfl, Or.inr rfl⟩
    | full =>
      obtain ⟨rfl, rfl⟩ := Prod.mk.inj (Except.ok.inj h)
      exact Or.inr ⟨rfl, rfl⟩

theorem sendJson_form {d d' : Device} {r : Req} {get l} (h : sendJson d r get = .ok (d', l)) :
    d' = d ∧ (l = [.needAuth] ∨ ∃ s, l = [.send 200 s]) := by
  obtain ⟨⟨a, e⟩, h1, h⟩ := bind_ok h
  dsimp only at h
  split at h
  · obtain ⟨rfl, rfl⟩ := Prod.mk.inj (Except.ok.inj h)
    rcases getAuth_form h1 with ⟨rfl, rfl⟩ | ⟨h2, rfl⟩
    · exact ⟨rfl, Or.inl rfl⟩
    · contradiction
  · obtain ⟨s, _, h⟩ := bind_ok h
    obtain ⟨rfl, rfl⟩ := Prod.mk.inj (Except.ok.inj h)
    rcases getAuth_form h1 with ⟨rfl, rfl⟩ | ⟨h2, rfl⟩
    · contradiction
    · exact ⟨rfl, Or.inr ⟨_, rfl⟩⟩

theorem notFound_form {w : World} {d : Device} {r : Req} {l} (h : notFound w d r = .ok l) :
    ∃ n s, l = [.send n s] := by
  obtain ⟨u, _, h⟩ := bind_ok h
  obtain ⟨p, _, h⟩ := bind_ok h
  obtain ⟨v, _, h⟩ := bind_ok h
  cases v with
  | some v => rw [← Except.ok.inj h]; exact ⟨_, _, rfl⟩
  | none =>
    obtain ⟨msg, _, h⟩ := bind_ok h
    rw [← Except.ok.inj h]; exact ⟨_, _, rfl⟩

theorem handleRead_form {e : Env} {p : Str} {l} (h : handleRead e p = some l) : ∃ q, l = [.stream q] := by
  unfold handleRead at h
  split at h
  · cases h
  · split at h
    · cases h; exact ⟨_, rfl⟩
    · split at h
      · cases h; exact ⟨_, rfl⟩
      · cases h

theorem handleRoot_form {d : Device} {e : Env} {r : Req} {l} (h : handleRoot d e r = .ok l) :
    l = [.needAuth] ∨ (∃ p, l = [.stream p]) ∨ ∃ a v n s, l = [.header a v, .send n s] := by
  obtain ⟨⟨a, f⟩, h1, h⟩ := bind_ok h
  rcases getAuth_form h1 with ⟨rfl, rfl⟩ | ⟨h2, rfl⟩
  · rw [← Except.ok.inj h]; exact Or.inl rfl
  · cases a with
    | none => exact absurd rfl h2
    | restricted =>
      dsimp only at h
      split at h
      · rename_i x hx
        obtain ⟨q, rfl⟩ := handleRead_form hx
        rw [← Except.ok.inj h]; exact Or.inr (Or.inl ⟨q, rfl⟩)
      · rw [← Except.ok.inj h]; exact Or.inr (Or.inr ⟨_, _, _, _, rfl⟩)
    | full =>
      dsimp only at h
      split at h
      · rename_i x hx
        obtain ⟨q, rfl⟩ := handleRead_form hx
        rw [← Except.ok.inj h]; exact Or.inr (Or.inl ⟨q, rfl⟩)
      · rw [← Except.ok.inj h]; exact Or.inr (Or.inr ⟨_, _, _, _, rfl⟩)

/-- What a handler can do to the event-stream clients. -/
theorem handle_sse {b : Build} {d d' : Device} {e : Env} {r : Req} {l}
    (h : d.handle b e r = .ok (d', l)) :
    (d'.sse = d.sse ∧ sseEffs l = []) ∨
    ∃ s x, d.sse.accept e.up = some (s, x) ∧ d'.sse = s ∧ sseEffs l = x := by
  unfold Device.handle at h
  have json : ∀ {get}, sendJson d r get = .ok (d', l) → d'.sse = d.sse ∧ sseEffs l = [] := by
    intro get hj
    obtain ⟨rfl, rfl | ⟨s, rfl⟩⟩ := sendJson_form hj <;> exact ⟨rfl, rfl⟩
  split at h
  · obtain ⟨⟨ok, ef⟩, h1, h⟩ := bind_ok h
    rcases accessOk_form h1 with ⟨rfl, rfl⟩ | ⟨rfl, rfl⟩
    · obtain ⟨rfl, rfl⟩ := Prod.mk.inj (Except.ok.inj h)
      exact Or.inl ⟨rfl, rfl⟩
    · simp only [if_true] at h
      split at h
      · rename_i s x hx
        obtain ⟨rfl, rfl⟩ := Prod.mk.inj (Except.ok.inj h)
        exact Or.inr ⟨s, x, hx, rfl, by rw [List.nil_append, sseEffs_map]⟩
      · obtain ⟨rfl, rfl⟩ := Prod.mk.inj (Except.ok.inj h)
        exact Or.inl ⟨rfl, rfl⟩
  · obtain ⟨⟨ok, ef⟩, h1, h⟩ := bind_ok h
    rcases accessOk_form h1 with ⟨rfl, rfl⟩ | ⟨rfl, rfl⟩ <;>
    · obtain ⟨rfl, rfl⟩ := Prod.mk.inj (Except.ok.inj h)
      exact Or.inl ⟨rfl, rfl⟩
  · obtain ⟨⟨a, ef⟩, h1, h⟩ := bind_ok h
    dsimp only at h
    split at h
    · obtain ⟨rfl, rfl⟩ := Prod.mk.inj (Except.ok.inj h)
      rcases getAuth_form h1 with ⟨rfl, rfl⟩ | ⟨h2, rfl⟩
      · exact Or.inl ⟨rfl, rfl⟩
      · contradiction
    · obtain ⟨⟨nv, code⟩, h2, h⟩ := bind_ok h
      obtain ⟨rfl, rfl⟩ := Prod.mk.inj (Except.ok.inj h)
      rcases getAuth_form h1 with ⟨rfl, rfl⟩ | ⟨h2, rfl⟩
      · contradiction
      · exact Or.inl ⟨rfl, rfl⟩
  · exact Or.inl (json h)
  · exact Or.inl (json h)
  · exact Or.inl (json h)
  · exact Or.inl (json h)
  · exact Or.inl (json h)
  · exact Or.inl (json h)
  · exact Or.inl (json h)
  · obtain ⟨⟨ok, ef⟩, h1, h⟩ := bind_ok h
    rcases accessFull_form h1 with ⟨rfl, rfl | rfl⟩ | ⟨rfl, rfl⟩
    · obtain ⟨rfl, rfl⟩ := Prod.mk.inj (Except.ok.inj h)
      exact Or.inl ⟨rfl, rfl⟩
    · obtain ⟨rfl, rfl⟩ := Prod.mk.inj (Except.ok.inj h)
      exact Or.inl ⟨rfl, rfl⟩
    · obtain ⟨nv, _, h⟩ := bind_ok h
      obtain ⟨rfl, rfl⟩ := Prod.mk.inj (Except.ok.inj h)
      exact Or.inl ⟨rfl, rfl⟩
  · obtain ⟨⟨ok, ef⟩, h1, h⟩ := bind_ok h
    rcases accessOk_form h1 with ⟨rfl, rfl⟩ | ⟨rfl, rfl⟩ <;>
    · obtain ⟨rfl, rfl⟩ := Prod.mk.inj (Except.ok.inj h)
      exact Or.inl ⟨rfl, rfl⟩
  · obtain ⟨rfl, rfl⟩ := Prod.mk.inj (Except.ok.inj h)
    exact Or.inl ⟨rfl, rfl⟩
  · obtain ⟨⟨ok, ef⟩, h1, h⟩ := bind_ok h
    rcases accessFull_form h1 with ⟨rfl, rfl | rfl⟩ | ⟨rfl, rfl⟩ <;>
    · obtain ⟨rfl, rfl⟩ := Prod.mk.inj (Except.ok.inj h)
      exact Or.inl ⟨rfl, rfl⟩
  · obtain ⟨⟨ok, ef⟩, h1, h⟩ := bind_ok h
    rcases accessFull_form h1 with ⟨rfl, rfl | rfl⟩ | ⟨rfl, rfl⟩ <;>
    · obtain ⟨rfl, rfl⟩ := Prod.mk.inj (Except.ok.inj h)
      cases d.updOk <;> exact Or.inl ⟨rfl, rfl⟩
  · obtain ⟨l', h1, h⟩ := bind_ok h
    obtain ⟨rfl, rfl⟩ := Prod.mk.inj (Except.ok.inj h)
    rcases handleRoot_form h1 with rfl | ⟨p, rfl⟩ | ⟨_, _, n, s, rfl⟩ <;> exact Or.inl ⟨rfl, rfl⟩
  · obtain ⟨rfl, rfl⟩ := Prod.mk.inj (Except.ok.inj h)
    exact Or.inl ⟨rfl, rfl⟩
  · obtain ⟨rfl, rfl⟩ := Prod.mk.inj (Except.ok.inj h)
    exact Or.inl ⟨rfl, rfl⟩
  · obtain ⟨l', h1, h⟩ := bind_ok h
    obtain ⟨rfl, rfl⟩ := Prod.mk.inj (Except.ok.inj h)
    obtain ⟨n, s, rfl⟩ := notFound_form h1
    exact Or.inl ⟨rfl, rfl⟩

theorem upload_sse (b : Build) (d : Device) (u : UploadEv) :
    (d.upload b u).1.sse = d.sse ∧ sseEffs (d.upload b u).2 = [] := by
  cases u with
  | start f n a c => cases a <;> cases c <;> exact ⟨rfl, rfl⟩
  | write x a c => cases a <;> cases c <;> exact ⟨rfl, rfl⟩
  | fin c => cases c <;> exact ⟨rfl, rfl⟩
  | abort c => cases c <;> exact ⟨rfl, rfl⟩

/-- What any event but a boot does to the event-stream clients. -/
theorem step_notes {b : Build} {d d' : Device} {ev : Event} {l : List Eff} {k : Seen}
    (hk : d.sse.Agrees k) (h : d.step b ev = .ok (d', l)) :
    (∃ f m a p k1 k2 k3, ev = .boot f m a p k1 k2 k3 ∧ d'.sse = Sse.init) ∨
    ((∀ f m a p k1 k2 k3, ev ≠ .boot f m a p k1 k2 k3) ∧
      ∃ k', k.notes (sseEffs l) = some k' ∧ d'.sse.Agrees k') := by
  cases ev with
  | boot f m a p k1 k2 k3 =>
    obtain ⟨x, h1, h⟩ := bind_ok h
    obtain ⟨rfl, rfl⟩ := Prod.mk.inj (Except.ok.inj h)
    obtain ⟨nv, _, h1⟩ := bind_ok h1
    obtain ⟨nv', _, h1⟩ := bind_ok h1
    refine Or.inl ⟨f, m, a, p, k1, k2, k3, rfl, ?_⟩
    rw [← Except.ok.inj h1]
  | byte now t conn x =>
    refine Or.inr ⟨by simp, ?_⟩
    obtain ⟨⟨tic, out⟩, _, h⟩ := bind_ok h
    obtain ⟨rfl, rfl⟩ := Prod.mk.inj (Except.ok.inj h)
    exact deliver_notes conn out hk
  | poll conn =>
    refine Or.inr ⟨by simp, ?_⟩
    obtain ⟨rfl, rfl⟩ := Prod.mk.inj (Except.ok.inj h)
    obtain ⟨k', h1, h2, _⟩ := handle_notes hk conn none
    exact ⟨k', by rw [sseEffs_map]; exact h1, h2⟩
  | upload r u =>
    refine Or.inr ⟨by simp, ?_⟩
    have e := Except.ok.inj h
    obtain ⟨h1, h2⟩ := upload_sse b d u
    rw [e] at h1 h2
    exact ⟨k, by rw [h2]; rfl, by rw [h1]; exact hk⟩
  | handle r e =>
    refine Or.inr ⟨by simp, ?_⟩
    rcases handle_sse h with ⟨h1, h2⟩ | ⟨s, x, h1, h2, h3⟩
    · exact ⟨k, by rw [h2]; rfl, by rw [h1]; exact hk⟩
    · rw [h2, h3]
      exact accept_notes hk h1
  | cliSse t conn =>
    refine Or.inr ⟨by simp, ?_⟩
    obtain ⟨rfl, rfl⟩ := Prod.mk.inj (Except.ok.inj h)
    obtain ⟨k', h1, h2, _⟩ := handle_notes hk conn (some t)
    exact ⟨k', by rw [sseEffs_map]; exact h1, h2⟩
  | cliTimers =>
    refine Or.inr ⟨by simp, ?_⟩
    obtain ⟨rfl, rfl⟩ := Prod.mk.inj (Except.ok.inj h)
    exact ⟨k, rfl, hk⟩
  | cliWifi a p c =>
    refine Or.inr ⟨by simp, ?_⟩
    obtain ⟨nv, _, h⟩ := bind_ok h
    obtain ⟨rfl, rfl⟩ := Prod.mk.inj (Except.ok.inj h)
    exact ⟨k, rfl, hk⟩
  | cliAp a p c =>
    refine Or.inr ⟨by simp, ?_⟩
    obtain ⟨nv, _, h⟩ := bind_ok h
    obtain ⟨rfl, rfl⟩ := Prod.mk.inj (Except.ok.inj h)
    exact ⟨k, rfl, hk⟩
  | cliReset c =>
    refine Or.inr ⟨by simp, ?_⟩
    obtain ⟨rfl, rfl⟩ := Prod.mk.inj (Except.ok.inj h)
    exact ⟨k, rfl, hk⟩

theorem agrees_init : Sse.init.Agrees Seen.none :=
  { live := rfl, nodup := List.nodup_nil, two := by decide, known := by simp [Sse.init],
    fresh := by simp [Seen.none] }

theorem follow_other {k : Seen} {ev : Event} {l r} (h : ∀ f m a p k1 k2 k3, ev ≠ .boot f m a p k1 k2 k3) :
    k.follow ((ev, l) :: r) = (k.notes (sseEffs l)).bind fun s => s.follow r := by
  cases ev with
  | boot f m a p k1 k2 k3 => exact absurd rfl (h f m a p k1 k2 k3)
  | _ => rfl

theorem run_follow {b : Build} (evs : List Event) : ∀ {d d' : Device} {es} {k : Seen}, d.sse.Agrees k →
    d.run b evs = .ok (d', es) → ∃ k', k.follow (evs.zip es) = some k' ∧ d'.sse.Agrees k' := by
  induction evs with
  | nil =>
    intro d d' es k hk h
    obtain ⟨rfl, rfl⟩ := Prod.mk.inj (Except.ok.inj h)
    exact ⟨k, rfl, hk⟩
  | cons ev r ih =>
    intro d d' es k hk h
    obtain ⟨⟨d1, l⟩, h1, h⟩ := bind_ok h
    obtain ⟨⟨d2, ls⟩, h2, h⟩ := bind_ok h
    obtain ⟨rfl, rfl⟩ := Prod.mk.inj (Except.ok.inj h)
    rw [List.zip_cons_cons]
    rcases step_notes hk h1 with ⟨f, m, a, p, k1, k2, k3, rfl, h3⟩ | ⟨h3, k1, h4, h5⟩
    · exact ih (by rw [h3]; exact agrees_init) h2
    · obtain ⟨k2, h6, h7⟩ := ih h5 h2
      exact ⟨k2, by rw [follow_other h3, h4]; exact h6, h7⟩

theorem boot_sse {b : Build} {f m a p k1 k2 k3 d} (h : Device.boot b f m a p k1 k2 k3 = .ok d) :
    d.sse = Sse.init := by
  obtain ⟨nv, _, h⟩ := bind_ok h
  obtain ⟨nv', _, h⟩ := bind_ok h
  rw [← Except.ok.inj h]


/-! ## C42 -/

/-- **C42.** After a boot, whatever the sequence of connections, disconnections, meter bytes, requests,
uploads, commands and restarts, somebody who watches the connections never sees a third client
accepted (nor a client taking the name of another, nor anything sent to or closed on somebody who is
not connected), and the number of clients the device believes in is the number of those connected. -/
theorem c42_at_most_two {b : Build} {f m a p k1 k2 k3} {d d' : Device} {evs : List Event} {es}
    (h0 : Device.boot b f m a p k1 k2 k3 = .ok d) (h : d.run b evs = .ok (d', es)) :
    ∃ k, Seen.none.follow (evs.zip es) = some k ∧ k.live.length ≤ 2 ∧ d'.sse.clients = k.live := by
  obtain ⟨k, h1, h2⟩ := run_follow evs (by rw [boot_sse h0]; exact agrees_init) h
  exact ⟨k, h1, by rw [h2.live]; exact h2.two, h2.live.symm⟩

/-- **C42.** A request for the event stream, when it is authorised: with two clients the answer is 503
and nothing changes, otherwise the client is accepted behind the others. -/
theorem c42_third {b : Build} {d d' : Device} {r : Req} {e : Env} {l : List Eff}
    (hu : r.uri = bs "/tic" ∨ r.uri = bs "/sse/json") (h : d.step b (.handle r e) = .ok (d', l)) :
    (l = [.needAuth] ∧ d' = d) ∨
    (2 ≤ d.sse.clients.length ∧ (∃ s, l = [.send 503 s]) ∧ d' = d) ∨
    (d.sse.clients.length < 2 ∧ ∃ id up, l = [.sse (.opened id up)] ∧
      d'.sse.clients = d.sse.clients ++ [id] ∧ d'.tic = d.tic ∧ d'.nv = d.nv) := by
  have hr : route b.cpuload e.static r.method r.uri = .sse := by
    rcases hu with hu | hu <;> (unfold route; rw [if_pos]; simp [hu])
  have h : d.handle b e r = .ok (d', l) := h
  unfold Device.handle at h
  rw [hr] at h
  obtain ⟨⟨ok, ef⟩, h1, h⟩ := bind_ok h
  rcases accessOk_form h1 with ⟨rfl, rfl⟩ | ⟨rfl, rfl⟩
  · obtain ⟨rfl, rfl⟩ := Prod.mk.inj (Except.ok.inj h)
    exact Or.inl ⟨rfl, rfl⟩
  · simp only [if_true, Sse.accept] at h
    by_cases hc : d.sse.clients.length < 2
    · rw [if_pos hc] at h
      obtain ⟨rfl, rfl⟩ := Prod.mk.inj (Except.ok.inj h)
      exact Or.inr (Or.inr ⟨hc, _, _, rfl, rfl, rfl, rfl⟩)
    · rw [if_neg hc] at h
      obtain ⟨rfl, rfl⟩ := Prod.mk.inj (Except.ok.inj h)
      exact Or.inr (Or.inl ⟨by omega, ⟨_, rfl⟩, rfl⟩)

/-! ## C43 -/

theorem received_append (c : Nat) (a b : List SseEff) : received c (a ++ b) = received c a ++ received c b :=
  List.filterMap_append

theorem timesClosed_append (c : Nat) (a b : List SseEff) :
    timesClosed c (a ++ b) = timesClosed c a + timesClosed c b := List.countP_append

theorem sseLoop_effects (conn : Nat → Bool) (data : Option Str) (c : Nat) : ∀ l : List Nat, l.Nodup →
    received c (sseLoop conn data l).2 = (if c ∈ l ∧ conn c = true then data.toList else []) ∧
    timesClosed c (sseLoop conn data l).2 = (if c ∈ l ∧ conn c = false then 1 else 0) := by
  intro l
  induction l with
  | nil => intro _; simp [sseLoop, received, timesClosed]
  | cons x l ih =>
    intro hn
    obtain ⟨hx, hn⟩ := List.nodup_cons.1 hn
    obtain ⟨i1, i2⟩ := ih hn
    by_cases h : conn x = true
    · simp only [sseLoop, h, if_true, received_append, timesClosed_append, i1, i2]
      by_cases e : c = x
      · subst e
        cases data <;> simp [hx, h, received, timesClosed]
      · cases data <;> simp [e, received, timesClosed, Ne.symm e]
    · simp only [Bool.not_eq_true] at h
      have e1 : (sseLoop conn data (x :: l)).2 = [.closed x] ++ (sseLoop conn data l).2 := by
        simp [sseLoop, h]
      rw [e1, received_append, timesClosed_append, i1, i2]
      by_cases e : c = x
      · subst e
        simp [hx, h, received, timesClosed]
      · simp [e, received, timesClosed, Ne.symm e]

/-- **C43.** One broadcast (or one check of the connections): a client of the list whose connection is
up receives the event exactly once and stays; a client whose connection is down is closed exactly once
and removed, and receives nothing; nobody else receives anything or is closed. -/
theorem c43_broadcast {s : Sse} (hn : s.clients.Nodup) (conn : Nat → Bool) (data : Option Str) :
    (s.handle conn data).1.clients = s.clients.filter conn ∧
    ∀ c, received c (s.handle conn data).2 = (if c ∈ s.clients ∧ conn c = true then data.toList else []) ∧
      timesClosed c (s.handle conn data).2 = (if c ∈ s.clients ∧ conn c = false then 1 else 0) := by
  refine ⟨?_, fun c => sseLoop_effects conn data c s.clients hn⟩
  simp only [Sse.handle, sseLoop_fst]

/-- The list of clients never contains twice the same one. -/
theorem c43_nodup {b : Build} {f m a p k1 k2 k3} {d d' : Device} {evs : List Event} {es}
    (h0 : Device.boot b f m a p k1 k2 k3 = .ok d) (h : d.run b evs = .ok (d', es)) :
    d'.sse.clients.Nodup := by
  obtain ⟨k, h1, h2⟩ := run_follow evs (by rw [boot_sse h0]; exact agrees_init) h
  exact h2.nodup

theorem handle_stays {s : Sse} (hn : s.clients.Nodup) {conn : Nat → Bool} {data : Option Str} {c : Nat}
    (hc : c ∈ s.clients) (hs : conn c = true) :
    c ∈ (s.handle conn data).1.clients ∧ (s.handle conn data).1.clients.Nodup ∧
    received c (s.handle conn data).2 = data.toList ∧ timesClosed c (s.handle conn data).2 = 0 := by
  obtain ⟨h1, h2⟩ := c43_broadcast hn conn data
  obtain ⟨h3, h4⟩ := h2 c
  rw [h1, h3, h4]
  exact ⟨by simp [hc, hs], (List.filter_sublist).nodup hn, by simp [hc, hs], by simp [hc, hs]⟩

theorem deliver_stays (conn : Nat → Bool) {c : Nat} (hs : conn c = true) (o : List Out) :
    ∀ {s : Sse}, s.clients.Nodup → c ∈ s.clients →
    c ∈ (deliver conn s o).1.clients ∧ (deliver conn s o).1.clients.Nodup ∧
    received c (sseEffs (deliver conn s o).2) = (o.filterMap fun | .sse d => some d | _ => none) ∧
    timesClosed c (sseEffs (deliver conn s o).2) = 0 := by
  induction o with
  | nil => intro s hn hc; exact ⟨hc, hn, rfl, rfl⟩
  | cons x o ih =>
    intro s hn hc
    cases x with
    | sse d =>
      obtain ⟨h1, h2, h3, h4⟩ := handle_stays (data := some d) hn hc hs
      obtain ⟨g1, g2, g3, g4⟩ := ih h2 h1
      have e : (deliver conn s (.sse d :: o)) =
        ((deliver conn (s.handle conn (some d)).1 o).1,
          (s.handle conn (some d)).2.map .sse ++ (deliver conn (s.handle conn (some d)).1 o).2) := rfl
      rw [e]
      refine ⟨g1, g2, ?_, ?_⟩
      · rw [sseEffs_append, sseEffs_map, received_append, h3, g3]; rfl
      · rw [sseEffs_append, sseEffs_map, timesClosed_append, h4, g4]
    | http n r => exact ih hn hc
    | jeedom r => exact ih hn hc
    | emoncms r => exact ih hn hc

/-- What one event broadcasts. -/
theorem step_stays {b : Build} {d d' : Device} {ev : Event} {l : List Eff} {k : Seen}
    (hk : d.sse.Agrees k) (h : d.step b ev = .ok (d', l)) :
    ∃ sent : List Str, ∀ c ∈ d.sse.clients, stays c ev = true →
      c ∈ d'.sse.clients ∧ received c (sseEffs l) = sent ∧ timesClosed c (sseEffs l) = 0 := by
  cases ev with
  | boot f m a p k1 k2 k3 => exact ⟨[], by simp [stays]⟩
  | byte now t conn x =>
    obtain ⟨⟨tic, out⟩, _, h⟩ := bind_ok h
    obtain ⟨rfl, rfl⟩ := Prod.mk.inj (Except.ok.inj h)
    refine ⟨out.filterMap fun | .sse d => some d | _ => none, fun c hc hs => ?_⟩
    obtain ⟨h1, h2, h3, h4⟩ := deliver_stays conn (c := c) hs out hk.nodup hc
    exact ⟨h1, h3, h4⟩
  | poll conn =>
    obtain ⟨rfl, rfl⟩ := Prod.mk.inj (Except.ok.inj h)
    refine ⟨[], fun c hc hs => ?_⟩
    obtain ⟨h1, h2, h3, h4⟩ := handle_stays (data := none) hk.nodup hc hs
    exact ⟨h1, by rw [sseEffs_map]; exact h3, by rw [sseEffs_map]; exact h4⟩
  | upload r u =>
    have e := Except.ok.inj h
    obtain ⟨h1, h2⟩ := upload_sse b d u
    rw [e] at h1 h2
    refine ⟨[], fun c hc _ => ?_⟩
    rw [h1, h2]; exact ⟨hc, rfl, rfl⟩
  | handle r e =>
    refine ⟨[], fun c hc _ => ?_⟩
    rcases handle_sse h with ⟨h1, h2⟩ | ⟨s, x, h1, h2, h3⟩
    · rw [h1, h2]; exact ⟨hc, rfl, rfl⟩
    · rw [h2, h3]
      unfold Sse.accept at h1
      split at h1
      · obtain ⟨rfl, rfl⟩ := Prod.mk.inj (Option.some.inj h1)
        exact ⟨List.mem_append_left _ hc, rfl, rfl⟩
      · cases h1
  | cliSse t conn =>
    obtain ⟨rfl, rfl⟩ := Prod.mk.inj (Except.ok.inj h)
    refine ⟨[t], fun c hc hs => ?_⟩
    obtain ⟨h1, h2, h3, h4⟩ := handle_stays (data := some t) hk.nodup hc hs
    exact ⟨h1, by rw [sseEffs_map]; exact h3, by rw [sseEffs_map]; exact h4⟩
  | cliTimers =>
    obtain ⟨rfl, rfl⟩ := Prod.mk.inj (Except.ok.inj h)
    exact ⟨[], fun c hc _ => ⟨hc, rfl, rfl⟩⟩
  | cliWifi a p c =>
    obtain ⟨nv, _, h⟩ := bind_ok h
    obtain ⟨rfl, rfl⟩ := Prod.mk.inj (Except.ok.inj h)
    exact ⟨[], fun c hc _ => ⟨hc, rfl, rfl⟩⟩
  | cliAp a p c =>
    obtain ⟨nv, _, h⟩ := bind_ok h
    obtain ⟨rfl, rfl⟩ := Prod.mk.inj (Except.ok.inj h)
    exact ⟨[], fun c hc _ => ⟨hc, rfl, rfl⟩⟩
  | cliReset c =>
    obtain ⟨rfl, rfl⟩ := Prod.mk.inj (Except.ok.inj h)
    exact ⟨[], fun c hc _ => ⟨hc, rfl, rfl⟩⟩

theorem run_stays {b : Build} (evs : List Event) : ∀ {d d' : Device} {es} {k : Seen}, d.sse.Agrees k →
    d.run b evs = .ok (d', es) → ∃ sent : List Str, ∀ c ∈ d.sse.clients,
      (∀ ev ∈ evs, stays c ev = true) →
      c ∈ d'.sse.clients ∧ received c (sseEffs es.flatten) = sent ∧ timesClosed c (sseEffs es.flatten) = 0 := by
  induction evs with
  | nil =>
    intro d d' es k hk h
    obtain ⟨rfl, rfl⟩ := Prod.mk.inj (Except.ok.inj h)
    exact ⟨[], fun c hc _ => ⟨hc, rfl, rfl⟩⟩
  | cons ev r ih =>
    intro d d' es k hk h
    obtain ⟨⟨d1, l⟩, h1, h⟩ := bind_ok h
    obtain ⟨⟨d2, ls⟩, h2, h⟩ := bind_ok h
    obtain ⟨rfl, rfl⟩ := Prod.mk.inj (Except.ok.inj h)
    obtain ⟨sent1, g⟩ := step_stays hk h1
    have hk' : ∃ k', d1.sse.Agrees k' := by
      rcases step_notes hk h1 with ⟨_, _, _, _, _, _, _, _, h3⟩ | ⟨_, k', _, h5⟩
      · exact ⟨_, by rw [h3]; exact agrees_init⟩
      · exact ⟨k', h5⟩
    obtain ⟨k', hk'⟩ := hk'
    obtain ⟨sent2, g'⟩ := ih hk' h2
    refine ⟨sent1 ++ sent2, fun c hc hs => ?_⟩
    obtain ⟨a1, a2, a3⟩ := g c hc (hs ev (by simp))
    obtain ⟨b1, b2, b3⟩ := g' c a1 (fun ev h => hs ev (by simp [h]))
    refine ⟨b1, ?_, ?_⟩
    · rw [List.flatten_cons, sseEffs_append, received_append, a2, b2]
    · rw [List.flatten_cons, sseEffs_append, timesClosed_append, a3, b3]

/-- **C43.** All clients that stay connected during a run receive the same events in the same order,
are never closed and are still there at the end. -/
theorem c43_same_events {b : Build} {f m a p k1 k2 k3} {d0 d d' : Device} {before evs : List Event} {es0 es}
    (h0 : Device.boot b f m a p k1 k2 k3 = .ok d0) (h1 : d0.run b before = .ok (d, es0))
    (h : d.run b evs = .ok (d', es)) :
    ∃ sent : List Str, ∀ c ∈ d.sse.clients, (∀ ev ∈ evs, stays c ev = true) →
      c ∈ d'.sse.clients ∧ received c (sseEffs es.flatten) = sent ∧
      timesClosed c (sseEffs es.flatten) = 0 := by
  obtain ⟨k, _, h2⟩ := run_follow before (by rw [boot_sse h0]; exact agrees_init) h1
  exact run_stays evs h2 h

/-! ## Concrete cases -/

/-- A request for the event stream with the right credentials. -/
def sseReq : Req := { method := .get, uri := bs "/tic", args := [], creds := fun _ _ => true, forwarded := false }

/-- With right credentials access is granted. -/
theorem accessOk_right {c : Config} (h : Terminated c) {r : Req} (hr : ∀ u p, r.creds u p = true) :
    accessOk c r = .ok (true, []) := by
  obtain ⟨_, _, _, _, _, h1, h2, _⟩ := (terminated_iff c).1 h
  unfold accessOk getAuth
  split
  · rw [cstr_ok h1, cstr_ok h2]
    simp only [ok_bind, hr, if_true]
    cases r.forwarded <;> rfl
  · rfl

theorem device_boot_ok (b : Build) (f : Arr 1024) (m : Vector (Option Byte) MAX_FRAME_SIZE) (a p : Str) (k1 k2 k3 : Commit) :
    ∃ d, Device.boot b f m a p k1 k2 k3 = .ok d ∧ NvReach d.nv := by
  obtain ⟨nv, h1⟩ := boot_ok f b.world.chipId k1 k2
  obtain ⟨nv', h2⟩ := step_ok nv (.wifi a p k3)
  refine ⟨{ nv := nv', timers := ticMakeTimers nv'.config, tic := Tic.init m.toList, sse := Sse.init,
            updOk := false }, ?_, .step (.boot h1) h2⟩
  unfold Device.boot
  rw [h1, ok_bind, show nv.wifiSetup a p k3 = .ok nv' from h2, ok_bind]
  rfl

theorem sseReq_handle (b : Build) {d : Device} (h : NvReach d.nv) (e : Env) :
    d.step b (.handle sseReq e) = .ok (match d.sse.accept e.up with
      | some (s, x) => ({ d with sse := s }, x.map .sse)
      | none => (d, [.send 503 (bs "Service Unavailable (too many clients)")])) := by
  show d.handle b e sseReq = _
  unfold Device.handle
  rw [show route b.cpuload e.static sseReq.method sseReq.uri = .sse from if_pos (Or.inr rfl)]
  rw [accessOk_right (c32_terminated h) (fun _ _ => rfl)]
  simp only [ok_bind, if_true, List.nil_append]
  cases d.sse.accept e.up <;> rfl

/-- A booted device with three requests: two are accepted, the third is refused; then the first
client leaves and another event is broadcast to the one that stays. -/
example (b : Build) (f : Arr 1024) (m : Vector (Option Byte) MAX_FRAME_SIZE) (e : Env) : ∃ d d' : Device, ∃ x y,
    Device.boot b f m [] [] .ok .ok .ok = .ok d ∧
    d.run b [.handle sseReq e, .handle sseReq e, .handle sseReq e, .cliSse (bs "hi") (fun c => c == 1)] =
      .ok (d', [[.sse (.opened 0 x)], [.sse (.opened 1 y)],
        [.send 503 (bs "Service Unavailable (too many clients)")],
        [.sse (.closed 0), .sse (.event 1 (bs "hi"))]]) := by
  obtain ⟨d, h1, h2⟩ := device_boot_ok b f m [] [] .ok .ok .ok
  refine ⟨d, { d with sse := ⟨[1], 2⟩ }, e.up, e.up, h1, ?_⟩
  have h3 := boot_sse h1
  have e1 : d.step b (.handle sseReq e) = .ok ({ d with sse := ⟨[0], 1⟩ }, [.sse (.opened 0 e.up)]) := by
    rw [sseReq_handle b h2, h3]; rfl
  have e2 : Device.step b { d with sse := ⟨[0], 1⟩ } (.handle sseReq e) =
      .ok ({ d with sse := ⟨[0, 1], 2⟩ }, [.sse (.opened 1 e.up)]) := by
    rw [sseReq_handle b (d := { d with sse := ⟨[0], 1⟩ }) h2]; rfl
  have e3 : Device.step b { d with sse := ⟨[0, 1], 2⟩ } (.handle sseReq e) =
      .ok ({ d with sse := ⟨[0, 1], 2⟩ }, [.send 503 (bs "Service Unavailable (too many clients)")]) := by
    rw [sseReq_handle b (d := { d with sse := ⟨[0, 1], 2⟩ }) h2]; rfl
  simp only [Device.run, e1, ok_bind, e2, e3]
  rfl

end Wifinfo
