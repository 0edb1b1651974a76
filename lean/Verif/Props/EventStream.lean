import Verif.Props.Device
import Verif.Spec.EventStream

/-!
# C88: what a page gets through the event stream

The bytes written on the connection of a client are read by an independent reader (`Spec.esAnswer`).
-/

namespace Wifinfo
open Spec

/-- A text on one line. -/
def OneLine (x : Str) : Prop := ∀ b ∈ x, b ≠ 10 ∧ b ≠ 13

instance (x : Str) : Decidable (OneLine x) := inferInstanceAs (Decidable (∀ b ∈ x, b ≠ 10 ∧ b ≠ 13))

/-! ## The reader on what `send_event` writes -/

theorem esLines_text (x : Str) (hx : OneLine x) : ∀ (cur r : Str),
    esLines cur (x ++ r) = esLines (cur ++ x) r := by
  induction x with
  | nil => intro cur r; simp
  | cons b x ih =>
    intro cur r
    obtain ⟨h1, h2⟩ := hx b (by simp)
    have e : esLines cur (b :: (x ++ r)) = esLines (cur ++ [b]) (x ++ r) := by
      rw [esLines, if_neg (by simp [h1, h2])]
      intro _ h
      exact absurd h h2
    rw [List.cons_append, e, ih (fun b hb => hx b (by simp [hb]))]
    simp

theorem esLines_crlf (cur r : Str) : esLines cur (13 :: 10 :: r) = cur :: esLines [] r := by
  rw [esLines]

theorem sendEvent_eq (d : Str) : sendEvent d = [100, 97, 116, 97, 58, 32] ++ (d ++ (13 :: 10 :: 13 :: 10 :: [])) := by
  have e : bs "data: " = [100, 97, 116, 97, 58, 32] := by decide
  have e' : bs "\r\n\r\n" = [13, 10, 13, 10] := by decide
  rw [sendEvent, e, e']
  simp

theorem esLines_event {d : Str} (hd : OneLine d) (r : Str) :
    esLines [] (sendEvent d ++ r) = (bs "data: " ++ d) :: [] :: esLines [] r := by
  have e : bs "data: " = [100, 97, 116, 97, 58, 32] := by decide
  rw [sendEvent_eq, List.append_assoc, esLines_text _ (by decide), List.append_assoc, esLines_text _ hd,
    List.cons_append, List.cons_append, List.cons_append, List.cons_append, List.nil_append,
    esLines_crlf, esLines_crlf, e]
  rfl

theorem esLine_data (d : Str) : esLine ⟨[], []⟩ (bs "data: " ++ d) = (⟨d ++ [10], []⟩, []) := by
  have e : bs "data: " = [100, 97, 116, 97, 58, 32] := by decide
  have e2 : bs "data" = [100, 97, 116, 97] := by decide
  rw [e]
  simp [esLine, esField, e2]

theorem esEvents_event (d : Str) (l : List Str) :
    esEvents ⟨[], []⟩ ((bs "data: " ++ d) :: [] :: l) = ⟨bs "message", d⟩ :: esEvents ⟨[], []⟩ l := by
  rw [esEvents, esLine_data, esEvents]
  simp [esLine]

/-- A message event. -/
def message (d : Str) : EsEvent := ⟨bs "message", d⟩

theorem esEvents_stream (l : List Str) (h : ∀ d ∈ l, OneLine d) :
    esEvents ⟨[], []⟩ (esLines [] (l.flatMap sendEvent)) = l.map message := by
  induction l with
  | nil => rfl
  | cons d l ih =>
    rw [List.flatMap_cons, esLines_event (h d (by simp)), esEvents_event, ih (fun x hx => h x (by simp [hx]))]
    rfl

/-- **C88**, the stream alone: the texts sent, whatever they are as long as each is on one line, are read back as
message events, one each, in order. -/
theorem c88_stream (l : List Str) (h : ∀ d ∈ l, OneLine d) : esParse (l.flatMap sendEvent) = l.map message := by
  rw [esParse, if_neg, esEvents_stream l h]
  cases l with
  | nil => decide
  | cons d l =>
    rw [List.flatMap_cons, sendEvent_eq]
    intro e
    have := congrArg List.head? e
    simp at this


theorem httpHead_text (x : Str) (hx : (13 : Byte) ∉ x) : ∀ (cur r : Str),
    httpHead cur (x ++ r) = httpHead (cur ++ x) r := by
  induction x with
  | nil => intro cur r; simp
  | cons b x ih =>
    intro cur r
    simp only [List.mem_cons, not_or] at hx
    have e : httpHead cur (b :: (x ++ r)) = httpHead (cur ++ [b]) (x ++ r) := by
      rw [httpHead]
      intro _ h
      exact absurd h.symm hx.1
    rw [List.cons_append, e, ih hx.2]
    simp

theorem httpHead_println {x : Str} (hx : (13 : Byte) ∉ x) (hn : x ≠ []) (r : Str) :
    httpHead [] (println x ++ r) = (httpHead [] r).map fun p => (x :: p.1, p.2) := by
  rw [println, List.append_assoc, httpHead_text x hx, List.nil_append]
  show httpHead x (13 :: 10 :: r) = _
  rw [httpHead, if_neg hn]

theorem httpHead_end (r : Str) : httpHead [] (println [] ++ r) = some ([], r) := rfl

/-- **C88**, with the answer that comes before the stream. -/
theorem c88_answer (l : List Str) (h : ∀ d ∈ l, OneLine d) :
    esAnswer (sseHeader ++ l.flatMap sendEvent) = some (l.map message) := by
  have e : httpHead [] (sseHeader ++ l.flatMap sendEvent) =
      some (bs "HTTP/1.1 200 OK" :: [bs "Content-Type: text/event-stream;charset=UTF-8", bs "Connection: close",
        bs "Access-Control-Allow-Origin: *", bs "Cache-Control: no-cache"], l.flatMap sendEvent) := by
    simp only [sseHeader, List.append_assoc]
    rw [httpHead_println (by decide) (by decide), httpHead_println (by decide) (by decide),
      httpHead_println (by decide) (by decide), httpHead_println (by decide) (by decide),
      httpHead_println (by decide) (by decide), httpHead_end]
    rfl
  rw [esAnswer, e]
  simp only
  rw [if_pos (by decide +kernel), c88_stream l h]

/-! ## What the device sends is on one line -/

theorem oneLine_append {x y : Str} (hx : OneLine x) (hy : OneLine y) : OneLine (x ++ y) := by
  intro b hb
  rcases List.mem_append.1 hb with hb | hb
  · exact hx b hb
  · exact hy b hb

theorem oneLine_cons {c : Byte} {y : Str} (hc : c ≠ 10 ∧ c ≠ 13) (hy : OneLine y) : OneLine (c :: y) := by
  intro b hb
  rcases List.mem_cons.1 hb with rfl | hb
  · exact hc
  · exact hy b hb

theorem oneLine_numeral {x : Str} (h : numeral x = true) : OneLine x := by
  intro b hb
  have h1 := List.all_eq_true.1 h b hb
  have : ∀ b : Byte, isDigit b = true → b ≠ 10 ∧ b ≠ 13 := byte_all (by decide +kernel)
  exact this b h1

theorem oneLine_stored {g : RawGroup} (h : g.Good) : OneLine g.stored := by
  have hd : ∀ b : Byte, isData b = true → b ≠ 10 ∧ b ≠ 13 := byte_all (by decide +kernel)
  have hm : ∀ (s : Byte) (x : Str), OneLine x → OneLine (markSep s x) := by
    intro s x
    induction x with
    | nil => intro _ b hb; simp [markSep] at hb
    | cons a x ih =>
      intro hx
      rw [markSep]
      split
      · refine oneLine_cons (by decide) ?_
        intro b hb
        obtain ⟨c, hc, rfl⟩ := List.mem_map.1 hb
        split
        · decide
        · exact hx c (by simp [hc])
      · exact oneLine_cons (hx a (by simp)) (ih fun b hb => hx b (by simp [hb]))
  refine oneLine_append ?_ (by intro b hb; rw [List.mem_singleton.1 hb]; decide)
  intro b hb
  exact hm g.sep g.text (fun b hb => hd b (h.data b (by simp [hb]))) b (dropDots_mem hb)

theorem oneLine_cut : ∀ (x : Str), OneLine x → ∀ y ∈ cut x, OneLine y := by
  intro x
  induction x with
  | nil => intro _ y hy; simp [cut] at hy
  | cons a x ih =>
    intro hx y hy
    have ih := ih fun b hb => hx b (by simp [hb])
    rw [cut] at hy
    split at hy
    · rcases List.mem_cons.1 hy with rfl | hy
      · intro b hb; simp at hb
      · exact ih y hy
    · cases hc : cut x with
      | nil => rw [hc] at hy; simp at hy
      | cons s ss =>
        rw [hc] at hy ih
        rcases List.mem_cons.1 hy with rfl | hy
        · exact oneLine_cons (hx a (by simp)) (ih s (by simp))
        · exact ih y (by simp [hy])

theorem pairUp_mem : ∀ (l : List Str) (p : Str × Str), p ∈ pairUp l → p.1 ∈ l ∧ p.2 ∈ l
  | a :: b :: r, p, h => by
    rw [pairUp] at h
    rcases List.mem_cons.1 h with rfl | h
    · simp
    · obtain ⟨h1, h2⟩ := pairUp_mem r p h
      exact ⟨by simp [h1], by simp [h2]⟩
  | [], p, h => by simp [pairUp] at h
  | [_], p, h => by simp [pairUp] at h

theorem oneLine_pairs {gs : List RawGroup} (h : ∀ g ∈ gs, g.Good) {p : Str × Str} (hp : p ∈ pairs (storedAll gs)) :
    OneLine p.1 ∧ OneLine p.2 := by
  have ha : OneLine (storedAll gs) := by
    intro b hb
    obtain ⟨g, hg, hb⟩ := List.mem_flatMap.1 hb
    exact oneLine_stored (h g hg) b hb
  obtain ⟨h1, h2⟩ := pairUp_mem _ p hp
  exact ⟨oneLine_cut _ ha _ h1, oneLine_cut _ ha _ h2⟩

theorem oneLine_mems : ∀ (l : List JMember), (∀ x ∈ l, OneLine x.1 ∧ OneLine x.2.1) → OneLine (memsText l)
  | [], _ => by intro b hb; rw [List.mem_singleton.1 hb]; decide
  | [x], h => by
    obtain ⟨h1, h2⟩ := h x (by simp)
    exact oneLine_append (oneLine_cons (by decide) (oneLine_append h1 (oneLine_cons (by decide) (oneLine_cons (by decide) h2))))
      (by intro b hb; rw [List.mem_singleton.1 hb]; decide)
  | x :: y :: l, h => by
    obtain ⟨h1, h2⟩ := h x (by simp)
    have ih := oneLine_mems (y :: l) fun z hz => h z (List.mem_cons_of_mem _ hz)
    exact oneLine_append (oneLine_cons (by decide) (oneLine_append h1 (oneLine_cons (by decide) (oneLine_cons (by decide) h2))))
      (oneLine_cons (by decide) ih)

theorem oneLine_quoted {n v : Str} (hn : OneLine n) (hv : OneLine v) :
    OneLine (mText n v).1 ∧ OneLine (mText n v).2.1 :=
  ⟨hn, oneLine_cons (by decide) (oneLine_append hv (by intro b hb; rw [List.mem_singleton.1 hb]; decide))⟩

/-- A valid frame is behind what is on display. -/
theorem reach_valid {t : Teleinfo} {ts gs l} (h : TinfoReach t ((ts, gs) :: l)) : ValidFrame gs := by
  cases h with
  | copy hr hm hd he hc =>
    obtain ⟨_, _, _, _, hv⟩ := he
    exact hv

/-- The JSON of a frame is on one line. -/
theorem dict_oneLine {w : World} {t : Teleinfo} {l j} (h : TinfoReach t l) (hi : ∀ s, OneLine (w.iso s))
    (hj : ticJsonDict w t none = .ok j) : OneLine j := by
  cases l with
  | nil =>
    have e := (reach_inv h).2.2.2
    simp only at e
    subst e
    rw [show ticJsonDict w Teleinfo.init none = .ok (bs "{}") from rfl] at hj
    rw [← Except.ok.inj hj]
    decide
  | cons p l =>
    obtain ⟨ts, gs⟩ := p
    obtain ⟨h1, h2, h3⟩ := (reach_inv h).2.2.2
    rw [ticJsonDict_eq h1 h2] at hj
    rw [← Except.ok.inj hj]
    refine oneLine_cons (by decide) (oneLine_mems _ ?_)
    intro x hx
    rcases List.mem_append.1 hx with hx | hx
    · simp [dictHead] at hx
      rcases hx with rfl | rfl
      · exact oneLine_quoted (by decide) (hi _)
      · refine oneLine_quoted (by decide) ?_
        intro b hb
        have : ∀ b : Byte, plain b = true → b ≠ 10 ∧ b ≠ 13 := byte_all (by decide +kernel)
        exact this b (seconds_plain t.fr b hb)
    · obtain ⟨p, hp, rfl⟩ := List.mem_map.1 hx
      obtain ⟨q1, q2⟩ := oneLine_pairs (reach_valid h).good hp
      unfold dictMember
      split
      · rename_i hn
        refine ⟨q1, oneLine_numeral ?_⟩
        show numeral (normNum p.2) = true
        unfold normNum
        rw [if_pos hn, (stripZeros_spec p.2).2.1]
        exact hn
      · exact oneLine_quoted q1 q2

/-! ## Whole runs -/

/-- What is written on the connection of a client. -/
def wire (c : Nat) (l : List SseEff) : Str := (l.filter fun e => e.id == c).flatMap SseEff.bytes

/-- The events only. -/
theorem wire_events {c : Nat} : ∀ {l : List SseEff}, (∀ up, SseEff.opened c up ∉ l) →
    wire c l = (received c l).flatMap sendEvent := by
  intro l
  induction l with
  | nil => intro _; rfl
  | cons e l ih =>
    intro h
    have ih := ih fun up hu => h up (by simp [hu])
    cases e with
    | opened i up =>
      have hi : i ≠ c := fun e => h up (by simp [e])
      simpa [wire, received, SseEff.id, hi] using ih
    | event i d =>
      by_cases hi : i = c
      · subst hi
        simp only [wire, received, SseEff.id, SseEff.bytes, List.filter_cons, List.filterMap_cons, beq_self_eq_true,
          if_true, List.flatMap_cons] at ih ⊢
        rw [ih]
      · simpa [wire, received, SseEff.id, hi] using ih
    | closed i =>
      by_cases hi : i = c
      · subst hi
        simpa [wire, received, SseEff.id, SseEff.bytes] using ih
      · simpa [wire, received, SseEff.id, hi] using ih

/-- Nobody is opened twice. -/
theorem notes_known {c : Nat} : ∀ {l : List SseEff} {s s' : Seen}, s.notes l = some s' → c ∈ s.all →
    ∀ up, SseEff.opened c up ∉ l := by
  intro l
  induction l with
  | nil => intro s s' _ _ up h; simp at h
  | cons e l ih =>
    intro s s' h hc up hm
    rw [Seen.notes] at h
    cases hn : s.note e with
    | none => rw [hn] at h; cases h
    | some s1 =>
      rw [hn] at h
      have h : s1.notes l = some s' := h
      have hc' : c ∈ s1.all := by
        cases e with
        | opened i u =>
          simp only [Seen.note] at hn
          split at hn
          · cases hn
          · rw [← Option.some.inj hn]; simp [hc]
        | event i d =>
          simp only [Seen.note] at hn
          split at hn
          · rw [← Option.some.inj hn]; exact hc
          · cases hn
        | closed i =>
          simp only [Seen.note] at hn
          split at hn
          · rw [← Option.some.inj hn]; exact hc
          · cases hn
      rcases List.mem_cons.1 hm with rfl | hm
      · simp only [Seen.note] at hn
        rw [if_pos (Or.inl hc)] at hn
        cases hn
      · exact ih h hc' up hm

/-- A stranger gets nothing before the answer that makes them a client. -/
theorem notes_stranger {c : Nat} : ∀ {l : List SseEff} {s s' : Seen}, s.notes l = some s' → c ∉ s.all →
    (∀ x ∈ s.live, x ∈ s.all) →
    (wire c l = [] ∧ received c l = [] ∧ ∀ up, SseEff.opened c up ∉ l) ∨
    (∃ up, (∀ up', SseEff.opened c up' ∈ l ↔ up' = up) ∧
      wire c l = (if up then sseHeader else []) ++ (received c l).flatMap sendEvent) := by
  intro l
  induction l with
  | nil => intro s s' _ _ _; exact Or.inl ⟨rfl, rfl, by simp⟩
  | cons e l ih =>
    intro s s' h hc hl
    rw [Seen.notes] at h
    cases hn : s.note e with
    | none => rw [hn] at h; cases h
    | some s1 =>
      rw [hn] at h
      have h : s1.notes l = some s' := h
      cases e with
      | opened i u =>
        simp only [Seen.note] at hn
        split at hn
        · cases hn
        · have e1 := Option.some.inj hn
          by_cases hi : i = c
          · subst hi
            have hk := notes_known h (c := i) (by rw [← e1]; simp)
            have := wire_events hk
            refine Or.inr ⟨u, by simp [hk], ?_⟩
            simp only [wire, received, SseEff.id, SseEff.bytes, List.filter_cons, List.filterMap_cons,
              beq_self_eq_true, if_true, List.flatMap_cons] at this ⊢
            rw [this]
          · have := ih h (by rw [← e1]; simp [Ne.symm hi, hc]) (by
              rw [← e1]
              intro x hx
              simp only [List.mem_append, List.mem_singleton] at hx
              rcases hx with hx | hx
              · simp [hl x hx]
              · simp [hx])
            rcases this with ⟨t1, t2, t3⟩ | ⟨up, t1, t2⟩
            · exact Or.inl ⟨by simpa [wire, SseEff.id, hi] using t1, by simpa [received] using t2,
                by simp [t3, Ne.symm hi]⟩
            · exact Or.inr ⟨up, by simp [t1, Ne.symm hi], by simpa [wire, received, SseEff.id, hi] using t2⟩
      | event i d =>
        simp only [Seen.note] at hn
        split at hn
        · rename_i hm
          have e1 := Option.some.inj hn
          subst e1
          have hi : i ≠ c := fun e => hc (hl c (e ▸ hm))
          rcases ih h hc hl with ⟨t1, t2, t3⟩ | ⟨up, t1, t2⟩
          · exact Or.inl ⟨by simpa [wire, SseEff.id, hi] using t1, by simpa [received, hi] using t2, by simp [t3]⟩
          · exact Or.inr ⟨up, by simp [t1], by simpa [wire, received, SseEff.id, hi] using t2⟩
        · cases hn
      | closed i =>
        simp only [Seen.note] at hn
        split at hn
        · rename_i hm
          have e1 := Option.some.inj hn
          have hi : i ≠ c := fun e => hc (hl c (e ▸ hm))
          rcases ih h (by rw [← e1]; exact hc) (by
            rw [← e1]
            intro x hx
            exact hl x (List.mem_of_mem_erase hx)) with ⟨t1, t2, t3⟩ | ⟨up, t1, t2⟩
          · exact Or.inl ⟨by simpa [wire, SseEff.id, hi] using t1, by simpa [received] using t2, by simp [t3]⟩
          · exact Or.inr ⟨up, by simp [t1], by simpa [wire, received, SseEff.id, hi] using t2⟩
        · cases hn

theorem notes_append : ∀ {l r : List SseEff} {s s1 : Seen}, s.notes l = some s1 → s.notes (l ++ r) = s1.notes r := by
  intro l
  induction l with
  | nil => intro r s s1 h; rw [← Option.some.inj h]; rfl
  | cons e l ih =>
    intro r s s1 h
    rw [List.cons_append, Seen.notes]
    rw [Seen.notes] at h
    cases hn : s.note e with
    | none => rw [hn] at h; cases h
    | some s2 =>
      rw [hn] at h
      exact ih h

/-- Not a restart. -/
def NoBoot (ev : Event) : Prop := ∀ f m a p k1 k2 k3, ev ≠ .boot f m a p k1 k2 k3

theorem follow_notes : ∀ {evs : List Event} {es : List (List Eff)} {s s' : Seen}, evs.length = es.length →
    (∀ ev ∈ evs, NoBoot ev) → s.follow (evs.zip es) = some s' → s.notes (es.flatMap sseEffs) = some s' := by
  intro evs
  induction evs with
  | nil =>
    intro es s s' hl _ h
    obtain rfl := List.eq_nil_of_length_eq_zero hl.symm
    exact h
  | cons ev evs ih =>
    intro es s s' hl hb h
    cases es with
    | nil => simp at hl
    | cons l es =>
      rw [List.zip_cons_cons, follow_other (hb ev (by simp))] at h
      cases hn : s.notes (sseEffs l) with
      | none => rw [hn] at h; cases h
      | some s1 =>
        rw [hn] at h
        rw [List.flatMap_cons, notes_append hn]
        exact ih (by simpa using hl) (fun e he => hb e (by simp [he])) h

theorem run_length {b : Build} : ∀ {evs : List Event} {d d' : Device} {es}, d.run b evs = .ok (d', es) →
    evs.length = es.length := by
  intro evs
  induction evs with
  | nil =>
    intro d d' es h
    obtain ⟨rfl, rfl⟩ := Prod.mk.inj (Except.ok.inj h)
    rfl
  | cons ev r ih =>
    intro d d' es h
    obtain ⟨⟨d1, l⟩, h1, h⟩ := bind_ok h
    obtain ⟨⟨d2, ls⟩, h2, h⟩ := bind_ok h
    obtain ⟨rfl, rfl⟩ := Prod.mk.inj (Except.ok.inj h)
    simp [ih h2]

/-- The texts typed on the console are on one line. -/
def TypedOneLine (ev : Event) : Prop := ∀ t conn, ev = .cliSse t conn → OneLine t

theorem opened_only {s s' : Sse} {up : Bool} {x : List SseEff} (h : s.accept up = some (s', x)) (c : Nat) :
    received c x = [] := by
  unfold Sse.accept at h
  split at h
  · obtain ⟨-, rfl⟩ := Prod.mk.inj (Option.some.inj h)
    rfl
  · cases h

/-- What an event makes the clients receive is on one line. -/
theorem step_oneLine {b : Build} {d d' : Device} {up h fs ev l} {k : Seen} (hd : d.Inv b.world up h fs)
    (hk : d.sse.Agrees k) (hi : ∀ s, OneLine (b.world.iso s)) (ht : TypedOneLine ev)
    (hs : d.step b ev = .ok (d', l)) (c : Nat) : ∀ x ∈ received c (sseEffs l), OneLine x := by
  have hnil : ∀ x ∈ ([] : List Str), OneLine x := by intro x hx; simp at hx
  cases ev with
  | boot f m a p k1 k2 k3 =>
    obtain ⟨x, h1, hs⟩ := bind_ok hs
    obtain ⟨rfl, rfl⟩ := Prod.mk.inj (Except.ok.inj hs)
    exact hnil
  | byte now t conn x =>
    cases up with
    | true =>
      obtain ⟨⟨tic, out⟩, h1, hs⟩ := bind_ok hs
      obtain ⟨rfl, rfl⟩ := Prod.mk.inj (Except.ok.inj hs)
      unfold Tic.decode at h1
      rw [hd.pause, if_pos rfl] at h1
      obtain ⟨-, rfl⟩ := Prod.mk.inj (Except.ok.inj h1)
      exact hnil
    | false =>
      obtain ⟨_, _, _, _, ⟨_, _, rfl, _⟩ | ⟨ts, gs, out, _, h1, h2, h3⟩⟩ := byte_inv hd hs
      · exact hnil
      · obtain ⟨j, hj⟩ := c27_safe b.world h1.tinfo none
        have hl : l = (deliver conn d.sse out).2 := congrArg Prod.snd h3
        rw [hl, frame_events hk rfl h2 hj c]
        intro y hy
        split at hy
        · rw [List.mem_singleton.1 hy]
          exact dict_oneLine h1.tinfo hi hj
        · simp at hy
  | poll conn =>
    obtain ⟨rfl, rfl⟩ := Prod.mk.inj (Except.ok.inj hs)
    rw [sseEffs_map, (sseLoop_effects conn none c _ hk.nodup).1]
    intro y hy
    split at hy <;> simp at hy
  | upload r u =>
    have e := Except.ok.inj hs
    obtain ⟨h1, h2⟩ := upload_sse b d u
    rw [e] at h2
    rw [h2]
    exact hnil
  | handle r e =>
    rcases handle_sse hs with ⟨h1, h2⟩ | ⟨s, x, h1, h2, h3⟩
    · rw [h2]; exact hnil
    · rw [h3, opened_only h1]; exact hnil
  | cliSse t conn =>
    obtain ⟨rfl, rfl⟩ := Prod.mk.inj (Except.ok.inj hs)
    rw [sseEffs_map, (sseLoop_effects conn (some t) c _ hk.nodup).1]
    intro y hy
    split at hy
    · simp at hy
      rw [hy]
      exact ht t conn rfl
    · simp at hy
  | cliTimers =>
    obtain ⟨rfl, rfl⟩ := Prod.mk.inj (Except.ok.inj hs)
    exact hnil
  | cliWifi a p k =>
    obtain ⟨nv, h1, hs⟩ := bind_ok hs
    obtain ⟨rfl, rfl⟩ := Prod.mk.inj (Except.ok.inj hs)
    exact hnil
  | cliAp a p k =>
    obtain ⟨nv, h1, hs⟩ := bind_ok hs
    obtain ⟨rfl, rfl⟩ := Prod.mk.inj (Except.ok.inj hs)
    exact hnil
  | cliReset k =>
    obtain ⟨rfl, rfl⟩ := Prod.mk.inj (Except.ok.inj hs)
    exact hnil

theorem run_oneLine {b : Build} (hi : ∀ s, OneLine (b.world.iso s)) (c : Nat) : ∀ (evs : List Event)
    {d d' : Device} {up h fs es} {k : Seen}, d.Inv b.world up h fs → d.sse.Agrees k → (∀ ev ∈ evs, NoBoot ev) →
    (∀ ev ∈ evs, TypedOneLine ev) → d.run b evs = .ok (d', es) →
    ∀ x ∈ received c (es.flatMap sseEffs), OneLine x := by
  intro evs
  induction evs with
  | nil =>
    intro d d' up h fs es k _ _ _ _ hr
    obtain ⟨rfl, rfl⟩ := Prod.mk.inj (Except.ok.inj hr)
    intro x hx
    simp [received] at hx
  | cons ev r ih =>
    intro d d' up h fs es k hd hk hb ht hr
    obtain ⟨⟨d1, l⟩, h1, hr⟩ := bind_ok hr
    obtain ⟨⟨d2, ls⟩, h2, hr⟩ := bind_ok hr
    obtain ⟨rfl, rfl⟩ := Prod.mk.inj (Except.ok.inj hr)
    have hx := step_oneLine hd hk hi (ht ev (by simp)) h1 c
    obtain ⟨fs1, h3⟩ := step_inv hd h1
    rcases step_notes hk h1 with ⟨f, m, a, p, k1, k2, k3, rfl, _⟩ | ⟨_, k1, _, h5⟩
    · exact absurd rfl (hb _ (by simp) f m a p k1 k2 k3)
    · have := ih h3 h5 (fun e he => hb e (by simp [he])) (fun e he => ht e (by simp [he])) h2
      rw [List.flatMap_cons, received_append]
      intro x hm
      rcases List.mem_append.1 hm with hm | hm
      · exact hx x hm
      · exact this x hm

/-! ## C88 -/

/-- **C88.** A device has started and run in any way since; dates and texts typed on the console are on one line.
Nothing is ever written on the connection of somebody who was not accepted.  What is written to a client whose connection
was up when it was accepted is an answer which a browser reads as an event stream, and the page gets one message for each
event the device has sent to this client, in the same order, with exactly the same text. -/
theorem c88_run {b : Build} {f m a p k1 k2 k3} {d0 d : Device} {evs : List Event} {es}
    (h0 : Device.boot b f m a p k1 k2 k3 = .ok d0) (h : d0.run b evs = .ok (d, es)) (hb : ∀ ev ∈ evs, NoBoot ev)
    (hi : ∀ s, OneLine (b.world.iso s)) (ht : ∀ ev ∈ evs, TypedOneLine ev) (c : Nat) {l : List SseEff}
    (hl : l = es.flatMap sseEffs) :
    ((∀ up, SseEff.opened c up ∉ l) → wire c l = [] ∧ received c l = []) ∧
    (SseEff.opened c true ∈ l → esAnswer (wire c l) = some ((received c l).map message)) := by
  subst hl
  have hl := run_oneLine hi c evs (boot_inv h0) (by rw [boot_sse h0]; exact agrees_init) hb ht h
  obtain ⟨k, h1, -⟩ := run_follow evs (by rw [boot_sse h0]; exact agrees_init) h
  have h2 := follow_notes (run_length h) hb h1
  rcases notes_stranger (c := c) h2 (by simp [Seen.none]) (by simp [Seen.none]) with ⟨h3, h4, h5⟩ | ⟨up, h3, h4⟩
  · exact ⟨fun _ => ⟨h3, h4⟩, fun h => absurd h (h5 true)⟩
  · refine ⟨fun h => absurd ((h3 up).2 rfl) (h up), fun h => ?_⟩
    rw [h4, if_pos ((h3 true).1 h).symm]
    exact c88_answer _ hl

/-- It happens: a client comes and a text is sent; the page gets it. -/
example (b : Build) (f : Arr 1024) (m : Vector (Option Byte) MAX_FRAME_SIZE) (e : Env) (he : e.up = true) :
    ∃ d d' : Device, ∃ es, Device.boot b f m [] [] .ok .ok .ok = .ok d ∧
    d.run b [.handle sseReq e, .cliSse (bs "hi: you") (fun _ => true)] = .ok (d', es) ∧
    esAnswer (wire 0 (es.flatMap sseEffs)) = some [⟨bs "message", bs "hi: you"⟩] := by
  obtain ⟨d, h1, h2⟩ := device_boot_ok b f m [] [] .ok .ok .ok
  have h3 := boot_sse h1
  have e1 : d.step b (.handle sseReq e) = .ok ({ d with sse := ⟨[0], 1⟩ }, [.sse (.opened 0 true)]) := by
    rw [sseReq_handle b h2, h3, he]; rfl
  have e2 : Device.step b { d with sse := ⟨[0], 1⟩ } (.cliSse (bs "hi: you") (fun _ => true)) =
      .ok ({ d with sse := ⟨[0], 1⟩ }, [.sse (.event 0 (bs "hi: you"))]) := rfl
  refine ⟨d, { d with sse := ⟨[0], 1⟩ }, [[.sse (.opened 0 true)], [.sse (.event 0 (bs "hi: you"))]], h1, ?_, ?_⟩
  · rw [Device.run, e1, ok_bind]
    simp only [Device.run, e2, ok_bind, pure_ok]
  · have := c88_answer [bs "hi: you"] (by decide)
    simpa [wire, sseEffs, SseEff.id, SseEff.bytes, message] using this

/-- Without the condition on lines it would be false: the second line of a text is lost. -/
example : esParse (sendEvent (bs "a\nb")) = [⟨bs "message", bs "a"⟩] := by decide +kernel

end Wifinfo
