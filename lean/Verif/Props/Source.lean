import Verif.Model.Source
import Verif.Props.Follow

/-!
# C132: the gauges of the page after an interruption
-/

namespace Wifinfo

namespace Spec

/-- Somebody who tries at `u` and every `retry` after it is let in at `c`: nobody answered before. -/
def Reaches (retry : Nat) (net : Nat → Reply) (u c : Nat) : Prop :=
  ∃ k, c = u + k * retry ∧ net c = .accepted ∧ ∀ j < k, net (u + j * retry) = .unreachable

/-- What does nothing to a connection made at `c`: messages, and what happened to the wire before. -/
def Harmless (c : Nat) : Nat × GaugeEvent → Prop
  | (_, .tab _) => False
  | (_, .message _) => True
  | (t, .closed) => t < c
  | (t, .cut) => t < c

/-- After all this there is (or will be, if nothing more happens) a connection that the device has made at `c`: for the last click on the
tab of the gauges, or for the last time that the device closed one before. -/
inductive Live (retry : Nat) (net : Nat → Reply) : List (Nat × GaugeEvent) → Nat → Prop
  | first (h : List (Nat × GaugeEvent)) (u c : Nat) (quiet : List (Nat × GaugeEvent)) : Reaches retry net u c →
      (∀ x ∈ quiet, Harmless c x) → Live retry net (h ++ (u, .tab true) :: quiet) c
  | again (h : List (Nat × GaugeEvent)) (b u c : Nat) (quiet : List (Nat × GaugeEvent)) : Live retry net h b → b ≤ u →
      Reaches retry net (u + retry) c → (∀ x ∈ quiet, Harmless c x) → Live retry net (h ++ (u, .closed) :: quiet) c

/-- Not a click on a tab. -/
def Stays (l : List (Nat × GaugeEvent)) : Prop := ∀ x ∈ l, ∀ g, x.2 ≠ .tab g

/-- The time of the last thing that happened. -/
def lastTime (l : List (Nat × GaugeEvent)) : Nat := (l.getLast?.map (·.1)).getD 0

end Spec
open Spec

theorem gauge_append {retry net} : ∀ (l l' : List (Nat × GaugeEvent)) (s : SourceState),
    gaugeRun retry net s (l ++ l') =
      ((gaugeRun retry net (gaugeRun retry net s l).1 l').1,
        (gaugeRun retry net s l).2 ++ (gaugeRun retry net (gaugeRun retry net s l).1 l').2) := by
  intro l
  induction l with
  | nil => intro l' s; simp [gaugeRun]
  | cons x l ih => intro l' s; obtain ⟨t, e⟩ := x; simp [gaugeRun, ih]

theorem gauge_snoc {retry net} (l : List (Nat × GaugeEvent)) (t : Nat) (e : GaugeEvent) (s : SourceState) :
    gaugeRun retry net s (l ++ [(t, e)]) =
      ((gaugeStep retry net (gaugeRun retry net s l).1 t e).1,
        (gaugeRun retry net s l).2 ++ (gaugeStep retry net (gaugeRun retry net s l).1 t e).2) := by
  rw [gauge_append]; simp [gaugeRun]

/-! ## The attempts -/

theorem reaches_accepted {retry net u c} (h : net u = .accepted) : Reaches retry net u c ↔ c = u := by
  constructor
  · rintro ⟨k, h1, h2, h3⟩
    cases k with
    | zero => simpa using h1
    | succ k => have := h3 0 (by omega); simp [h] at this
  · rintro rfl; exact ⟨0, by simp, h, by simp⟩

theorem reaches_unreachable {retry net u c} (h : net u = .unreachable) : Reaches retry net u c ↔ Reaches retry net (u + retry) c := by
  constructor
  · rintro ⟨k, h1, h2, h3⟩
    cases k with
    | zero => simp at h1; subst h1; rw [h] at h2; cases h2
    | succ k =>
      refine ⟨k, by rw [h1, Nat.succ_mul]; omega, h2, fun j hj => ?_⟩
      have := h3 (j + 1) (by omega)
      rwa [show u + (j + 1) * retry = u + retry + j * retry by rw [Nat.succ_mul]; omega] at this
  · rintro ⟨k, h1, h2, h3⟩
    refine ⟨k + 1, by rw [h1, Nat.succ_mul]; omega, h2, fun j hj => ?_⟩
    cases j with
    | zero => simpa using h
    | succ j =>
      have := h3 j (by omega)
      rwa [show u + retry + j * retry = u + (j + 1) * retry by rw [Nat.succ_mul]; omega] at this

theorem reaches_refused {retry net u c} (h : net u = .refused) : ¬ Reaches retry net u c := by
  rintro ⟨k, h1, h2, h3⟩
  cases k with
  | zero => simp at h1; subst h1; rw [h] at h2; cases h2
  | succ k => have := h3 0 (by omega); simp [h] at this

theorem reaches_ge {retry net u c} (h : Reaches retry net u c) : u ≤ c := by
  obtain ⟨k, h1, -, -⟩ := h; omega

/-- What the state says of the connection. -/
def SaysLive (L : Nat → Prop) (retry : Nat) (net : Nat → Reply) (t : Nat) : SourceState → Prop
  | .opened true => ∃ c, c ≤ t ∧ L c ∧ ∀ c', L c' → c' = c
  | .connecting u => ∀ c, L c ↔ Reaches retry net u c
  | _ => ∀ c, ¬ L c

theorem advance_says {L : Nat → Prop} {retry net} (hr : 0 < retry) {t : Nat} : ∀ (k : Nat) (s : SourceState) (t0 : Nat), t0 ≤ t →
    (∀ u, s = .connecting u → t < u + k) →
    SaysLive L retry net t0 s → SaysLive L retry net t (sourceAdvance retry net k s t) ∧
      ∀ u, sourceAdvance retry net k s t = .connecting u → t < u := by
  intro k
  induction k with
  | zero =>
    intro s t0 h0 hk h
    refine ⟨?_, fun u hu => by have := hk u hu; omega⟩
    show SaysLive L retry net t s
    cases s with
    | opened a =>
      cases a with
      | true => obtain ⟨c, h1, h2, h3⟩ := h; exact ⟨c, by omega, h2, h3⟩
      | false => exact h
    | _ => exact h
  | succ k ih =>
    intro s t0 h0 hk h
    cases s with
    | null => exact ⟨h, fun u hu => by cases hu⟩
    | failed => exact ⟨h, fun u hu => by cases hu⟩
    | opened a =>
      cases a with
      | true => obtain ⟨c, h1, h2, h3⟩ := h; exact ⟨⟨c, by omega, h2, h3⟩, fun u hu => by cases hu⟩
      | false => exact ⟨h, fun u hu => by cases hu⟩
    | connecting u =>
      have h : ∀ c, L c ↔ Reaches retry net u c := h
      simp only [sourceAdvance]
      by_cases hu : u ≤ t
      · rw [if_pos hu]
        cases hn : net u with
        | accepted =>
          simp only
          exact ⟨⟨u, hu, (h u).2 ((reaches_accepted hn).2 rfl), fun c' hc => (reaches_accepted hn).1 ((h c').1 hc)⟩,
            fun v hv => by cases hv⟩
        | unreachable =>
          simp only
          refine ih _ t (Nat.le_refl t) (fun v hv => ?_) (fun c => (h c).trans (reaches_unreachable hn))
          cases hv
          have := hk u rfl
          omega
        | refused =>
          simp only
          exact ⟨fun c hc => reaches_refused hn ((h c).1 hc), fun v hv => by cases hv⟩
      · rw [if_neg hu]
        exact ⟨h, fun v hv => by cases hv; omega⟩

/-! ## One thing more -/

theorem snoc_split {α : Type} {h q h' : List α} {x y : α} (e : h ++ x :: q = h' ++ [y]) :
    (q = [] ∧ x = y ∧ h = h') ∨ ∃ q', q = q' ++ [y] ∧ h' = h ++ x :: q' := by
  rcases List.eq_nil_or_concat q with rfl | ⟨q', z, rfl⟩
  · have := List.append_inj' e rfl
    exact .inl ⟨rfl, by simpa using this.2, this.1⟩
  · have e' : (h ++ x :: q') ++ [z] = h' ++ [y] := by simpa using e
    have := List.append_inj' e' rfl
    have hz : z = y := by simpa using this.2
    subst hz
    exact .inr ⟨q', by simp, this.1.symm⟩

theorem live_keep {retry net h c x} (hl : Live retry net h c) (hx : Harmless c x) : Live retry net (h ++ [x]) c := by
  cases hl with
  | first h u c q h1 h2 =>
    have := Live.first (net := net) (retry := retry) h u c (q ++ [x]) h1 (by
      intro y hy; rcases List.mem_append.1 hy with hy | hy
      · exact h2 y hy
      · rw [List.mem_singleton.1 hy]; exact hx)
    simpa using this
  | again h b u c q h0 h1 h2 h3 =>
    have := Live.again (net := net) (retry := retry) h b u c (q ++ [x]) h0 h1 h2 (by
      intro y hy; rcases List.mem_append.1 hy with hy | hy
      · exact h3 y hy
      · rw [List.mem_singleton.1 hy]; exact hx)
    simpa using this

theorem live_snoc {retry net h c t e} (hl : Live retry net (h ++ [(t, e)]) c) :
    (Live retry net h c ∧ Harmless c (t, e)) ∨ (e = .tab true ∧ Reaches retry net t c) ∨
      (e = .closed ∧ ∃ b, b ≤ t ∧ Live retry net h b ∧ Reaches retry net (t + retry) c) := by
  generalize hg : h ++ [(t, e)] = g at hl
  cases hl with
  | first h' u c q h1 h2 =>
    rcases snoc_split hg.symm with ⟨rfl, h3, rfl⟩ | ⟨q', rfl, rfl⟩
    · cases h3; exact .inr (.inl ⟨rfl, h1⟩)
    · exact .inl ⟨.first _ _ _ _ h1 (fun x hx => h2 x (by simp [hx])), h2 _ (by simp)⟩
  | again h' b u c q h0 h1 h2 h3 =>
    rcases snoc_split hg.symm with ⟨rfl, h4, rfl⟩ | ⟨q', rfl, rfl⟩
    · cases h4; exact .inr (.inr ⟨rfl, b, h1, h0, h2⟩)
    · exact .inl ⟨.again _ _ _ _ _ h0 h1 h2 (fun x hx => h3 x (by simp [hx])), h3 _ (by simp)⟩

theorem live_nil {retry net c} : ¬ Live retry net [] c := by
  intro h
  generalize hg : ([] : List (Nat × GaugeEvent)) = g at h
  cases h <;> simp at hg

theorem lastTime_snoc (h : List (Nat × GaugeEvent)) (t : Nat) (e : GaugeEvent) : lastTime (h ++ [(t, e)]) = t := by
  simp [lastTime]

theorem onward_snoc {h : List (Nat × GaugeEvent)} {t : Nat} {e : GaugeEvent} : ∀ {a}, Onward a (h ++ [(t, e)]) →
    Onward a h ∧ lastTime h ≤ t := by
  induction h with
  | nil => intro a ho; exact ⟨trivial, Nat.zero_le _⟩
  | cons x h ih =>
    obtain ⟨v, f⟩ := x
    intro a ho
    obtain ⟨h1, h2⟩ := ih ho.2
    refine ⟨⟨ho.1, h1⟩, ?_⟩
    cases h with
    | nil => exact ho.2.1
    | cons y h => simpa [lastTime] using h2

theorem gauges_says {retry net} (hr : 0 < retry) : ∀ (h : List (Nat × GaugeEvent)), Onward 0 h →
    SaysLive (Live retry net h) retry net (lastTime h) (gaugeRun retry net .null h).1 := by
  intro h
  induction h using snoc_induction with
  | h0 => intro _ c; exact live_nil
  | h1 h x ih =>
    obtain ⟨t, e⟩ := x
    intro ho
    obtain ⟨h1, h2⟩ := onward_snoc ho
    rw [gauge_snoc, lastTime_snoc]
    obtain ⟨a1, a2⟩ := advance_says hr (t := t) (t + 1) _ _ h2 (fun u _ => by omega) (ih h1)
    simp only [gaugeStep]
    generalize sourceAdvance retry net (t + 1) (gaugeRun retry net .null h).1 t = s at a1 a2
    cases e with
    | tab g =>
      cases g with
      | true =>
        show ∀ c, _ ↔ _
        intro c
        constructor
        · intro hl
          rcases live_snoc hl with ⟨-, h4⟩ | ⟨-, h4⟩ | ⟨h4, -⟩
          · exact h4.elim
          · exact h4
          · cases h4
        · intro hc; exact .first h t c [] hc (by simp)
      | false =>
        show ∀ c, ¬ _
        intro c hl
        rcases live_snoc hl with ⟨-, h4⟩ | ⟨h4, -⟩ | ⟨h4, -⟩
        · exact h4.elim
        · cases h4
        · cases h4
    | message m =>
      have same : ∀ c, Live retry net (h ++ [(t, .message m)]) c ↔ Live retry net h c := by
        intro c
        constructor
        · intro hl
          rcases live_snoc hl with ⟨h4, -⟩ | ⟨h4, -⟩ | ⟨h4, -⟩
          · exact h4
          · cases h4
          · cases h4
        · intro hl; exact live_keep hl trivial
      have e' : Live retry net (h ++ [(t, .message m)]) = Live retry net h := funext fun c => propext (same c)
      rw [e']
      cases s with
      | opened a => cases a <;> exact a1
      | _ => exact a1
    | closed =>
      have new : ∀ c, Live retry net (h ++ [(t, .closed)]) c ↔ (Live retry net h c ∧ t < c) ∨
          (∃ b, b ≤ t ∧ Live retry net h b ∧ Reaches retry net (t + retry) c) := by
        intro c
        constructor
        · intro hl
          rcases live_snoc hl with h4 | ⟨h4, -⟩ | ⟨-, h4⟩
          · exact .inl h4
          · cases h4
          · exact .inr h4
        · rintro (⟨h4, h5⟩ | ⟨b, h4, h5, h6⟩)
          · exact live_keep h4 h5
          · exact .again h b t c [] h5 h4 h6 (by simp)
      have none : (∀ c, ¬ Live retry net h c) → ∀ c, ¬ Live retry net (h ++ [(t, .closed)]) c := by
        intro hn c hl
        rcases (new c).1 hl with ⟨h4, -⟩ | ⟨b, -, h4, -⟩ <;> exact hn _ h4
      cases s with
      | null => exact none a1
      | failed => exact none a1
      | opened a =>
        cases a with
        | false => exact none a1
        | true =>
          obtain ⟨c0, b1, b2, b3⟩ := a1
          show ∀ c, _ ↔ _
          intro c
          rw [new]
          constructor
          · rintro (⟨h4, h5⟩ | ⟨b, -, -, h6⟩)
            · have := b3 c h4; omega
            · exact h6
          · intro h6; exact .inr ⟨c0, b1, b2, h6⟩
      | connecting u =>
        have hu := a2 u rfl
        have a1 : ∀ c, Live retry net h c ↔ Reaches retry net u c := a1
        show ∀ c, _ ↔ _
        intro c
        rw [new]
        constructor
        · rintro (⟨h4, h5⟩ | ⟨b, h4, h5, h6⟩)
          · exact (a1 c).1 h4
          · have := reaches_ge ((a1 b).1 h5); omega
        · intro h6; have := reaches_ge h6; exact .inl ⟨(a1 c).2 h6, by omega⟩
    | cut =>
      have new : ∀ c, Live retry net (h ++ [(t, .cut)]) c ↔ (Live retry net h c ∧ t < c) := by
        intro c
        constructor
        · intro hl
          rcases live_snoc hl with h4 | ⟨h4, -⟩ | ⟨h4, -⟩
          · exact h4
          · cases h4
          · cases h4
        · rintro ⟨h4, h5⟩; exact live_keep h4 h5
      have none : (∀ c, ¬ Live retry net h c) → ∀ c, ¬ Live retry net (h ++ [(t, .cut)]) c := by
        intro hn c hl; exact hn c ((new c).1 hl).1
      cases s with
      | null => exact none a1
      | failed => exact none a1
      | opened a =>
        cases a with
        | false => exact none a1
        | true =>
          obtain ⟨c0, b1, b2, b3⟩ := a1
          show ∀ c, ¬ _
          intro c hl
          have h4 := (new c).1 hl
          have := b3 c h4.1
          omega
      | connecting u =>
        have hu := a2 u rfl
        have a1 : ∀ c, Live retry net h c ↔ Reaches retry net u c := a1
        show ∀ c, _ ↔ _
        intro c
        rw [new]
        constructor
        · rintro ⟨h4, -⟩; exact (a1 c).1 h4
        · intro h6; have := reaches_ge h6; exact ⟨(a1 c).2 h6, by omega⟩

/-! ## C132 -/

/-- **C132, exactly.**  Whatever has happened: the gauges show a message if and only if the page has a connection that the device made
before — for the last click on their tab, or for the last time that the device closed one — and that nothing has happened to since.
Otherwise they do not move. -/
theorem c132_exact {retry : Nat} {net : Nat → Reply} (hr : 0 < retry) (h : List (Nat × GaugeEvent)) (t : Nat) (m : Str)
    (ho : Onward 0 (h ++ [(t, .message m)])) :
    ((∃ c, c ≤ t ∧ Live retry net h c) →
      (gaugeRun retry net .null (h ++ [(t, .message m)])).2 = (gaugeRun retry net .null h).2 ++ [m]) ∧
    (¬ (∃ c, c ≤ t ∧ Live retry net h c) →
      (gaugeRun retry net .null (h ++ [(t, .message m)])).2 = (gaugeRun retry net .null h).2) := by
  obtain ⟨h1, h2⟩ := onward_snoc ho
  rw [gauge_snoc]
  obtain ⟨a1, a2⟩ := advance_says hr (t := t) (t + 1) _ _ h2 (fun u _ => by omega) (gauges_says (net := net) hr h h1)
  simp only [gaugeStep]
  generalize sourceAdvance retry net (t + 1) (gaugeRun retry net .null h).1 t = s at a1 a2
  cases s with
  | null => exact ⟨fun ⟨c, _, hc⟩ => absurd hc (a1 c), fun _ => by simp⟩
  | failed => exact ⟨fun ⟨c, _, hc⟩ => absurd hc (a1 c), fun _ => by simp⟩
  | opened a =>
    cases a with
    | false => exact ⟨fun ⟨c, _, hc⟩ => absurd hc (a1 c), fun _ => by simp⟩
    | true =>
      obtain ⟨c, b1, b2, -⟩ := a1
      exact ⟨fun _ => rfl, fun hn => absurd ⟨c, b1, b2⟩ hn⟩
  | connecting u =>
    have hu := a2 u rfl
    have a1 : ∀ c, Live retry net h c ↔ Reaches retry net u c := a1
    exact ⟨fun ⟨c, b1, b2⟩ => by have := reaches_ge ((a1 c).1 b2); omega, fun _ => by simp⟩

example : (gaugeRun 3000 (fun u => if u < 9000 then .unreachable else .accepted) .null
    [(1000, .tab true), (5000, .message (bs "a")), (10500, .message (bs "b")), (11000, .closed), (12000, .message (bs "c")),
      (14500, .message (bs "d")), (20000, .cut), (21000, .message (bs "e")), (30000, .tab false), (31000, .tab true),
      (32000, .message (bs "f"))]).2 = [bs "b", bs "d", bs "f"] := by decide +kernel

theorem live_survives {retry : Nat} {net : Nat → Reply} (hr : 0 < retry) {T : Nat} (hn : ∀ t, net t ≠ .refused)
    (hT : ∀ t, T ≤ t → net t = .accepted) : ∀ (n u : Nat), T ≤ u + n * retry → u ≤ T + retry →
    ∃ c, c ≤ T + retry ∧ Reaches retry net u c := by
  intro n
  induction n with
  | zero => intro u h1 h2; exact ⟨u, h2, (reaches_accepted (hT u (by omega))).2 rfl⟩
  | succ n ih =>
    intro u h1 h2
    by_cases hu : T ≤ u
    · exact ⟨u, h2, (reaches_accepted (hT u hu)).2 rfl⟩
    · cases hx : net u with
      | accepted => exact ⟨u, h2, (reaches_accepted hx).2 rfl⟩
      | refused => exact absurd hx (hn u)
      | unreachable =>
        obtain ⟨c, h3, h4⟩ := ih (u + retry) (by rw [Nat.succ_mul] at h1; omega) (by omega)
        exact ⟨c, h3, (reaches_unreachable hx).2 h4⟩

/-- **C132, partially.**  What is missing is in the hypotheses: no connection is lost without a word, and no answer is a refusal.  Then,
however long the device was away and however often it closed the connection: from one reconnection time after it is back for
good, the gauges show every message, until another tab is shown. -/
theorem c132_survives_partial {retry : Nat} {net : Nat → Reply} (hr : 0 < retry) {T : Nat} (hn : ∀ t, net t ≠ .refused)
    (hT : ∀ t, T ≤ t → net t = .accepted) (pre post : List (Nat × GaugeEvent)) (u t : Nat) (m : Str)
    (ho : Onward 0 (pre ++ (u, .tab true) :: post ++ [(t, .message m)])) (hs : Stays post) (hc : ∀ x ∈ post, x.2 ≠ .cut)
    (hu : u ≤ T) (hq : ∀ x ∈ post, x.2 = .closed → x.1 ≤ T) (ht : T + retry ≤ t) :
    (gaugeRun retry net .null (pre ++ (u, .tab true) :: post ++ [(t, .message m)])).2 =
      (gaugeRun retry net .null (pre ++ (u, .tab true) :: post)).2 ++ [m] := by
  refine (c132_exact hr _ t m ho).1 ?_
  suffices h : ∃ c, c ≤ T + retry ∧ Live retry net (pre ++ (u, .tab true) :: post) c by
    obtain ⟨c, h1, h2⟩ := h; exact ⟨c, by omega, h2⟩
  clear ho ht
  induction post using snoc_induction with
  | h0 =>
    obtain ⟨c, h1, h2⟩ := live_survives hr hn hT T u (by have := Nat.le_mul_of_pos_right T hr; omega) (by omega)
    exact ⟨c, h1, .first pre u c [] h2 (by simp)⟩
  | h1 post x ih =>
    obtain ⟨v, e⟩ := x
    obtain ⟨c, h1, h2⟩ := ih (fun y hy => hs y (by simp [hy])) (fun y hy => hc y (by simp [hy])) (fun y hy => hq y (by simp [hy]))
    have es : pre ++ (u, GaugeEvent.tab true) :: (post ++ [(v, e)]) = pre ++ (u, .tab true) :: post ++ [(v, e)] := by simp
    rw [es]
    cases e with
    | tab g => exact absurd rfl (hs (v, .tab g) (by simp) g)
    | cut => exact absurd rfl (hc (v, .cut) (by simp))
    | message m => exact ⟨c, h1, live_keep h2 trivial⟩
    | closed =>
      have hv : v ≤ T := hq (v, .closed) (by simp) rfl
      by_cases hvc : v < c
      · exact ⟨c, h1, live_keep h2 hvc⟩
      · obtain ⟨c', h3, h4⟩ := live_survives hr hn hT T (v + retry) (by have := Nat.le_mul_of_pos_right T hr; omega) (by omega)
        exact ⟨c', h3, .again _ c v c' [] h2 (by omega) h4 (by simp)⟩

/-- **C132: another tab and back is always enough.**  Whatever happened before, if the device lets the page in when the tab of the gauges is
shown again, the gauges show all that comes until something happens to that connection. -/
theorem c132_tab {retry : Nat} {net : Nat → Reply} (hr : 0 < retry) (h : List (Nat × GaugeEvent)) (u : Nat) (l : List (Nat × Str))
    (hn : net u = .accepted) (ho : Onward 0 (h ++ (u, .tab true) :: l.map fun x => (x.1, .message x.2))) :
    (gaugeRun retry net .null (h ++ (u, .tab true) :: l.map fun x => (x.1, .message x.2))).2 =
      (gaugeRun retry net .null h).2 ++ l.map (·.2) := by
  induction l using snoc_induction with
  | h0 =>
    simp only [List.map_nil, List.append_nil]
    rw [gauge_snoc]; simp [gaugeStep]
  | h1 l x ih =>
    obtain ⟨t, m⟩ := x
    have es : h ++ (u, GaugeEvent.tab true) :: (l ++ [(t, m)]).map (fun x => (x.1, GaugeEvent.message x.2)) =
        h ++ (u, .tab true) :: l.map (fun x => (x.1, .message x.2)) ++ [(t, .message m)] := by simp
    rw [es] at ho ⊢
    obtain ⟨h1, h2⟩ := onward_snoc ho
    rw [(c132_exact hr _ t m ho).1, ih h1]
    · simp
    · refine ⟨u, ?_, .first h u u _ ((reaches_accepted hn).2 rfl) (fun x hx => ?_)⟩
      · rcases List.eq_nil_or_concat l with rfl | ⟨l', y, rfl⟩
        · rw [List.map_nil, lastTime_snoc] at h2; exact h2
        · have : ∀ {a} (q : List (Nat × GaugeEvent)) {v w : Nat} {e f}, Onward a (q ++ (v, e) :: (l'.map fun x => (x.1, GaugeEvent.message x.2)) ++ [(w, f)]) → v ≤ w := by
            intro a q v w e f
            induction q generalizing a with
            | cons z q ihq => obtain ⟨z1, z2⟩ := z; intro hz; exact ihq hz.2
            | nil =>
              intro hz
              clear h1 h2 ho es ih hn
              have : ∀ (r : List (Nat × GaugeEvent)) v, Onward v (r ++ [(w, f)]) → v ≤ w := by
                intro r
                induction r with
                | nil => intro v hv; exact hv.1
                | cons z r ihr => obtain ⟨z1, z2⟩ := z; intro v hv; exact Nat.le_trans hv.1 (ihr z1 hv.2)
              exact this _ v hz.2
          have h3 : u ≤ y.1 := this h (w := y.1) (f := .message y.2) (e := .tab true) (a := 0) (by simpa using h1)
          have es2 : h ++ (u, GaugeEvent.tab true) :: (l' ++ [y]).map (fun x => (x.1, GaugeEvent.message x.2)) =
              (h ++ (u, .tab true) :: l'.map (fun x => (x.1, .message x.2))) ++ [(y.1, .message y.2)] := by simp
          rw [List.concat_eq_append, es2, lastTime_snoc] at h2
          omega
      · obtain ⟨y, -, rfl⟩ := List.mem_map.1 hx
        trivial

/-- What comes of `/sse/json`, as the device stands: let in if the client may and there is room, refused if not. -/
theorem c132_reply {b : Build} {d d' : Device} {r : Req} {e : Env} {l : List Eff} {a : Access} (hc : Client d.nv.config r a)
    (hu : r.uri = bs "/sse/json") (h : d.step b (.handle r e) = .ok (d', l)) :
    (replyOf l = .accepted ↔ a ≠ .none ∧ d.sse.clients.length < 2 ∧ e.up = true) ∧
    (replyOf l = .refused ↔ a = .none ∨ 2 ≤ d.sse.clients.length) :=
  sse_reply hc (by unfold route; rw [if_pos]; simp [hu]) h

/-! ## What is wrong -/

theorem gauge_stuck {retry net} {s : SourceState} (hs : s = .failed ∨ s = .opened false ∨ s = .null) :
    ∀ l, Stays l → gaugeRun retry net s l = (s, []) := by
  intro l
  induction l with
  | nil => intro _; rfl
  | cons x l ih =>
    obtain ⟨t, e⟩ := x
    intro hl
    have ih := ih (fun y hy => hl y (List.mem_cons_of_mem _ hy))
    have h0 : ∀ g, e ≠ .tab g := hl (t, e) List.mem_cons_self
    have : gaugeStep retry net s t e = (s, []) := by
      rcases hs with rfl | rfl | rfl <;> cases e <;> first | rfl | exact absurd rfl (h0 _)
    simp only [gaugeRun, this, ih, List.append_nil]

/-- **C132 is false: a device that is switched off and on.**  The connection is lost without a word; the browser waits for ever.  Whatever the
device does afterwards, however long, the gauges do not move until another tab is shown. -/
theorem c132_refuted_cut {retry : Nat} {net : Nat → Reply} (hr : 0 < retry) (h later : List (Nat × GaugeEvent)) (t c : Nat)
    (ho : Onward 0 (h ++ [(t, .cut)])) (hl : Live retry net h c) (hc : c ≤ t) (hs : Stays later) :
    (gaugeRun retry net .null (h ++ (t, .cut) :: later)).2 = (gaugeRun retry net .null h).2 := by
  obtain ⟨h1, h2⟩ := onward_snoc ho
  have e : h ++ (t, GaugeEvent.cut) :: later = (h ++ [(t, .cut)]) ++ later := by simp
  obtain ⟨a1, a2⟩ := advance_says hr (t := t) (t + 1) _ _ h2 (fun u _ => by omega) (gauges_says (net := net) hr h h1)
  have : gaugeStep retry net (gaugeRun retry net .null h).1 t .cut = (.opened false, []) := by
    simp only [gaugeStep]
    generalize sourceAdvance retry net (t + 1) (gaugeRun retry net .null h).1 t = s at a1 a2
    cases s with
    | null => exact absurd hl (a1 c)
    | failed => exact absurd hl (a1 c)
    | opened a => rfl
    | connecting u => have h3 := a2 u rfl; have := reaches_ge ((a1 c).1 hl); omega
  rw [e, gauge_append, gauge_snoc, this, gauge_stuck (.inr (.inl rfl)) later hs]
  simp

theorem gauge_refused {retry net} {u : Nat} (hn : net u = .refused) : ∀ l, Stays l → (gaugeRun retry net (.connecting u) l).2 = [] := by
  intro l
  induction l with
  | nil => intro _; rfl
  | cons x l ih =>
    obtain ⟨t, e⟩ := x
    intro hl
    have h1 : Stays l := fun y hy => hl y (List.mem_cons_of_mem _ hy)
    have h0 : ∀ g, e ≠ .tab g := hl (t, e) List.mem_cons_self
    by_cases hu : u ≤ t
    · have ha : sourceAdvance retry net (t + 1) (.connecting u) t = .failed := by
        simp only [sourceAdvance]; rw [if_pos hu, hn]
      have : gaugeStep retry net (.connecting u) t e = (.failed, []) := by
        simp only [gaugeStep, ha]
        cases e with
        | tab g => exact absurd rfl (h0 g)
        | _ => rfl
      simp only [gaugeRun, this, gauge_stuck (.inl rfl) l h1, List.append_nil]
    · have ha : sourceAdvance retry net (t + 1) (.connecting u) t = .connecting u := by
        simp only [sourceAdvance]; rw [if_neg hu]
      have : gaugeStep retry net (.connecting u) t e = (.connecting u, []) := by
        simp only [gaugeStep, ha]
        cases e with
        | tab g => exact absurd rfl (h0 g)
        | _ => rfl
      simp only [gaugeRun, this, ih h1, List.append_nil]

/-- **C132 is false: a device that has no room.**  The tab is shown while two other pages have the two places (or a password was set): the
browser gives up.  The gauges do not move, even when the places are free again, until another tab is shown. -/
theorem c132_refuted_refused {retry : Nat} {net : Nat → Reply} (h later : List (Nat × GaugeEvent)) (u : Nat)
    (hn : net u = .refused) (hs : Stays later) :
    (gaugeRun retry net .null (h ++ (u, .tab true) :: later)).2 = (gaugeRun retry net .null h).2 := by
  have e : h ++ (u, GaugeEvent.tab true) :: later = (h ++ [(u, .tab true)]) ++ later := by simp
  have e1 : (gaugeStep retry net (gaugeRun retry net .null h).1 u (.tab true)) = (.connecting u, []) := by simp [gaugeStep]
  rw [e, gauge_append, gauge_snoc, e1]
  simp [gauge_refused hn later hs]

/-- The same in the middle: the device closes the connections (it restarts, say), and two other clients are faster to come back. -/
theorem c132_refuted_again {retry : Nat} {net : Nat → Reply} (hr : 0 < retry) (h later : List (Nat × GaugeEvent)) (t c : Nat)
    (ho : Onward 0 (h ++ [(t, .closed)])) (hl : Live retry net h c) (hc : c ≤ t) (hn : net (t + retry) = .refused) (hs : Stays later) :
    (gaugeRun retry net .null (h ++ (t, .closed) :: later)).2 = (gaugeRun retry net .null h).2 := by
  obtain ⟨h1, h2⟩ := onward_snoc ho
  have e : h ++ (t, GaugeEvent.closed) :: later = (h ++ [(t, .closed)]) ++ later := by simp
  obtain ⟨a1, a2⟩ := advance_says hr (t := t) (t + 1) _ _ h2 (fun u _ => by omega) (gauges_says (net := net) hr h h1)
  have : gaugeStep retry net (gaugeRun retry net .null h).1 t .closed = (.connecting (t + retry), []) := by
    simp only [gaugeStep]
    generalize sourceAdvance retry net (t + 1) (gaugeRun retry net .null h).1 t = s at a1 a2
    cases s with
    | null => exact absurd hl (a1 c)
    | failed => exact absurd hl (a1 c)
    | opened a =>
      cases a with
      | true => rfl
      | false => exact absurd hl (a1 c)
    | connecting u => have h3 := a2 u rfl; have := reaches_ge ((a1 c).1 hl); omega
  rw [e, gauge_append, gauge_snoc, this]
  simp [gauge_refused hn later hs]

example : Live 3000 (fun _ => .accepted) [(0, .tab true), (1500, .message (bs "a"))] 0 :=
  .first [] 0 0 _ ((reaches_accepted rfl).2 rfl) (by intro x hx; simp at hx; subst hx; trivial)

end Wifinfo
