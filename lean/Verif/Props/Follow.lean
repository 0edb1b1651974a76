import Verif.Model.Follow
import Verif.Props.Sse
import Verif.Props.Web
import Verif.Props.Clock
import Verif.Props.Period

/-!
# C130: the programs that follow the event stream
-/

namespace Wifinfo

namespace Spec

/-- What somebody gets who listens for `w` after the last sign that they had, and then again at each multiple of `c` after it: a message
that comes while they are away is lost. -/
def heard (w c : Nat) : Nat → List (Nat × Str) → List Str
  | _, [] => []
  | a, (t, m) :: r => if (t - a) % c < w then m :: heard w c t r else heard w c a r

/-- Times that do not go back. -/
def Onward {α : Type} : Nat → List (Nat × α) → Prop
  | _, [] => True
  | a, (t, _) :: r => a ≤ t ∧ Onward t r

/-- Less than `g` from one to the next. -/
def Within (g : Nat) : Nat → List (Nat × Str) → Prop
  | _, [] => True
  | a, (t, _) :: r => a ≤ t ∧ t < a + g ∧ Within g t r

/-- The events of the stream among the frames, for a period in milliseconds (0: every frame); `b` is the time of the frame before. -/
inductive Streamed (p : Nat) : Nat → List (Nat × Str) → List (Nat × Str) → Prop
  | nil (b) : Streamed p b [] []
  | sent {b t m r l} : DueFor (some p) b t → Streamed p t r l → Streamed p b ((t, m) :: r) ((t, m) :: l)
  | quiet {b t m r l} : ¬ DueFor (some p) b t → Streamed p t r l → Streamed p b ((t, m) :: r) l

/-- The frames are at most `g` apart. -/
def Steady (g : Nat) : Nat → List (Nat × Str) → Prop
  | _, [] => True
  | b, (t, _) :: r => b < t ∧ t ≤ b + g ∧ Steady g t r

/-- Messages as things that happen. -/
def told (l : List (Nat × Str)) : List (Nat × FollowEvent) := l.map fun x => (x.1, .message x.2)

/-- The longest time that a program sleeps. -/
def longestPause (f : Follower) : Nat := max f.pause libraryPause

end Spec
open Spec

/-! ## The network is fine -/

/-- A state that is worth "listening since `a`". -/
def SameAs (f : Follower) (a t0 : Nat) (s : FollowState) : Prop :=
  (∃ n, s = .listening (a + (f.timeout + f.pause) * n) true ∧ a + (f.timeout + f.pause) * n ≤ t0) ∨
  ∃ n, s = .sleeping (a + (f.timeout + f.pause) * n) ∧
    (a + (f.timeout + f.pause) * n ≤ t0 ∨ ∃ k, n = k + 1 ∧ a + (f.timeout + f.pause) * k + f.timeout ≤ t0)

theorem advance_fine {f : Follower} (hw : 0 < f.timeout) (hp : 0 < f.pause) {net : Nat → Reply} (hn : ∀ u, net u = .accepted)
    (a t : Nat) : ∀ k s, SameAs f a t s →
      (∀ x al, s = .listening x al → t - x + 1 ≤ k) → (∀ u, s = .sleeping u → u ≤ t → t - u + 2 ≤ k) → 0 < k →
      f.advance net k s t = if (t - a) % (f.timeout + f.pause) < f.timeout
        then .listening (a + (f.timeout + f.pause) * ((t - a) / (f.timeout + f.pause))) true
        else .sleeping (a + (f.timeout + f.pause) * ((t - a) / (f.timeout + f.pause) + 1)) := by
  intro k
  generalize hc : f.timeout + f.pause = c
  have hc0 : 0 < c := by omega
  have split : ∀ n, a + c * n ≤ t → t < a + c * n + c → (t - a) / c = n ∧ (t - a) % c = t - (a + c * n) := by
    intro n h1 h2
    have e : t - a = (t - (a + c * n)) + n * c := by rw [Nat.mul_comm n c]; omega
    constructor
    · rw [e, Nat.add_mul_div_right _ _ hc0, Nat.div_eq_of_lt (by omega), Nat.zero_add]
    · rw [e, Nat.add_mul_mod_self_right, Nat.mod_eq_of_lt (by omega)]
  induction k with
  | zero => intro s _ _ _ h; omega
  | succ k ih =>
    intro s hs h1 h2 _
    rcases hs with ⟨n, rfl, hs⟩ | ⟨n, rfl, hs⟩
    · rw [hc] at hs h1 ⊢
      have hk := h1 _ _ rfl
      simp only [Follower.advance]
      by_cases ht : a + c * n + f.timeout ≤ t
      · rw [if_pos ht]
        refine (ih _ (.inr ⟨n + 1, ?_, .inr ⟨n, rfl, ?_⟩⟩) ?_ ?_ (by omega)).trans rfl
        · rw [hc, Nat.mul_add, Nat.mul_one]; congr 1; omega
        · rw [hc]; exact ht
        · intro x al e; cases e
        · intro u e hu
          cases e
          omega
      · rw [if_neg ht]
        obtain ⟨e1, e2⟩ := split n hs (by omega)
        rw [e1, e2, if_pos (by omega)]
    · rw [hc] at hs h2 ⊢
      simp only [Follower.advance]
      by_cases ht : a + c * n ≤ t
      · have hk := h2 _ rfl ht
        rw [if_pos ht, hn]
        refine (ih _ (.inl ⟨n, by rw [hc], by rw [hc]; exact ht⟩) ?_ ?_ (by omega)).trans rfl
        · intro x al e
          cases e
          omega
        · intro u e; cases e
      · rw [if_neg ht]
        rcases hs with hs | ⟨k', rfl, hs⟩
        · exact absurd hs ht
        · have : c * (k' + 1) = c * k' + c := by rw [Nat.mul_add, Nat.mul_one]
          obtain ⟨e1, e2⟩ := split k' (by omega) (by omega)
          rw [e1, e2, if_neg (by omega)]

theorem same_later {f : Follower} {a t t' : Nat} {s : FollowState} (h : SameAs f a t s) (ht : t ≤ t') : SameAs f a t' s := by
  rcases h with ⟨n, h1, h2⟩ | ⟨n, h1, h2⟩
  · exact .inl ⟨n, h1, by omega⟩
  · refine .inr ⟨n, h1, ?_⟩
    rcases h2 with h2 | ⟨k, h2, h3⟩
    · exact .inl (by omega)
    · exact .inr ⟨k, h2, by omega⟩

theorem same_fuel {f : Follower} {a t : Nat} {s : FollowState} :
    (∀ x al, s = .listening x al → t - x + 1 ≤ 2 * t + 2) ∧ (∀ u, s = .sleeping u → u ≤ t → t - u + 2 ≤ 2 * t + 2) ∧ 0 < 2 * t + 2 :=
  ⟨fun _ _ _ => by omega, fun _ _ _ => by omega, by omega⟩

theorem run_heard {f : Follower} (hw : 0 < f.timeout) (hp : 0 < f.pause) {net : Nat → Reply} (hn : ∀ u, net u = .accepted) :
    ∀ (l : List (Nat × Str)) (a t0 : Nat) (s : FollowState), SameAs f a t0 s → a ≤ t0 → Onward t0 l →
      (f.run net s (told l)).2 = heard f.timeout (f.timeout + f.pause) a l := by
  intro l
  induction l with
  | nil => intro a t0 s _ _ _; rfl
  | cons x l ih =>
    obtain ⟨t, m⟩ := x
    intro a t0 s hs ha ho
    obtain ⟨ht, ho⟩ := ho
    have hs := same_later hs ht
    have e := advance_fine hw hp hn a t (2 * t + 2) s hs (same_fuel (f := f) (a := a)).1 (same_fuel (f := f) (a := a)).2.1 (by omega)
    have hc0 : 0 < f.timeout + f.pause := by omega
    have hd := Nat.div_add_mod (t - a) (f.timeout + f.pause)
    have hm := Nat.mod_lt (t - a) hc0
    simp only [told, List.map_cons, Follower.run, Follower.step, e, heard]
    by_cases hh : (t - a) % (f.timeout + f.pause) < f.timeout
    · rw [if_pos hh, if_pos hh]
      simp only [List.singleton_append]
      congr 1
      exact ih t t _ (.inl ⟨0, rfl, by simp⟩) (Nat.le_refl _) ho
    · rw [if_neg hh, if_neg hh]
      simp only [List.nil_append]
      exact ih a t _ (.inr ⟨_, rfl, .inr ⟨_, rfl, by omega⟩⟩) (by omega) ho

theorem follow_exact {f : Follower} (hf : f = sseFollower ∨ f = influxFollower) {net : Nat → Reply} (hn : ∀ u, net u = .accepted)
    (t0 : Nat) (l : List (Nat × Str)) (ho : Onward t0 l) :
    (f.run net (followStart t0) (told l)).2 = heard f.timeout (f.timeout + f.pause) t0 l := by
  have hw : 0 < f.timeout ∧ 0 < f.pause := by rcases hf with rfl | rfl <;> decide
  exact run_heard hw.1 hw.2 hn l t0 t0 _ (.inr ⟨0, rfl, .inl (by simp)⟩) (Nat.le_refl _) ho

/-- **C130, exactly, while the network is fine.**  Whatever the times of the events: sse.py, started at `t0`, gets those that come less than
ten seconds after the last one that it got (or its start), and, when it has given up and come back after ten seconds, those that come
while it listens again; the others are lost.  For influx.py it is thirty-one seconds, and ten seconds as well. -/
theorem c130_exact {net : Nat → Reply} (hn : ∀ u, net u = .accepted) (t0 : Nat) (l : List (Nat × Str)) (ho : Onward t0 l) :
    (sseFollower.run net (followStart t0) (told l)).2 = heard 10000 20000 t0 l ∧
    (influxFollower.run net (followStart t0) (told l)).2 = heard 31000 41000 t0 l :=
  ⟨follow_exact (.inl rfl) hn t0 l ho, follow_exact (.inr rfl) hn t0 l ho⟩

example : heard 10000 20000 0 [(9999, bs "a"), (19998, bs "b"), (30000, bs "lost"), (40000, bs "c")] = [bs "a", bs "b", bs "c"] := by
  decide +kernel

theorem heard_all {w c : Nat} (hwc : w ≤ c) : ∀ (l : List (Nat × Str)) (a : Nat), Within w a l → heard w c a l = l.map (·.2) := by
  intro l
  induction l with
  | nil => intro _ _; rfl
  | cons x l ih =>
    obtain ⟨t, m⟩ := x
    rintro a ⟨h1, h2, h3⟩
    rw [heard, if_pos (by rw [Nat.mod_eq_of_lt (by omega)]; omega), ih t h3]
    rfl

theorem within_onward {g : Nat} : ∀ (l : List (Nat × Str)) (a : Nat), Within g a l → Onward a l := by
  intro l
  induction l with
  | nil => intro _ _; trivial
  | cons x l ih => intro a h; exact ⟨h.1, ih _ h.2.2⟩

/-! ## The period of the stream -/

theorem streamed_within {p g w : Nat} (hpg : p + g ≤ w) (hg : g < w) {b : Nat} {fr evs : List (Nat × Str)} (h : Streamed p b fr evs) :
    ∀ a, a ≤ b → (∀ k, a < k * p → ¬ k * p ≤ b) → (p = 0 → a = b) → Steady g b fr → Within w a evs := by
  induction h with
  | nil => intro _ _ _ _ _; trivial
  | @sent b t m r l hd _ ih =>
    rintro a ha hq h0 ⟨h1, h2, h3⟩
    refine ⟨by omega, ?_, ih t (Nat.le_refl _) (fun k h h' => by omega) (fun _ => rfl) h3⟩
    rcases Nat.eq_zero_or_pos p with hp | hp
    · have := h0 hp
      omega
    · apply Decidable.byContradiction
      intro hlt
      -- the first multiple after `a` is not after `b`
      have hk := Nat.div_add_mod a p
      have hm := Nat.mod_lt a hp
      have e : (a / p + 1) * p = p * (a / p) + p := by rw [Nat.add_mul, Nat.one_mul, Nat.mul_comm]
      exact hq (a / p + 1) (by omega) (by omega)
  | @quiet b t m r l hd _ ih =>
    rintro a ha hq h0 ⟨h1, h2, h3⟩
    cases p with
    | zero => exact absurd trivial hd
    | succ p =>
      refine ih a (by omega) ?_ (fun h => by omega) h3
      intro k hk1 hk2
      by_cases hk : k * (p + 1) ≤ b
      · exact hq k hk1 hk
      · exact hd ⟨k, by omega, hk2⟩

theorem streamed_mem {p b : Nat} {fr evs : List (Nat × Str)} (h : Streamed p b fr evs) : ∀ x ∈ evs, x ∈ fr := by
  induction h with
  | nil => intro x h; exact h
  | sent _ _ ih =>
    intro x hx
    rcases List.mem_cons.1 hx with rfl | hx
    · exact List.mem_cons_self
    · exact List.mem_cons_of_mem _ (ih x hx)
  | quiet _ _ ih => intro x hx; exact List.mem_cons_of_mem _ (ih x hx)

/-- **C130, the short periods.**  The frames of the meter are at most `g` apart and the stream has the period `p`: if `p + g` is not more
than the time-out of the program, then the program, started at any time, gets all the events, for ever. -/
theorem c130_period_partial {f : Follower} (hf : f = sseFollower ∨ f = influxFollower) {net : Nat → Reply} (hn : ∀ u, net u = .accepted)
    {p g b t0 : Nat} (hpg : p + g ≤ f.timeout) (hg : g < f.timeout) {fr evs : List (Nat × Str)} (hfr : Steady g b fr)
    (h : Streamed p b fr evs) (hb : b ≤ t0) (ht : ∀ x ∈ fr, t0 ≤ x.1) :
    (f.run net (followStart t0) (told evs)).2 = evs.map (·.2) := by
  have hw := streamed_within hpg hg h b (Nat.le_refl _) (fun k h h' => by omega) (fun _ => rfl) hfr
  have hw : Within f.timeout t0 evs := by
    cases evs with
    | nil => trivial
    | cons x l =>
      obtain ⟨t, m⟩ := x
      obtain ⟨h1, h2, h3⟩ := hw
      exact ⟨ht _ (streamed_mem h _ List.mem_cons_self), by omega, h3⟩
  rw [follow_exact hf hn t0 evs (within_onward evs t0 hw), heard_all (by omega) evs t0 hw]

/-- the period of one second -/
example : Streamed 1000 0 [(600, bs "a"), (1200, bs "b"), (1800, bs "c"), (2400, bs "d")] [(1200, bs "b"), (2400, bs "d")] := by
  refine .quiet ?_ (.sent ⟨1, ?_⟩ (.quiet ?_ (.sent ⟨2, ?_⟩ (.nil _))))
  · rintro ⟨k, h1, h2⟩; omega
  · omega
  · rintro ⟨k, h1, h2⟩; omega
  · omega
example : Steady 600 0 [(600, bs "a"), (1200, bs "b"), (1800, bs "c"), (2400, bs "d")] := by simp [Steady]

/-! ## The network is not fine -/

/-- Where a program can be at the time `t`, if it was never refused -/
def FollowAt (f : Follower) (t : Nat) : FollowState → Prop
  | .listening a _ => a ≤ t
  | .sleeping u => u ≤ t + longestPause f
  | .ended => False

/-- The same when it has done all that it does until `t` -/
def FollowNow (f : Follower) (t : Nat) : FollowState → Prop
  | .listening a _ => a ≤ t ∧ t < a + f.timeout
  | .sleeping u => t < u ∧ u ≤ t + longestPause f
  | .ended => False

theorem advance_now {f : Follower} (hw : 0 < f.timeout) (hp : 0 < f.pause) {net : Nat → Reply} (hn : ∀ u, net u ≠ .refused) (t : Nat) :
    ∀ k s, FollowAt f t s → (∀ x al, s = .listening x al → t - x + 1 ≤ k) → (∀ u, s = .sleeping u → u ≤ t → t - u + 2 ≤ k) → 0 < k →
      FollowNow f t (f.advance net k s t) := by
  have hl : f.pause ≤ longestPause f := Nat.le_max_left _ _
  intro k
  induction k with
  | zero => intro s _ _ _ h; omega
  | succ k ih =>
    intro s hs h1 h2 _
    cases s with
    | ended => exact hs.elim
    | listening a al =>
      have hk := h1 _ _ rfl
      simp only [Follower.advance]
      by_cases ht : a + f.timeout ≤ t
      · rw [if_pos ht]
        refine ih _ (show a + f.timeout + f.pause ≤ _ by omega) (fun x al e => by cases e) (fun u e hu => ?_) (by omega)
        cases e
        omega
      · rw [if_neg ht]
        have hs : a ≤ t := hs
        exact ⟨hs, by omega⟩
    | sleeping u =>
      simp only [Follower.advance]
      by_cases ht : u ≤ t
      · have hk := h2 _ rfl ht
        rw [if_pos ht]
        cases hu : net u with
        | refused => exact absurd hu (hn u)
        | accepted =>
          refine ih _ (show u ≤ t from ht) (fun x al e => ?_) (fun u e => by cases e) (by omega)
          cases e
          omega
        | unreachable =>
          refine ih _ (show u + f.pause ≤ _ by omega) (fun x al e => by cases e) (fun v e hv => ?_) (by omega)
          cases e
          omega
      · rw [if_neg ht]
        exact ⟨by omega, hs⟩

theorem step_at {f : Follower} (hw : 0 < f.timeout) (hp : 0 < f.pause) {net : Nat → Reply} (hn : ∀ u, net u ≠ .refused) {b t : Nat}
    (hbt : b ≤ t) {s : FollowState} (hs : FollowAt f b s) (e : FollowEvent) : FollowAt f t (f.step net s t e).1 ∧
      ((∃ a al, (f.step net s t e).1 = .listening a al ∧ a ≤ t ∧ t < a + f.timeout) ∨
       ∃ u, (f.step net s t e).1 = .sleeping u ∧ t < u ∧ u ≤ t + longestPause f) := by
  have hs : FollowAt f t s := by
    cases s with
    | ended => exact hs
    | listening a al => have hs : a ≤ b := hs; show a ≤ t; omega
    | sleeping u => have hs : u ≤ b + longestPause f := hs; show u ≤ t + longestPause f; omega
  have h := advance_now hw hp hn t (2 * t + 2) s hs (fun _ _ _ => by omega) (fun _ _ _ => by omega) (by omega)
  have hl : libraryPause ≤ longestPause f := Nat.le_max_right _ _
  have hl0 : 0 < libraryPause := by decide
  unfold Follower.step
  generalize f.advance net (2 * t + 2) s t = s' at h
  cases s' with
  | ended => exact h.elim
  | sleeping u =>
    cases e <;> exact ⟨h.2, .inr ⟨u, rfl, h.1, h.2⟩⟩
  | listening a al =>
    cases al <;> cases e <;>
      first
      | exact ⟨h.1, .inl ⟨_, _, rfl, h.1, h.2⟩⟩
      | exact ⟨Nat.le_refl _, .inl ⟨_, _, rfl, Nat.le_refl _, by omega⟩⟩
      | exact ⟨show t + libraryPause ≤ _ by omega, .inr ⟨_, rfl, by omega, by omega⟩⟩

theorem run_at {f : Follower} (hw : 0 < f.timeout) (hp : 0 < f.pause) {net : Nat → Reply} (hn : ∀ u, net u ≠ .refused) :
    ∀ (l : List (Nat × FollowEvent)) (b : Nat) (s : FollowState), FollowAt f b s → Onward b l →
      ∃ b', FollowAt f b' (f.run net s l).1 ∧ ∀ t, (∀ x ∈ l, x.1 ≤ t) → b ≤ t → b' ≤ t := by
  intro l
  induction l with
  | nil => intro b s h _; exact ⟨b, h, fun t _ h => h⟩
  | cons x l ih =>
    obtain ⟨t, e⟩ := x
    rintro b s h ⟨h1, h2⟩
    obtain ⟨b', k1, k2⟩ := ih t _ (step_at hw hp hn h1 h e).1 h2
    exact ⟨b', k1, fun u hu _ => k2 u (fun x hx => hu x (List.mem_cons_of_mem _ hx)) (hu _ List.mem_cons_self)⟩

theorem follow_append (f : Follower) (net : Nat → Reply) : ∀ (l l' : List (Nat × FollowEvent)) (s : FollowState),
    f.run net s (l ++ l') = ((f.run net (f.run net s l).1 l').1, (f.run net s l).2 ++ (f.run net (f.run net s l).1 l').2) := by
  intro l
  induction l with
  | nil => intro l' s; rfl
  | cons x l ih =>
    obtain ⟨t, e⟩ := x
    intro l' s
    simp only [List.cons_append, Follower.run, ih, List.append_assoc]

/-- **C130, interruptions.**  Whatever is lost, closed or out of reach, and whenever: a program that is never refused goes on for ever. -/
theorem c130_survives_partial {f : Follower} (hf : f = sseFollower ∨ f = influxFollower) {net : Nat → Reply} (hn : ∀ u, net u ≠ .refused)
    (t0 : Nat) (l : List (Nat × FollowEvent)) (ho : Onward t0 l) : (f.run net (followStart t0) l).1 ≠ .ended := by
  have hw : 0 < f.timeout ∧ 0 < f.pause := by rcases hf with rfl | rfl <;> decide
  obtain ⟨b, h, -⟩ := run_at hw.1 hw.2 hn l t0 (followStart t0) (Nat.le_add_right _ _) ho
  intro e
  rw [e] at h
  exact h

/-- The program still has to come back -/
def Returning (f : Follower) (T b : Nat) (s : FollowState) : Prop :=
  (∃ a al, s = .listening a al ∧ a ≤ T ∧ b < a + f.timeout) ∨ ∃ u, s = .sleeping u ∧ b < u ∧ u ≤ T + f.timeout + longestPause f

theorem step_listening {f : Follower} {net : Nat → Reply} {a t : Nat} (h : t < a + f.timeout) (m : Str) :
    f.step net (.listening a true) t (.message m) = (.listening t true, [m]) := by
  have e : f.advance net (2 * t + 2) (.listening a true) t = .listening a true := by
    rw [show 2 * t + 2 = (2 * t + 1) + 1 from rfl]
    simp only [Follower.advance]
    rw [if_neg (by omega)]
  unfold Follower.step
  rw [e]

theorem run_listening {f : Follower} {net : Nat → Reply} : ∀ (l : List (Nat × Str)) (a : Nat), Within f.timeout a l →
    (f.run net (.listening a true) (told l)).2 = l.map (·.2) := by
  intro l
  induction l with
  | nil => intro _ _; rfl
  | cons x l ih =>
    obtain ⟨t, m⟩ := x
    rintro a ⟨-, h2, h3⟩
    have := ih t h3
    simp only [told] at this
    simp only [told, List.map_cons, Follower.run, step_listening h2, this, List.singleton_append]

theorem step_sleeping {f : Follower} {net : Nat → Reply} {u t : Nat} {k : Nat} (hk : 2 ≤ k) :
    (t < u → f.advance net k (.sleeping u) t = .sleeping u) ∧
    (u ≤ t → t < u + f.timeout → net u = .accepted → f.advance net k (.sleeping u) t = .listening u true) := by
  obtain ⟨k, rfl⟩ : ∃ k', k = k' + 2 := ⟨k - 2, by omega⟩
  constructor
  · intro h
    simp only [Follower.advance]
    rw [if_neg (by omega)]
  · intro h1 h2 h3
    simp only [Follower.advance]
    rw [if_pos h1, h3]
    simp only []
    rw [if_neg (by omega)]

theorem step_returning {f : Follower} (hw : 0 < f.timeout) (hp : 0 < f.pause) {net : Nat → Reply} {T : Nat}
    (hn : ∀ u, T ≤ u → net u = .accepted) {b t : Nat} (hT : T ≤ b) (h1 : b ≤ t) (h2 : t < b + f.timeout) {s : FollowState}
    (hs : Returning f T b s) (m : Str) :
    f.step net s t (.message m) = (.listening t true, [m]) ∨
    t < T + f.timeout + longestPause f ∧ (f.step net s t (.message m)).2 = [] ∧ Returning f T t (f.step net s t (.message m)).1 := by
  have hl : f.pause ≤ longestPause f := Nat.le_max_left _ _
  rcases hs with ⟨a, al, rfl, ha, hb⟩ | ⟨u, rfl, hu, hu2⟩
  · by_cases ht : a + f.timeout ≤ t
    · have e : f.advance net (2 * t + 2) (.listening a al) t = f.advance net (2 * t + 1) (.sleeping (a + f.timeout + f.pause)) t := by
        rw [show 2 * t + 2 = (2 * t + 1) + 1 from rfl]
        conv => lhs; unfold Follower.advance
        simp only []
        rw [if_pos ht]
      have hk : 2 ≤ 2 * t + 1 := by omega
      by_cases hu : a + f.timeout + f.pause ≤ t
      · refine .inl ?_
        unfold Follower.step
        rw [e, (step_sleeping hk).2 hu (by omega) (hn _ (by omega))]
      · refine .inr ⟨by omega, ?_⟩
        unfold Follower.step
        rw [e, (step_sleeping hk).1 (by omega)]
        exact ⟨rfl, .inr ⟨_, rfl, by omega, by omega⟩⟩
    · cases al with
      | true => exact .inl (step_listening (by omega) m)
      | false =>
        refine .inr ⟨by omega, ?_⟩
        have e : f.advance net (2 * t + 2) (.listening a false) t = .listening a false := by
          rw [show 2 * t + 2 = (2 * t + 1) + 1 from rfl]
          simp only [Follower.advance]
          rw [if_neg ht]
        unfold Follower.step
        rw [e]
        exact ⟨rfl, .inl ⟨_, _, rfl, ha, by omega⟩⟩
  · have hk : 2 ≤ 2 * t + 2 := by omega
    by_cases ht : u ≤ t
    · refine .inl ?_
      unfold Follower.step
      rw [(step_sleeping hk).2 ht (by omega) (hn _ (by omega))]
    · refine .inr ⟨by omega, ?_⟩
      unfold Follower.step
      rw [(step_sleeping hk).1 (by omega)]
      exact ⟨rfl, .inr ⟨_, rfl, by omega, hu2⟩⟩

theorem run_returning {f : Follower} (hw : 0 < f.timeout) (hp : 0 < f.pause) {net : Nat → Reply} {T : Nat}
    (hn : ∀ u, T ≤ u → net u = .accepted) : ∀ (l : List (Nat × Str)) (b : Nat) (s : FollowState), T ≤ b → Returning f T b s →
      Within f.timeout b l → ∃ n, (f.run net s (told l)).2 = (l.drop n).map (·.2) ∧
        ∀ x ∈ l.take n, x.1 < T + f.timeout + longestPause f := by
  intro l
  induction l with
  | nil => intro b s _ _ _; exact ⟨0, rfl, fun x h => by simp at h⟩
  | cons x l ih =>
    obtain ⟨t, m⟩ := x
    rintro b s hT hs ⟨h1, h2, h3⟩
    rcases step_returning hw hp hn hT h1 h2 hs m with e | ⟨k1, k2, k3⟩
    · refine ⟨0, ?_, fun x h => by simp at h⟩
      have := run_listening (net := net) l t h3
      simp only [told] at this
      simp only [told, List.map_cons, Follower.run, e, this, List.drop_zero, List.singleton_append]
    · obtain ⟨n, i1, i2⟩ := ih t _ (by omega) k3 h3
      refine ⟨n + 1, ?_, ?_⟩
      · simp only [told] at i1
        simp only [told, List.map_cons, Follower.run, k2, i1, List.drop_succ_cons, List.nil_append]
      · intro x hx
        rw [List.take_succ_cons] at hx
        rcases List.mem_cons.1 hx with rfl | hx
        · exact k1
        · exact i2 x hx

theorem run_lost {f : Follower} {net : Nat → Reply} {u : Nat} : ∀ (l : List (Nat × Str)), (∀ x ∈ l, x.1 < u) →
    f.run net (.sleeping u) (told l) = (.sleeping u, []) := by
  intro l
  induction l with
  | nil => intro _; rfl
  | cons x l ih =>
    obtain ⟨t, m⟩ := x
    intro h
    have : f.step net (.sleeping u) t (.message m) = (.sleeping u, []) := by
      unfold Follower.step
      rw [(step_sleeping (f := f) (net := net) (by omega)).1 (h (t, m) List.mem_cons_self)]
    have ih := ih fun x hx => h x (List.mem_cons_of_mem _ hx)
    simp only [told, List.map_cons, Follower.run, this] at ih ⊢
    rw [ih]; rfl

/-- **C130, a closed connection.**  The device closes the connection of a program that listens: the events of the next three seconds are
lost, and no others, if they come less than the time-out apart. -/
theorem c130_closed {f : Follower} (hf : f = sseFollower ∨ f = influxFollower) {net : Nat → Reply} (hn : ∀ u, net u = .accepted)
    {t0 t : Nat} (h0 : t0 ≤ t) (ht : t < t0 + f.timeout) {lost l : List (Nat × Str)} (h1 : ∀ x ∈ lost, x.1 < t + 3000)
    (h2 : Within f.timeout (t + 3000) l) :
    (f.run net (followStart t0) ((t, .closed) :: told lost ++ told l)).2 = l.map (·.2) := by
  have e : f.step net (followStart t0) t .closed = (.sleeping (t + 3000), []) := by
    unfold Follower.step
    rw [show f.advance net (2 * t + 2) (followStart t0) t = .listening t0 true from (step_sleeping (by omega)).2 h0 ht (hn t0)]
    rfl
  simp only [List.cons_append, Follower.run, e, follow_append, run_lost lost h1, List.nil_append]
  have := follow_exact hf hn (t + 3000) l (within_onward l _ h2)
  rw [heard_all (by omega) l _ h2] at this
  exact this

example : (influxFollower.run (fun _ => .accepted) (followStart 0) [(5000, .closed), (6000, .message (bs "a")), (7999, .message (bs "b")),
    (8000, .message (bs "c")), (38999, .message (bs "d"))]).2 = [bs "c", bs "d"] := by decide +kernel

/-- **C130, recovery.**  Whatever happened until `T`, if from then on the device accepts the connections and sends its events less than
the time-out of the program apart: the program misses the first ones at most, all less than its time-out and its longest pause after
`T` (20 s for sse.py, 41 s for influx.py), and gets all the others. -/
theorem c130_recovers {f : Follower} (hf : f = sseFollower ∨ f = influxFollower) {net : Nat → Reply} (hn : ∀ u, net u ≠ .refused)
    {t0 T : Nat} {before : List (Nat × FollowEvent)} {e : FollowEvent} (ho : Onward t0 (before ++ [(T, e)]))
    (hT : ∀ u, T ≤ u → net u = .accepted) {l : List (Nat × Str)} (hl : Within f.timeout T l) :
    ∃ n, (f.run net (followStart t0) (before ++ [(T, e)] ++ told l)).2 =
        (f.run net (followStart t0) (before ++ [(T, e)])).2 ++ (l.drop n).map (·.2) ∧
      ∀ x ∈ l.take n, x.1 < T + f.timeout + longestPause f := by
  have hw : 0 < f.timeout ∧ 0 < f.pause := by rcases hf with rfl | rfl <;> decide
  have on : ∀ (l : List (Nat × FollowEvent)) (t0 : Nat), Onward t0 (l ++ [(T, e)]) → Onward t0 l ∧ (∀ x ∈ l, x.1 ≤ T) ∧ t0 ≤ T := by
    intro l
    induction l with
    | nil => intro t0 h; exact ⟨trivial, fun x h => by simp at h, h.1⟩
    | cons x l ih =>
      rintro t0 ⟨h1, h2⟩
      obtain ⟨k1, k2, k3⟩ := ih _ h2
      refine ⟨⟨h1, k1⟩, ?_, Nat.le_trans h1 k3⟩
      intro y hy
      rcases List.mem_cons.1 hy with rfl | hy
      · exact k3
      · exact k2 y hy
  obtain ⟨o1, o2, o3⟩ := on before t0 ho
  obtain ⟨b, hb, hbT⟩ := run_at hw.1 hw.2 hn before t0 (followStart t0) (Nat.le_add_right _ _) o1
  have hs := (step_at hw.1 hw.2 hn (hbT T o2 o3) hb e).2
  have hr : Returning f T T (f.run net (followStart t0) (before ++ [(T, e)])).1 := by
    rw [follow_append]
    simp only [Follower.run]
    rcases hs with ⟨a, al, h1, h2, h3⟩ | ⟨u, h1, h2, h3⟩
    · exact .inl ⟨a, al, h1, h2, h3⟩
    · exact .inr ⟨u, h1, h2, by omega⟩
  obtain ⟨n, k1, k2⟩ := run_returning hw.1 hw.2 hT l T _ (Nat.le_refl _) hr hl
  refine ⟨n, ?_, k2⟩
  rw [follow_append, k1]

example : longestPause sseFollower = 10000 ∧ longestPause influxFollower = 10000 := by decide

/-- the connection is cut at 5 s and nobody is told; the event of 21 s is got -/
example : (sseFollower.run (fun _ => .accepted) (followStart 0)
    [(4000, .message (bs "a")), (5000, .cut), (12000, .message (bs "lost")), (21000, .message (bs "lost too")), (25000, .message (bs "b"))]).2 =
    [bs "a", bs "b"] := by decide +kernel

/-! ## The device that answers -/

theorem sse_reply {b : Build} {d d' : Device} {r : Req} {e : Env} {l : List Eff} {a : Access} (hc : Client d.nv.config r a)
    (hr : route b.cpuload e.static r.method r.uri = .sse) (h : d.step b (.handle r e) = .ok (d', l)) :
    (replyOf l = .accepted ↔ a ≠ .none ∧ d.sse.clients.length < 2 ∧ e.up = true) ∧
    (replyOf l = .refused ↔ a = .none ∨ 2 ≤ d.sse.clients.length) := by
  have h : d.handle b e r = .ok (d', l) := h
  unfold Device.handle accessOk at h
  rw [hr, client_auth hc] at h
  by_cases ha : a = .none
  · subst ha
    obtain ⟨rfl, rfl⟩ := Prod.mk.inj (Except.ok.inj h)
    simp [replyOf]
  · have e2 : (a != Access.none) = true := by simpa using ha
    rw [if_neg ha] at h
    simp only [ok_bind, pure_ok, e2, if_true, Sse.accept] at h
    by_cases hc : d.sse.clients.length < 2
    · rw [if_pos hc] at h
      obtain ⟨rfl, rfl⟩ := Prod.mk.inj (Except.ok.inj h)
      have : ¬ 2 ≤ d.sse.clients.length := by omega
      cases hup : e.up <;> simp [replyOf, ha, hc, this]
    · rw [if_neg hc] at h
      obtain ⟨rfl, rfl⟩ := Prod.mk.inj (Except.ok.inj h)
      have : 2 ≤ d.sse.clients.length := by omega
      simp [replyOf, hc, this]

/-- **C130, the device.**  It accepts exactly those that are let in, while fewer than two are connected; it refuses all the others. -/
theorem c130_reply {b : Build} {d d' : Device} {r : Req} {e : Env} {l : List Eff} {a : Access} (hc : Client d.nv.config r a)
    (hu : r.uri = bs "/tic") (h : d.step b (.handle r e) = .ok (d', l)) :
    (replyOf l = .accepted ↔ a ≠ .none ∧ d.sse.clients.length < 2 ∧ e.up = true) ∧
    (replyOf l = .refused ↔ a = .none ∨ 2 ≤ d.sse.clients.length) :=
  sse_reply hc (by unfold route; rw [if_pos]; simp [hu]) h

example : replyOf [.sse (.opened 3 true)] = .accepted ∧ replyOf [.send 503 (bs "Service Unavailable (too many clients)")] = .refused ∧
    replyOf [.sse (.opened 3 false)] = .unreachable := by decide

/-! ## What is wrong -/

theorem advance_refused {f : Follower} {net : Nat → Reply} {u t : Nat} (hu : u ≤ t) (hn : net u = .refused) (k : Nat) :
    f.advance net (k + 1) (.sleeping u) t = .ended := by
  simp only [Follower.advance]
  rw [if_pos hu, hn]

theorem run_ended {f : Follower} {net : Nat → Reply} : ∀ l, f.run net .ended l = (.ended, []) := by
  intro l
  induction l with
  | nil => rfl
  | cons x l ih =>
    obtain ⟨t, e⟩ := x
    have : f.step net .ended t e = (.ended, []) := by
      unfold Follower.step
      rw [show f.advance net (2 * t + 2) .ended t = .ended from rfl]
    simp only [Follower.run, this, ih, List.append_nil]

/-- **C130 is false: the programs do not come back from a refusal.**  With two pages open, or a password, the device refuses; the program ends
at once, and gets nothing of all that is sent later, even if nobody else is connected any more. -/
theorem c130_refuted_refused (f : Follower) {net : Nat → Reply} {t0 : Nat} (hn : net t0 = .refused) (l : List (Nat × FollowEvent))
    (ho : Onward t0 l) (hl : l ≠ []) : f.run net (followStart t0) l = (.ended, []) := by
  cases l with
  | nil => exact absurd rfl hl
  | cons x l =>
    obtain ⟨t, e⟩ := x
    have : f.step net (followStart t0) t e = (.ended, []) := by
      unfold Follower.step
      rw [show f.advance net (2 * t + 2) (followStart t0) t = .ended from advance_refused ho.1 hn (2 * t + 1)]
    simp only [Follower.run, this, run_ended, List.append_nil]

/-- **C130 is false: a device with a password.**  The programs send no credentials (`creds` is always false): refused. -/
theorem c130_refuted_password {b : Build} {d d' : Device} {r : Req} {e : Env} {l : List Eff} {u p : Str} (hp : Protected d.nv.config u p)
    (hr : ∀ u p, r.creds u p = false) (hu : r.uri = bs "/tic") (h : d.step b (.handle r e) = .ok (d', l)) : replyOf l = .refused :=
  (c130_reply (.stranger hp (hr u p)) hu h).2.2 (.inl rfl)

example : (influxFollower.run (fun u => if u < 60000 then .refused else .accepted) (followStart 0)
    [(1000, .message (bs "a")), (61000, .message (bs "b"))]) = (.ended, []) := by decide +kernel

/-- The same in the middle: a connection that is closed (the device restarts, say) while two other clients are faster to come back. -/
theorem c130_refuted_closed (f : Follower) (hf : 0 < f.timeout) (later : List (Nat × FollowEvent)) (hl : later ≠ [])
    (ho : Onward 4000 later) :
    f.run (fun u => if u = 3000 then .refused else .accepted) (followStart 0) ((0, .closed) :: later) = (.ended, []) := by
  have e : f.step (fun u => if u = 3000 then .refused else .accepted) (followStart 0) 0 .closed = (.sleeping 3000, []) := by
    unfold Follower.step
    rw [show f.advance (fun u => if u = 3000 then .refused else .accepted) (2 * 0 + 2) (followStart 0) 0 = .listening 0 true from
      (step_sleeping (by omega)).2 (Nat.le_refl _) (by omega) rfl]
    rfl
  have h := c130_refuted_refused f (net := fun u => if u = 3000 then .refused else .accepted) (t0 := 3000) rfl later
    (by cases later with
        | nil => exact absurd rfl hl
        | cons x l => exact ⟨Nat.le_trans (by omega) ho.1, ho.2⟩) hl
  simp only [Follower.run, e]
  rw [show FollowState.sleeping 3000 = followStart 3000 from rfl, h]
  rfl

/-- the frames of 30 s, every 1.5 s -/
def halfMinute (say : Nat → Str) (j : Nat) : List (Nat × Str) :=
  (List.range 20).map fun i => (30000 * j + 1500 * (i + 1), say (30000 * j + 1500 * (i + 1)))

theorem halfMinute_steady (say : Nat → Str) (j : Nat) (r : List (Nat × Str)) (h : Steady 1500 (30000 * (j + 1)) r) :
    Steady 1500 (30000 * j) (halfMinute say j ++ r) := by
  have e : 30000 * (j + 1) = 30000 * j + 30000 := by omega
  rw [e] at h
  simp only [halfMinute, List.range, List.range.loop, List.map_cons, List.map_nil, List.cons_append, List.nil_append, Steady]
  repeat refine ⟨by omega, by omega, ?_⟩
  exact h

theorem halfMinute_streamed (say : Nat → Str) (j : Nat) {r l : List (Nat × Str)} (h : Streamed 10000 (30000 * (j + 1)) r l) :
    Streamed 10000 (30000 * j) (halfMinute say j ++ r)
      ((30000 * j + 10500, say (30000 * j + 10500)) :: (30000 * j + 21000, say (30000 * j + 21000)) ::
        (30000 * j + 30000, say (30000 * j + 30000)) :: l) := by
  have e : 30000 * (j + 1) = 30000 * j + 30000 := by omega
  rw [e] at h
  simp only [halfMinute, List.range, List.range.loop, List.map_cons, List.map_nil, List.cons_append, List.nil_append]
  iterate 6 refine .quiet (by rintro ⟨k, h1, h2⟩; omega) ?_
  refine .sent ⟨3 * j + 1, by omega, by omega⟩ ?_
  iterate 6 refine .quiet (by rintro ⟨k, h1, h2⟩; omega) ?_
  refine .sent ⟨3 * j + 2, by omega, by omega⟩ ?_
  iterate 5 refine .quiet (by rintro ⟨k, h1, h2⟩; omega) ?_
  refine .sent ⟨3 * j + 3, by omega, by omega⟩ ?_
  exact h

theorem heard_halfMinute (say : Nat → Str) (j : Nat) (l : List (Nat × Str)) :
    heard 10000 20000 (30000 * j) ((30000 * j + 10500, say (30000 * j + 10500)) :: (30000 * j + 21000, say (30000 * j + 21000)) ::
        (30000 * j + 30000, say (30000 * j + 30000)) :: l) =
      say (30000 * j + 21000) :: say (30000 * j + 30000) :: heard 10000 20000 (30000 * (j + 1)) l := by
  have e : 30000 * (j + 1) = 30000 * j + 30000 := by omega
  simp only [heard]
  rw [if_neg (by omega), if_pos (by omega), if_pos (by omega), e]

/-- **C130 is false: sse.py loses one event of three with the factory settings.**  The factory period is ten seconds, as the time-out of sse.py;
the frames of the meter come every 1.5 s, so that the events come 10.5 s, 10.5 s and 9 s apart.  Whatever the events say and however long
it lasts: of `3 n` events `n` are lost, on a network without a fault. -/
theorem c130_refuted_factory (hostName : Str) (say : Nat → Str) (n : Nat) :
    askedStreamMs (factory hostName) = some 10000 ∧
    ∃ fr evs, Steady 1500 0 fr ∧ Streamed 10000 0 fr evs ∧ evs.length = 3 * n ∧
      (sseFollower.run (fun _ => .accepted) (followStart 0) (told evs)).2 =
        (List.range n).flatMap (fun j => [say (30000 * j + 21000), say (30000 * j + 30000)]) := by
  refine ⟨rfl, ?_⟩
  have all : ∀ n j, ∃ fr evs, Steady 1500 (30000 * j) fr ∧ Streamed 10000 (30000 * j) fr evs ∧ evs.length = 3 * n ∧
      Onward (30000 * j) evs ∧ heard 10000 20000 (30000 * j) evs =
        (List.range' j n).flatMap (fun j => [say (30000 * j + 21000), say (30000 * j + 30000)]) := by
    intro n
    induction n with
    | zero => intro j; exact ⟨[], [], trivial, .nil _, rfl, trivial, rfl⟩
    | succ n ih =>
      intro j
      obtain ⟨fr, evs, h1, h2, h3, h4, h5⟩ := ih (j + 1)
      refine ⟨_, _, halfMinute_steady say j fr h1, halfMinute_streamed say j h2, ?_, ?_, ?_⟩
      · simp only [List.length_cons, h3]; omega
      · refine ⟨by omega, by omega, by omega, ?_⟩
        rw [show 30000 * (j + 1) = 30000 * j + 30000 by omega] at h4
        exact h4
      · rw [heard_halfMinute, h5, List.range'_succ, List.flatMap_cons]
        rfl
  obtain ⟨fr, evs, h1, h2, h3, h4, h5⟩ := all n 0
  refine ⟨fr, evs, h1, h2, h3, ?_⟩
  rw [follow_exact (.inl rfl) (fun _ => rfl) 0 evs h4]
  rw [List.range_eq_range']
  exact h5

end Wifinfo
