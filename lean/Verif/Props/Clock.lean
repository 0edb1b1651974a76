import Verif.Model.Clock
import Verif.Props.NotifyRun
import Verif.Props.Period

/-!
# C84: the periodic notifications keep their pace
-/

namespace Wifinfo
open Spec

namespace Spec

/-- A multiple of the period lies after `before` and not after `now`. -/
def Due (period before now : Nat) : Prop := ∃ k, before < k * period ∧ k * period ≤ now

/-- Does a service with that period send something at `now`, the frame before being at `before`? -/
def DueFor (period : Option Nat) (before now : Nat) : Prop :=
  match period with
  | none => False
  | some 0 => True
  | some p => Due p before now

/-- Times in order, and never a gap that the 32-bit clock cannot see: less than 2^32 ms between a frame and the
beginning of the period of the frame before. -/
def Paced (period : Option Nat) : Nat → List Nat → Prop
  | _, [] => True
  | before, now :: ts =>
    before ≤ now ∧ (∀ p, period = some p → 0 < p → now - before / p * p < 4294967296) ∧ Paced period now ts

/-- What is sent, frame after frame, by the services of the settings `l`: each of them when its period asks for it. -/
def OnTime (l : List (String × Setting)) : Nat → List (Nat × Bool) → List (List Out) → Prop
  | _, [], [] => True
  | before, (now, clients) :: ts, o :: os =>
    ((∃ r, .http .maj r ∈ o) ↔ DueFor (askedMs l "httpreq_host" "httpreq_port" "httpreq_freq") before now) ∧
    ((∃ r, .jeedom r ∈ o) ↔ DueFor (askedMs l "jdom_host" "jdom_port" "jdom_freq") before now) ∧
    ((∃ r, .emoncms r ∈ o) ↔ DueFor (askedMs l "emon_host" "emon_port" "emon_freq") before now) ∧
    ((∃ d, .sse d ∈ o) ↔ DueFor (askedStreamMs l) before now ∧ clients = true) ∧ OnTime l now ts os
  | _, _, _ => False

end Spec

theorem due_iff {p before now : Nat} (hp : 0 < p) : Due p before now ↔ before / p < now / p := by
  constructor
  · rintro ⟨k, h1, h2⟩
    exact Nat.lt_of_lt_of_le ((Nat.div_lt_iff_lt_mul hp).2 h1) ((Nat.le_div_iff_mul_le hp).2 h2)
  · intro h
    exact ⟨now / p, (Nat.div_lt_iff_lt_mul hp).1 h, Nat.div_mul_le_self _ _⟩

/-- The beginning of a period on the 32-bit clock, `m` being the clock when the timers were made. -/
def beginsAt (m p t : Nat) : UInt32 := UInt32.ofNat (m + t / p * p)

theorem sub_clock {a b : Nat} (h : b ≤ a) (hl : a - b < 4294967296) :
    (UInt32.ofNat a - UInt32.ofNat b).toNat = a - b := by
  rw [UInt32.toNat_sub, UInt32.toNat_ofNat', UInt32.toNat_ofNat']
  omega

theorem check_every {p : UInt32} (hp : 0 < p.toNat) {m before now : Nat} (h : before ≤ now)
    (hl : now - before / p.toNat * p.toNat < 4294967296) :
    ((Timer.every p).check (beginsAt m p.toNat before) (UInt32.ofNat (m + now))).2 = beginsAt m p.toNat now ∧
    (((Timer.every p).check (beginsAt m p.toNat before) (UInt32.ofNat (m + now))).1 = true ↔ Due p.toNat before now) := by
  generalize hq : p.toNat = q at *
  have hb : before / q * q ≤ now := Nat.le_trans (Nat.div_mul_le_self _ _) h
  have hs : (UInt32.ofNat (m + now) - beginsAt m q before).toNat = now - before / q * q := by
    unfold beginsAt
    rw [sub_clock (by omega) (by omega)]
    omega
  have hd : (now - before / q * q) / q = now / q - before / q := by
    rw [Nat.mul_comm, Nat.sub_mul_div]
  have hle : before / q ≤ now / q := Nat.div_le_div_right h
  have key : p ≤ UInt32.ofNat (m + now) - beginsAt m q before ↔ before / q < now / q := by
    rw [UInt32.le_iff_toNat_le, hs, hq]
    constructor
    · intro hx
      have := Nat.div_le_div_right (c := q) hx
      rw [hd, Nat.div_self hp] at this
      omega
    · intro hx
      have h1 : (before / q + 1) * q ≤ now := (Nat.le_div_iff_mul_le hp).1 hx
      rw [Nat.add_mul, Nat.one_mul] at h1
      omega
  unfold Timer.check
  rw [due_iff hp]
  by_cases hc : before / q < now / q
  · simp only [if_pos (key.2 hc), hc, and_true, iff_true]
    refine UInt32.toNat_inj.1 ?_
    have e : ((UInt32.ofNat (m + now) - beginsAt m q before) / p * p).toNat = now / q * q - before / q * q := by
      have h1 : (now - before / q * q) / q * q = now / q * q - before / q * q := by rw [hd, Nat.sub_mul]
      have h2 : now / q * q ≤ now := Nat.div_mul_le_self _ _
      rw [UInt32.toNat_mul, UInt32.toNat_div, hs, hq, h1]
      exact Nat.mod_eq_of_lt (by omega)
    have h3 : before / q * q ≤ now / q * q := Nat.mul_le_mul_right _ hle
    rw [UInt32.toNat_add, e]
    unfold beginsAt
    rw [UInt32.toNat_ofNat', UInt32.toNat_ofNat']
    omega
  · simp only [if_neg (fun x => hc (key.1 x)), Bool.false_eq_true, hc, and_true]
    have : before / q = now / q := by omega
    unfold beginsAt
    rw [this]

/-- Where the period of a timer began, after a frame at `before`. -/
def Began (t : Timer) (m before : Nat) (start : UInt32) : Prop :=
  match t with
  | .every p => start = beginsAt m p.toNat before
  | _ => True

theorem check_step {t : Timer} (h0 : t ≠ .every 0) {m before now : Nat} {start : UInt32} (hb : Began t m before start)
    (h : before ≤ now) (hl : ∀ p, timerMs t = some p → 0 < p → now - before / p * p < 4294967296) :
    Began t m now (t.check start (UInt32.ofNat (m + now))).2 ∧
    (t.poll (t.check start (UInt32.ofNat (m + now))).1 = true ↔ DueFor (timerMs t) before now) := by
  cases t with
  | never => exact ⟨trivial, by simp [Timer.poll, timerMs, DueFor]⟩
  | always => exact ⟨trivial, by simp [Timer.poll, timerMs, DueFor]⟩
  | every p =>
    have hp : 0 < p.toNat := by
      rcases Nat.eq_zero_or_pos p.toNat with e | e
      · exact absurd (congrArg Timer.every (UInt32.toNat_inj.1 e)) h0
      · exact e
    have hb : start = beginsAt m p.toNat before := hb
    subst hb
    obtain ⟨h1, h2⟩ := check_every hp (m := m) h (hl _ rfl hp)
    refine ⟨h1, h2.trans ?_⟩
    show _ ↔ DueFor (some p.toNat) before now
    unfold DueFor
    generalize p.toNat = q at hp
    cases q with
    | zero => cases hp
    | succ q => exact Iff.rfl

theorem timers_pos {c : Config} (h1 : c.httpreq.freq.toNat * 1000 < 4294967296)
    (h2 : c.jeedom.freq.toNat * 1000 < 4294967296) (h3 : c.emoncms.freq.toNat * 1000 < 4294967296) :
    (ticMakeTimers c).http ≠ .every 0 ∧ (ticMakeTimers c).jeedom ≠ .every 0 ∧ (ticMakeTimers c).emoncms ≠ .every 0 ∧
      (ticMakeTimers c).sse ≠ .every 0 := by
  have key : ∀ f : UInt32, f.toNat * 1000 < 4294967296 → f ≠ 0 → Timer.every (f * 1000) ≠ .every 0 := by
    intro f hf h0 e
    have := congrArg UInt32.toNat (Timer.every.inj e)
    rw [UInt32.toNat_mul] at this
    have h00 : f.toNat ≠ 0 := fun x => h0 (UInt32.toNat_inj.1 x)
    have e1 : (1000 : UInt32).toNat = 1000 := by decide
    have e2 : (0 : UInt32).toNat = 0 := by decide
    rw [e1, e2, Nat.mod_eq_of_lt (show f.toNat * 1000 < 2 ^ 32 from hf)] at this
    omega
  have k2 : ∀ {f : UInt32} {q : Prop} [Decidable (f = 0 ∨ q)], f.toNat * 1000 < 4294967296 →
      (if f = 0 ∨ q then Timer.never else .every (f * 1000)) ≠ .every 0 := by
    intro f q _ hf
    split
    · intro h; cases h
    · rename_i h
      exact key f hf fun e => h (.inl e)
  refine ⟨k2 h1, k2 h2, k2 h3, ?_⟩
  show (if c.sseFreq = 0 then Timer.always else .every (c.sseFreq.toUInt32 * 1000)) ≠ _
  split
  · intro h; cases h
  · rename_i h
    have hlt : c.sseFreq.toNat < 65536 := c.sseFreq.toNat_lt
    have hc : c.sseFreq.toUInt32.toNat = c.sseFreq.toNat := UInt16.toNat_toUInt32 _
    generalize c.sseFreq.toUInt32 = f at hc
    refine key f (by rw [hc]; exact mul_lt hlt) fun e => h (UInt16.toNat_inj.1 ?_)
    rw [← hc, e, show (0 : UInt32).toNat = 0 by decide, show (0 : UInt16).toNat = 0 by decide]

theorem jeedom_sent {c : Config} {t : Teleinfo} {o} (h : jeedomNotif c t = .ok o) (h0 : c.jeedom.host[0] ≠ 0) : o ≠ [] := by
  unfold jeedomNotif at h
  rw [if_neg h0] at h
  obtain ⟨_, _, h⟩ := bind_ok h
  obtain ⟨_, _, h⟩ := bind_ok h
  obtain ⟨_, _, h⟩ := bind_ok h
  obtain ⟨_, h2, h⟩ := bind_ok h
  rw [← Except.ok.inj h]
  simp

theorem emoncms_sent {c : Config} {t : Teleinfo} {o} (h : emoncmsNotif c t = .ok o) (h0 : c.emoncms.host[0] ≠ 0) : o ≠ [] := by
  unfold emoncmsNotif at h
  rw [if_neg h0] at h
  obtain ⟨_, _, h⟩ := bind_ok h
  obtain ⟨_, _, h⟩ := bind_ok h
  obtain ⟨_, _, h⟩ := bind_ok h
  obtain ⟨_, h2, h⟩ := bind_ok h
  rw [← Except.ok.inj h]
  simp

/-- What the services send for a frame, with the timers of the configuration. -/
theorem sent_iff {w : World} {x : Rcv} (hx : x.Ok) (hm : x.tm = ticMakeTimers x.c) {s s' : NotifState} {o : List Out}
    (h : ticNotifs w x.c x.tm x.k x.t s = .ok (s', o)) :
    ((∃ r, .http .maj r ∈ o) ↔ x.tm.http.poll x.k.http = true) ∧
    ((∃ r, .jeedom r ∈ o) ↔ x.tm.jeedom.poll x.k.jeedom = true) ∧
    ((∃ r, .emoncms r ∈ o) ↔ x.tm.emoncms.poll x.k.emoncms = true) ∧
    ((∃ d, .sse d ∈ o) ↔ x.tm.sse.poll x.k.sse = true ∧ x.k.clients = true) := by
  have hk : ∀ n, (∃ r, Out.http n r ∈ o) ↔ n ∈ kinds o := by
    intro n
    unfold kinds
    rw [List.mem_filterMap]
    constructor
    · rintro ⟨r, h⟩; exact ⟨_, h, rfl⟩
    · rintro ⟨y, hy, e⟩
      cases y with
      | http n' r => cases e; exact ⟨r, hy⟩
      | jeedom _ => cases e
      | emoncms _ => cases e
      | sse _ => cases e
  refine ⟨?_, ?_⟩
  · obtain ⟨⟨a, b, c, d, e, ha, hb, hc, hd, hmaj⟩, -⟩ := c22_order hx h
    rw [hk, e]
    have h1 : Notif.maj ∉ a.toList := by
      cases a with
      | none => simp
      | some n => intro hn; have := (ha n rfl).1; simp at hn; rw [this] at hn; cases hn
    have h2 : Notif.maj ∉ b.toList := by
      cases b with
      | none => simp
      | some n => intro hn; have := (hb n rfl).1; simp at hn; rw [← hn] at this; rcases this with h | h <;> cases h
    have h3 : Notif.maj ∉ c.toList := by
      cases c with
      | none => simp
      | some n => intro hn; have := (hc n rfl).1; simp at hn; rw [← hn] at this; rcases this with h | h <;> cases h
    simp only [List.mem_append, h1, h2, h3, false_or]
    have h4 : Notif.maj ∈ d.toList ↔ d = some .maj := by
      cases d <;> simp [eq_comm]
    rw [h4, hmaj]
    refine ⟨fun h => h.2, fun h => ⟨?_, h⟩⟩
    rw [hm] at h
    unfold Rcv.hasHost
    rw [bne_iff_ne]
    intro h0
    have : (ticMakeTimers x.c).http = .never := by
      show (if _ then Timer.never else _) = _
      rw [if_pos (.inr (.inl h0))]
    rw [this] at h
    cases h
  · obtain ⟨oh, oj, oe, os, h1, h2, h3, h4, h5, rfl⟩ := frame_parts h
    have fh : ∀ y ∈ oh, ∃ n r, y = .http n r := fun y hy => by
      obtain ⟨-, n, hn⟩ := http_parts h1 y hy
      obtain ⟨r, e, -⟩ := httpNotif_form hn
      exact ⟨n, r, e⟩
    have fj : ∀ y ∈ oj, ∃ r, y = .jeedom r := fun y hy => by
      rcases ite_nil h2 with rfl | ⟨-, h2⟩
      · cases hy
      · rcases jeedom_form h2 with rfl | ⟨r, rfl, -⟩
        · cases hy
        · exact ⟨r, List.mem_singleton.1 hy⟩
    have fe : ∀ y ∈ oe, ∃ r, y = .emoncms r := fun y hy => by
      rcases ite_nil h3 with rfl | ⟨-, h3⟩
      · cases hy
      · rcases emoncms_form h3 with rfl | ⟨r, rfl, -⟩
        · cases hy
        · exact ⟨r, List.mem_singleton.1 hy⟩
    have fs : ∀ y ∈ os, ∃ d, y = .sse d := fun y hy => by
      rcases h4 with rfl | ⟨-, -, d, -, rfl⟩
      · cases hy
      · exact ⟨d, List.mem_singleton.1 hy⟩
    refine ⟨?_, ?_, ?_⟩
    · constructor
      · rintro ⟨r, hr⟩
        simp only [List.mem_append] at hr
        rcases hr with ((hr | hr) | hr) | hr
        · obtain ⟨_, _, e⟩ := fh _ hr; cases e
        · rcases ite_nil h2 with rfl | ⟨h2, -⟩
          · cases hr
          · exact h2
        · obtain ⟨_, e⟩ := fe _ hr; cases e
        · obtain ⟨_, e⟩ := fs _ hr; cases e
      · intro hp
        rw [if_pos hp] at h2
        have h0 : x.c.jeedom.host[0] ≠ 0 := by
          intro h0
          rw [hm, show (ticMakeTimers x.c).jeedom = .never from if_pos (.inr (.inl h0))] at hp
          cases hp
        obtain ⟨y, hy⟩ := List.exists_mem_of_ne_nil _ (jeedom_sent h2 h0)
        obtain ⟨r, e⟩ := fj y hy
        exact ⟨r, by rw [← e]; simp [hy]⟩
    · constructor
      · rintro ⟨r, hr⟩
        simp only [List.mem_append] at hr
        rcases hr with ((hr | hr) | hr) | hr
        · obtain ⟨_, _, e⟩ := fh _ hr; cases e
        · obtain ⟨_, e⟩ := fj _ hr; cases e
        · rcases ite_nil h3 with rfl | ⟨h3, -⟩
          · cases hr
          · exact h3
        · obtain ⟨_, e⟩ := fs _ hr; cases e
      · intro hp
        rw [if_pos hp] at h3
        have h0 : x.c.emoncms.host[0] ≠ 0 := by
          intro h0
          rw [hm, show (ticMakeTimers x.c).emoncms = .never from if_pos (.inr (.inl h0))] at hp
          cases hp
        obtain ⟨y, hy⟩ := List.exists_mem_of_ne_nil _ (emoncms_sent h3 h0)
        obtain ⟨r, e⟩ := fe y hy
        exact ⟨r, by rw [← e]; simp [hy]⟩
    · constructor
      · rintro ⟨r, hr⟩
        simp only [List.mem_append] at hr
        rcases hr with ((hr | hr) | hr) | hr
        · obtain ⟨_, _, e⟩ := fh _ hr; cases e
        · obtain ⟨_, e⟩ := fj _ hr; cases e
        · obtain ⟨_, e⟩ := fe _ hr; cases e
        · rcases h4 with rfl | ⟨a, b, -⟩
          · cases hr
          · exact ⟨a, b⟩
      · rintro ⟨a, b⟩
        obtain ⟨y, hy⟩ := List.exists_mem_of_ne_nil _ (h5 a b)
        obtain ⟨d, e⟩ := fs y hy
        exact ⟨d, by rw [← e]; simp [hy]⟩

/-- The frames at given times, in milliseconds since the timers were made. -/
structure Timed where
  at_ : Nat
  clients : Bool
  t : Teleinfo

/-- What the device sees, the clock being at `m` when the timers were made. -/
def Timed.seen (m : Nat) (a : Timed) : Arrival := ⟨UInt32.ofNat (m + a.at_), a.clients, a.t⟩

/-- The object holds a frame. -/
def Timed.Ok (a : Timed) : Prop := ∃ gs ts l, TinfoReach a.t ((ts, gs) :: l)

/-- The gaps are visible for the periods of all services. -/
def AllPaced (l : List (String × Setting)) (ts : List Nat) : Prop :=
  Paced (askedMs l "httpreq_host" "httpreq_port" "httpreq_freq") 0 ts ∧
  Paced (askedMs l "jdom_host" "jdom_port" "jdom_freq") 0 ts ∧
  Paced (askedMs l "emon_host" "emon_port" "emon_freq") 0 ts ∧ Paced (askedStreamMs l) 0 ts

theorem timed_run {w : World} {c : Config} {l : List (String × Setting)} (hl : AsAsked (ticMakeTimers c) l)
    (hz : (ticMakeTimers c).http ≠ .every 0 ∧ (ticMakeTimers c).jeedom ≠ .every 0 ∧
      (ticMakeTimers c).emoncms ≠ .every 0 ∧ (ticMakeTimers c).sse ≠ .every 0) {m : Nat} :
    ∀ (as : List Timed) (before : Nat) (k : Clocks) (s : NotifState) (os : List (List Out)),
      (∀ a ∈ as, a.Ok) →
      Began (ticMakeTimers c).http m before k.http → Began (ticMakeTimers c).jeedom m before k.jeedom →
      Began (ticMakeTimers c).emoncms m before k.emoncms → Began (ticMakeTimers c).sse m before k.sse →
      Paced (askedMs l "httpreq_host" "httpreq_port" "httpreq_freq") before (as.map (·.at_)) →
      Paced (askedMs l "jdom_host" "jdom_port" "jdom_freq") before (as.map (·.at_)) →
      Paced (askedMs l "emon_host" "emon_port" "emon_freq") before (as.map (·.at_)) →
      Paced (askedStreamMs l) before (as.map (·.at_)) →
      timedRun w c (ticMakeTimers c) k s (as.map (Timed.seen m)) = .ok os →
      OnTime l before (as.map fun a => (a.at_, a.clients)) os := by
  obtain ⟨l1, l2, l3, l4⟩ := hl
  obtain ⟨z1, z2, z3, z4⟩ := hz
  intro as
  induction as with
  | nil =>
    intro before k s os _ _ _ _ _ _ _ _ _ h
    rw [← Except.ok.inj h]
    trivial
  | cons a as ih =>
    intro before k s os hok b1 b2 b3 b4 p1 p2 p3 p4 h
    obtain ⟨q1, q2, q3⟩ := p1
    obtain ⟨q4, q5, q6⟩ := p2
    obtain ⟨q7, q8, q9⟩ := p3
    obtain ⟨q10, q11, q12⟩ := p4
    rw [List.map_cons] at h
    unfold timedRun at h
    obtain ⟨⟨k', s', o⟩, h1, h⟩ := bind_ok h
    obtain ⟨os', h2, h⟩ := bind_ok h
    rw [← Except.ok.inj h]
    unfold timedNotifs at h1
    obtain ⟨⟨s'', o''⟩, h3, h1⟩ := bind_ok h1
    dsimp only [pure, Except.pure] at h1
    obtain ⟨rfl, hq⟩ := Prod.mk.inj (Except.ok.inj h1)
    obtain ⟨rfl, rfl⟩ := Prod.mk.inj hq
    obtain ⟨c1, d1⟩ := check_step z1 b1 q1 (by rw [l1]; exact q2)
    obtain ⟨c2, d2⟩ := check_step z2 b2 q1 (by rw [l2]; exact q5)
    obtain ⟨c3, d3⟩ := check_step z3 b3 q1 (by rw [l3]; exact q8)
    obtain ⟨c4, d4⟩ := check_step z4 b4 q1 (by rw [l4]; exact q11)
    obtain ⟨gs, ts, r, hr⟩ := hok a (by simp)
    obtain ⟨e1, e2, e3, e4⟩ := sent_iff (x := ⟨c, ticMakeTimers c, _, a.t, gs⟩) ⟨ts, r, hr⟩ rfl h3
    refine ⟨?_, e2.trans (d2.trans (by rw [l2])), e3.trans (d3.trans (by rw [l3])),
      e4.trans (and_congr_left' (d4.trans (by rw [l4]))), ?_⟩
    · refine e1.trans ?_
      rw [← l1, ← d1]
      dsimp only
      by_cases h0 : c.httpreq.host[0] = 0
      · rw [show (ticMakeTimers c).http = .never from if_pos (.inr (.inl h0))]
        exact Iff.rfl
      · rw [if_pos h0]
        exact Iff.rfl
    · refine ih a.at_ _ _ _ (fun x hx => hok x (by simp [hx])) ?_ c2 c3 c4 q3 q6 q9 q12 h2
      dsimp only
      by_cases h0 : c.httpreq.host[0] = 0
      · rw [show (ticMakeTimers c).http = .never from if_pos (.inr (.inl h0))]
        trivial
      · rw [if_pos h0]
        exact c1

/-- **C84.**  Timers made at any value of the clock, then any sequence of frames, for as long as one likes (the 32-bit
clock wraps every 49.7 days): each service sends for a frame exactly when a multiple of its period lies between the
frame before and this one. -/
theorem c84_pace {w : World} {c : Config} (ht : Terminated c)
    (h1 : c.httpreq.freq.toNat * 1000 < 4294967296) (h2 : c.jeedom.freq.toNat * 1000 < 4294967296)
    (h3 : c.emoncms.freq.toNat * 1000 < 4294967296) {m : Nat} {as : List Timed} (hok : ∀ a ∈ as, a.Ok)
    (hp : AllPaced (publicSettings c) (as.map (·.at_))) {s : NotifState} {os : List (List Out)}
    (h : timedRun w c (ticMakeTimers c) (Clocks.make (UInt32.ofNat m)) s (as.map (Timed.seen m)) = .ok os) :
    OnTime (publicSettings c) 0 (as.map fun a => (a.at_, a.clients)) os := by
  have hb : ∀ t : Timer, Began t m 0 (UInt32.ofNat m) := by
    intro t
    cases t with
    | every p =>
      show _ = beginsAt m p.toNat 0
      unfold beginsAt
      rw [Nat.zero_div, Nat.zero_mul, Nat.add_zero]
    | _ => trivial
  obtain ⟨p1, p2, p3, p4⟩ := hp
  exact timed_run (c65_period_partial ht h1 h2 h3) (timers_pos h1 h2 h3) as 0 _ s os hok (hb _) (hb _) (hb _) (hb _)
    p1 p2 p3 p4 h

/-! ### Counting -/

namespace Spec

/-- Frames come at least once in a period. -/
def Frequent (p : Nat) : Nat → List Nat → Prop
  | _, [] => True
  | before, now :: ts => now ≤ before + p ∧ Frequent p now ts

/-- How many frames were followed by an output of a kind. -/
def sentFor (kind : Out → Bool) (os : List (List Out)) : Nat := (os.filter fun o => o.any kind).length

end Spec

/-- The outputs of a kind are those of a period. -/
def Fires (kind : Out → Bool) (p : Nat) : Nat → List Nat → List (List Out) → Prop
  | _, [], [] => True
  | before, now :: ts, o :: os => (o.any kind = true ↔ DueFor (some p) before now) ∧ Fires kind p now ts os
  | _, _, _ => False

theorem fires_count {kind : Out → Bool} {p : Nat} (hp : 0 < p) : ∀ (ts : List Nat) (before : Nat) (os : List (List Out)),
    Fires kind p before ts os → Paced (some p) before ts →
    before / p + sentFor kind os ≤ ts.getLastD before / p ∧
      (Frequent p before ts → before / p + sentFor kind os = ts.getLastD before / p) := by
  intro ts
  induction ts with
  | nil =>
    intro before os h _
    cases os with
    | nil => exact ⟨Nat.le_refl _, fun _ => rfl⟩
    | cons _ _ => exact h.elim
  | cons now ts ih =>
    intro before os h hq
    cases os with
    | nil => exact h.elim
    | cons o os =>
      obtain ⟨h1, h2⟩ := h
      obtain ⟨q1, q2, q3⟩ := hq
      obtain ⟨i1, i2⟩ := ih now os h2 q3
      have e : (now :: ts).getLastD before = ts.getLastD now := by
        cases ts with
        | nil => rfl
        | cons _ _ => rfl
      have hle : before / p ≤ now / p := Nat.div_le_div_right q1
      have hd : DueFor (some p) before now ↔ before / p < now / p := by
        cases p with
        | zero => cases hp
        | succ p => exact due_iff hp
      have hs : sentFor kind (o :: os) = (if o.any kind then 1 else 0) + sentFor kind os := by
        unfold sentFor
        rw [List.filter_cons]
        split <;> simp [Nat.add_comm]
      rw [e, hs]
      by_cases hk : o.any kind = true
      · rw [if_pos hk]
        have := hd.1 (h1.1 hk)
        refine ⟨by omega, fun hf => ?_⟩
        have h3 : now / p ≤ before / p + 1 := by
          have := Nat.div_le_div_right (c := p) hf.1
          rw [Nat.add_div_right _ hp] at this
          exact this
        have := i2 hf.2
        omega
      · rw [if_neg hk]
        have : ¬ before / p < now / p := fun x => hk (h1.2 (hd.2 x))
        refine ⟨by omega, fun hf => ?_⟩
        have := i2 hf.2
        omega

/-- Kinds of the periodic outputs. -/
def isMaj : Out → Bool
  | .http .maj _ => true
  | _ => false

theorem any_maj (o : List Out) : o.any isMaj = true ↔ ∃ r, .http .maj r ∈ o := by
  rw [List.any_eq_true]
  constructor
  · rintro ⟨y, hy, h⟩
    unfold isMaj at h
    split at h
    · exact ⟨_, hy⟩
    · cases h
  · rintro ⟨r, h⟩; exact ⟨_, h, rfl⟩

theorem any_jeedom (o : List Out) : o.any Out.isJeedom = true ↔ ∃ r, .jeedom r ∈ o := by
  rw [List.any_eq_true]
  constructor
  · rintro ⟨y, hy, h⟩
    unfold Out.isJeedom at h
    split at h
    · exact ⟨_, hy⟩
    · cases h
  · rintro ⟨r, h⟩; exact ⟨_, h, rfl⟩

theorem any_emoncms (o : List Out) : o.any Out.isEmoncms = true ↔ ∃ r, .emoncms r ∈ o := by
  rw [List.any_eq_true]
  constructor
  · rintro ⟨y, hy, h⟩
    unfold Out.isEmoncms at h
    split at h
    · exact ⟨_, hy⟩
    · cases h
  · rintro ⟨r, h⟩; exact ⟨_, h, rfl⟩

theorem onTime_fires {l : List (String × Setting)} : ∀ (ts : List (Nat × Bool)) (before : Nat) (os : List (List Out)),
    OnTime l before ts os →
    (∀ p, askedMs l "httpreq_host" "httpreq_port" "httpreq_freq" = some p → Fires isMaj p before (ts.map (·.1)) os) ∧
    (∀ p, askedMs l "jdom_host" "jdom_port" "jdom_freq" = some p → Fires Out.isJeedom p before (ts.map (·.1)) os) ∧
    (∀ p, askedMs l "emon_host" "emon_port" "emon_freq" = some p → Fires Out.isEmoncms p before (ts.map (·.1)) os) := by
  intro ts
  induction ts with
  | nil =>
    intro before os h
    cases os with
    | nil => exact ⟨fun _ _ => trivial, fun _ _ => trivial, fun _ _ => trivial⟩
    | cons _ _ => exact h.elim
  | cons a ts ih =>
    intro before os h
    obtain ⟨now, clients⟩ := a
    cases os with
    | nil => exact h.elim
    | cons o os =>
      obtain ⟨h1, h2, h3, h4, h5⟩ := h
      obtain ⟨i1, i2, i3⟩ := ih now os h5
      exact ⟨fun p hp => ⟨by rw [any_maj, h1, hp], i1 p hp⟩, fun p hp => ⟨by rw [any_jeedom, h2, hp], i2 p hp⟩,
        fun p hp => ⟨by rw [any_emoncms, h3, hp], i3 p hp⟩⟩

/-- **C84.**  In any time, a service does not send more often than its period says, and exactly as often when frames
come at least once in each period. -/
theorem c84_count {w : World} {c : Config} (ht : Terminated c)
    (h1 : c.httpreq.freq.toNat * 1000 < 4294967296) (h2 : c.jeedom.freq.toNat * 1000 < 4294967296)
    (h3 : c.emoncms.freq.toNat * 1000 < 4294967296) {m : Nat} {as : List Timed} (hok : ∀ a ∈ as, a.Ok)
    (hp : AllPaced (publicSettings c) (as.map (·.at_))) {s : NotifState} {os : List (List Out)}
    (h : timedRun w c (ticMakeTimers c) (Clocks.make (UInt32.ofNat m)) s (as.map (Timed.seen m)) = .ok os)
    (kind : Out → Bool) (p : Nat) (hk : (kind = isMaj ∧ askedMs (publicSettings c) "httpreq_host" "httpreq_port" "httpreq_freq" = some p) ∨
      (kind = Out.isJeedom ∧ askedMs (publicSettings c) "jdom_host" "jdom_port" "jdom_freq" = some p) ∨
      (kind = Out.isEmoncms ∧ askedMs (publicSettings c) "emon_host" "emon_port" "emon_freq" = some p)) (h0 : 0 < p) :
    sentFor kind os ≤ (as.map (·.at_)).getLastD 0 / p ∧
      (Frequent p 0 (as.map (·.at_)) → sentFor kind os = (as.map (·.at_)).getLastD 0 / p) := by
  obtain ⟨f1, f2, f3⟩ := onTime_fires _ _ _ (c84_pace ht h1 h2 h3 hok hp h)
  obtain ⟨p1, p2, p3, -⟩ := hp
  have em : (as.map fun a => (a.at_, a.clients)).map (·.1) = as.map (·.at_) := by
    rw [List.map_map]; rfl
  have key : Fires kind p 0 (as.map (·.at_)) os ∧ Paced (some p) 0 (as.map (·.at_)) := by
    rcases hk with ⟨rfl, e⟩ | ⟨rfl, e⟩ | ⟨rfl, e⟩
    · exact ⟨em ▸ f1 p e, e ▸ p1⟩
    · exact ⟨em ▸ f2 p e, e ▸ p2⟩
    · exact ⟨em ▸ f3 p e, e ▸ p3⟩
  have := fires_count h0 _ _ _ key.1 key.2
  rw [Nat.zero_div, Nat.zero_add] at this
  exact this

/-- **C84.**  Such a run always ends normally when the URL setting can be expanded (C24). -/
theorem c84_total {w : World} {c : Config} (ht : Terminated c) (hu : UrlSafe c) (tm : Timers) :
    ∀ (as : List Timed) (m : Nat) (k : Clocks) (s : NotifState), (∀ a ∈ as, a.Ok) →
      ∃ os, timedRun w c tm k s (as.map (Timed.seen m)) = .ok os := by
  intro as
  induction as with
  | nil => intro m k s _; exact ⟨[], rfl⟩
  | cons a as ih =>
    intro m k s hok
    obtain ⟨gs, ts, l, hr⟩ := hok a (by simp)
    rw [List.map_cons]
    unfold timedRun
    refine bindEx ?_ fun ⟨k', s', o⟩ => ?_
    · unfold timedNotifs
      obtain ⟨s1, o1, e⟩ := c22_total w (x := ⟨c, tm,
        ⟨(if c.httpreq.host[0] ≠ 0 then tm.http.check k.http (a.seen m).ms else (false, k.http)).1,
          (tm.jeedom.check k.jeedom (a.seen m).ms).1, (tm.emoncms.check k.emoncms (a.seen m).ms).1,
          (tm.sse.check k.sse (a.seen m).ms).1, a.clients⟩, a.t, gs⟩) ⟨ts, l, hr⟩ ⟨ht, hu⟩ s
      exact bindEx ⟨_, e⟩ fun _ => ⟨_, rfl⟩
    · obtain ⟨os, e⟩ := ih m k' s' fun x hx => hok x (by simp [hx])
      exact bindEx ⟨_, e⟩ fun _ => ⟨_, rfl⟩

/-- A notification every minute, the event stream at every frame. -/
def paceConfig : Config := { notifConfig with httpreq := { notifConfig.httpreq with freq := 60 } }

theorem pace_asked : askedMs (publicSettings paceConfig) "httpreq_host" "httpreq_port" "httpreq_freq" = some 60000 ∧
    askedMs (publicSettings paceConfig) "jdom_host" "jdom_port" "jdom_freq" = none ∧
    askedMs (publicSettings paceConfig) "emon_host" "emon_port" "emon_freq" = none ∧
    askedStreamMs (publicSettings paceConfig) = some 0 := by decide +kernel

/-- Frames 50 s, 70 s and 125 s after the timers were made: the hypotheses of
`c84_pace` and `c84_count` hold, at any value of the clock. -/
example : ∃ t : Teleinfo, ∀ (w : World) (m : Nat), ∃ os,
    (∀ a ∈ [Timed.mk 50000 true t, ⟨70000, false, t⟩, ⟨125000, true, t⟩], a.Ok) ∧
    Terminated paceConfig ∧ AllPaced (publicSettings paceConfig) [50000, 70000, 125000] ∧
    Frequent 60000 0 [50000, 70000, 125000] ∧
    timedRun w paceConfig (ticMakeTimers paceConfig) (Clocks.make (UInt32.ofNat m)) NotifState.init
      ([Timed.mk 50000 true t, ⟨70000, false, t⟩, ⟨125000, true, t⟩].map (Timed.seen m)) = .ok os ∧
    sentFor isMaj os = 2 := by
  obtain ⟨t, h⟩ := reach_next .init ⟨7, 5⟩ (oneFrame_valid "PAPP" "00100" (by decide +kernel) (by decide +kernel)
    (by decide +kernel) (by decide +kernel))
  refine ⟨t, fun w m => ?_⟩
  have hok : ∀ a ∈ [Timed.mk 50000 true t, ⟨70000, false, t⟩, ⟨125000, true, t⟩], a.Ok := by
    intro a ha
    have : a.t = t := by
      simp only [List.mem_cons, List.not_mem_nil, or_false] at ha
      rcases ha with rfl | rfl | rfl <;> rfl
    exact ⟨_, _, _, this ▸ h⟩
  have ht : Terminated paceConfig := (terminated_iff _).2 (by decide +kernel)
  have hu : UrlSafe paceConfig := urlSafe_of ⟨bs "/~TYPE~", List.replicate 143 0, by decide +kernel, Or.inr rfl⟩
  have hf : Frequent 60000 0 [50000, 70000, 125000] := ⟨by omega, by omega, by omega, trivial⟩
  have hp : AllPaced (publicSettings paceConfig) [50000, 70000, 125000] := by
    obtain ⟨e1, e2, e3, e4⟩ := pace_asked
    unfold AllPaced
    rw [e1, e2, e3, e4]
    refine ⟨?_, ?_, ?_, ?_⟩ <;> simp [Paced]
  obtain ⟨os, ho⟩ := c84_total (w := w) ht hu (ticMakeTimers paceConfig) _ m (Clocks.make (UInt32.ofNat m)) NotifState.init hok
  refine ⟨os, hok, ht, hp, hf, ho, ?_⟩
  have := (c84_count (as := [Timed.mk 50000 true t, ⟨70000, false, t⟩, ⟨125000, true, t⟩]) ht (by decide +kernel)
    (by decide +kernel) (by decide +kernel) hok hp ho isMaj 60000 (.inl ⟨rfl, pace_asked.1⟩) (by omega)).2 hf
  simpa using this

/-- Limit of the 32-bit clock: frames 2^32 ms apart are not seen as apart. -/
theorem c84_limit (m : Nat) : ((Timer.every 60000).check (UInt32.ofNat m) (UInt32.ofNat (m + 4294967296))).1 = false := by
  have e : UInt32.ofNat (m + 4294967296) = UInt32.ofNat m := by
    refine UInt32.toNat_inj.1 ?_
    rw [UInt32.toNat_ofNat', UInt32.toNat_ofNat']
    omega
  rw [e]
  unfold Timer.check
  rw [UInt32.sub_self]
  rfl

end Wifinfo
