import Verif.Props.Access

/-!
# C65: periods of the notifications

The period of each service is the one that was asked for, in seconds; a service without host, port or
period has none.
-/

namespace Wifinfo
open Spec

namespace Spec

/-- The period in milliseconds that the settings of a service ask for; none if the service is off. -/
def askedMs (l : List (String × Setting)) (host port freq : String) : Option Nat :=
  match l.lookup host, l.lookup port, l.lookup freq with
  | some (.text (some h)), some (.num p), some (.num f) =>
    if h = [] ∨ p = 0 ∨ f = 0 then none else some (f * 1000)
  | _, _, _ => none

/-- The period of the event stream: zero is "at every frame". -/
def askedStreamMs (l : List (String × Setting)) : Option Nat :=
  match l.lookup "sse_freq" with
  | some (.num f) => some (f * 1000)
  | _ => none

/-- The period of a timer in milliseconds, zero if it has always expired, none if it never does. -/
def timerMs : Timer → Option Nat
  | .never => none
  | .always => some 0
  | .every p => some p.toNat

/-- The timers do what the settings ask for. -/
def AsAsked (t : Timers) (l : List (String × Setting)) : Prop :=
  timerMs t.http = askedMs l "httpreq_host" "httpreq_port" "httpreq_freq" ∧
  timerMs t.jeedom = askedMs l "jdom_host" "jdom_port" "jdom_freq" ∧
  timerMs t.emoncms = askedMs l "emon_host" "emon_port" "emon_freq" ∧
  timerMs t.sse = askedStreamMs l

end Spec

theorem mul_lt {n : Nat} (h : n < 65536) : n * 1000 < 4294967296 := by omega

theorem timer_ms {n} {host : Arr (n + 1)} {h : Str} {port : UInt16} {freq : UInt32} (hh : HasText host h) :
    timerMs (if freq = 0 ∨ host[0] = 0 ∨ port = 0 then .never else .every (freq * 1000)) =
      (if h = [] ∨ port.toNat = 0 ∨ freq.toNat = 0 then none else some (freq.toNat * 1000)).map (· % 2 ^ 32) := by
  have e : freq = 0 ↔ freq.toNat = 0 := by rw [← UInt32.toNat_inj]; rfl
  have e2 : port = 0 ↔ port.toNat = 0 := by rw [← UInt16.toNat_inj]; rfl
  have e3 := hh.first
  by_cases c : h = [] ∨ port.toNat = 0 ∨ freq.toNat = 0
  · rw [if_pos c, if_pos]
    · rfl
    · rcases c with c | c | c
      · exact Or.inr (Or.inl (e3.2 c))
      · exact Or.inr (Or.inr (e2.2 c))
      · exact Or.inl (e.2 c)
  · rw [if_neg c, if_neg]
    · show some (freq * 1000).toNat = _
      rw [UInt32.toNat_mul]
      rfl
    · intro k
      refine c ?_
      rcases k with k | k | k
      · exact Or.inr (Or.inr (e.1 k))
      · exact Or.inl (e3.1 k)
      · exact Or.inr (Or.inl (e2.1 k))

/-- **C65, exactly.** For any settings, each timer has the period asked for, modulo 2^32 milliseconds (49 days); the
event stream has exactly the period asked for. -/
theorem c65_exact {c : Config} (ht : Terminated c) :
    timerMs (ticMakeTimers c).http =
      (askedMs (publicSettings c) "httpreq_host" "httpreq_port" "httpreq_freq").map (· % 2 ^ 32) ∧
    timerMs (ticMakeTimers c).jeedom =
      (askedMs (publicSettings c) "jdom_host" "jdom_port" "jdom_freq").map (· % 2 ^ 32) ∧
    timerMs (ticMakeTimers c).emoncms =
      (askedMs (publicSettings c) "emon_host" "emon_port" "emon_freq").map (· % 2 ^ 32) ∧
    timerMs (ticMakeTimers c).sse = askedStreamMs (publicSettings c) := by
  obtain ⟨_, _, _, _, _, _, _, t1, _, _, t2, _, _, _, t3, _⟩ := (terminated_iff _).1 ht
  have get : ∀ {n} {a : Arr n}, (0 : Byte) ∈ a.toList → ∃ s, HasText a s := by
    intro n a h
    cases hs : textOf a.toList with
    | none => exact absurd hs (textOf_ne_none.2 h)
    | some s => exact ⟨s, hs⟩
  obtain ⟨s1, k1⟩ := get t1
  obtain ⟨s2, k2⟩ := get t2
  obtain ⟨s3, k3⟩ := get t3
  refine ⟨?_, ?_, ?_, ?_⟩
  · have e : askedMs (publicSettings c) "httpreq_host" "httpreq_port" "httpreq_freq" =
        if s3 = [] ∨ c.httpreq.port.toNat = 0 ∨ c.httpreq.freq.toNat = 0 then none
        else some (c.httpreq.freq.toNat * 1000) := by
      unfold HasText at k3
      simp [askedMs, publicSettings, List.lookup, k3]
    rw [e]
    exact timer_ms k3
  · have e : askedMs (publicSettings c) "jdom_host" "jdom_port" "jdom_freq" =
        if s2 = [] ∨ c.jeedom.port.toNat = 0 ∨ c.jeedom.freq.toNat = 0 then none
        else some (c.jeedom.freq.toNat * 1000) := by
      unfold HasText at k2
      simp [askedMs, publicSettings, List.lookup, k2]
    rw [e]
    exact timer_ms k2
  · have e : askedMs (publicSettings c) "emon_host" "emon_port" "emon_freq" =
        if s1 = [] ∨ c.emoncms.port.toNat = 0 ∨ c.emoncms.freq.toNat = 0 then none
        else some (c.emoncms.freq.toNat * 1000) := by
      unfold HasText at k1
      simp [askedMs, publicSettings, List.lookup, k1]
    rw [e]
    exact timer_ms k1
  · have e : askedStreamMs (publicSettings c) = some (c.sseFreq.toNat * 1000) := by
      simp [askedStreamMs, publicSettings]
    rw [e]
    show timerMs (if c.sseFreq = 0 then .always else .every (c.sseFreq.toUInt32 * 1000)) = _
    have e1 : c.sseFreq = 0 ↔ c.sseFreq.toNat = 0 := by rw [← UInt16.toNat_inj]; rfl
    by_cases hz : c.sseFreq = 0
    · rw [if_pos hz, e1.1 hz]; rfl
    · rw [if_neg hz]
      show some (c.sseFreq.toUInt32 * 1000).toNat = _
      rw [UInt32.toNat_mul, UInt16.toNat_toUInt32]
      show some (c.sseFreq.toNat * 1000 % 4294967296) = _
      have hlt : c.sseFreq.toNat < 65536 := c.sseFreq.toNat_lt
      rw [Nat.mod_eq_of_lt (mul_lt hlt)]

/-- **C65 (partial).** For any settings whose periods fit in 32 bits of milliseconds, each timer has
exactly the period asked for.  Without this condition it is false (`c65_refuted`). -/
theorem c65_period_partial {c : Config} (ht : Terminated c)
    (h1 : c.httpreq.freq.toNat * 1000 < 4294967296) (h2 : c.jeedom.freq.toNat * 1000 < 4294967296)
    (h3 : c.emoncms.freq.toNat * 1000 < 4294967296) :
    AsAsked (ticMakeTimers c) (publicSettings c) := by
  obtain ⟨e1, e2, e3, e4⟩ := c65_exact ht
  have asked : ∀ {h p f : String} {n : Nat}, (publicSettings c).lookup f = some (.num n) → n * 1000 < 4294967296 →
      (askedMs (publicSettings c) h p f).map (· % 2 ^ 32) = askedMs (publicSettings c) h p f := by
    intro h p f n hf hn
    unfold askedMs
    rw [hf]
    split
    · rename_i e
      cases e
      split
      · rfl
      · rw [Option.map_some, Nat.mod_eq_of_lt hn]
    · rfl
  exact ⟨e1.trans (asked rfl h1), e2.trans (asked rfl h2), e3.trans (asked rfl h3), e4⟩

/-- **C65.** Once a form has been accepted, from any state, by a full or a restricted user, the timers
have the periods that the form asked for. -/
theorem c65_form {b : Build} {d d' : Device} (hs : NvReach d.nv) {r : Req} {e : Env} {l}
    (hu : r.uri = bs "/config_form.json") (h : d.handle b e r = .ok (d', l))
    (hl : .send 200 (bs "OK") ∈ l) : AsAsked d'.timers (postedPublic r.args) := by
  have hroute : route b.cpuload e.static r.method r.uri = .configForm := by
    rw [hu]
    unfold route
    cases b.cpuload <;> rfl
  unfold Device.handle at h
  rw [hroute] at h
  obtain ⟨⟨a, ef⟩, h1, h⟩ := bind_ok h
  dsimp only at h
  split at h
  · obtain ⟨rfl, rfl⟩ := Prod.mk.inj (Except.ok.inj h)
    rcases getAuth_form h1 with ⟨_, rfl⟩ | ⟨_, rfl⟩ <;> simp at hl
  obtain ⟨⟨nv, code⟩, h2, h⟩ := bind_ok h
  obtain ⟨rfl, rfl⟩ := Prod.mk.inj (Except.ok.inj h)
  have hsave : isPosted r.args "save" = true := by
    by_cases hp : isPosted r.args "save" = true
    · exact hp
    · rw [show d.nv.handleForm r.args (a = .restricted) e.commit = .ok (d.nv, 400) from by
        simp [Nv.handleForm, hasArg_eq, hp]] at h2
      obtain ⟨rfl, rfl⟩ := Prod.mk.inj (Except.ok.inj h2)
      rcases getAuth_form h1 with ⟨_, rfl⟩ | ⟨_, rfl⟩ <;> simp at hl
  have hpub : publicSettings nv.config = postedPublic r.args := by
    by_cases ha : a = .restricted
    · rw [show decide (a = .restricted) = true from decide_eq_true ha] at h2
      obtain ⟨s, k1, k2⟩ := (form_restricted hs r.args e.commit).1 hsave
      rw [k1] at h2
      obtain ⟨rfl, rfl⟩ := Prod.mk.inj (Except.ok.inj h2)
      exact k2
    · rw [show decide (a = .restricted) = false from decide_eq_false ha] at h2
      obtain ⟨s, k1, k2⟩ := c33_form d.nv r.args e.commit hsave
      rw [k1] at h2
      obtain ⟨rfl, rfl⟩ := Prod.mk.inj (Except.ok.inj h2)
      exact congrArg (List.drop 8) k2
  have hn : NvReach nv := .step hs (step_form h2)
  have freq : ∀ {f : String} {n}, (publicSettings nv.config).lookup f = some (.num n) →
      (postedPublic r.args).lookup f = some (.num (inRange (posted r.args f) 86400 0)) → n * 1000 < 4294967296 := by
    intro f n h1 h2
    rw [hpub, h2] at h1
    have : inRange (posted r.args f) 86400 0 ≤ 86400 := inRange_le _ (by decide)
    have e := Setting.num.inj (Option.some.inj h1)
    omega
  rw [← hpub]
  exact c65_period_partial (c32_terminated hn)
    (freq (f := "httpreq_freq") (by simp [publicSettings, List.lookup]) (by simp [postedPublic, List.lookup]))
    (freq (f := "jdom_freq") (by simp [publicSettings, List.lookup]) (by simp [postedPublic, List.lookup]))
    (freq (f := "emon_freq") (by simp [publicSettings, List.lookup]) (by simp [postedPublic, List.lookup]))

/-- **C65** as stated is false: an image written by the external tool with a period of 4294968 seconds
makes the device send every 704 ms. -/
theorem c65_refuted : ∃ s : Nv, NvReach s ∧ s.config.httpreq.freq.toNat = 4294968 ∧
    timerMs (ticMakeTimers s.config).http = some 704 := by
  let c : Config := { sampleConfig with
    httpreq := { sampleConfig.httpreq with host := padArr 33 (bs "h"), port := 80, freq := 4294968 } }
  have key : ∀ (host : Arr 33) (port : UInt16) (freq : UInt32), host = (padArr 33 (bs "h")).setNul 32 →
      port = 80 → freq = 4294968 → timerMs (if freq = 0 ∨ host[0] = 0 ∨ port = 0 then .never
        else .every (freq * 1000)) = some 704 := by
    rintro host port freq rfl rfl rfl
    decide +kernel
  refine ⟨{ config := c.stamp.securize,
            ee := { ram := eepromImage c.stamp, flash := eepromImage c.stamp } },
    .boot (configSetup_image c 1 .ok .ok), ?_, ?_⟩
  · show (4294968 : UInt32).toNat = _
    decide
  · exact key c.stamp.securize.httpreq.host c.stamp.securize.httpreq.port c.stamp.securize.httpreq.freq
      rfl rfl rfl

/-- A form that turns two services on and leaves the third off. -/
example : let a : Args := [(bs "save", bs "1"), (bs "emon_host", bs "h"), (bs "emon_port", bs "80"),
      (bs "emon_freq", bs "3600"),
      (bs "jdom_freq", bs "60"), (bs "httpreq_host", bs "h"), 
      (bs "httpreq_port", bs "8080"), (bs "httpreq_freq", bs "86400")]
    askedMs (postedPublic a) "emon_host" "emon_port" "emon_freq" = some 3600000 ∧
    askedMs (postedPublic a) "jdom_host" "jdom_port" "jdom_freq" = none ∧
    askedMs (postedPublic a) "httpreq_host" "httpreq_port" "httpreq_freq" = some 86400000 ∧
    askedStreamMs (postedPublic a) = some 0 := by decide +kernel

end Wifinfo
