import Verif.Props.Station

/-!
# C137: the device is on its network whenever the network is there
-/

namespace Wifinfo
namespace Spec

/-- The flash holds a valid record whose network is `n`. -/
def NetworkStored (f : Arr 1024) (n : Str) : Prop :=
  Accepted f ∧ ∀ id k1 k2 s, Nv.configSetup f id k1 k2 = .ok s → HasText s.config.ssid n

/-- The network is there during the ten seconds that follow a start: one of the 51 questions, one each 200 ms, is answered yes. -/
def seenIn (status : Nat → Bool) : Bool := (List.range 51).any fun i => status (i + 1)

/-- Is the network there after these events?  (`b`: is it there before them?) -/
def netThere (b : Bool) : List StationOp → Bool
  | [] => b
  | .start _ _ _ _ _ _ status :: l => netThere (seenIn status) l
  | .lost :: l => netThere false l
  | .back :: l => netThere true l
  | .post .. :: l => netThere b l

/-- Was it there when the device last started? -/
def seenAtStart (b : Bool) : List StationOp → Bool
  | [] => b
  | .start _ _ _ _ _ _ status :: l => seenAtStart (seenIn status) l
  | _ :: l => seenAtStart b l

/-- Nobody uses the form. -/
def Unattended : StationOp → Prop
  | .post .. => False
  | _ => True

/-- If it is a start, the network is there. -/
def SeenStart : StationOp → Prop
  | .start _ _ _ _ _ _ status => seenIn status = true
  | _ => True

end Spec
open Spec

/-! ## Lemmas -/

theorem wifiWait_any (status : Nat → Bool) : ∀ t i, (wifiWait status t i).1 = (List.range (t + 1)).any fun j => status (j + i) := by
  intro t
  induction t with
  | zero => intro i; simp [wifiWait]
  | succ t ih =>
    intro i
    rw [List.range_succ_eq_map, List.any_cons, List.any_map]
    unfold wifiWait
    split
    · rename_i h
      simp [h]
    · rename_i h
      have h : status i = false := by simpa using h
      simp only [ih, Nat.zero_add, h, Bool.false_or]
      congr 1
      funext j
      simp only [Function.comp]
      congr 1
      omega

/-- The connection succeeds exactly when the network is there. -/
theorem wifiConnect_seen {c : Config} {n : Str} (hn : HasText c.ssid n) (h0 : n ≠ []) {status ok polls e}
    (h : wifiConnect c status = .ok (ok, polls, e)) : ok = seenIn status := by
  unfold wifiConnect at h
  dsimp only at h
  rw [if_pos (c := c.ssid[0] ≠ 0) (fun hh => h0 (hn.first.1 hh))] at h
  have hw : (wifiWait status 50 1).1 = seenIn status := wifiWait_any status 50 1
  obtain ⟨⟨r, q, l⟩, h1, h⟩ := bind_ok h
  obtain ⟨ssid, _, h1⟩ := bind_ok h1
  obtain ⟨psk, _, h1⟩ := bind_ok h1
  cases h1
  rw [← hw]
  dsimp only at h
  split at h
  · cases h
    rfl
  · obtain ⟨_, _, h⟩ := bind_ok h
    obtain ⟨_, _, h⟩ := bind_ok h
    obtain ⟨_, _, h⟩ := bind_ok h
    obtain ⟨_, _, h⟩ := bind_ok h
    cases h
    rfl

/-- A start, with a network in the flash. -/
theorem start_stored {s : Station} {n : Str} (hs : NetworkStored s.nv.ee.flash n) (h0 : n ≠ []) (id k1 k2 a p k status) :
    ∃ st, s.step (.start id k1 k2 a p k status) = .ok st ∧ st.nv.ee.flash = s.nv.ee.flash ∧ HasText st.nv.config.ssid n ∧
      st.radio.joined = seenIn status ∧ st.radio.target = if seenIn status then some n else none := by
  obtain ⟨nv, h1, h2, _⟩ := c31_valid _ hs.1 id k1 k2
  have hn := hs.2 _ _ _ _ h1
  have hw : nv.wifiSetup a p k = .ok nv := by
    unfold Nv.wifiSetup
    rw [if_neg (fun h => h0 (hn.first.1 h))]
    rfl
  obtain ⟨q1, q2, q3, q4, _⟩ := (terminated_iff _).1 (c32_terminated (.boot h1))
  obtain ⟨ok, polls, waits, pre, c1, c2, _⟩ := c53_bounded hn (textOf_mem q2) (textOf_mem q3) (textOf_mem q4) status
  have hok := wifiConnect_seen hn h0 c1
  rw [if_neg h0] at c2
  subst c2 hok
  have e : s.step (.start id k1 k2 a p k status) = .ok
      ⟨nv, ⟨if seenIn status then some n else none, seenIn status, if seenIn status then 1 else 0⟩, if seenIn status then 0 + 1 else 0⟩ := by
    simp only [Station.step, h1, ok_bind, hw, c1, pure_ok, List.cons_append, begun, Option.getD_some]
  exact ⟨_, e, h2, hn, rfl, rfl⟩

/-- What the radio does between two starts. -/
theorem rejoin_run {ops : List StationOp} : ∀ {st st' : Station} {b : Bool}, (∀ o ∈ ops, Running o) → st.run ops = .ok st' →
    st.radio.joined = (b && st.radio.target.isSome) →
    st'.radio.target = st.radio.target ∧ st'.radio.joined = (netThere b ops && st.radio.target.isSome) := by
  induction ops with
  | nil =>
    intro st st' b _ h hj
    cases h
    exact ⟨rfl, hj⟩
  | cons o ops ih =>
    intro st st' b hro h hj
    obtain ⟨st1, h1, h⟩ := bind_ok h
    have hro' : ∀ o ∈ ops, Running o := fun x hx => hro x (by simp [hx])
    have ho := hro o (by simp)
    cases o with
    | start => exact ho.elim
    | lost =>
      cases h1
      exact ih (st := { st with radio := { st.radio with joined := false } }) (b := false) hro' h rfl
    | back =>
      simp only [Station.step, pure_ok] at h1
      cases h1
      cases ht : st.radio.target with
      | none =>
        rw [ht] at h hj
        have := ih (b := true) hro' h (by simp [ht, hj])
        simpa [ht, netThere] using this
      | some m =>
        cases hjj : st.radio.joined with
        | true =>
          rw [ht, hjj] at h
          have := ih (b := true) hro' h (by simp [ht, hjj])
          simpa [ht, netThere] using this
        | false =>
          rw [ht, hjj] at h
          have := ih (b := true) hro' h (by simp)
          simpa [ht, netThere] using this
    | post a r k =>
      obtain ⟨⟨nv, code⟩, h2, h1⟩ := bind_ok h1
      cases h1
      exact ih (st := { st with nv := nv }) hro' h hj

/-! ## C137 -/

/-- **C137**, exactly when the device is on its network, from a start to the next one: it is on the network that was stored if and only if the
network is there and was there in the ten seconds that followed the start, whatever happens to the network and whatever is posted. -/
theorem c137_session {s : Station} {n : Str} (hs : NetworkStored s.nv.ee.flash n) (h0 : n ≠ []) (id k1 k2 a p k status)
    {ops : List StationOp} (ho : ∀ o ∈ ops, Running o) {st : Station} (h : s.run (.start id k1 k2 a p k status :: ops) = .ok st) :
    st.radio.joined = (netThere (seenIn status) ops && seenIn status) ∧
    (st.radio.joined = true → st.radio.target = some n) := by
  obtain ⟨s1, h1, _, _, h2, h3⟩ := start_stored hs h0 id k1 k2 a p k status
  simp only [Station.run, h1, ok_bind] at h
  have ht : s1.radio.target.isSome = seenIn status := by rw [h3]; cases seenIn status <;> rfl
  obtain ⟨g1, g2⟩ := rejoin_run (b := seenIn status) ho h (by rw [ht, h2, Bool.and_self])
  rw [ht] at g2
  refine ⟨g2, fun hj => ?_⟩
  rw [g1, h3]
  rw [hj] at g2
  cases hb : seenIn status with
  | true => rfl
  | false => rw [hb] at g2; simp at g2

/-- The state of a device that nobody uses, after any events. -/
theorem rejoin_all {n : Str} (h0 : n ≠ []) : ∀ (ops : List StationOp) {s : Station} {b u : Bool}, NetworkStored s.nv.ee.flash n →
    (∀ o ∈ ops, Unattended o) → s.radio.joined = (b && u) → s.radio.target = (if u then some n else none) →
    ∃ st, s.run ops = .ok st ∧ NetworkStored st.nv.ee.flash n ∧ st.radio.joined = (netThere b ops && seenAtStart u ops) ∧
      st.radio.target = (if seenAtStart u ops then some n else none) := by
  intro ops
  induction ops with
  | nil => exact fun hs _ hj ht => ⟨_, rfl, hs, hj, ht⟩
  | cons o ops ih =>
    intro s b u hs hu hj ht
    have hu' : ∀ o ∈ ops, Unattended o := fun x hx => hu x (by simp [hx])
    have ho := hu o (by simp)
    cases o with
    | post => exact ho.elim
    | start id k1 k2 a p k status =>
      obtain ⟨s1, h1, h2, _, h3, h4⟩ := start_stored hs h0 id k1 k2 a p k status
      simp only [Station.run, h1, ok_bind]
      exact ih (b := seenIn status) (u := seenIn status) (by rw [h2]; exact hs) hu' (by rw [h3, Bool.and_self]) h4
    | lost => exact ih (s := { s with radio := { s.radio with joined := false } }) (b := false) (u := u) hs hu' rfl ht
    | back =>
      simp only [Station.run, Station.step, pure_ok, ok_bind]
      have hi : s.radio.target.isSome = u := by rw [ht]; cases u <;> rfl
      split
      · rename_i hc
        rw [hi] at hc
        have : u = true := by cases u <;> simp_all
        subst this
        exact ih (b := true) (u := true) hs hu' rfl ht
      · rename_i hc
        rw [hi] at hc
        refine ih (b := true) (u := u) hs hu' ?_ ht
        cases u <;> simp_all

/-- **C137**, exactly when a device that nobody uses is on its network, after any sequence of starts, losses and returns of the network: if
and only if the network is there and was there in the ten seconds that followed the last start.  It never stops for another reason. -/
theorem c137_exact {s : Station} {n : Str} (hs : NetworkStored s.nv.ee.flash n) (h0 : n ≠ []) (id k1 k2 a p k status)
    {ops : List StationOp} (ho : ∀ o ∈ ops, Unattended o) :
    ∃ st, s.run (.start id k1 k2 a p k status :: ops) = .ok st ∧
      st.radio.joined = (netThere (seenIn status) ops && seenAtStart (seenIn status) ops) ∧
      (st.radio.joined = true → st.radio.target = some n) := by
  obtain ⟨s1, h1, h2, _, h3, h4⟩ := start_stored hs h0 id k1 k2 a p k status
  obtain ⟨st, g1, _, g2, g3⟩ := rejoin_all h0 ops (b := seenIn status) (u := seenIn status) (by rw [h2]; exact hs) ho
    (by rw [h3, Bool.and_self]) h4
  refine ⟨st, ?_, g2, fun hj => ?_⟩
  · rw [Station.run, h1]
    exact g1
  · rw [g3]
    rw [hj] at g2
    cases hb : seenAtStart (seenIn status) ops with
    | true => rfl
    | false => rw [hb] at g2; simp at g2

theorem seenAtStart_all : ∀ {ops : List StationOp}, (∀ o ∈ ops, SeenStart o) → seenAtStart true ops = true := by
  intro ops
  induction ops with
  | nil => intro _; rfl
  | cons o ops ih =>
    intro h
    have h' := ih fun x hx => h x (by simp [hx])
    have ho := h o (by simp)
    cases o with
    | start id k1 k2 a p k status =>
      have ho : seenIn status = true := ho
      simp only [seenAtStart, ho]
      exact h'
    | _ => exact h'

/-- **C137 (partial)**: the device is on its network exactly when the network is there.  Missing with respect to the property as stated: the
network was there in the ten seconds that followed each start. -/
theorem c137_there_partial {s : Station} {n : Str} (hs : NetworkStored s.nv.ee.flash n) (h0 : n ≠ []) {id k1 k2 a p k status}
    (h1 : seenIn status = true) {ops : List StationOp} (ho : ∀ o ∈ ops, Unattended o) (hv : ∀ o ∈ ops, SeenStart o) :
    ∃ st, s.run (.start id k1 k2 a p k status :: ops) = .ok st ∧ st.radio.joined = netThere true ops ∧
      (st.radio.joined = true → st.radio.target = some n) := by
  obtain ⟨st, g1, g2, g3⟩ := c137_exact hs h0 id k1 k2 a p k status ho
  rw [h1, seenAtStart_all hv, Bool.and_true] at g2
  exact ⟨st, g1, g2, g3⟩

/-- **C137** as stated is false: a device that starts without its network never joins it until it is started again, for how long the network
may be there afterwards, and whatever is posted. -/
theorem c137_refuted {s : Station} {n : Str} (hs : NetworkStored s.nv.ee.flash n) (h0 : n ≠ []) {id k1 k2 a p k status}
    (h1 : seenIn status = false) {ops : List StationOp} (ho : ∀ o ∈ ops, Running o) {st : Station}
    (h : s.run (.start id k1 k2 a p k status :: ops) = .ok st) :
    st.radio.joined = false ∧ ∃ st', st.run [.back] = .ok st' ∧ st'.radio.joined = false := by
  have e := (c137_session hs h0 id k1 k2 a p k status ho h).1
  rw [h1, Bool.and_false] at e
  refine ⟨e, ?_⟩
  have h2 : ∃ st', st.run [.back] = .ok st' := ⟨_, rfl⟩
  obtain ⟨st', h2⟩ := h2
  refine ⟨st', h2, ?_⟩
  obtain ⟨s1, h3, _, _, h4, h5⟩ := start_stored hs h0 id k1 k2 a p k status
  simp only [Station.run, h3, ok_bind] at h
  rw [h1] at h4 h5
  obtain ⟨g1, _⟩ := rejoin_run (b := false) ho h (by rw [h4, Bool.false_and])
  have g1 : st.radio.target = none := by rw [g1, h5]; rfl
  simp only [Station.run, Station.step, g1, pure_ok, ok_bind] at h2
  cases h2
  exact e

/-- **C137**, the settings stay and a restart while the network is there puts the device on it, whatever has happened before. -/
theorem c137_restart {s : Station} {n : Str} (hs : NetworkStored s.nv.ee.flash n) (h0 : n ≠ []) {before : List StationOp}
    (hb : ∀ o ∈ before, Unattended o) {id k1 k2 a p k status} (h1 : seenIn status = true) (hj : s.radio.joined = false)
    (ht : s.radio.target = none) :
    ∃ st, s.run (before ++ [.start id k1 k2 a p k status]) = .ok st ∧ st.radio.joined = true ∧ st.radio.target = some n := by
  have hb' : ∀ o ∈ before ++ [.start id k1 k2 a p k status], Unattended o := by
    intro o ho
    rcases List.mem_append.1 ho with ho | ho
    · exact hb o ho
    · rw [List.mem_singleton.1 ho]
      trivial
  obtain ⟨st, g1, _, g2, g3⟩ := rejoin_all h0 (before ++ [.start id k1 k2 a p k status]) (b := false) (u := false) hs hb'
    (by rw [hj]; rfl) ht
  have e : ∀ (l : List StationOp) (b u : Bool), netThere b (l ++ [.start id k1 k2 a p k status]) = true ∧
      seenAtStart u (l ++ [.start id k1 k2 a p k status]) = true := by
    intro l
    induction l with
    | nil => exact fun _ _ => ⟨h1, h1⟩
    | cons o l ih => intro b u; cases o <;> exact ⟨(ih _ u).1, (ih b _).2⟩
  rw [(e before false false).1, (e before false false).2] at g2
  rw [(e before false false).2] at g3
  exact ⟨st, g1, g2, g3⟩

/-! ## Usual cases -/

theorem save_accepted (s : Nv) : Accepted (s.configSave .ok).1.ee.flash := by
  have h : (s.configSave .ok).1.ee.flash = eepromImage s.config.stamp := by rw [Nv.configSave_eq]; rfl
  rw [h]
  exact accepted_image _

theorem network_posted {a : Args} {n : Str} {c : Config} (hn : cutText (posted a "ssid") 32 = .text (some n))
    (h : settings c = postedPrivate a ++ postedPublic a) : HasText c.ssid n := by
  have := congrArg (fun l => (l.map Prod.snd)[0]?) h
  simp only [settings, privateSettings, postedPrivate, hn] at this
  exact Setting.text.inj (Option.some.inj this)

theorem form_accepted (s : Nv) (a : Args) (h : isPosted a "save" = true) :
    ∃ s', s.handleForm a false .ok = .ok (s', 200) ∧ Accepted s'.ee.flash := by
  obtain ⟨c, h1, -⟩ := handleForm_ok s a false .ok h
  exact ⟨_, h1, save_accepted _⟩

theorem ok_fst {α β : Type} {r : Res (α × β)} {x x' : α} {y y' : β} (h : r = .ok (x, y)) (h' : r = .ok (x', y')) : x = x' := by
  subst h
  cases h'
  rfl

/-- A network that was saved is stored. -/
theorem networkStored_saved (s : Nv) (a : Args) (h : isPosted a "save" = true) {n : Str}
    (hn : cutText (posted a "ssid") 32 = .text (some n)) :
    ∃ s', s.handleForm a false .ok = .ok (s', 200) ∧ NetworkStored s'.ee.flash n := by
  obtain ⟨w, h1, hacc⟩ := form_accepted s a h
  obtain ⟨s', h2, h3⟩ := c56_settings s a h
  have e := ok_fst h1 h2
  subst e
  refine ⟨w, h1, hacc, fun id k1 k2 nv hv => ?_⟩
  obtain ⟨s'', h4, h5⟩ := h3 id k1 k2
  have : s'' = nv := Except.ok.inj (h4.symm.trans hv)
  subst this
  exact network_posted hn h5

/-- The hypotheses hold of a device that was told to join the network `home`: the current comes back, the router needs a minute, and the
device is not on the network although it is there; the restart repairs it. -/
example : ∃ s : Station, NetworkStored s.nv.ee.flash (bs "home") ∧ seenIn (fun _ => false) = false ∧ seenIn (fun i => decide (i = 40)) = true ∧
    (∃ st, s.run [.start 7 .ok .ok [] [] .ok fun _ => false, .back] = .ok st ∧ st.radio.joined = false) ∧
    (∃ st, s.run [.start 7 .ok .ok [] [] .ok fun _ => false, .back, .start 7 .ok .ok [] [] .ok fun i => decide (i = 40), .lost, .back] = .ok st ∧
      st.radio.joined = true ∧ st.radio.target = some (bs "home")) := by
  obtain ⟨s0, _, _⟩ := factory_no_ssid 7
  obtain ⟨s1, _, h2⟩ := networkStored_saved s0 (homeForm (bs "home")) (by decide) (n := bs "home") (by decide)
  have hb : bs "home" ≠ [] := by decide
  have e1 : seenIn (fun _ => false) = false := by decide +kernel
  have e2 : seenIn (fun i => decide (i = 40)) = true := by decide +kernel
  have hs : NetworkStored (Station.mk s1 ⟨none, false, 0⟩ 0).nv.ee.flash (bs "home") := h2
  refine ⟨⟨s1, ⟨none, false, 0⟩, 0⟩, h2, e1, e2, ?_, ?_⟩
  · obtain ⟨st, g1, g2, _⟩ := c137_exact hs hb 7 .ok .ok [] [] .ok (fun _ => false) (ops := [.back])
      (fun o ho => by rw [List.mem_singleton.1 ho]; trivial)
    exact ⟨st, g1, by rw [g2]; simp only [netThere, seenAtStart, e1, Bool.and_false]⟩
  · obtain ⟨st, g1, g2, g3⟩ := c137_exact hs hb 7 .ok .ok [] [] .ok (fun _ => false)
      (ops := [.back, .start 7 .ok .ok [] [] .ok fun i => decide (i = 40), .lost, .back])
      (fun o ho => by
        simp only [List.mem_cons, List.not_mem_nil, or_false] at ho
        rcases ho with rfl | rfl | rfl | rfl <;> trivial)
    have : st.radio.joined = true := by rw [g2]; simp only [netThere, seenAtStart, e2, Bool.and_true]
    exact ⟨st, g1, this, g3 this⟩

end Wifinfo
