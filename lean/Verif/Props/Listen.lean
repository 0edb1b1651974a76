import Verif.Props.NotifyRun

/-!
# C138: a service that is told of overloads and thresholds knows the state of the meter

The life of a device, seen from the service that gets the HTTP notifications: frames, of which the requests arrive or not, and restarts.
-/

namespace Wifinfo

/-- What happens to the device.  `http_request` (httpreq.cpp:11-34) prints what became of a request and tells nobody; the variables of
`tic.cpp` (tic.cpp:32-35) are those of the beginning after a restart. -/
inductive LifeEv
  /-- a frame is received; which kinds of requests arrive at the service -/
  | frame (x : Rcv) (arrives : Notif → Bool)
  /-- power-up, restart of the device -/
  | restart

/-- A life: the state of the device, and the kinds of the notifications that the service has got. -/
def lifeRun (w : World) (s : NotifState) (got : List Notif) : List LifeEv → Res (NotifState × List Notif)
  | [] => pure (s, got)
  | .frame x a :: l => do
    let (s, o) ← ticNotifs w x.c x.tm x.k x.t s
    lifeRun w s (got ++ (kinds o).filter a) l
  | .restart :: l => lifeRun w NotifState.init got l

namespace Spec

/-- A service believes what the last notification of two opposite kinds has said. -/
def believes (yes no : Notif) (got : List Notif) : Bool := decide ((got.filter fun n => n = yes || n = no).getLast? = some yes)

/-- What there is to say of a state that is on or off. -/
inductive Say
  /-- a frame says on, off, or nothing; whether the notification of on or off would arrive -/
  | says (v : Option Bool) (arrives : Bool → Bool)
  | restart

/-- What the device remembers and what the service believes. -/
def Say.step : Bool × Bool → Say → Bool × Bool
  | (_, b), .restart => (false, b)
  | p, .says none _ => p
  | (d, b), .says (some v) a => if v = d then (d, b) else (v, if a v then v else b)

/-- What the frames of a life say of the overload (label ADPS). -/
def overSay : LifeEv → Say
  | .restart => .restart
  | .frame x a => .says (some (x.value "ADPS").isSome) fun v => a (if v then .adps else .norm)

/-- What a power says of the thresholds: nothing when it is missing, zero, or between them. -/
def highOf (c : Config) : Option Int → Option Bool
  | none => none
  | some p => if p = 0 then none else if p ≥ c.httpreq.seuilHaut.toNat then some true
    else if p ≤ c.httpreq.seuilBas.toNat then some false else none

/-- What the frames of a life say of the thresholds. -/
def highSay : LifeEv → Say
  | .restart => .restart
  | .frame x a => .says (highOf x.c x.power) fun v => a (if v then .haut else .bas)

/-- The overload trigger is on. -/
def OverOn : LifeEv → Prop
  | .restart => True
  | .frame x _ => x.Ok ∧ x.hasHost = true ∧ x.c.httpreq.triggerAdps = true

/-- The threshold trigger is on, with a low threshold under the high one. -/
def HighOn : LifeEv → Prop
  | .restart => True
  | .frame x _ => x.Ok ∧ x.hasHost = true ∧ x.c.httpreq.triggerSeuils = true ∧ x.c.httpreq.seuilBas < x.c.httpreq.seuilHaut

/-- The state of the meter: what the last frame that says something has said. -/
def lastSaid (v : Bool) : List Say → Bool
  | [] => v
  | .says (some v) _ :: l => lastSaid v l
  | _ :: l => lastSaid v l

/-- All notifications arrive, and the device is not restarted while the state is on. -/
def Undisturbed (v : Bool) : List Say → Prop
  | [] => True
  | .restart :: l => v = false ∧ Undisturbed v l
  | .says none _ :: l => Undisturbed v l
  | .says (some u) a :: l => a u = true ∧ Undisturbed u l

end Spec
open Spec

/-! ## Lemmas -/

theorem believes_append (yes no : Notif) (got l : List Notif) : believes yes no (got ++ l) =
    (match (l.filter fun n => n = yes || n = no).getLast? with
      | none => believes yes no got
      | some n => decide (n = yes)) := by
  unfold believes
  rw [List.filter_append, List.getLast?_append]
  cases (l.filter fun n => n = yes || n = no).getLast? <;> simp

/-- What is believed after a notification. -/
def heard (yes : Notif) (a : Notif → Bool) (b : Bool) : Option Notif → Bool
  | none => b
  | some m => if a m then decide (m = yes) else b

/-- One frame. -/
theorem believes_frame {yes no : Notif} {k : List Notif} {n : Option Notif} (h : (k.filter fun n => n = yes || n = no) = n.toList)
    (a : Notif → Bool) (got : List Notif) : believes yes no (got ++ k.filter a) = heard yes a (believes yes no got) n := by
  rw [believes_append]
  have : ((k.filter a).filter fun n => n = yes || n = no) = n.toList.filter a := by
    rw [← h, List.filter_filter, List.filter_filter]
    congr 1
    funext m
    exact Bool.and_comm _ _
  rw [this]
  cases n with
  | none => rfl
  | some m =>
    cases ha : a m <;> simp [ha, heard]

theorem say_over {s : Bool} (v : Option Str) (a : Notif → Bool) (b : Bool) :
    ((adpsNext s v).1, heard .adps a b (adpsNext s v).2) =
      Say.step (s, b) (.says (some v.isSome) fun v => a (if v then .adps else .norm)) := by
  cases v <;> cases s <;> simp [adpsNext, Say.step, heard]

theorem say_high {s : Bool} (c : Config) (hc : c.httpreq.seuilBas < c.httpreq.seuilHaut) (v : Option Str) (a : Notif → Bool) (b : Bool) :
    ((hautNext c s v).1, heard .haut a b (hautNext c s v).2) =
      Say.step (s, b) (.says (highOf c (v.map leadingInt)) fun v => a (if v then .haut else .bas)) := by
  have hc : c.httpreq.seuilBas.toNat < c.httpreq.seuilHaut.toNat := UInt16.lt_iff_toNat_lt.1 hc
  cases v with
  | none => rfl
  | some p =>
    simp only [hautNext, strtol_zero, strtol_ge, strtol_le, Option.map_some, highOf]
    by_cases h0 : leadingInt p = 0
    · simp [h0, Say.step, heard]
    · by_cases h1 : leadingInt p ≥ c.httpreq.seuilHaut.toNat
      · have h2 : ¬ leadingInt p ≤ c.httpreq.seuilBas.toNat := by omega
        cases s <;> simp [h0, h1, h2, Say.step, heard]
      · by_cases h2 : leadingInt p ≤ c.httpreq.seuilBas.toNat <;> cases s <;> simp [h0, h1, h2, Say.step, heard]

/-! ## C138 -/

/-- **C138**, exactly what the service believes of the overload, after any life: it changes when a frame says the contrary of what the
device remembers and the notification arrives; the device remembers nothing after a restart. -/
theorem c138_overload_exact {w : World} : ∀ {evs : List LifeEv} {s s' : NotifState} {got got' : List Notif}, (∀ e ∈ evs, OverOn e) →
    lifeRun w s got evs = .ok (s', got') →
    (s'.adps, believes .adps .norm got') = (evs.map overSay).foldl Say.step (s.adps, believes .adps .norm got) := by
  intro evs
  induction evs with
  | nil =>
    intro s s' got got' _ h
    cases h
    rfl
  | cons e evs ih =>
    intro s s' got got' he h
    have he' : ∀ e ∈ evs, OverOn e := fun x hx => he x (by simp [hx])
    have h1 := he e (by simp)
    cases e with
    | restart => exact ih he' h
    | frame x a =>
      obtain ⟨⟨s1, o⟩, e1, h⟩ := bind_ok (show lifeRun w s got (.frame x a :: evs) = _ from h)
      obtain ⟨hx, hh, ht⟩ := h1
      obtain ⟨n1, _, _, f3, _⟩ := frame_step hx e1
      have f4 := step_overloads hx e1
      rw [hh, ht, Bool.and_self, if_pos rfl] at f3 f4
      rw [ih he' h, List.map_cons, List.foldl_cons, believes_frame f4, f3, say_over]
      rfl

/-- **C138**, exactly what the service believes of the power, in the same way. -/
theorem c138_threshold_exact {w : World} : ∀ {evs : List LifeEv} {s s' : NotifState} {got got' : List Notif}, (∀ e ∈ evs, HighOn e) →
    lifeRun w s got evs = .ok (s', got') →
    (s'.haut, believes .haut .bas got') = (evs.map highSay).foldl Say.step (s.haut, believes .haut .bas got) := by
  intro evs
  induction evs with
  | nil =>
    intro s s' got got' _ h
    cases h
    rfl
  | cons e evs ih =>
    intro s s' got got' he h
    have he' : ∀ e ∈ evs, HighOn e := fun x hx => he x (by simp [hx])
    have h1 := he e (by simp)
    cases e with
    | restart => exact ih he' h
    | frame x a =>
      obtain ⟨⟨s1, o⟩, e1, h⟩ := bind_ok (show lifeRun w s got (.frame x a :: evs) = _ from h)
      obtain ⟨hx, hh, ht, hc⟩ := h1
      obtain ⟨n1, _, f3, _, _⟩ := frame_step hx e1
      have f4 := step_thresholds hx e1
      rw [hh, ht, Bool.and_self, if_pos rfl] at f3 f4
      rw [ih he' h, List.map_cons, List.foldl_cons, believes_frame f4, f3, say_high x.c hc]
      rfl

/-- With what arrives, what is believed is the state. -/
theorem listen_kind : ∀ {l : List Say} {v : Bool}, Undisturbed v l → l.foldl Say.step (v, v) = (lastSaid v l, lastSaid v l) := by
  intro l
  induction l with
  | nil => intro v _; rfl
  | cons e l ih =>
    intro v h
    cases e with
    | restart =>
      obtain ⟨rfl, h⟩ := h
      exact ih h
    | says u a =>
      cases u with
      | none => exact ih h
      | some u =>
        obtain ⟨h1, h⟩ := h
        rw [List.foldl_cons]
        have : Say.step (v, v) (.says (some u) a) = (u, u) := by
          cases u <;> cases v <;> simp_all [Say.step]
        rw [this]
        exact ih h

/-- **C138 (partial)**, the overload: the service believes the state of the meter.  Missing with respect to the property as stated: no
notification of this kind is lost, and the device is not restarted during an overload. -/
theorem c138_overload_partial {w : World} {evs : List LifeEv} {s' : NotifState} {got' : List Notif} (he : ∀ e ∈ evs, OverOn e)
    (hk : Undisturbed false (evs.map overSay)) (h : lifeRun w NotifState.init [] evs = .ok (s', got')) :
    believes .adps .norm got' = lastSaid false (evs.map overSay) := by
  have := c138_overload_exact he h
  rw [show (NotifState.init.adps, believes .adps .norm []) = (false, false) from rfl, listen_kind hk] at this
  exact (Prod.mk.inj this).2

/-- **C138 (partial)**, the thresholds.  Missing with respect to the property as stated: no notification of this kind is lost, the device is
not restarted while the power is high, and a power of zero counts as nothing (C19). -/
theorem c138_threshold_partial {w : World} {evs : List LifeEv} {s' : NotifState} {got' : List Notif} (he : ∀ e ∈ evs, HighOn e)
    (hk : Undisturbed false (evs.map highSay)) (h : lifeRun w NotifState.init [] evs = .ok (s', got')) :
    believes .haut .bas got' = lastSaid false (evs.map highSay) := by
  have := c138_threshold_exact he h
  rw [show (NotifState.init.haut, believes .haut .bas []) = (false, false) from rfl, listen_kind hk] at this
  exact (Prod.mk.inj this).2

/-- A state that is said again and again changes nothing. -/
theorem listen_same {d b : Bool} : ∀ {l : List Say}, (∀ e ∈ l, ∃ a, e = .says none a ∨ e = .says (some d) a) →
    l.foldl Say.step (d, b) = (d, b) := by
  intro l
  induction l with
  | nil => intro _; rfl
  | cons e l ih =>
    intro h
    have h' := ih fun x hx => h x (by simp [hx])
    obtain ⟨a, rfl | rfl⟩ := h e (by simp)
    · exact h'
    · rw [List.foldl_cons]
      have : Say.step (d, b) (.says (some d) a) = (d, b) := by simp [Say.step]
      rw [this]
      exact h'

/-- **C138** as stated is false: if the notification of an overload does not arrive, the service is not told of it as long as it lasts, for
however long and whatever arrives then. -/
theorem c138_refuted_lost {w : World} {x : Rcv} {a : Notif → Bool} {evs : List LifeEv} {s s' : NotifState} {got got' : List Notif}
    (he : ∀ e ∈ .frame x a :: evs, OverOn e) (h0 : s.adps = false) (hb : believes .adps .norm got = false)
    (hx : (x.value "ADPS").isSome = true) (ha : a .adps = false)
    (hl : ∀ e ∈ evs, ∃ y b, e = .frame y b ∧ (y.value "ADPS").isSome = true)
    (h : lifeRun w s got (.frame x a :: evs) = .ok (s', got')) : believes .adps .norm got' = false := by
  have := c138_overload_exact he h
  rw [h0, hb, List.map_cons, List.foldl_cons] at this
  have e1 : Say.step (false, false) (overSay (.frame x a)) = (true, false) := by simp [overSay, Say.step, hx, ha]
  rw [e1, listen_same] at this
  · exact (Prod.mk.inj this).2
  · intro e hm
    obtain ⟨l, hl', rfl⟩ := List.mem_map.1 hm
    obtain ⟨y, b, rfl, hy⟩ := hl l hl'
    exact ⟨_, Or.inr (by rw [overSay, hy])⟩

/-- **C138** as stated is false: if the device restarts during an overload, the service is never told that it is over. -/
theorem c138_refuted_restart {w : World} {evs : List LifeEv} {s s' : NotifState} {got got' : List Notif} (he : ∀ e ∈ evs, OverOn e)
    (hb : believes .adps .norm got = true) (hl : ∀ e ∈ evs, ∃ y b, e = .frame y b ∧ (y.value "ADPS").isSome = false)
    (h : lifeRun w s got (.restart :: evs) = .ok (s', got')) : believes .adps .norm got' = true := by
  have := c138_overload_exact (evs := .restart :: evs)
    (List.forall_mem_cons.2 ⟨trivial, he⟩) h
  rw [hb, List.map_cons, List.foldl_cons] at this
  have e1 : Say.step (s.adps, true) (overSay .restart) = (false, true) := rfl
  rw [e1, listen_same] at this
  · exact (Prod.mk.inj this).2
  · intro e hm
    obtain ⟨l, hl', rfl⟩ := List.mem_map.1 hm
    obtain ⟨y, b, rfl, hy⟩ := hl l hl'
    exact ⟨_, Or.inr (by rw [overSay, hy])⟩

/-- **C138** as stated is false: the same for the power, which is believed high after a restart as long as it is low. -/
theorem c138_refuted_power {w : World} {evs : List LifeEv} {s s' : NotifState} {got got' : List Notif} (he : ∀ e ∈ evs, HighOn e)
    (hb : believes .haut .bas got = true) (hl : ∀ e ∈ evs, ∃ y b, e = .frame y b ∧ highOf y.c y.power ≠ some true)
    (h : lifeRun w s got (.restart :: evs) = .ok (s', got')) : believes .haut .bas got' = true := by
  have := c138_threshold_exact (evs := .restart :: evs)
    (List.forall_mem_cons.2 ⟨trivial, he⟩) h
  rw [hb, List.map_cons, List.foldl_cons] at this
  have e1 : Say.step (s.haut, true) (highSay .restart) = (false, true) := rfl
  rw [e1, listen_same] at this
  · exact (Prod.mk.inj this).2
  · intro e hm
    obtain ⟨l, hl', rfl⟩ := List.mem_map.1 hm
    obtain ⟨y, b, rfl, hy⟩ := hl l hl'
    refine ⟨fun v => b (if v then .haut else .bas), ?_⟩
    rw [highSay]
    cases ho : highOf y.c y.power with
    | none => exact Or.inl rfl
    | some u =>
      rw [ho] at hy
      cases u with
      | true => exact absurd rfl hy
      | false => exact Or.inr rfl

/-- **C138** as stated is false: a change of the tariff period during a restart is never told: the first frame after it sends nothing of this
kind, whatever its period. -/
theorem c138_refuted_period {w : World} {x : Rcv} (hx : x.Ok) {s' : NotifState} {o : List Out}
    (h : ticNotifs w x.c x.tm x.k x.t NotifState.init = .ok (s', o)) : Notif.ptec ∉ kinds o := by
  have hr : notifRun w NotifState.init ([] ++ [x]) = .ok (s', [] ++ [o]) := by
    show (ticNotifs w _ _ _ _ NotifState.init >>= fun p => notifRun w p.1 [] >>= fun q =>
      pure (q.1, p.2 :: q.2)) = _
    rw [h]
    rfl
  intro hm
  obtain ⟨_, _, v, u, _, hu, _⟩ := (c17_exact (pre := []) (by simpa using hx) hr).1 hm
  simp [ptecs] at hu

/-- No life makes the device stop. -/
theorem lifeRun_ok (w : World) : ∀ (evs : List LifeEv) (s : NotifState) (got : List Notif),
    (∀ x a, .frame x a ∈ evs → x.Ok ∧ x.Safe) → ∃ s' got', lifeRun w s got evs = .ok (s', got') := by
  intro evs
  induction evs with
  | nil => exact fun s got _ => ⟨s, got, rfl⟩
  | cons e evs ih =>
    intro s got h
    have h' : ∀ x a, .frame x a ∈ evs → x.Ok ∧ x.Safe := fun x a hx => h x a (by simp [hx])
    cases e with
    | restart => exact ih _ got h'
    | frame x a =>
      obtain ⟨hx, hs⟩ := h x a (by simp)
      obtain ⟨s1, o, h1⟩ := c22_total w hx hs s
      obtain ⟨s', got', h2⟩ := ih s1 (got ++ (kinds o).filter a) h'
      refine ⟨s', got', ?_⟩
      rw [lifeRun, h1]
      exact h2

/-- An overload that ends, and all the notifications arrive: the service believes an overload, then none.  If the second frame comes after a
restart, or the first notification is lost, what it believes is false. -/
example (w : World) : ∃ x y : Rcv, OverOn (.frame x fun _ => true) ∧ OverOn (.frame y fun _ => true) ∧
    (x.value "ADPS").isSome = true ∧ (y.value "ADPS").isSome = false ∧
    (∃ s got, lifeRun w NotifState.init [] [.frame x fun _ => true] = .ok (s, got) ∧ believes .adps .norm got = true) ∧
    (∃ s got, lifeRun w NotifState.init [] [.frame x fun _ => true, .frame y fun _ => true] = .ok (s, got) ∧
      believes .adps .norm got = false) ∧
    (∃ s got, lifeRun w NotifState.init [] [.frame x fun _ => true, .restart, .frame y fun _ => true] = .ok (s, got) ∧
      believes .adps .norm got = true) ∧
    (∃ s got, lifeRun w NotifState.init [] [.frame x fun _ => false, .frame x fun _ => true] = .ok (s, got) ∧
      believes .adps .norm got = false) := by
  obtain ⟨t, ht⟩ := rcvOf_ok (l := "ADPS") (v := "030") (by decide) (by decide) (by decide) (by decide)
  obtain ⟨u, hu⟩ := rcvOf_ok (l := "PTEC") (v := "HP..") (by decide) (by decide) (by decide) (by decide)
  have hd : (rcvOf u "PTEC" "HP..").hasHost = true ∧ (rcvOf u "PTEC" "HP..").c.httpreq.triggerAdps = true := by
    unfold Rcv.hasHost rcvOf; dsimp only; decide +kernel
  have hw : ((rcvOf u "PTEC" "HP..").value "ADPS").isSome = false := by
    unfold Rcv.value rcvOf; dsimp only; decide +kernel
  have hc : (rcvOf t "ADPS" "030").hasHost = true ∧ (rcvOf t "ADPS" "030").c.httpreq.triggerAdps = true := by
    unfold Rcv.hasHost rcvOf; dsimp only; decide +kernel
  have hv : ((rcvOf t "ADPS" "030").value "ADPS").isSome = true := by
    unfold Rcv.value rcvOf; dsimp only; decide +kernel
  generalize rcvOf t "ADPS" "030" = x at ht hc hv
  generalize rcvOf u "PTEC" "HP.." = y at hu hd hw
  have key : ∀ (evs : List LifeEv), (∀ e ∈ evs, match e with | .restart => True | .frame z _ => z = x ∨ z = y) →
      ∃ s got, lifeRun w NotifState.init [] evs = .ok (s, got) ∧
        believes .adps .norm got = ((evs.map overSay).foldl Say.step (false, false)).2 := by
    intro evs h
    obtain ⟨s, got, h1⟩ := lifeRun_ok w evs NotifState.init [] (fun z a hz => by
      rcases h _ hz with h | h
      · rw [h]; exact ht
      · rw [h]; exact hu)
    refine ⟨s, got, h1, ?_⟩
    have := c138_overload_exact (fun e he => by
      have h := h e he
      cases e with
      | restart => trivial
      | frame z a =>
        rcases h with rfl | rfl
        · exact ⟨ht.1, hc⟩
        · exact ⟨hu.1, hd⟩) h1
    exact (congrArg Prod.snd this)
  refine ⟨x, y, ⟨ht.1, hc⟩, ⟨hu.1, hd⟩, hv, hw, ?_, ?_, ?_, ?_⟩
  · obtain ⟨s, got, h1, h2⟩ := key [.frame x fun _ => true] (by simp)
    exact ⟨s, got, h1, by rw [h2]; simp [overSay, Say.step, hv, hw]⟩
  · obtain ⟨s, got, h1, h2⟩ := key [.frame x fun _ => true, .frame y fun _ => true] (by simp)
    exact ⟨s, got, h1, by rw [h2]; simp [overSay, Say.step, hv, hw]⟩
  · obtain ⟨s, got, h1, h2⟩ := key [.frame x fun _ => true, .restart, .frame y fun _ => true] (by simp)
    exact ⟨s, got, h1, by rw [h2]; simp [overSay, Say.step, hv, hw]⟩
  · obtain ⟨s, got, h1, h2⟩ := key [.frame x fun _ => false, .frame x fun _ => true] (by simp)
    exact ⟨s, got, h1, by rw [h2]; simp [overSay, Say.step, hv, hw]⟩

/-- A power above the high threshold, of which the service is told. -/
example (w : World) : ∃ x : Rcv, HighOn (.frame x fun _ => true) ∧ Undisturbed false [highSay (.frame x fun _ => true)] ∧
    ∃ s got, lifeRun w NotifState.init [] [.frame x fun _ => true] = .ok (s, got) ∧ believes .haut .bas got = true := by
  obtain ⟨t, ht⟩ := rcvOf_ok (l := "PAPP") (v := "05000") (by decide) (by decide) (by decide) (by decide)
  have hx : (rcvOf t "PAPP" "05000").power = some 5000 := by
    unfold Rcv.power Rcv.value rcvOf; dsimp only; decide +kernel
  have hc : (rcvOf t "PAPP" "05000").hasHost = true ∧ (rcvOf t "PAPP" "05000").c.httpreq.triggerSeuils = true ∧
      (rcvOf t "PAPP" "05000").c.httpreq.seuilBas < (rcvOf t "PAPP" "05000").c.httpreq.seuilHaut := by
    unfold Rcv.hasHost rcvOf; dsimp only; decide +kernel
  have ho : highOf (rcvOf t "PAPP" "05000").c (rcvOf t "PAPP" "05000").power = some true := by
    rw [hx]; unfold rcvOf; dsimp only; decide +kernel
  have hk : Undisturbed false [highSay (.frame (rcvOf t "PAPP" "05000") fun _ => true)] := by
    simp only [highSay, ho, Undisturbed, and_self]
  have he : ∀ e ∈ [LifeEv.frame (rcvOf t "PAPP" "05000") fun _ => true], HighOn e := fun e he => by
    rw [List.mem_singleton.1 he]
    exact ⟨ht.1, hc⟩
  obtain ⟨s, got, h1⟩ := lifeRun_ok w [.frame (rcvOf t "PAPP" "05000") fun _ => true] NotifState.init [] (fun z a hz => by
    cases List.mem_singleton.1 hz
    exact ht)
  refine ⟨_, ⟨ht.1, hc⟩, hk, s, got, h1, ?_⟩
  rw [c138_threshold_partial he hk h1]
  simp only [List.map_cons, List.map_nil, highSay, ho, lastSaid]

end Wifinfo
