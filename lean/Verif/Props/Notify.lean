import Verif.Props.Template

/-!
# C17–C22: when notifications are sent

A `Rcv` is one reception of a frame: the configuration and timers at that time, what the outside says
and the `tinfo` object after the copy.  `notifRun` is any sequence of receptions; the configuration may
change from one to the next.
-/

namespace Wifinfo
open Spec

/-- One reception of a frame. -/
structure Rcv where
  c : Config
  tm : Timers
  k : Tick
  t : Teleinfo
  /-- groups of the frame received -/
  gs : List RawGroup

/-- The object holds that frame, after any history. -/
def Rcv.Ok (x : Rcv) : Prop := ∃ ts l, TinfoReach x.t ((ts, x.gs) :: l)

/-- Value of a label in the frame received. -/
def Rcv.value (x : Rcv) (label : String) : Option Str := lookup (bs label) (pairs (storedAll x.gs))

/-- Is there an HTTP destination? -/
def Rcv.hasHost (x : Rcv) : Bool := x.c.httpreq.host[0] != 0

/-- Sequence of receptions: final state, and what is sent at each. -/
def notifRun (w : World) (s : NotifState) : List Rcv → Res (NotifState × List (List Out))
  | [] => pure (s, [])
  | x :: r => do
    let (s, o) ← ticNotifs w x.c x.tm x.k x.t s
    let (s, os) ← notifRun w s r
    pure (s, o :: os)

/-- Kinds of the HTTP notifications among outputs. -/
def kinds (o : List Out) : List Notif := o.filterMap fun
  | .http n _ => some n
  | _ => none

/-! ## One frame -/

/-- What the three tests decide: pure version. -/
def periodeNext (s : Arr 8 × Bool) (v : Option Str) : Res ((Arr 8 × Bool) × Option Notif) :=
  match v with
  | none => pure (s, none)
  | some p =>
    if periodeDiffers s.1 p then do
      let a ← strncpyS s.1 p 7
      if s.2 then pure ((a, false), none) else pure ((a, s.2), some .ptec)
    else pure (s, none)

/-- Value read by `http_notif_seuils`. -/
def hautNext (c : Config) (s : Bool) (v : Option Str) : Bool × Option Notif :=
  match v with
  | none => (s, none)
  | some p =>
    if strtol p = 0 then (s, none)
    else if strtol p ≥ c.httpreq.seuilHaut.toNat ∧ s = false then (true, some .haut)
    else if strtol p ≤ c.httpreq.seuilBas.toNat ∧ s = true then (false, some .bas)
    else (s, none)

/-- Presence read by `http_notif_adps`. -/
def adpsNext (s : Bool) (v : Option Str) : Bool × Option Notif :=
  match v with
  | none => if s then (false, some .norm) else (s, none)
  | some _ => if !s then (true, some .adps) else (s, none)

theorem httpNotif_kinds {w c t n o} (h : httpNotif w c t n = .ok o) : kinds [o] = [n] ∧
    ∃ r, o = .http n r := by
  unfold httpNotif at h
  cases h1 : expandUrl w c t n.text with
  | error e => rw [h1] at h; cases h
  | ok uri =>
    rw [h1, ok_bind] at h
    cases h2 : c.httpreq.host.cstr with
    | error e => rw [h2] at h; cases h
    | ok host =>
      rw [h2, ok_bind] at h
      split at h
      · cases h3 : ticJsonDict w t (some n.text) with
        | error e => rw [h3] at h; cases h
        | ok d =>
          rw [h3, ok_bind] at h
          rw [← Except.ok.inj h]
          exact ⟨rfl, _, rfl⟩
      · rw [← Except.ok.inj h]
        exact ⟨rfl, _, rfl⟩

theorem sendIf_kinds {w c t n o} (h : sendIf w c t n = .ok o) : kinds o = n.toList ∧
    ∀ x ∈ o, ∃ n r, x = .http n r := by
  cases n with
  | none => rw [← Except.ok.inj h]; exact ⟨rfl, by simp⟩
  | some n =>
    simp only [sendIf] at h
    cases h1 : httpNotif w c t n with
    | error e => rw [h1] at h; cases h
    | ok x =>
      rw [h1, ok_bind] at h
      rw [← Except.ok.inj h]
      obtain ⟨a, r, b⟩ := httpNotif_kinds h1
      exact ⟨a, by intro y hy; simp at hy; exact ⟨n, r, by rw [hy, b]⟩⟩

theorem kinds_append (a b : List Out) : kinds (a ++ b) = kinds a ++ kinds b := by
  simp [kinds]

theorem value_get {x : Rcv} (h : x.Ok) (label : String) :
    x.t.fr.getValue (bs label) = .ok (x.value label) := by
  obtain ⟨ts, l, h⟩ := h
  rw [c09_lookup (.copied h)]
  simp [Rcv.value]

/-- One reception: the state components evolve independently, the HTTP notifications sent are the
four decisions in order, all other outputs are other kinds. -/
theorem frame_step {w : World} {x : Rcv} (hx : x.Ok) {s s' : NotifState} {o : List Out}
    (h : ticNotifs w x.c x.tm x.k x.t s = .ok (s', o)) :
    ∃ n1 : Option Notif,
      (if x.hasHost && x.c.httpreq.triggerPtec then
        periodeNext (s.periode, s.initPeriode) (x.value "PTEC")
      else pure ((s.periode, s.initPeriode), none)) = .ok ((s'.periode, s'.initPeriode), n1) ∧
      s'.haut = (if x.hasHost && x.c.httpreq.triggerSeuils then (hautNext x.c s.haut (x.value "PAPP")).1
        else s.haut) ∧
      s'.adps = (if x.hasHost && x.c.httpreq.triggerAdps then (adpsNext s.adps (x.value "ADPS")).1
        else s.adps) ∧
      kinds o = n1.toList ++
        (if x.hasHost && x.c.httpreq.triggerSeuils then (hautNext x.c s.haut (x.value "PAPP")).2.toList
          else []) ++
        (if x.hasHost && x.c.httpreq.triggerAdps then (adpsNext s.adps (x.value "ADPS")).2.toList
          else []) ++
        (if x.hasHost && x.tm.http.poll x.k.http then [.maj] else []) := by
  unfold ticNotifs at h
  obtain ⟨⟨s1, o1⟩, h1, h⟩ := bind_ok h
  obtain ⟨o2, h2, h⟩ := bind_ok h
  obtain ⟨o3, h3, h⟩ := bind_ok h
  obtain ⟨o4, h4, h⟩ := bind_ok h
  have h := Prod.mk.inj (Except.ok.inj h)
  obtain ⟨rfl, rfl⟩ := h
  have k2 : kinds o2 = [] := by
    split at h2
    · unfold jeedomNotif at h2
      split at h2
      · rw [← Except.ok.inj h2]; rfl
      · obtain ⟨_, _, h2⟩ := bind_ok h2
        obtain ⟨_, _, h2⟩ := bind_ok h2
        obtain ⟨_, _, h2⟩ := bind_ok h2
        obtain ⟨_, _, h2⟩ := bind_ok h2
        rw [← Except.ok.inj h2]; rfl
    · rw [← Except.ok.inj h2]; rfl
  have k3 : kinds o3 = [] := by
    split at h3
    · unfold emoncmsNotif at h3
      split at h3
      · rw [← Except.ok.inj h3]; rfl
      · obtain ⟨_, _, h3⟩ := bind_ok h3
        obtain ⟨_, _, h3⟩ := bind_ok h3
        obtain ⟨_, _, h3⟩ := bind_ok h3
        obtain ⟨_, _, h3⟩ := bind_ok h3
        rw [← Except.ok.inj h3]; rfl
    · rw [← Except.ok.inj h3]; rfl
  have k4 : kinds o4 = [] := by
    split at h4
    · obtain ⟨_, _, h4⟩ := bind_ok h4
      rw [← Except.ok.inj h4]; rfl
    · rw [← Except.ok.inj h4]; rfl
  simp only [kinds_append, k2, k3, k4, List.append_nil]
  unfold httpNotifs at h1
  by_cases hh : x.c.httpreq.host[0] ≠ 0
  · rw [if_pos hh] at h1
    have hh' : x.hasHost = true := by simpa [Rcv.hasHost] using hh
    simp only [hh', Bool.true_and]
    obtain ⟨⟨sa, n1⟩, e1, h1⟩ := bind_ok h1
    obtain ⟨p1, f1, h1⟩ := bind_ok h1
    obtain ⟨⟨sb, n2⟩, e2, h1⟩ := bind_ok h1
    obtain ⟨p2, f2, h1⟩ := bind_ok h1
    obtain ⟨⟨sc, n3⟩, e3, h1⟩ := bind_ok h1
    obtain ⟨p3, f3, h1⟩ := bind_ok h1
    obtain ⟨p4, f4, h1⟩ := bind_ok h1
    obtain ⟨rfl, rfl⟩ := Prod.mk.inj (Except.ok.inj h1)
    -- the period
    have A : (if x.c.httpreq.triggerPtec then periodeNext (s.periode, s.initPeriode) (x.value "PTEC")
        else pure ((s.periode, s.initPeriode), none)) = .ok ((sa.periode, sa.initPeriode), n1) ∧
        sa.haut = s.haut ∧ sa.adps = s.adps := by
      by_cases ht : x.c.httpreq.triggerPtec = true
      · rw [if_pos ht] at e1 ⊢
        unfold periodeStep at e1
        rw [value_get hx] at e1
        simp only [ok_bind] at e1
        unfold periodeNext
        cases hv : x.value "PTEC" with
        | none =>
          rw [hv] at e1
          obtain ⟨rfl, rfl⟩ := Prod.mk.inj (Except.ok.inj e1)
          exact ⟨rfl, rfl, rfl⟩
        | some p =>
          rw [hv] at e1
          simp only at e1 ⊢
          by_cases hd : periodeDiffers s.periode p = true
          · rw [if_pos hd] at e1 ⊢
            obtain ⟨a, ea, e1⟩ := bind_ok e1
            rw [ea, ok_bind]
            by_cases hi : s.initPeriode = true
            · rw [if_pos hi] at e1 ⊢
              obtain ⟨rfl, rfl⟩ := Prod.mk.inj (Except.ok.inj e1)
              exact ⟨rfl, rfl, rfl⟩
            · rw [if_neg hi] at e1 ⊢
              obtain ⟨rfl, rfl⟩ := Prod.mk.inj (Except.ok.inj e1)
              exact ⟨rfl, rfl, rfl⟩
          · rw [if_neg hd] at e1 ⊢
            obtain ⟨rfl, rfl⟩ := Prod.mk.inj (Except.ok.inj e1)
            exact ⟨rfl, rfl, rfl⟩
      · rw [if_neg ht] at e1 ⊢
        obtain ⟨rfl, rfl⟩ := Prod.mk.inj (Except.ok.inj e1)
        exact ⟨rfl, rfl, rfl⟩
    have B : sb.haut = (if x.c.httpreq.triggerSeuils then (hautNext x.c sa.haut (x.value "PAPP")).1
        else sa.haut) ∧ n2.toList = (if x.c.httpreq.triggerSeuils then
          (hautNext x.c sa.haut (x.value "PAPP")).2.toList else []) ∧
        sb.periode = sa.periode ∧ sb.initPeriode = sa.initPeriode ∧ sb.adps = sa.adps := by
      by_cases ht : x.c.httpreq.triggerSeuils = true
      · rw [if_pos ht] at e2
        rw [if_pos ht, if_pos ht]
        unfold seuilsStep at e2
        rw [value_get hx] at e2
        simp only [ok_bind] at e2
        unfold hautNext
        cases hv : x.value "PAPP" with
        | none =>
          rw [hv] at e2
          obtain ⟨rfl, rfl⟩ := Prod.mk.inj (Except.ok.inj e2)
          exact ⟨rfl, rfl, rfl, rfl, rfl⟩
        | some p =>
          rw [hv] at e2
          simp only at e2 ⊢
          by_cases h0 : strtol p = 0
          · rw [if_pos h0] at e2 ⊢
            obtain ⟨rfl, rfl⟩ := Prod.mk.inj (Except.ok.inj e2)
            exact ⟨rfl, rfl, rfl, rfl, rfl⟩
          · rw [if_neg h0] at e2 ⊢
            by_cases c1 : strtol p ≥ x.c.httpreq.seuilHaut.toNat ∧ sa.haut = false
            · rw [if_pos c1] at e2 ⊢
              obtain ⟨rfl, rfl⟩ := Prod.mk.inj (Except.ok.inj e2)
              exact ⟨rfl, rfl, rfl, rfl, rfl⟩
            · rw [if_neg c1] at e2 ⊢
              by_cases c2 : strtol p ≤ x.c.httpreq.seuilBas.toNat ∧ sa.haut = true
              · rw [if_pos c2] at e2 ⊢
                obtain ⟨rfl, rfl⟩ := Prod.mk.inj (Except.ok.inj e2)
                exact ⟨rfl, rfl, rfl, rfl, rfl⟩
              · rw [if_neg c2] at e2 ⊢
                obtain ⟨rfl, rfl⟩ := Prod.mk.inj (Except.ok.inj e2)
                exact ⟨rfl, rfl, rfl, rfl, rfl⟩
      · rw [if_neg ht] at e2
        rw [if_neg ht, if_neg ht]
        obtain ⟨rfl, rfl⟩ := Prod.mk.inj (Except.ok.inj e2)
        exact ⟨rfl, rfl, rfl, rfl, rfl⟩
    have C : sc.adps = (if x.c.httpreq.triggerAdps then (adpsNext sb.adps (x.value "ADPS")).1
        else sb.adps) ∧ n3.toList = (if x.c.httpreq.triggerAdps then
          (adpsNext sb.adps (x.value "ADPS")).2.toList else []) ∧
        sc.periode = sb.periode ∧ sc.initPeriode = sb.initPeriode ∧ sc.haut = sb.haut := by
      by_cases ht : x.c.httpreq.triggerAdps = true
      · rw [if_pos ht] at e3
        rw [if_pos ht, if_pos ht]
        unfold adpsStep at e3
        rw [value_get hx] at e3
        simp only [ok_bind] at e3
        unfold adpsNext
        cases hv : x.value "ADPS" with
        | none =>
          rw [hv] at e3
          simp only at e3 ⊢
          by_cases h0 : sb.adps = true
          · rw [if_pos h0] at e3 ⊢
            obtain ⟨rfl, rfl⟩ := Prod.mk.inj (Except.ok.inj e3)
            exact ⟨rfl, rfl, rfl, rfl, rfl⟩
          · rw [if_neg h0] at e3 ⊢
            obtain ⟨rfl, rfl⟩ := Prod.mk.inj (Except.ok.inj e3)
            exact ⟨rfl, rfl, rfl, rfl, rfl⟩
        | some p =>
          rw [hv] at e3
          simp only at e3 ⊢
          by_cases h0 : (!sb.adps) = true
          · rw [if_pos h0] at e3 ⊢
            obtain ⟨rfl, rfl⟩ := Prod.mk.inj (Except.ok.inj e3)
            exact ⟨rfl, rfl, rfl, rfl, rfl⟩
          · rw [if_neg h0] at e3 ⊢
            obtain ⟨rfl, rfl⟩ := Prod.mk.inj (Except.ok.inj e3)
            exact ⟨rfl, rfl, rfl, rfl, rfl⟩
      · rw [if_neg ht] at e3
        rw [if_neg ht, if_neg ht]
        obtain ⟨rfl, rfl⟩ := Prod.mk.inj (Except.ok.inj e3)
        exact ⟨rfl, rfl, rfl, rfl, rfl⟩
    obtain ⟨A1, A2, A3⟩ := A
    obtain ⟨B1, B2, B3, B4, B5⟩ := B
    obtain ⟨C1, C2, C3, C4, C5⟩ := C
    refine ⟨n1, ?_, ?_, ?_, ?_⟩
    · rw [A1, C3, C4, B3, B4]
    · rw [C5, B1, A2]
    · rw [C1, B5, A3]
    · simp only [kinds_append]
      rw [(sendIf_kinds f1).1, (sendIf_kinds f2).1, (sendIf_kinds f3).1, (sendIf_kinds f4).1, B2, C2,
        A2, B5, A3]
      cases x.tm.http.poll x.k.http <;> rfl
  · rw [if_neg hh] at h1
    have hh' : x.hasHost = false := by simpa [Rcv.hasHost] using hh
    simp only [hh', Bool.false_and, Bool.false_eq_true, if_false]
    obtain ⟨rfl, rfl⟩ := Prod.mk.inj (Except.ok.inj h1)
    exact ⟨none, rfl, rfl, rfl, rfl⟩

/-! ## Sequences -/

theorem notifRun_snoc {w : World} : ∀ {pre : List Rcv} {x : Rcv} {s s' : NotifState} {os},
    notifRun w s (pre ++ [x]) = .ok (s', os) →
    ∃ s1 os1 o, notifRun w s pre = .ok (s1, os1) ∧ ticNotifs w x.c x.tm x.k x.t s1 = .ok (s', o) ∧
      os = os1 ++ [o] := by
  intro pre
  induction pre with
  | nil =>
    intro x s s' os h
    obtain ⟨⟨s1, o⟩, h1, h⟩ := bind_ok (show notifRun w s ([x]) = _ from h)
    obtain ⟨rfl, rfl⟩ := Prod.mk.inj (Except.ok.inj h)
    exact ⟨s, [], o, rfl, h1, rfl⟩
  | cons y pre ih =>
    intro x s s' os h
    obtain ⟨⟨s1, o⟩, h1, h⟩ := bind_ok (show notifRun w s (y :: (pre ++ [x])) = _ from h)
    obtain ⟨⟨s2, os2⟩, h2, h⟩ := bind_ok h
    obtain ⟨rfl, rfl⟩ := Prod.mk.inj (Except.ok.inj h)
    obtain ⟨s3, os3, o3, e1, e2, rfl⟩ := ih h2
    refine ⟨s3, o :: os3, o3, ?_, e2, rfl⟩
    show (ticNotifs w y.c y.tm y.k y.t s >>= fun p => notifRun w p.1 pre >>= fun q =>
      pure (q.1, p.2 :: q.2)) = _
    rw [h1, ok_bind, e1]
    rfl

/-- The PTEC values seen with the tariff trigger on. -/
def ptecs (pre : List Rcv) : List Str :=
  (pre.filter fun x => x.hasHost && x.c.httpreq.triggerPtec).filterMap (·.value "PTEC")

/-- Presence of ADPS in the frames seen with the overload trigger on. -/
def overloads (pre : List Rcv) : List Bool :=
  (pre.filter fun x => x.hasHost && x.c.httpreq.triggerAdps).map fun x => (x.value "ADPS").isSome

/-- The threshold notifications sent. -/
def thresholds (os : List (List Out)) : List Notif :=
  (os.flatMap kinds).filter fun n => n = .haut || n = .bas

theorem value_nulFree (x : Rcv) (label : String) {v : Str} (h : x.value label = some v) : NulFree v := by
  have hm : ∀ (ps : List (Str × Str)) {v}, lookup (bs label) ps = some v → ∃ p ∈ ps, p.2 = v := by
    intro ps
    induction ps with
    | nil => intro v h; simp [lookup] at h
    | cons p ps ih =>
      intro v h
      obtain ⟨a, b⟩ := p
      simp only [lookup] at h
      split at h
      · exact ⟨(a, b), by simp, Option.some.inj h⟩
      · obtain ⟨q, hq, e⟩ := ih h
        exact ⟨q, by simp [hq], e⟩
  have hp : ∀ (n : Nat) (ss : List Str), ss.length ≤ n → ∀ p ∈ pairUp ss, p.2 ∈ ss := by
    intro n
    induction n with
    | zero => intro ss h p hp; simp at h; subst h; simp [pairUp] at hp
    | succ n ih =>
      intro ss h p hp
      match ss, h, hp with
      | [], _, hp => simp [pairUp] at hp
      | [_], _, hp => simp [pairUp] at hp
      | a :: b :: r, h, hp =>
        simp only [pairUp, List.mem_cons] at hp
        rcases hp with rfl | hp
        · simp
        · have := ih r (by simp at h; omega) p hp
          simp [this]
  obtain ⟨p, h1, rfl⟩ := hm _ h
  exact cut_nulFree _ _ (hp _ _ (Nat.le_refl _) p h1)

/-- Values that fit the memory of the last period, the first one not empty. -/
structure ShortPtec (vs : List Str) : Prop where
  short : ∀ v ∈ vs, v.length ≤ 7
  first : ∀ v ∈ vs.head?, v ≠ []

theorem ShortPtec.init {vs : List Str} {v : Str} (h : ShortPtec (vs ++ [v])) : ShortPtec vs := by
  refine ⟨fun x hx => h.short x (by simp [hx]), fun x hx => h.first x ?_⟩
  cases vs with
  | nil => simp at hx
  | cons a vs => simpa using hx

theorem periodeNext_spec (a : Arr 8) (ini : Bool) (v : Str) (ha : (cstrOf a.toList).length ≤ 7) (hz : NulFree v) :
    ∃ a', periodeNext (a, ini) (some v) = .ok (if cstrOf a.toList = v then ((a, ini), none)
      else ((a', false), if ini then none else some .ptec)) ∧ cstrOf a'.toList = v.take 7 := by
  obtain ⟨a', h1, h2⟩ := strncpyS_text a v 7 (by decide)
  rw [cstrOf_self hz] at h2
  have h3 : cstrOf a'.toList = v.take 7 := by
    unfold textOf at h2
    split at h2
    · exact Option.some.inj h2
    · cases h2
  refine ⟨a', ?_, h3⟩
  have h8 : cstrOf a.toList = v.take 8 ↔ cstrOf a.toList = v := by
    constructor
    · intro e
      have hl := congrArg List.length e
      rw [List.length_take] at hl
      rw [e, List.take_of_length_le (by omega)]
    · intro e
      rw [List.take_of_length_le (by rw [← e]; omega), e]
  unfold periodeNext periodeDiffers
  simp only
  by_cases e : cstrOf a.toList = v
  · rw [if_pos e, if_neg (by simp [h8.2 e])]
    rfl
  · rw [if_neg e, if_pos (by simpa [h8] using e), h1, ok_bind]
    cases ini <;> rfl

/-- What the state says about the past. -/
theorem ptec_inv {w : World} : ∀ (pre : List Rcv) {s : NotifState} {os}, (∀ x ∈ pre, x.Ok) →
    notifRun w NotifState.init pre = .ok (s, os) →
    cstrOf s.periode.toList = ((ptecs pre).getLast?.getD []).take 7 ∧
      (s.initPeriode = true ↔ ∀ u ∈ ptecs pre, u = []) := by
  intro pre
  induction pre using snoc_induction with
  | h0 =>
    intro s os _ h
    obtain ⟨rfl, rfl⟩ := Prod.mk.inj (Except.ok.inj h)
    exact ⟨by decide, by simp [NotifState.init, ptecs]⟩
  | h1 pre x ih =>
    intro s os hok h
    obtain ⟨s1, os1, o, e1, e2, rfl⟩ := notifRun_snoc h
    obtain ⟨n1, f1, _, _, _⟩ := frame_step (hok x (by simp)) e2
    have hok' : ∀ x ∈ pre, x.Ok := fun y hy => hok y (by simp [hy])
    have hpt : ptecs (pre ++ [x]) = ptecs pre ++ ptecs [x] := by simp [ptecs]
    obtain ⟨i1, i2⟩ := ih hok' e1
    rw [hpt]
    by_cases ha : (x.hasHost && x.c.httpreq.triggerPtec) = true
    · rw [if_pos ha] at f1
      cases hv : x.value "PTEC" with
      | none =>
        have : ptecs [x] = [] := by simp [ptecs, ha, hv]
        rw [this, List.append_nil]
        rw [hv] at f1
        have f1 := Prod.mk.inj (Prod.mk.inj (Except.ok.inj f1)).1
        rw [← f1.1, ← f1.2]
        exact ⟨i1, i2⟩
      | some v =>
        have e : ptecs [x] = [v] := by simp [ptecs, ha, hv]
        rw [e]
        have hlen : (cstrOf s1.periode.toList).length ≤ 7 := by rw [i1, List.length_take]; omega
        obtain ⟨a', g1, g2⟩ := periodeNext_spec s1.periode s1.initPeriode v hlen (value_nulFree x _ hv)
        rw [hv, g1] at f1
        by_cases hc : cstrOf s1.periode.toList = v
        · rw [if_pos hc] at f1
          have f1 := Prod.mk.inj (Prod.mk.inj (Except.ok.inj f1)).1
          rw [← f1.1, ← f1.2]
          refine ⟨?_, ?_⟩
          · rw [hc] at hlen
            rw [hc]
            simp [List.take_of_length_le hlen]
          · rw [i2]
            constructor
            · intro h0 u hu
              rcases List.mem_append.1 hu with hu | hu
              · exact h0 u hu
              · obtain rfl := List.mem_singleton.1 hu
                rw [← hc, i1]
                cases hl : (ptecs pre).getLast? with
                | none => rfl
                | some y => rw [h0 y (List.mem_of_getLast? hl)]; rfl
            · exact fun h0 u hu => h0 u (by simp [hu])
        · rw [if_neg hc] at f1
          have f1 := Prod.mk.inj (Prod.mk.inj (Except.ok.inj f1)).1
          rw [← f1.1, ← f1.2]
          refine ⟨by simpa using g2, ?_⟩
          simp only [Bool.false_eq_true, false_iff]
          intro h0
          have hv0 : v = [] := h0 v (by simp)
          apply hc
          rw [i1, hv0]
          cases hl : (ptecs pre).getLast? with
          | none => rfl
          | some y => rw [h0 y (by simp [List.mem_of_getLast? hl])]; rfl
    · rw [if_neg ha] at f1
      have : ptecs [x] = [] := by simp [ptecs, ha]
      rw [this, List.append_nil]
      have f1 := Prod.mk.inj (Prod.mk.inj (Except.ok.inj f1)).1
      rw [← f1.1, ← f1.2]
      exact ⟨i1, i2⟩

theorem hautNext_kinds (c : Config) (s : Bool) (v : Option Str) :
    (hautNext c s v).2 = none ∧ (hautNext c s v).1 = s ∨
    (hautNext c s v).2 = some .haut ∧ (hautNext c s v).1 = true ∧ s = false ∨
    (hautNext c s v).2 = some .bas ∧ (hautNext c s v).1 = false ∧ s = true := by
  unfold hautNext
  cases v with
  | none => simp
  | some p =>
    simp only
    split
    · simp
    · split
      · rename_i h; simp [h.2]
      · split
        · rename_i h; simp [h.2]
        · simp

theorem adpsNext_kinds (s : Bool) (v : Option Str) :
    (adpsNext s v).1 = v.isSome ∧ (adpsNext s v).2 =
      (if v.isSome ∧ s = false then some .adps else if v.isSome = false ∧ s = true then some .norm
        else none) := by
  cases v <;> cases s <;> simp [adpsNext]

/-- A PTEC decision is PTEC or nothing. -/
theorem periode_kind {x : Rcv} {s s' : Arr 8 × Bool} {n : Option Notif} {a : Bool}
    (h : (if a then periodeNext s (x.value "PTEC") else pure (s, none)) = .ok (s', n)) :
    n = none ∨ (n = some .ptec ∧ a = true) := by
  cases a with
  | false =>
    simp only [Bool.false_eq_true, if_false] at h
    exact Or.inl (Prod.mk.inj (Except.ok.inj h)).2.symm
  | true =>
    simp only [if_true] at h
    unfold periodeNext at h
    split at h
    · exact Or.inl (Prod.mk.inj (Except.ok.inj h)).2.symm
    · split at h
      · obtain ⟨b, _, h⟩ := bind_ok h
        split at h
        · exact Or.inl (Prod.mk.inj (Except.ok.inj h)).2.symm
        · exact Or.inr ⟨(Prod.mk.inj (Except.ok.inj h)).2.symm, rfl⟩
      · exact Or.inl (Prod.mk.inj (Except.ok.inj h)).2.symm

/-! ## C17 -/

/-- **C17, exactly.** After any sequence of frames, a PTEC notification is sent for a frame if and only if the tariff
trigger is on, its PTEC value is not the first seven characters of the last PTEC value seen, and a PTEC value seen
before was not empty. -/
theorem c17_exact {w : World} {pre : List Rcv} {x : Rcv} {s : NotifState} {os o}
    (hok : ∀ y ∈ pre ++ [x], y.Ok)
    (h : notifRun w NotifState.init (pre ++ [x]) = .ok (s, os ++ [o])) :
    (Notif.ptec ∈ kinds o ↔ x.hasHost = true ∧ x.c.httpreq.triggerPtec = true ∧
      ∃ v u, x.value "PTEC" = some v ∧ (ptecs pre).getLast? = some u ∧ u.take 7 ≠ v ∧ ∃ y ∈ ptecs pre, y ≠ []) := by
  obtain ⟨s1, os1, o', e1, e2, e3⟩ := notifRun_snoc h
  obtain ⟨rfl, e3⟩ := List.append_inj' e3 rfl
  obtain rfl : o = o' := by simpa using e3
  obtain ⟨n1, f1, _, _, f4⟩ := frame_step (hok x (by simp)) e2
  have hmem : Notif.ptec ∈ kinds o ↔ n1 = some .ptec := by
    rw [f4]
    have g2 := hautNext_kinds x.c s1.haut (x.value "PAPP")
    have g3 := (adpsNext_kinds s1.adps (x.value "ADPS")).2
    have m2 : Notif.ptec ∉ (if x.hasHost && x.c.httpreq.triggerSeuils then
        (hautNext x.c s1.haut (x.value "PAPP")).2.toList else []) := by
      split
      · rcases g2 with g | g | g <;> rw [g.1] <;> simp
      · simp
    have m3 : Notif.ptec ∉ (if x.hasHost && x.c.httpreq.triggerAdps then
        (adpsNext s1.adps (x.value "ADPS")).2.toList else []) := by
      split
      · rw [g3]; split <;> (try split) <;> simp
      · simp
    have m4 : Notif.ptec ∉ (if x.hasHost && x.tm.http.poll x.k.http then [Notif.maj] else []) := by
      split <;> simp
    simp only [List.mem_append, m2, m3, m4, or_false, Option.mem_toList]
  rw [hmem]
  by_cases ha : (x.hasHost && x.c.httpreq.triggerPtec) = true
  · rw [if_pos ha] at f1
    have ha' := ha
    rw [Bool.and_eq_true] at ha'
    cases hx : x.value "PTEC" with
    | none =>
      rw [hx] at f1
      have f1 := (Prod.mk.inj (Except.ok.inj f1)).2
      simp [← f1]
    | some v =>
      obtain ⟨i1, i2⟩ := ptec_inv pre (fun y hy => hok y (by simp [hy])) e1
      obtain ⟨a', g1, g2⟩ := periodeNext_spec s1.periode s1.initPeriode v (by rw [i1, List.length_take]; omega)
        (value_nulFree x _ hx)
      rw [hx, g1] at f1
      simp only [ha'.1, ha'.2, true_and, Option.some.injEq, ne_eq]
      by_cases hall : ∀ u ∈ ptecs pre, u = []
      · rw [i2.2 hall] at f1
        simp only [if_true] at f1
        have hn1 : n1 = none := by
          split at f1
          · exact (Prod.mk.inj (Except.ok.inj f1)).2.symm
          · exact (Prod.mk.inj (Except.ok.inj f1)).2.symm
        rw [hn1]
        constructor
        · intro h; simp at h
        · rintro ⟨_, _, _, _, _, y, hy, hy0⟩
          exact absurd (hall y hy) hy0
      · have hini : s1.initPeriode = false := by
          cases hb : s1.initPeriode with
          | false => rfl
          | true => exact absurd (i2.1 hb) hall
        rcases List.eq_nil_or_concat (ptecs pre) with hn | ⟨r, u, hn⟩
        · rw [hn] at hall; simp at hall
        rw [List.concat_eq_append] at hn
        have hlast : (ptecs pre).getLast? = some u := by rw [hn]; simp
        rw [hlast] at i1
        rw [Option.getD_some] at i1
        rw [hini, i1] at f1
        simp only [Bool.false_eq_true, if_false] at f1
        by_cases hu : u.take 7 = v
        · rw [if_pos hu] at f1
          have := (Prod.mk.inj (Except.ok.inj f1)).2
          rw [← this]
          constructor
          · intro h; simp at h
          · rintro ⟨v', u', rfl, h1, h2, _⟩
            rw [hlast] at h1
            exact absurd hu (by rw [Option.some.inj h1]; exact h2)
        · rw [if_neg hu] at f1
          have := (Prod.mk.inj (Except.ok.inj f1)).2
          rw [← this]
          simp only [true_iff]
          have hy : ∃ y ∈ ptecs pre, y ≠ [] := by
            apply Classical.byContradiction
            intro hno
            exact hall fun y hy => Classical.byContradiction fun h0 => hno ⟨y, hy, h0⟩
          exact ⟨v, u, rfl, hlast, hu, hy⟩
  · rw [if_neg ha] at f1
    have f1 := (Prod.mk.inj (Except.ok.inj f1)).2
    have ha' := ha
    rw [Bool.and_eq_true] at ha'
    constructor
    · intro h; rw [← f1] at h; simp at h
    · rintro ⟨a, b, _⟩; exact absurd ⟨a, b⟩ ha'

/-- **C17 (partial).** After any sequence of frames, a PTEC notification is sent for a frame exactly
when the tariff trigger is on and its PTEC value differs from the last PTEC value seen; never for the
first one.  Missing with respect to the property as stated: values of eight characters or more and an
empty first value, for which it is false (`c17_refuted_long`, `c17_refuted_empty`). -/
theorem c17_ptec_partial {w : World} {pre : List Rcv} {x : Rcv} {s : NotifState} {os o}
    (hok : ∀ y ∈ pre ++ [x], y.Ok)
    (h : notifRun w NotifState.init (pre ++ [x]) = .ok (s, os ++ [o]))
    (hv : ShortPtec (ptecs (pre ++ [x]))) :
    (Notif.ptec ∈ kinds o ↔ x.hasHost = true ∧ x.c.httpreq.triggerPtec = true ∧
      ∃ v u, x.value "PTEC" = some v ∧ (ptecs pre).getLast? = some u ∧ u ≠ v) := by
  rw [c17_exact hok h]
  have hpt : ptecs (pre ++ [x]) = ptecs pre ++ ptecs [x] := by simp [ptecs]
  rw [hpt] at hv
  have hshort : ∀ u ∈ ptecs pre, u.take 7 = u := fun u hu => List.take_of_length_le (hv.short u (by simp [hu]))
  constructor
  · rintro ⟨h1, h2, v, u, h3, h4, h5, _⟩
    exact ⟨h1, h2, v, u, h3, h4, by rwa [hshort u (List.mem_of_getLast? h4)] at h5⟩
  · rintro ⟨h1, h2, v, u, h3, h4, h5⟩
    refine ⟨h1, h2, v, u, h3, h4, by rwa [hshort u (List.mem_of_getLast? h4)], ?_⟩
    cases hp : ptecs pre with
    | nil => rw [hp] at h4; simp at h4
    | cons y r => exact ⟨y, by simp, hv.first y (by rw [hp]; simp)⟩

/-! ## C18, C19 -/

theorem strtol_spec (p : Str) : strtol p = (if leadingInt p > 2147483647 then 2147483647
    else if leadingInt p < -2147483648 then -2147483648 else leadingInt p) := by
  have hb : (fun b : Byte => (b = 32 || (9 ≤ b && b ≤ 13) : Bool)) = blank := by
    funext b
    revert b
    exact byte_all (by decide +kernel)
  have hd : isDigit = digit := by
    funext b
    revert b
    exact byte_all (by decide +kernel)
  unfold strtol leadingInt
  simp only [hb, hd]
  cases p.dropWhile blank with
  | nil => rfl
  | cons b r =>
    by_cases h1 : b = 45
    · subst h1; simp
    · by_cases h2 : b = 43
      · subst h2; simp
      · simp [h1, h2]

theorem strtol_zero (p : Str) : strtol p = 0 ↔ leadingInt p = 0 := by
  rw [strtol_spec]; split
  · omega
  · split <;> omega

theorem strtol_ge (p : Str) (k : UInt16) : strtol p ≥ (k.toNat : Int) ↔ leadingInt p ≥ k.toNat := by
  have := k.toNat_lt
  rw [strtol_spec]; split
  · omega
  · split <;> omega

theorem strtol_le (p : Str) (k : UInt16) : strtol p ≤ (k.toNat : Int) ↔ leadingInt p ≤ k.toNat := by
  have := k.toNat_lt
  rw [strtol_spec]; split
  · omega
  · split <;> omega

/-- The apparent power of a frame. -/
def Rcv.power (x : Rcv) : Option Int := (x.value "PAPP").map leadingInt

/-- The threshold notifications of one frame. -/
theorem step_thresholds {w : World} {x : Rcv} (hx : x.Ok) {s s' : NotifState} {o : List Out}
    (h : ticNotifs w x.c x.tm x.k x.t s = .ok (s', o)) :
    (kinds o).filter (fun n => n = .haut || n = .bas) =
      (if x.hasHost && x.c.httpreq.triggerSeuils then
        (hautNext x.c s.haut (x.value "PAPP")).2.toList else []) := by
  obtain ⟨n1, f1, f2, _, f4⟩ := frame_step hx h
  rw [f4]
  have g3 := (adpsNext_kinds s.adps (x.value "ADPS")).2
  have m1 : (n1.toList).filter (fun n => n = .haut || n = .bas) = [] := by
    rcases periode_kind f1 with h | h
    · rw [h]; rfl
    · rw [h.1]; rfl
  have m3 : (if x.hasHost && x.c.httpreq.triggerAdps then
      (adpsNext s.adps (x.value "ADPS")).2.toList else []).filter (fun n => n = .haut || n = .bas) = [] := by
    split
    · rw [g3]; split
      · rfl
      · split <;> rfl
    · rfl
  have m4 : (if x.hasHost && x.tm.http.poll x.k.http then [Notif.maj] else []).filter
      (fun n => n = .haut || n = .bas) = [] := by
    split <;> rfl
  rw [List.filter_append, List.filter_append, List.filter_append, m1, m3, m4]
  simp only [List.nil_append, List.append_nil]
  split
  · rcases hautNext_kinds x.c s.haut (x.value "PAPP") with g | g | g <;> rw [g.1] <;> rfl
  · rfl

theorem haut_inv {w : World} : ∀ (pre : List Rcv) {s : NotifState} {os}, (∀ x ∈ pre, x.Ok) →
    notifRun w NotifState.init pre = .ok (s, os) →
    (s.haut = true ↔ (thresholds os).getLast? = some .haut) := by
  intro pre
  induction pre using snoc_induction with
  | h0 =>
    intro s os _ h
    obtain ⟨rfl, rfl⟩ := Prod.mk.inj (Except.ok.inj h)
    simp [NotifState.init, thresholds]
  | h1 pre x ih =>
    intro s os hok h
    obtain ⟨s1, os1, o, e1, e2, rfl⟩ := notifRun_snoc h
    obtain ⟨n1, f1, f2, _, f4⟩ := frame_step (hok x (by simp)) e2
    have i := ih (fun y hy => hok y (by simp [hy])) e1
    have ht : thresholds (os1 ++ [o]) = thresholds os1 ++ (kinds o).filter fun n => n = .haut || n = .bas := by
      simp [thresholds]
    have hk := step_thresholds (hok x (by simp)) e2
    rw [ht, hk, f2]
    split
    · rcases hautNext_kinds x.c s1.haut (x.value "PAPP") with g | g | g
      · rw [g.1, g.2, i]; simp
      · rw [g.1, g.2.1]; simp
      · rw [g.1, g.2.1]; simp
    · rw [i]; simp

theorem threshold_kinds {w : World} {x : Rcv} (hx : x.Ok) {s s' : NotifState} {o : List Out}
    (h : ticNotifs w x.c x.tm x.k x.t s = .ok (s', o)) :
    (Notif.haut ∈ kinds o ↔ (x.hasHost && x.c.httpreq.triggerSeuils) = true ∧
      (hautNext x.c s.haut (x.value "PAPP")).2 = some .haut) ∧
    (Notif.bas ∈ kinds o ↔ (x.hasHost && x.c.httpreq.triggerSeuils) = true ∧
      (hautNext x.c s.haut (x.value "PAPP")).2 = some .bas) ∧
    (Notif.adps ∈ kinds o ↔ (x.hasHost && x.c.httpreq.triggerAdps) = true ∧
      (adpsNext s.adps (x.value "ADPS")).2 = some .adps) ∧
    (Notif.norm ∈ kinds o ↔ (x.hasHost && x.c.httpreq.triggerAdps) = true ∧
      (adpsNext s.adps (x.value "ADPS")).2 = some .norm) := by
  obtain ⟨n1, f1, _, _, f4⟩ := frame_step hx h
  have m1 : ∀ n ∈ n1.toList, n = Notif.ptec := by
    intro n hn
    rcases periode_kind f1 with h | h
    · rw [h] at hn; simp at hn
    · rw [h.1] at hn; simpa using hn
  have m2 : ∀ n ∈ (hautNext x.c s.haut (x.value "PAPP")).2.toList, n = Notif.haut ∨ n = Notif.bas := by
    intro n hn
    rcases hautNext_kinds x.c s.haut (x.value "PAPP") with g | g | g <;> rw [g.1] at hn <;>
      simp at hn <;> simp [hn]
  have m3 : ∀ n ∈ (adpsNext s.adps (x.value "ADPS")).2.toList, n = Notif.adps ∨ n = Notif.norm := by
    intro n hn
    rw [(adpsNext_kinds s.adps (x.value "ADPS")).2] at hn
    split at hn
    · simp at hn; simp [hn]
    · split at hn
      · simp at hn; simp [hn]
      · simp at hn
  have m4 : ∀ n ∈ (if x.hasHost && x.tm.http.poll x.k.http then [Notif.maj] else []), n = Notif.maj := by
    intro n hn
    split at hn
    · simpa using hn
    · simp at hn
  have key : ∀ n, n ∈ kinds o ↔ n ∈ n1.toList ∨ ((x.hasHost && x.c.httpreq.triggerSeuils) = true ∧
      n ∈ (hautNext x.c s.haut (x.value "PAPP")).2.toList) ∨ ((x.hasHost && x.c.httpreq.triggerAdps) = true ∧
      n ∈ (adpsNext s.adps (x.value "ADPS")).2.toList) ∨
      n ∈ (if x.hasHost && x.tm.http.poll x.k.http then [Notif.maj] else []) := by
    intro n
    rw [f4]
    simp only [List.mem_append, or_assoc]
    cases (x.hasHost && x.c.httpreq.triggerSeuils) <;> cases (x.hasHost && x.c.httpreq.triggerAdps) <;> simp
  have side : ∀ n, n ≠ .ptec → n ≠ .maj → (n ∈ kinds o ↔ ((x.hasHost && x.c.httpreq.triggerSeuils) = true ∧
      (hautNext x.c s.haut (x.value "PAPP")).2 = some n) ∨ ((x.hasHost && x.c.httpreq.triggerAdps) = true ∧
      (adpsNext s.adps (x.value "ADPS")).2 = some n)) := by
    intro n h1 h2
    rw [key]
    have a : n ∉ n1.toList := fun h => h1 (m1 n h)
    have b : n ∉ (if x.hasHost && x.tm.http.poll x.k.http then [Notif.maj] else []) := fun h => h2 (m4 n h)
    simp only [a, b, false_or, or_false, Option.mem_toList]
  refine ⟨?_, ?_, ?_, ?_⟩
  · rw [side _ (by decide) (by decide)]
    have : (adpsNext s.adps (x.value "ADPS")).2 ≠ some .haut := fun h => by
      have := m3 .haut (by rw [h]; simp); simp at this
    simp [this]
  · rw [side _ (by decide) (by decide)]
    have : (adpsNext s.adps (x.value "ADPS")).2 ≠ some .bas := fun h => by
      have := m3 .bas (by rw [h]; simp); simp at this
    simp [this]
  · rw [side _ (by decide) (by decide)]
    have : (hautNext x.c s.haut (x.value "PAPP")).2 ≠ some .adps := fun h => by
      have := m2 .adps (by rw [h]; simp); simp at this
    simp [this]
  · rw [side _ (by decide) (by decide)]
    have : (hautNext x.c s.haut (x.value "PAPP")).2 ≠ some .norm := fun h => by
      have := m2 .norm (by rw [h]; simp); simp at this
    simp [this]

/-- **C18 (partial).** After any sequence of frames, HAUT is sent for a frame exactly when the threshold
trigger is on, the power is at or above the high threshold and the last threshold notification was not
HAUT; BAS exactly when the power is at or below the low threshold and the last threshold notification
was HAUT.  Missing with respect to the property as stated: a power of zero, which is ignored
(`c19_refuted`). -/
theorem c18_thresholds_partial {w : World} {pre : List Rcv} {x : Rcv} {s : NotifState} {os o}
    (hok : ∀ y ∈ pre ++ [x], y.Ok)
    (h : notifRun w NotifState.init (pre ++ [x]) = .ok (s, os ++ [o])) (hp : x.power ≠ some 0) :
    (Notif.haut ∈ kinds o ↔ x.hasHost = true ∧ x.c.httpreq.triggerSeuils = true ∧
      (∃ p, x.power = some p ∧ p ≥ x.c.httpreq.seuilHaut.toNat) ∧
      (thresholds os).getLast? ≠ some .haut) ∧
    (Notif.bas ∈ kinds o ↔ x.hasHost = true ∧ x.c.httpreq.triggerSeuils = true ∧
      (∃ p, x.power = some p ∧ p ≤ x.c.httpreq.seuilBas.toNat) ∧
      (thresholds os).getLast? = some .haut) := by
  obtain ⟨s1, os1, o', e1, e2, e3⟩ := notifRun_snoc h
  obtain ⟨rfl, e3⟩ := List.append_inj' e3 rfl
  obtain rfl : o = o' := by simpa using e3
  have i := haut_inv pre (fun y hy => hok y (by simp [hy])) e1
  obtain ⟨k1, k2, _, _⟩ := threshold_kinds (hok x (by simp)) e2
  rw [k1, k2, Bool.and_eq_true, ne_eq, ← i]
  unfold Rcv.power at hp ⊢
  cases hv : x.value "PAPP" with
  | none => simp [hautNext]
  | some p =>
    rw [hv] at hp
    have h0 : ¬ strtol p = 0 := by rw [strtol_zero]; simpa using hp
    simp only [hautNext, if_neg h0, strtol_ge, strtol_le, Option.map_some, Option.some.injEq,
      exists_eq_left']
    cases s1.haut
    · by_cases c1 : leadingInt p ≥ x.c.httpreq.seuilHaut.toNat <;> simp [c1]
    · by_cases c1 : leadingInt p ≤ x.c.httpreq.seuilBas.toNat <;> simp [c1]

/-- Alternation. -/
def Alternate (a b : Notif) : List Notif → Prop
  | [] => True
  | x :: l => x = a ∧ Alternate b a l

theorem Alternate.snoc {a b x : Notif} (hab : a ≠ b) : ∀ {l : List Notif}, Alternate a b l →
    (l = [] ∧ x = a ∨ l.getLast? = some a ∧ x = b ∨ l.getLast? = some b ∧ x = a) →
    Alternate a b (l ++ [x]) := by
  have : ∀ (l : List Notif) (a b : Notif), a ≠ b → Alternate a b l →
      (l = [] ∧ x = a ∨ l.getLast? = some a ∧ x = b ∨ l.getLast? = some b ∧ x = a) →
      Alternate a b (l ++ [x]) := by
    intro l
    induction l with
    | nil =>
      intro a b _ _ h
      rcases h with h | h | h
      · exact ⟨h.2, trivial⟩
      · simp at h
      · simp at h
    | cons y l ih =>
      intro a b hab ha h
      refine ⟨ha.1, ih b a hab.symm ha.2 ?_⟩
      cases l with
      | nil =>
        rcases h with h | h | h
        · simp at h
        · exact Or.inl ⟨rfl, h.2⟩
        · simp [ha.1] at h
          exact absurd h.1 hab
      | cons z l =>
        rw [List.getLast?_cons_cons] at h
        rcases h with h | h | h
        · simp at h
        · exact Or.inr (Or.inr h)
        · exact Or.inr (Or.inl h)
  exact fun {l} h1 h2 => this l _ _ hab h1 h2

theorem thresholds_last (os : List (List Out)) : thresholds os = [] ∨
    (thresholds os).getLast? = some .haut ∨ (thresholds os).getLast? = some .bas := by
  rcases List.eq_nil_or_concat (thresholds os) with h | ⟨r, u, h⟩
  · exact Or.inl h
  · have hm : u ∈ thresholds os := by rw [h]; simp
    simp only [thresholds, List.mem_filter, Bool.or_eq_true, decide_eq_true_eq] at hm
    rw [h]
    rcases hm.2 with e | e <;> simp [e]

/-- **C18.** Whatever the frames, the threshold notifications alternate, starting with HAUT. -/
theorem c18_alternate {w : World} : ∀ (pre : List Rcv) {s : NotifState} {os}, (∀ y ∈ pre, y.Ok) →
    notifRun w NotifState.init pre = .ok (s, os) → Alternate .haut .bas (thresholds os) := by
  intro pre
  induction pre using snoc_induction with
  | h0 =>
    intro s os _ h
    obtain ⟨rfl, rfl⟩ := Prod.mk.inj (Except.ok.inj h)
    exact trivial
  | h1 pre x ih =>
    intro s os hok h
    obtain ⟨s1, os1, o, e1, e2, rfl⟩ := notifRun_snoc h
    have hpre : ∀ y ∈ pre, y.Ok := fun y hy => hok y (by simp [hy])
    have a := ih hpre e1
    have i := haut_inv pre hpre e1
    have ht : thresholds (os1 ++ [o]) = thresholds os1 ++ (kinds o).filter fun n => n = .haut || n = .bas := by
      simp [thresholds]
    rw [ht, step_thresholds (hok x (by simp)) e2]
    split
    · rcases hautNext_kinds x.c s1.haut (x.value "PAPP") with g | g | g
      · rw [g.1]; simpa using a
      · rw [g.1]
        refine a.snoc (by decide) ?_
        have hs := g.2.2
        have : ¬ (thresholds os1).getLast? = some .haut := by rw [← i, hs]; simp
        rcases thresholds_last os1 with h0 | h0 | h0
        · exact Or.inl ⟨h0, rfl⟩
        · exact absurd h0 this
        · exact Or.inr (Or.inr ⟨h0, rfl⟩)
      · rw [g.1]
        exact a.snoc (by decide) (Or.inr (Or.inl ⟨i.1 g.2.2, rfl⟩))
    · simpa using a

end Wifinfo
