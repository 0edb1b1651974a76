import Verif.Model.Uart
import Verif.Props.Decoder
import Verif.Props.Upload

/-!
# Property theorems: the bytes of the meter while the device works (C136)
-/

namespace Wifinfo
open Spec

namespace Spec

/-- The bytes of the wire, in order. -/
def onWire : List RxEv → Str
  | [] => []
  | .byte b :: evs => b :: onWire evs
  | .turn _ :: evs => onWire evs

/-- How many times the program comes to the line. -/
def turnsOf : List RxEv → Nat
  | [] => 0
  | .byte _ :: evs => turnsOf evs
  | .turn _ :: evs => turnsOf evs + 1

/-- Nothing of a frame has been read without its end: behind every start there is an end. -/
def BetweenFrames (s : Str) : Prop := ∀ pre post, s = pre ++ 2 :: post → (3 : Byte) ∈ post

end Spec

/-! ## The order of the bytes -/

theorem onWire_append (a b : List RxEv) : onWire (a ++ b) = onWire a ++ onWire b := by
  induction a with
  | nil => rfl
  | cons e a ih => cases e <;> simp [onWire, ih]

theorem turnsOf_append (a b : List RxEv) : turnsOf (a ++ b) = turnsOf a + turnsOf b := by
  induction a with
  | nil => simp [turnsOf]
  | cons e a ih => cases e <;> simp [turnsOf, ih]; omega

theorem rxRun_append (cap : Nat) (r : Rx) (a b : List RxEv) : r.run cap (a ++ b) = (r.run cap a).run cap b := by
  simp [Rx.run]

theorem rxRun_cons (cap : Nat) (r : Rx) (e : RxEv) (evs : List RxEv) : r.run cap (e :: evs) = (r.step cap e).run cap evs := rfl

/-- What has been taken and what waits. -/
def Rx.all (r : Rx) : Str := bytesOf r.seen ++ r.ring

theorem step_all (cap : Nat) (r : Rx) (e : RxEv) : (r.step cap e).all.Sublist (r.all ++ onWire [e]) := by
  cases e with
  | byte b =>
    simp only [Rx.step, Rx.put, onWire]
    split
    · simp [Rx.all]
    · simp only [Rx.all, List.append_assoc]
      exact List.Sublist.append (.refl _) (List.drop_sublist _ _)
  | turn t =>
    simp only [Rx.step, Rx.turn, onWire, List.append_nil]
    split
    · exact .refl _
    · next b ring h => simp [Rx.all, h, bytesOf]

theorem run_all (cap : Nat) (evs : List RxEv) : ∀ r : Rx, (r.run cap evs).all.Sublist (r.all ++ onWire evs) := by
  induction evs with
  | nil => intro r; simp [Rx.run, onWire]
  | cons e evs ih =>
    intro r
    rw [rxRun_cons]
    refine (ih _).trans ?_
    have : onWire (e :: evs) = onWire [e] ++ onWire evs := by rw [← onWire_append]; rfl
    rw [this, ← List.append_assoc]
    exact List.Sublist.append (step_all cap r e) (.refl _)

/-- **C136** (nothing is invented): whatever the device does and however long, the bytes that it decodes are bytes of the wire, in
the order of the wire. -/
theorem c136_order (cap : Nat) (evs : List RxEv) :
    (bytesOf (Rx.run cap {} evs).seen ++ (Rx.run cap {} evs).ring).Sublist (onWire evs) := by
  have := run_all cap evs {}
  simpa [Rx.all, bytesOf] using this

/-! ## When nothing is lost -/

theorem lossless_iff (cap : Nat) (evs : List RxEv) : ∀ r : Rx, r.ring.length ≤ cap →
    ((r.run cap evs).all = r.all ++ onWire evs ↔
      (∀ pre post, evs = pre ++ post → r.ring.length + (onWire pre).length ≤ turnsOf pre + cap) ∧
      ∀ pre mid post, evs = pre ++ mid ++ post → (onWire mid).length ≤ turnsOf mid + cap) := by
  induction evs with
  | nil =>
    intro r hr
    simp only [Rx.run, List.foldl_nil, onWire, List.append_nil, true_iff]
    refine ⟨fun pre post h => ?_, fun pre mid post h => ?_⟩
    · obtain ⟨rfl, rfl⟩ := List.nil_eq_append_iff.1 h
      simpa [onWire, turnsOf] using hr
    · obtain ⟨h1, rfl⟩ := List.nil_eq_append_iff.1 h
      obtain ⟨rfl, rfl⟩ := List.append_eq_nil_iff.1 h1
      simp [onWire]
  | cons e evs ih =>
    intro r hr
    rw [rxRun_cons]
    -- the parts of `e :: evs` are `[]`, those of `evs`, and those that begin with `e`
    have parts : (∀ pre mid post, e :: evs = pre ++ mid ++ post → (onWire mid).length ≤ turnsOf mid + cap) ↔
        (∀ pre mid post, evs = pre ++ mid ++ post → (onWire mid).length ≤ turnsOf mid + cap) ∧
        ∀ mid post, evs = mid ++ post → (onWire (e :: mid)).length ≤ turnsOf (e :: mid) + cap := by
      constructor
      · intro h
        refine ⟨fun pre mid post he => h (e :: pre) mid post (by simp [he]), fun mid post he => h [] (e :: mid) post (by simp [he])⟩
      · rintro ⟨h1, h2⟩ pre mid post he
        cases pre with
        | cons x pre =>
          simp only [List.cons_append, List.cons.injEq] at he
          exact h1 pre mid post he.2
        | nil =>
          cases mid with
          | nil => simp [onWire]
          | cons x mid =>
            simp only [List.nil_append, List.cons_append, List.cons.injEq] at he
            obtain ⟨rfl, he⟩ := he
            exact h2 mid post he
    have prefixes : (∀ pre post, e :: evs = pre ++ post → r.ring.length + (onWire pre).length ≤ turnsOf pre + cap) ↔
        ∀ pre post, evs = pre ++ post → r.ring.length + (onWire (e :: pre)).length ≤ turnsOf (e :: pre) + cap := by
      constructor
      · intro h pre post he
        exact h (e :: pre) post (by simp [he])
      · intro h pre post he
        cases pre with
        | nil => simpa [onWire, turnsOf] using hr
        | cons x pre =>
          simp only [List.cons_append, List.cons.injEq] at he
          obtain ⟨rfl, he⟩ := he
          exact h pre post he
    rw [parts, prefixes]
    cases e with
    | byte b =>
      simp only [Rx.step, Rx.put, onWire, turnsOf]
      split
      · next hlt =>
        have e1 : r.all ++ b :: onWire evs = ({ r with ring := r.ring ++ [b] } : Rx).all ++ onWire evs := by simp [Rx.all]
        rw [e1, ih _ (by simp; omega)]
        simp only [List.length_append, List.length_cons, List.length_nil]
        constructor
        · rintro ⟨h1, h2⟩
          refine ⟨fun pre post he => ?_, h2, fun mid post he => ?_⟩
          · have := h1 pre post he; omega
          · have := h1 mid post he; omega
        · rintro ⟨h1, h2, -⟩
          exact ⟨fun pre post he => by have := h1 pre post he; omega, h2⟩
      · next hlt =>
        constructor
        · intro h
          have h1 := (run_all cap evs { r with ring := (r.ring ++ [b]).drop 1 }).length_le
          have h2 := congrArg List.length h
          simp only [Rx.all, List.length_append, List.length_cons, List.length_nil, List.length_drop] at h1 h2
          omega
        · rintro ⟨h1, -⟩
          have := h1 [] evs rfl
          simp [onWire, turnsOf] at this
          omega
    | turn t =>
      simp only [Rx.step, Rx.turn, onWire, turnsOf]
      split
      · next h0 =>
        rw [ih r hr]
        simp only [h0, List.length_nil, Nat.zero_add]
        constructor
        · rintro ⟨h1, h2⟩
          exact ⟨fun pre post he => by have := h1 pre post he; omega, h2, fun mid post he => by have := h1 mid post he; omega⟩
        · rintro ⟨h1, h2, h3⟩
          exact ⟨fun pre post he => by simpa using h2 [] pre post (by simpa using he), h2⟩
      · next b ring h0 =>
        have e1 : r.all ++ onWire evs = ({ ring := ring, seen := r.seen ++ [(t, b)] } : Rx).all ++ onWire evs := by
          simp [Rx.all, h0, bytesOf]
        rw [e1, ih _ (by simp [h0] at hr; simp only; omega)]
        simp only [h0, List.length_cons]
        constructor
        · rintro ⟨h1, h2⟩
          exact ⟨fun pre post he => by have := h1 pre post he; omega, h2, fun mid post he => by have := h1 mid post he; omega⟩
        · rintro ⟨h1, h2, h3⟩
          exact ⟨fun pre post he => by have := h1 pre post he; omega, h2⟩

/-- **C136** (exactly when nothing is lost): from the moment at which the buffer is empty, every byte of the wire is decoded or waits
to be, in order, if and only if in no stretch of time the bytes outnumber the turns by more than the buffer holds. -/
theorem c136_complete (cap : Nat) (evs : List RxEv) :
    bytesOf (Rx.run cap {} evs).seen ++ (Rx.run cap {} evs).ring = onWire evs ↔
      ∀ pre mid post, evs = pre ++ mid ++ post → (onWire mid).length ≤ turnsOf mid + cap := by
  have := lossless_iff cap evs {} (Nat.zero_le _)
  simp only [Rx.all, bytesOf, List.map_nil, List.nil_append, List.length_nil, Nat.zero_add] at this
  rw [this]
  exact ⟨fun h => h.2, fun h => ⟨fun pre post he => h [] pre post (by simpa using he), h⟩⟩

theorem ring_le (cap : Nat) (evs : List RxEv) : ∀ r : Rx, r.ring.length ≤ cap → (r.run cap evs).ring.length ≤ cap := by
  induction evs with
  | nil => intro r h; exact h
  | cons e evs ih =>
    intro r h
    rw [rxRun_cons]
    refine ih _ ?_
    cases e with
    | byte b =>
      simp only [Rx.step, Rx.put]
      split <;> simp <;> omega
    | turn t =>
      simp only [Rx.step, Rx.turn]
      split
      · exact h
      · next b ring h0 => rw [h0] at h; simp at h; simp only; omega

/-- **C136** (after a loss): whatever has been lost before, nothing is lost from then on if the bytes that wait and those that come
never outnumber the turns by more than the buffer holds. -/
theorem c136_after (cap : Nat) (old evs : List RxEv)
    (h1 : ∀ pre post, evs = pre ++ post → (Rx.run cap {} old).ring.length + (onWire pre).length ≤ turnsOf pre + cap)
    (h2 : ∀ pre mid post, evs = pre ++ mid ++ post → (onWire mid).length ≤ turnsOf mid + cap) :
    bytesOf (Rx.run cap {} (old ++ evs)).seen ++ (Rx.run cap {} (old ++ evs)).ring =
      bytesOf (Rx.run cap {} old).seen ++ (Rx.run cap {} old).ring ++ onWire evs := by
  rw [rxRun_append]
  exact (lossless_iff cap evs _ (ring_le cap old {} (Nat.zero_le _))).2 ⟨h1, h2⟩

/-! ## In microseconds -/

theorem spaced_count {T : Nat} (e : Nat) (l : List (Nat × Byte)) : ∀ s : Nat,
    l.Pairwise (fun a b => a.1 + T ≤ b.1) → (∀ x ∈ l, s ≤ x.1) → (∀ x ∈ l, x.1 < e) → l ≠ [] → s + l.length * T < e + T := by
  induction l with
  | nil => intro s _ _ _ h; exact absurd rfl h
  | cons a l ih =>
    intro s hp hs he _
    have h1 := hs a (by simp)
    have h2 := he a (by simp)
    rw [List.pairwise_cons] at hp
    cases l with
    | nil => simp; omega
    | cons b l =>
      have := ih (a.1 + T) hp.2 hp.1 (fun x hx => he x (by simp [hx])) (by simp)
      have e1 : (a :: b :: l).length * T = (b :: l).length * T + T := by
        rw [List.length_cons, Nat.add_mul, Nat.one_mul]
      omega

theorem put_all (cap : Nat) (l : List (Nat × Byte)) : ∀ r : Rx, r.ring.length + l.length ≤ cap →
    r.run cap (l.map fun x => .byte x.2) = { r with ring := r.ring ++ l.map Prod.snd } := by
  induction l with
  | nil => intro r _; simp [Rx.run]
  | cons x l ih =>
    intro r h
    simp only [List.length_cons] at h
    rw [List.map_cons, rxRun_cons]
    simp only [Rx.step, Rx.put]
    rw [if_pos (by omega), ih _ (by simp; omega)]
    simp

/-- How long turns last together. -/
def totalTime (ds : List (Nat × TimeVal)) : Nat := (ds.map Prod.fst).sum

theorem totalTime_append (a b : List (Nat × TimeVal)) : totalTime (a ++ b) = totalTime a + totalTime b := by
  simp [totalTime]

theorem onWire_map (l : List (Nat × Byte)) : onWire (l.map fun x => .byte x.2) = l.map Prod.snd := by
  induction l with
  | nil => rfl
  | cons x l ih => simp [onWire, ih]

theorem timeline_run (cap T : Nat) (all : List (Nat × TimeVal))
    (hall : ∀ pre mid post, all = pre ++ mid ++ post → mid ≠ [] → totalTime mid ≤ (mid.length - 1 + cap) * T) (hT : 0 < T)
    (ds : List (Nat × TimeVal)) : ∀ (now s0 : Nat) (pre mid : List (Nat × TimeVal)) (w bytes : List (Nat × Byte)) (r : Rx),
    all = pre ++ mid ++ ds → (r.ring = [] ∨ (mid ≠ [] ∧ w.length + 1 = r.ring.length + mid.length ∧ s0 + totalTime mid = now)) →
    (∀ x ∈ w, s0 ≤ x.1) → (∀ x ∈ w, x.1 < now) → (w ++ bytes).Pairwise (fun a b => a.1 + T ≤ b.1) → (∀ x ∈ bytes, now ≤ x.1) →
    (r.run cap (RxEv.timeline now bytes ds)).all = r.all ++ onWire (RxEv.timeline now bytes ds) := by
  induction ds with
  | nil => intros; simp [RxEv.timeline, Rx.run, onWire]
  | cons d ds ih =>
    intro now s0 pre mid w bytes r hds hb hw1 hw2 hp hby
    obtain ⟨d, t⟩ := d
    have htd : bytes.takeWhile (fun x => decide (x.1 < now + d)) ++ bytes.dropWhile (fun x => decide (x.1 < now + d)) = bytes :=
      List.takeWhile_append_dropWhile
    simp only [RxEv.timeline, List.cons_append, rxRun_cons, onWire, rxRun_append, onWire_append, onWire_map, Rx.step]
    generalize htk : bytes.takeWhile (fun x => decide (x.1 < now + d)) = tk at *
    generalize hdr : bytes.dropWhile (fun x => decide (x.1 < now + d)) = dr at *
    have htk2 : ∀ x ∈ tk, x.1 < now + d := by
      intro x hx; rw [← htk] at hx
      have := List.all_takeWhile (l := bytes) (p := fun x => decide (x.1 < now + d))
      rw [List.all_eq_true] at this
      simpa using this x hx
    have htk1 : ∀ x ∈ tk, now ≤ x.1 := fun x hx => hby x (by rw [← htd]; simp [hx])
    have hpb : (tk ++ dr).Pairwise (fun a b => a.1 + T ≤ b.1) := by rw [htd]; exact (List.pairwise_append.1 hp).2.1
    have hdr1 : ∀ x ∈ dr, now + d ≤ x.1 := by
      intro x hx
      cases hdr' : dr with
      | nil => rw [hdr'] at hx; cases hx
      | cons y l =>
        have hy : now + d ≤ y.1 := by
          have := List.head?_dropWhile_not (fun x : Nat × Byte => decide (x.1 < now + d)) bytes
          rw [hdr, hdr'] at this
          simpa using this
        rw [hdr'] at hx hpb
        have hpl := (List.pairwise_append.1 hpb).2.1
        rw [List.pairwise_cons] at hpl
        rcases List.mem_cons.1 hx with rfl | hx
        · exact hy
        · have := hpl.1 x hx; omega
    cases hr : r.ring with
    | nil =>
      have e1 : r.turn t = r := by simp [Rx.turn, hr]
      have hlen : tk.length ≤ cap := by
        cases htke : tk with
        | nil => simp
        | cons x l =>
          have h1 := spaced_count (T := T) (now + d) tk now (List.pairwise_append.1 hpb).1 htk1 htk2 (by simp [htke])
          have h2 := hall (pre ++ mid) [(d, t)] ds (by simp [hds]) (by simp)
          simp [totalTime] at h2
          rw [← htke]
          have h3 : tk.length * T < (cap + 1) * T := by rw [Nat.add_mul]; omega
          have := Nat.lt_of_mul_lt_mul_right h3
          omega
      rw [e1, put_all cap tk r (by simp [hr]; exact hlen)]
      rw [ih (now + d) now (pre ++ mid) [(d, t)] tk dr _ (by simp [hds]) (.inr ⟨by simp, by simp [hr], by simp [totalTime]⟩) htk1 htk2
        hpb hdr1]
      simp [Rx.all, hr]
    | cons b ring =>
      rcases hb with hb | ⟨hm, hc, hnow⟩
      · rw [hr] at hb; cases hb
      have e1 : r.turn t = { ring := ring, seen := r.seen ++ [(t, b)] } := by simp [Rx.turn, hr]
      rw [hr, List.length_cons] at hc
      have hw1' : ∀ x ∈ w ++ tk, s0 ≤ x.1 := by
        intro x hx
        rcases List.mem_append.1 hx with hx | hx
        · exact hw1 x hx
        · have := htk1 x hx; omega
      have hw2' : ∀ x ∈ w ++ tk, x.1 < now + d := by
        intro x hx
        rcases List.mem_append.1 hx with hx | hx
        · have := hw2 x hx; omega
        · exact htk2 x hx
      have hp' : (w ++ tk ++ dr).Pairwise (fun a b => a.1 + T ≤ b.1) := by rw [List.append_assoc, htd]; exact hp
      have hlen : ring.length + tk.length ≤ cap := by
        by_cases hne : w ++ tk = []
        · simp only [List.append_eq_nil_iff] at hne
          rw [hne.1] at hc
          have : 0 < mid.length := List.length_pos_iff.2 hm
          simp at hc
          rw [hne.2]
          have : ring.length = 0 := by omega
          simp [this]
        · have h1 := spaced_count (T := T) (now + d) (w ++ tk) s0 (List.pairwise_append.1 hp').1 hw1' hw2' hne
          have h2 := hall pre (mid ++ [(d, t)]) ds (by simp [hds]) (by simp)
          rw [totalTime_append] at h2
          simp only [List.length_append, List.length_cons, List.length_nil, Nat.zero_add, Nat.add_sub_cancel] at h2
          have h3 : (w ++ tk).length * T < (mid.length + cap + 1) * T := by
            rw [Nat.add_mul (mid.length + cap)]
            simp [totalTime] at h2 hnow
            omega
          have := Nat.lt_of_mul_lt_mul_right h3
          simp only [List.length_append] at this
          omega
      rw [e1, put_all cap tk _ hlen]
      rw [ih (now + d) s0 pre (mid ++ [(d, t)]) (w ++ tk) dr _ (by simp [hds])
        (.inr ⟨by simp, by simp; omega, by rw [totalTime_append]; simp [totalTime] at hnow ⊢; omega⟩) hw1' hw2' hp' hdr1]
      simp [Rx.all, hr, bytesOf]

theorem timeline_wire {T : Nat} (ds : List (Nat × TimeVal)) : ∀ (now : Nat) (bytes : List (Nat × Byte)),
    bytes.Pairwise (fun a b => a.1 + T ≤ b.1) →
    onWire (RxEv.timeline now bytes ds) = ((bytes.filter fun x => decide (x.1 < now + totalTime ds ∧ ds ≠ [])).map Prod.snd) := by
  induction ds with
  | nil => intro now bytes _; simp [RxEv.timeline, onWire]
  | cons d ds ih =>
    intro now bytes hp
    obtain ⟨d, t⟩ := d
    have htd : bytes.takeWhile (fun x => decide (x.1 < now + d)) ++ bytes.dropWhile (fun x => decide (x.1 < now + d)) = bytes :=
      List.takeWhile_append_dropWhile
    simp only [RxEv.timeline, List.cons_append, onWire, onWire_append, onWire_map]
    have hp' := hp
    rw [← htd] at hp'
    rw [ih (now + d) _ (List.pairwise_append.1 hp').2.1]
    conv => rhs; rw [← htd]
    rw [List.filter_append, List.map_append]
    congr 2
    · symm
      rw [List.filter_eq_self]
      intro x hx
      have := List.all_takeWhile (l := bytes) (p := fun x => decide (x.1 < now + d))
      rw [List.all_eq_true] at this
      have := this x hx
      simp [totalTime] at this ⊢
      omega
    · apply List.filter_congr
      intro x hx
      have hx' : now + d ≤ x.1 := by
        cases hdr : bytes.dropWhile (fun x => decide (x.1 < now + d)) with
        | nil => rw [hdr] at hx; cases hx
        | cons y l =>
          have hy : now + d ≤ y.1 := by
            have := List.head?_dropWhile_not (fun x : Nat × Byte => decide (x.1 < now + d)) bytes
            rw [hdr] at this
            simpa using this
          rw [hdr] at hx hp'
          have hpl := (List.pairwise_append.1 hp').2.1
          rw [List.pairwise_cons] at hpl
          rcases List.mem_cons.1 hx with rfl | hx
          · exact hy
          · have := hpl.1 x hx; omega
      cases ds with
      | nil => simp [totalTime]; omega
      | cons e ds => simp [totalTime]; omega

/-- **C136** (how long the device may be busy): the bytes are at least `T` microseconds apart, and any `n` turns of the loop in a row
last together at most the time of `n - 1` bytes and of a full buffer.  Then all the bytes that come in before the end of the last turn
are decoded or wait to be. -/
theorem c136_time (cap T now : Nat) (hT : 0 < T) (ds : List (Nat × TimeVal)) (bytes : List (Nat × Byte)) (hne : ds ≠ [])
    (hb : bytes.Pairwise fun a b => a.1 + T ≤ b.1) (hnow : ∀ x ∈ bytes, now ≤ x.1)
    (hds : ∀ pre mid post, ds = pre ++ mid ++ post → mid ≠ [] → totalTime mid ≤ (mid.length - 1 + cap) * T) :
    bytesOf (Rx.run cap {} (RxEv.timeline now bytes ds)).seen ++ (Rx.run cap {} (RxEv.timeline now bytes ds)).ring =
      (bytes.filter fun x => x.1 < now + totalTime ds).map Prod.snd := by
  have h1 := timeline_run cap T ds hds hT ds now now [] [] [] bytes {} rfl (.inl rfl) (by simp) (by simp) hb hnow
  rw [timeline_wire ds now bytes hb] at h1
  simpa [Rx.all, bytesOf, hne] using h1

/-- By how much the turns last longer than a byte. -/
def excess (T : Nat) (ds : List (Nat × TimeVal)) : Nat := (ds.map fun d => d.1 - T).sum

theorem totalTime_excess (T : Nat) (l : List (Nat × TimeVal)) : totalTime l ≤ l.length * T + excess T l := by
  induction l with
  | nil => simp [totalTime]
  | cons d l ih =>
    simp only [totalTime, excess, List.map_cons, List.sum_cons, List.length_cons, Nat.add_mul, Nat.one_mul] at ih ⊢
    omega

/-- **C136** (slow turns): if what the turns last more than a byte is together less than the time of the bytes of the buffer but
one, nothing is lost. -/
theorem c136_slow (cap T now : Nat) (hT : 0 < T) (hcap : 0 < cap) (ds : List (Nat × TimeVal)) (bytes : List (Nat × Byte)) (hne : ds ≠ [])
    (hb : bytes.Pairwise fun a b => a.1 + T ≤ b.1) (hnow : ∀ x ∈ bytes, now ≤ x.1) (hds : excess T ds ≤ (cap - 1) * T) :
    bytesOf (Rx.run cap {} (RxEv.timeline now bytes ds)).seen ++ (Rx.run cap {} (RxEv.timeline now bytes ds)).ring =
      (bytes.filter fun x => x.1 < now + totalTime ds).map Prod.snd := by
  refine c136_time cap T now hT ds bytes hne hb hnow fun pre mid post he hm => ?_
  have h1 := totalTime_excess T mid
  have h2 : excess T mid ≤ excess T ds := by
    rw [he]; simp [excess]; omega
  have hl : 0 < mid.length := List.length_pos_iff.2 hm
  have h3 : mid.length * T + (cap - 1) * T = (mid.length - 1 + cap) * T := by
    rw [← Nat.add_mul]; congr 1; omega
  omega

/-- **C136** (two seconds): the meter sends at most 120 bytes in a second, the buffer is that of the core.  In a loop whose turns last
at most 8 ms, one turn of two seconds (a request to a slow server, for instance) loses nothing. -/
theorem c136_two_seconds (now : Nat) (before after : List (Nat × TimeVal)) (slow : Nat × TimeVal) (bytes : List (Nat × Byte))
    (hb : bytes.Pairwise fun a b => a.1 * 120 + 1000000 ≤ b.1 * 120) (hnow : ∀ x ∈ bytes, now ≤ x.1)
    (hfast : ∀ d ∈ before ++ after, d.1 ≤ 8000) (hslow : slow.1 ≤ 2000000) :
    let evs := RxEv.timeline now bytes (before ++ slow :: after)
    bytesOf (Rx.run 255 {} evs).seen ++ (Rx.run 255 {} evs).ring =
      (bytes.filter fun x => x.1 < now + totalTime (before ++ slow :: after)).map Prod.snd := by
  refine c136_slow 255 byteTime now (by decide) (by decide) _ bytes (by simp) (hb.imp fun h => by simp only [byteTime]; omega) hnow ?_
  have h0 : ∀ l : List (Nat × TimeVal), (∀ d ∈ l, d.1 ≤ 8000) → excess byteTime l = 0 := by
    intro l h
    induction l with
    | nil => rfl
    | cons d l ih =>
      have h1 := h d (by simp)
      have h2 := ih fun d hd => h d (by simp [hd])
      simp only [excess, List.map_cons, List.sum_cons] at h2 ⊢
      rw [h2]
      simp only [byteTime]; omega
  have h1 := h0 before fun d hd => hfast d (by simp [hd])
  have h2 := h0 after fun d hd => hfast d (by simp [hd])
  simp only [excess, List.map_append, List.map_cons, List.sum_append, List.sum_cons] at h1 h2 ⊢
  rw [h1, h2]
  simp only [byteTime]; omega

/-- Five bytes, of which three come in during the slow turn. -/
example : let bytes : List (Nat × Byte) := [(1000, 65), (10000, 66), (20000, 67), (30000, 68), (2005000, 69)]
    bytes.Pairwise (fun a b => a.1 * 120 + 1000000 ≤ b.1 * 120) ∧
    (Rx.run 255 {} (RxEv.timeline 0 bytes ([(5000, ⟨0, 0⟩)] ++ (2000000, ⟨0, 0⟩) :: [(300, ⟨2, 0⟩), (300, ⟨2, 0⟩)]))) =
      { ring := bs "DE", seen := [(⟨0, 0⟩, 65), (⟨2, 0⟩, 66), (⟨2, 0⟩, 67)] } := by decide

/-- And it is not always so: a turn that is too slow for a buffer of two bytes. -/
example : bytesOf (Rx.run 2 {} (RxEv.timeline 0 [(0, 65), (10, 66), (20, 67), (30, 68)] [(35, ⟨0, 0⟩), (1, ⟨0, 0⟩)])).seen = [67] := by
  decide

/-! ## The frames -/

/-- The same state, but for the time of the frame. -/
def ADec.same : ADec → ADec → Prop
  | .idle, .idle => True
  | .between _ acc, .between _ acc' => acc = acc'
  | .inGroup _ acc cur, .inGroup _ acc' cur' => acc = acc' ∧ cur = cur'
  | _, _ => False

theorem ADec.same_refl (a : ADec) : a.same a := by cases a <;> simp [ADec.same]

theorem step_same {a b : ADec} (h : a.same b) (t t' : TimeVal) (c : Byte) :
    (a.step t c).1.same (b.step t' c).1 ∧ (a.step t c).2.map Prod.snd = (b.step t' c).2.map Prod.snd := by
  simp only [ADec.step]
  by_cases h1 : c = STX
  · simp [h1, ADec.same]
  simp only [if_neg h1]
  cases a <;> cases b <;> simp only [ADec.same] at h
  · repeat' split
    all_goals simp [ADec.same]
  · subst h
    by_cases h2 : c = LF
    · simp [h2, ADec.same]
    by_cases h3 : c = CR
    · simp only [if_neg h2, if_pos h3]; simp [ADec.same]
    by_cases h4 : c = ETX
    · simp only [if_neg h2, if_neg h3, if_pos h4]
      refine ⟨trivial, ?_⟩
      split <;> rfl
    by_cases h5 : c = EOT
    · simp only [if_neg h2, if_neg h3, if_neg h4, if_pos h5]; simp [ADec.same]
    · simp [h2, h3, h4, h5, ADec.same]
  · obtain ⟨rfl, rfl⟩ := h
    by_cases h2 : c = LF
    · simp [h2, ADec.same]
    by_cases h3 : c = CR
    · simp only [if_neg h2, if_pos h3]
      split <;> simp [ADec.same]
    by_cases h4 : c = ETX
    · simp only [if_neg h2, if_neg h3, if_pos h4]; simp [ADec.same]
    by_cases h5 : c = EOT
    · simp only [if_neg h2, if_neg h3, if_neg h4, if_pos h5]; simp [ADec.same]
    · simp only [if_neg h2, if_neg h3, if_neg h4, if_neg h5]
      split <;> simp [ADec.same]

/-- The state after a history. -/
abbrev stateOf (h : List (TimeVal × Byte)) : ADec := (ADec.idle.run none h).1

/-- What is published along a history, without the dates. -/
abbrev framesOf (h : List (TimeVal × Byte)) : List Str := (ADec.idle.outs h).map Prod.snd

theorem stateOf_snoc (h : List (TimeVal × Byte)) (t : TimeVal) (c : Byte) :
    stateOf (h ++ [(t, c)]) = ((stateOf h).step t c).1 := by
  simp [stateOf, run_append, ADec.run]

theorem framesOf_snoc (h : List (TimeVal × Byte)) (t : TimeVal) (c : Byte) :
    framesOf (h ++ [(t, c)]) = framesOf h ++ (((stateOf h).step t c).2.map Prod.snd).toList := by
  simp only [framesOf, outs_append, List.map_append, ADec.outs, List.append_nil, stateOf]
  cases ((ADec.idle.run none h).1.step t c).2 <;> rfl

theorem frames_of_bytes {h : List (TimeVal × Byte)} : ∀ {h' : List (TimeVal × Byte)}, bytesOf h = bytesOf h' →
    framesOf h = framesOf h' ∧ (stateOf h).same (stateOf h') := by
  induction h using snoc_induction with
  | h0 =>
    intro h' e
    have : h' = [] := by simpa [bytesOf] using e.symm
    subst this
    exact ⟨rfl, trivial⟩
  | h1 h x ih =>
    intro h' e
    obtain ⟨t, c⟩ := x
    rcases List.eq_nil_or_concat h' with rfl | ⟨h'', y, rfl⟩
    · simp [bytesOf] at e
    · obtain ⟨t', c'⟩ := y
      simp only [List.concat_eq_append] at e ⊢
      simp only [bytesOf, List.map_append, List.map_cons, List.map_nil] at e
      obtain ⟨e1, e2⟩ := List.append_inj' e rfl
      simp only [List.cons.injEq, and_true] at e2
      subst e2
      obtain ⟨i1, i2⟩ := ih e1
      obtain ⟨s1, s2⟩ := step_same i2 t t' c
      rw [framesOf_snoc, framesOf_snoc, stateOf_snoc, stateOf_snoc, i1, s2]
      exact ⟨rfl, s1⟩

theorem step_idle {t : TimeVal} {c : Byte} (h : c ≠ STX) : ADec.idle.step t c = (.idle, none) := by
  simp only [ADec.step, if_neg h]
  repeat' split
  all_goals rfl

theorem idle_between {h : List (TimeVal × Byte)} (hb : BetweenFrames (bytesOf h)) : stateOf h = .idle := by
  suffices key : stateOf h ≠ .idle → ∃ pre post, bytesOf h = pre ++ 2 :: post ∧ (3 : Byte) ∉ post by
    refine Classical.byContradiction fun hn => ?_
    obtain ⟨pre, post, e, h3⟩ := key hn
    exact h3 (hb pre post e)
  clear hb
  induction h using snoc_induction with
  | h0 => intro hn; exact absurd rfl hn
  | h1 h x ih =>
    obtain ⟨t, c⟩ := x
    intro hn
    rw [stateOf_snoc] at hn
    by_cases h1 : c = STX
    · subst h1
      exact ⟨bytesOf h, [], by simp [bytesOf, STX], by simp⟩
    have h2 : stateOf h ≠ .idle := by
      intro e
      rw [e, step_idle h1] at hn
      exact hn rfl
    have h3 : c ≠ ETX := by
      rintro rfl
      apply hn
      cases stateOf h <;> rfl
    obtain ⟨pre, post, e, hp⟩ := ih h2
    refine ⟨pre, post ++ [c], by simp [bytesOf] at e ⊢; simp [e], ?_⟩
    simp only [List.mem_append, List.mem_singleton, not_or]
    exact ⟨hp, fun e => h3 e.symm⟩

theorem idle_frames {h : List (TimeVal × Byte)} {t : TimeVal} {c : Byte} (hi : stateOf h = .idle) :
    framesOf (h ++ [(t, c)]) = framesOf h := by
  rw [framesOf_snoc, hi]
  by_cases hc : c = STX
  · subst hc; simp [ADec.step]
  · rw [step_idle hc]; simp

theorem frames_grow (h : List (TimeVal × Byte)) (h' : List (TimeVal × Byte)) : (framesOf h).Sublist (framesOf (h ++ h')) := by
  simp only [framesOf, outs_append, List.map_append]
  exact List.sublist_append_left _ _

theorem held_inv (cap : Nat) (evs : List RxEv)
    (hloss : ∀ pre b post, evs = pre ++ .byte b :: post → (Rx.run cap {} pre).ring.length = cap →
      BetweenFrames (bytesOf (Rx.run cap {} pre).seen)) :
    ∃ w : List (TimeVal × Byte), onWire evs = bytesOf w ++ (Rx.run cap {} evs).ring ∧
      (framesOf (Rx.run cap {} evs).seen).Sublist (framesOf w) ∧
      ((stateOf (Rx.run cap {} evs).seen).same (stateOf w) ∨ stateOf (Rx.run cap {} evs).seen = .idle) := by
  induction evs using snoc_induction with
  | h0 => exact ⟨[], rfl, .refl _, .inr rfl⟩
  | h1 evs e ih =>
    obtain ⟨w, i1, i2, i3⟩ := ih fun pre b post he hl => hloss pre b (post ++ [e]) (by simp [he]) hl
    have hcap := ring_le cap evs {} (Nat.zero_le _)
    rw [rxRun_append]
    generalize hr : Rx.run cap {} evs = r at *
    simp only [onWire_append, Rx.run, List.foldl_cons, List.foldl_nil]
    cases e with
    | byte b =>
      simp only [Rx.step, Rx.put, onWire]
      split
      · exact ⟨w, by simp [i1], i2, i3⟩
      · next hlt =>
        have hidle := idle_between (hr ▸ hloss evs b [] rfl (by rw [hr]; omega))
        cases hx : r.ring ++ [b] with
        | nil => simp at hx
        | cons x l =>
          refine ⟨w ++ [(⟨0, 0⟩, x)], ?_, ?_, .inr hidle⟩
          · simp [i1, bytesOf, hx]
          · exact i2.trans (frames_grow _ _)
    | turn t =>
      simp only [Rx.step, Rx.turn, onWire, List.append_nil]
      split
      · exact ⟨w, i1, i2, i3⟩
      · next b ring h0 =>
        refine ⟨w ++ [(t, b)], by simp [i1, h0, bytesOf], ?_, ?_⟩
        · simp only
          rw [framesOf_snoc w]
          rcases i3 with i3 | i3
          · rw [framesOf_snoc, (step_same i3 t t b).2]
            exact List.Sublist.append i2 (.refl _)
          · rw [idle_frames i3]
            exact i2.trans (List.sublist_append_left _ _)
        · simp only
          rw [stateOf_snoc, stateOf_snoc]
          rcases i3 with i3 | i3
          · exact .inl (step_same i3 t t b).1
          · rw [i3]
            by_cases hb : b = STX
            · subst hb
              left
              simp [ADec.step, ADec.same]
            · right; rw [step_idle hb]

/-- **C136** (held between two frames): as long as bytes are lost only while the decoder has no frame begun, whatever the device
publishes is what it would have published without being held: some frames are missing, none is wrong, none comes twice.
`wire` is what comes in, read without delay by a clock of any kind. -/
theorem c136_held_partial (mem : Mem) (hm : mem.length = 350) (cap : Nat) (evs : List RxEv) (wire : List (TimeVal × Byte))
    (hw : bytesOf wire = onWire evs)
    (hloss : ∀ pre b post, evs = pre ++ .byte b :: post → (Rx.run cap {} pre).ring.length = cap →
      BetweenFrames (bytesOf (Rx.run cap {} pre).seen)) :
    ∃ l l', (Dec.init mem).trace (Rx.run cap {} evs).seen = .ok l ∧ (Dec.init mem).trace wire = .ok l' ∧
      (l.map Prod.snd).Sublist (l'.map Prod.snd) := by
  rw [trace_outs _ (init_sim hm), trace_outs _ (init_sim hm)]
  refine ⟨_, _, rfl, rfl, ?_⟩
  obtain ⟨w, i1, i2, -⟩ := held_inv cap evs hloss
  have h1 : bytesOf wire = bytesOf (w ++ (Rx.run cap {} evs).ring.map fun b => (⟨0, 0⟩, b)) := by
    rw [hw, i1]; simp [bytesOf, Function.comp_def]
  have h2 : (framesOf (Rx.run cap {} evs).seen).Sublist (framesOf wire) := by
    rw [(frames_of_bytes h1).1]
    exact i2.trans (frames_grow _ _)
  have := h2.map (fun c : Str => c.map some)
  simpa [framesOf, Function.comp_def] using this

theorem between_etx {s : Str} (h : s.getLast? = some 3) : BetweenFrames s := by
  rintro pre post rfl
  cases post with
  | nil => simp at h
  | cons x post =>
    rw [List.getLast?_append, List.getLast?_cons_cons] at h
    cases hl : (x :: post).getLast? with
    | none => simp at hl
    | some y =>
      rw [hl] at h
      have hy : y = 3 := by simpa using h
      subst hy
      exact List.mem_of_getLast? hl

/-- **C136** (held by the notifications): the requests that a frame triggers are sent from within the turn that reads its last
byte.  However long they last, if it is only there that bytes are lost then nothing wrong is published. -/
theorem c136_notified_partial (mem : Mem) (hm : mem.length = 350) (cap : Nat) (evs : List RxEv) (wire : List (TimeVal × Byte))
    (hw : bytesOf wire = onWire evs)
    (hloss : ∀ pre b post, evs = pre ++ .byte b :: post → (Rx.run cap {} pre).ring.length = cap →
      (bytesOf (Rx.run cap {} pre).seen).getLast? = some ETX) :
    ∃ l l', (Dec.init mem).trace (Rx.run cap {} evs).seen = .ok l ∧ (Dec.init mem).trace wire = .ok l' ∧
      (l.map Prod.snd).Sublist (l'.map Prod.snd) :=
  c136_held_partial mem hm cap evs wire hw fun pre b post he hl => between_etx (hloss pre b post he hl)

/-- **C136** (nothing lost, nothing missing): if the bytes never outnumber the turns by more than the buffer holds, the device
publishes what the wire carries, but for the bytes that still wait. -/
theorem c136_published (mem : Mem) (hm : mem.length = 350) (cap : Nat) (evs : List RxEv) (wire : List (TimeVal × Byte))
    (hw : bytesOf wire = onWire evs)
    (h : ∀ pre mid post, evs = pre ++ mid ++ post → (onWire mid).length ≤ turnsOf mid + cap) :
    ∃ l l', (Dec.init mem).trace (Rx.run cap {} evs).seen = .ok l ∧ (Dec.init mem).trace wire = .ok l' ∧
      l.map Prod.snd <+: l'.map Prod.snd ∧ ((Rx.run cap {} evs).ring = [] → l.map Prod.snd = l'.map Prod.snd) := by
  rw [trace_outs _ (init_sim hm), trace_outs _ (init_sim hm)]
  refine ⟨_, _, rfl, rfl, ?_⟩
  have hc := (c136_complete cap evs).2 h
  have h1 : bytesOf wire = bytesOf ((Rx.run cap {} evs).seen ++ (Rx.run cap {} evs).ring.map fun b => (⟨0, 0⟩, b)) := by
    rw [hw, ← hc]; simp [bytesOf, Function.comp_def]
  have h2 := (frames_of_bytes h1).1
  have h3 : (ADec.idle.outs wire).map (fun p => p.2.map some) = (framesOf wire).map fun c => c.map some := by
    simp [framesOf, Function.comp_def]
  have h4 : (ADec.idle.outs (Rx.run cap {} evs).seen).map (fun p => p.2.map some) =
      (framesOf (Rx.run cap {} evs).seen).map fun c => c.map some := by
    simp [framesOf, Function.comp_def]
  simp only [List.map_map, Function.comp_def]
  rw [h3, h4, h2]
  refine ⟨?_, fun hr => by rw [hr]; simp⟩
  simp only [framesOf, outs_append, List.map_append]
  exact List.prefix_append _ _

theorem publications_sent {h : List (TimeVal × Byte)} {l : List (TimeVal × Str)} (hp : Publications h l) :
    ∀ p ∈ l, ∃ gs, ValidFrame gs ∧ frameWire gs <:+: bytesOf h ∧ p.2 = storedAll gs := by
  induction hp with
  | nil => intro p hp; cases hp
  | @silent h l x _ _ ih =>
    intro p hp
    obtain ⟨gs, h1, h2, h3⟩ := ih p hp
    exact ⟨gs, h1, h2.trans (by simp only [bytesOf, List.map_append]; exact (List.prefix_append _ _).isInfix), h3⟩
  | @frame h l x ts gs _ he ih =>
    intro p hp
    rcases List.mem_append.1 hp with hp | hp
    · obtain ⟨gs, h1, h2, h3⟩ := ih p hp
      exact ⟨gs, h1, h2.trans (by simp only [bytesOf, List.map_append]; exact (List.prefix_append _ _).isInfix), h3⟩
    · obtain rfl : p = (ts, storedAll gs) := by simpa using hp
      obtain ⟨pre, body, e, hb, hv⟩ := he
      refine ⟨gs, hv, ?_, rfl⟩
      rw [e, ← hb]
      simp only [bytesOf, List.map_append, List.map_cons]
      exact (List.suffix_append _ _).isInfix

/-- A notification that lasts too long, with a buffer of 4 bytes: `AB` is lost, and the frame that comes next is read. -/
example : let evs : List RxEv := [.byte 2, .turn ⟨0, 0⟩, .byte 3, .turn ⟨0, 0⟩] ++ (bs "AB" ++ [3, 2, 10, 65]).map .byte ++
      List.replicate 4 (.turn ⟨0, 0⟩)
    bytesOf (Rx.run 4 {} evs).seen = [2, 3, 3, 2, 10, 65] ∧
      (bytesOf (Rx.run 4 {} (evs.take 8)).seen).getLast? = some ETX ∧ (Rx.run 4 {} (evs.take 8)).ring.length = 4 := by decide

/-- **C136** (what is published has been sent): under the same hypothesis, the content of each frame that is published is that of a
valid frame whose bytes stand together on the wire. -/
theorem c136_sent_partial (mem : Mem) (hm : mem.length = 350) (cap : Nat) (evs : List RxEv)
    (hloss : ∀ pre b post, evs = pre ++ .byte b :: post → (Rx.run cap {} pre).ring.length = cap →
      BetweenFrames (bytesOf (Rx.run cap {} pre).seen)) :
    ∃ l, (Dec.init mem).trace (Rx.run cap {} evs).seen = .ok l ∧
      ∀ p ∈ l, ∃ gs, ValidFrame gs ∧ frameWire gs <:+: onWire evs ∧ p.2 = (storedAll gs).map some := by
  have hw : bytesOf ((onWire evs).map fun b => ((⟨0, 0⟩ : TimeVal), b)) = onWire evs := by simp [bytesOf, Function.comp_def]
  obtain ⟨l, l', h1, h2, h3⟩ := c136_held_partial mem hm cap evs _ hw hloss
  obtain ⟨l'', h4, h5⟩ := c07_publications mem hm ((onWire evs).map fun b => ((⟨0, 0⟩ : TimeVal), b))
  rw [h2] at h5
  cases h5
  refine ⟨l, h1, fun p hp => ?_⟩
  have := h3.subset (List.mem_map_of_mem (f := Prod.snd) hp)
  simp only [List.map_map, List.mem_map, Function.comp_def] at this
  obtain ⟨q, hq, e⟩ := this
  obtain ⟨gs, g1, g2, g3⟩ := publications_sent h4 q hq
  rw [hw] at g2
  exact ⟨gs, g1, g2, by rw [← e, g3]⟩

theorem frames_frame (h1 h2 : List (TimeVal × Byte)) {hf : List (TimeVal × Byte)} {gs : List RawGroup} (hv : ValidFrame gs)
    (hx : bytesOf hf = frameWire gs) : storedAll gs ∈ framesOf (h1 ++ hf ++ h2) := by
  have hx' := hx
  rw [frameWire, List.cons_append] at hx
  obtain ⟨ts, body, rfl, hb⟩ := bytesOf_cons hx
  have hx2 : 2 :: bytesOf body = frameWire gs := by rw [← hx']; rfl
  simp only [framesOf, outs_append, outs_frame hv hx2]
  simp

/-- **C136** (the device recovers): whatever it has lost before, a frame that comes in while the bytes do not outnumber the turns by
more than there is room is published once it has been read. -/
theorem c136_recovers (mem : Mem) (hm : mem.length = 350) (cap : Nat) (old evs : List RxEv) (gs : List RawGroup) (noise rest : Str)
    (hv : ValidFrame gs) (hw : onWire evs = noise ++ frameWire gs ++ rest)
    (h1 : ∀ pre post, evs = pre ++ post → (Rx.run cap {} old).ring.length + (onWire pre).length ≤ turnsOf pre + cap)
    (h2 : ∀ pre mid post, evs = pre ++ mid ++ post → (onWire mid).length ≤ turnsOf mid + cap)
    (hread : (Rx.run cap {} (old ++ evs)).ring.length ≤ rest.length) :
    ∃ l, (Dec.init mem).trace (Rx.run cap {} (old ++ evs)).seen = .ok l ∧ (storedAll gs).map some ∈ l.map Prod.snd := by
  have ha := c136_after cap old evs h1 h2
  rw [trace_outs _ (init_sim hm)]
  refine ⟨_, rfl, ?_⟩
  have hin : storedAll gs ∈ framesOf (Rx.run cap {} (old ++ evs)).seen := by
    rw [hw] at ha
    generalize (Rx.run cap {} (old ++ evs)).seen = s at *
    generalize (Rx.run cap {} (old ++ evs)).ring = r at *
    generalize bytesOf (Rx.run cap {} old).seen ++ (Rx.run cap {} old).ring = o at *
    have e1 : (o ++ noise ++ frameWire gs) ++ rest = bytesOf s ++ r := by rw [ha]; simp
    -- what waits is the end of `rest`
    have hle : (o ++ noise ++ frameWire gs).length ≤ (bytesOf s).length := by
      have := congrArg List.length e1
      simp only [List.length_append] at this ⊢
      omega
    have hp : o ++ noise ++ frameWire gs <+: bytesOf s :=
      List.prefix_of_prefix_length_le (by rw [← e1]; exact List.prefix_append _ _) (List.prefix_append _ _) hle
    obtain ⟨tail, ht⟩ := hp
    have e2 : bytesOf s = (o ++ noise) ++ (frameWire gs ++ tail) := by rw [← ht]; simp
    obtain ⟨s1, s2, rfl, -, e3⟩ := bytesOf_split e2
    obtain ⟨s3, s4, rfl, e4, -⟩ := bytesOf_split e3
    rw [← List.append_assoc]
    exact frames_frame s1 s4 hv e4
  simp only [List.map_map, List.mem_map, Function.comp_def]
  simp only [framesOf, List.mem_map] at hin
  obtain ⟨p, hp, e⟩ := hin
  exact ⟨p, hp, by rw [e]⟩

/-! ## Held in the middle of a frame -/

namespace Held

/-- The frame of the tests of the project (test/mock.cpp:17-30), with the power that is given and its checksum. -/
def frame (papp : Str) (check : Byte) : List RawGroup :=
  [⟨bs "ADCO 111111111111", 32, 35⟩, ⟨bs "OPTARIF HC..", 32, 60⟩, ⟨bs "ISOUSC 30", 32, 57⟩, ⟨bs "HCHC 052890470", 32, 41⟩,
    ⟨bs "HCHP 049126843", 32, 56⟩, ⟨bs "PTEC HP..", 32, 32⟩, ⟨bs "IINST 008", 32, 95⟩, ⟨bs "IMAX 042", 32, 69⟩,
    ⟨bs "PAPP " ++ papp, 32, check⟩, ⟨bs "HHPHC D", 32, 47⟩, ⟨bs "MOTDETAT 000000", 32, 66⟩]

/-- 2100 VA, and then 1234 VA. -/
def sent : Str := frameWire (frame (bs "02100") 36) ++ (List.replicate 3 (frameWire (frame (bs "01234") 43))).flatten

/-- The beginning of the first frame is read as it comes, up to `PAPP 021`; the program is then held while 425 bytes come in, for
about three and a half seconds; and then it reads. -/
def events : List RxEv :=
  (sent.take 134).flatMap (fun b => [.byte b, .turn ⟨0, 0⟩]) ++ ((sent.drop 134).take (170 + 255)).map .byte ++
    List.replicate 36 (.turn ⟨0, 0⟩)

end Held

/-- **C136** is false when the program is held in the middle of a frame (by a page that a slow client reads, a search for networks):
the meter says 2100 VA and then 1234 VA, each time with the right checksum, and the device publishes 2134 VA, which the meter has
never sent.  The buffer has overrun, and the end of a later frame has been taken for that of the frame that had been begun. -/
theorem c136_refuted (mem : Mem) (hm : mem.length = 350) :
    ValidFrame (Held.frame (bs "02100") 36) ∧ ValidFrame (Held.frame (bs "01234") 43) ∧
    onWire Held.events <+: Held.sent ∧ ¬ bs "02134" <:+: onWire Held.events ∧
    ∃ t content, (Dec.init mem).trace (Rx.run 255 {} Held.events).seen = .ok [(t, content.map some)] ∧
      lookup (bs "PAPP") (pairs content) = some (bs "02134") := by
  refine ⟨?_, ?_, ?_, ?_, ?_⟩
  · refine ⟨by decide, fun g hg => ?_, by simp only [Held.frame, Fits, and_true]; decide +kernel⟩
    simp only [Held.frame, List.mem_cons, List.not_mem_nil, or_false] at hg
    rcases hg with rfl | rfl | rfl | rfl | rfl | rfl | rfl | rfl | rfl | rfl | rfl
    all_goals exact ⟨by decide, by decide, by decide⟩
  · refine ⟨by decide, fun g hg => ?_, by simp only [Held.frame, Fits, and_true]; decide +kernel⟩
    simp only [Held.frame, List.mem_cons, List.not_mem_nil, or_false] at hg
    rcases hg with rfl | rfl | rfl | rfl | rfl | rfl | rfl | rfl | rfl | rfl | rfl
    all_goals exact ⟨by decide, by decide, by decide⟩
  · rw [← List.isPrefixOf_iff_prefix]; decide +kernel
  · rw [← isIn_iff]; decide +kernel
  · refine ⟨⟨0, 0⟩, storedAll (Held.frame (bs "02134") 43), ?_, by decide +kernel⟩
    rw [trace_outs _ (init_sim hm)]
    have : ADec.idle.outs (Rx.run 255 {} Held.events).seen = [(⟨0, 0⟩, storedAll (Held.frame (bs "02134") 43))] := by
      decide +kernel
    rw [this]; rfl
