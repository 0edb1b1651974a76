import Verif.Model.Influx
import Verif.Props.Gauges

/-!
# C92: the dashboard records the meter
-/

namespace Wifinfo

namespace Spec

/-- The measure of a frame: the date, the numbers the meter gives for these labels, the tariff without its dots. -/
structure Records (gs : List MeterGroup) (iso : Str) (p : Point) : Prop where
  time : (∀ g ∈ gs, g.label ≠ bs "timestamp") → p.time = .str iso
  host : ∀ v, Says gs (bs "ADCO") v → numeral v = true → p.host = .int (decVal v)
  hchc : ∀ v, Says gs (bs "HCHC") v → numeral v = true → p.hchc = .int (decVal v)
  hchp : ∀ v, Says gs (bs "HCHP") v → numeral v = true → p.hchp = .int (decVal v)
  papp : ∀ v, Says gs (bs "PAPP") v → numeral v = true → p.papp = .int (decVal v)
  iinst : ∀ v, Says gs (bs "IINST") v → numeral v = true → p.iinst = .int (decVal v)
  ptec : ∀ v, Says gs (bs "PTEC") v → numeral (dropDots v) = false → p.ptec = .str (dropDots v)

/-- The meter of a contract with peak and off-peak hours: it gives all that the dashboard records. -/
def PeakMeter (gs : List MeterGroup) : Prop :=
  ∀ label ∈ [bs "ADCO", bs "HCHC", bs "HCHP", bs "PAPP", bs "IINST", bs "PTEC"], ∃ g ∈ gs, g.label = label

/-- The period of `freq` seconds a time (in microseconds) belongs to. -/
def period (freq t : Nat) : Nat := t / 1000000 / freq

/-- The measure a message contains. -/
def Bears (data : Str) (p : Point) : Prop := ∃ v, parseJson data = some v ∧ pointOf v = some p

/-- The date of an answer. -/
def DatedAs (body iso : Str) : Prop := ∃ v, parseJson body = some v ∧ jsGet v (bs "timestamp") = some (.str iso)

/-- The last answer with the code 200 has this date. -/
def LastDate (as : List (Nat × Str)) (iso : Str) : Prop :=
  ∃ l1 body l2, as = l1 ++ (200, body) :: l2 ∧ DatedAs body iso ∧ ∀ a ∈ l2, a.1 ≠ 200

end Spec
open Spec

/-! ## Lemmas -/

theorem get_dict (gs : List MeterGroup) (iso sec label : Str) (h1 : label ≠ bs "timestamp") (h2 : label ≠ bs "seconds") :
    (∃ v, jsGet (frameDict iso sec none (meterPairs gs)) label = some v) ↔ ∃ g ∈ gs, g.label = label := by
  simp only [frameDict, jsGet, Option.map_eq_some_iff]
  constructor
  · rintro ⟨v, p, hf, rfl⟩
    have hm := List.mem_of_find?_eq_some hf
    have hn : p.1 = label := by simpa using List.find?_some hf
    simp only [List.append_nil, List.mem_reverse, List.mem_append, List.mem_cons, List.not_mem_nil, or_false,
      List.mem_map] at hm
    rcases hm with (rfl | rfl) | ⟨q, hq, rfl⟩
    · exact absurd hn.symm h1
    · exact absurd hn.symm h2
    · obtain ⟨g, hg, rfl⟩ := List.mem_map.1 hq
      exact ⟨g, hg, hn⟩
  · rintro ⟨g, hg, rfl⟩
    cases hf : List.find? (fun p : Str × JVal => p.1 == g.label)
      (([(bs "timestamp", JVal.str iso), (bs "seconds", JVal.str sec)] ++ [] ++
        (meterPairs gs).map fun p : Str × Str => (p.1, groupJson p.2)).reverse) with
    | none =>
      exfalso
      have := List.find?_eq_none.1 hf (g.label, groupJson (dropDots g.value)) (by
        simp only [List.mem_reverse, List.mem_append]
        exact Or.inr (List.mem_map.2 ⟨(g.label, dropDots g.value), List.mem_map.2 ⟨g, hg, rfl⟩, rfl⟩))
      simp at this
    | some p => exact ⟨p.2, p, rfl, rfl⟩

theorem get_time (gs : List MeterGroup) (iso sec : Str) :
    (∃ v, jsGet (frameDict iso sec none (meterPairs gs)) (bs "timestamp") = some v) ∧
    ((∀ g ∈ gs, g.label ≠ bs "timestamp") →
      jsGet (frameDict iso sec none (meterPairs gs)) (bs "timestamp") = some (.str iso)) := by
  simp only [frameDict, jsGet, List.append_nil, List.reverse_append, List.find?_append]
  cases hf : List.find? (fun p : Str × JVal => p.1 == bs "timestamp")
      (((meterPairs gs).map fun p : Str × Str => (p.1, groupJson p.2)).reverse) with
  | none => exact ⟨⟨_, rfl⟩, fun _ => rfl⟩
  | some p =>
    refine ⟨⟨_, rfl⟩, fun h => ?_⟩
    have hm := List.mem_of_find?_eq_some hf
    have hn : p.1 = bs "timestamp" := by simpa using List.find?_some hf
    rw [List.mem_reverse] at hm
    obtain ⟨q, hq, rfl⟩ := List.mem_map.1 hm
    obtain ⟨g, hg, rfl⟩ := List.mem_map.1 hq
    exact absurd hn (h g hg)

theorem pointOf_iff (v : JVal) (p : Point) : pointOf v = some p ↔
    jsGet v (bs "ADCO") = some p.host ∧ jsGet v (bs "timestamp") = some p.time ∧ jsGet v (bs "HCHC") = some p.hchc ∧
    jsGet v (bs "HCHP") = some p.hchp ∧ jsGet v (bs "PAPP") = some p.papp ∧ jsGet v (bs "IINST") = some p.iinst ∧
    jsGet v (bs "PTEC") = some p.ptec := by
  unfold pointOf
  cases jsGet v (bs "ADCO") <;> cases jsGet v (bs "timestamp") <;> cases jsGet v (bs "HCHC") <;>
    cases jsGet v (bs "HCHP") <;> cases jsGet v (bs "PAPP") <;> cases jsGet v (bs "IINST") <;>
    cases jsGet v (bs "PTEC") <;> try simp
  rename_i a b c d e f g
  constructor
  · rintro rfl; exact ⟨rfl, rfl, rfl, rfl, rfl, rfl, rfl⟩
  · rintro ⟨rfl, rfl, rfl, rfl, rfl, rfl, rfl⟩; rfl

/-- What is recorded for a frame, and when. -/
theorem point_frame (gs : List MeterGroup) (iso sec : Str) :
    ((∃ p, pointOf (frameDict iso sec none (meterPairs gs)) = some p) ↔ PeakMeter gs) ∧
    ∀ p, pointOf (frameDict iso sec none (meterPairs gs)) = some p → Records gs iso p := by
  constructor
  · constructor
    · rintro ⟨p, hp⟩ label hl
      obtain ⟨h1, h2, h3, h4, h5, h6, h7⟩ := (pointOf_iff _ _).1 hp
      simp only [List.mem_cons, List.not_mem_nil, or_false] at hl
      rcases hl with rfl | rfl | rfl | rfl | rfl | rfl
      · exact (get_dict gs iso sec _ (by decide) (by decide)).1 ⟨_, h1⟩
      · exact (get_dict gs iso sec _ (by decide) (by decide)).1 ⟨_, h3⟩
      · exact (get_dict gs iso sec _ (by decide) (by decide)).1 ⟨_, h4⟩
      · exact (get_dict gs iso sec _ (by decide) (by decide)).1 ⟨_, h5⟩
      · exact (get_dict gs iso sec _ (by decide) (by decide)).1 ⟨_, h6⟩
      · exact (get_dict gs iso sec _ (by decide) (by decide)).1 ⟨_, h7⟩
    · intro h
      obtain ⟨x1, h1⟩ := (get_dict gs iso sec _ (by decide) (by decide)).2 (h (bs "ADCO") (by simp))
      obtain ⟨x3, h3⟩ := (get_dict gs iso sec _ (by decide) (by decide)).2 (h (bs "HCHC") (by simp))
      obtain ⟨x4, h4⟩ := (get_dict gs iso sec _ (by decide) (by decide)).2 (h (bs "HCHP") (by simp))
      obtain ⟨x5, h5⟩ := (get_dict gs iso sec _ (by decide) (by decide)).2 (h (bs "PAPP") (by simp))
      obtain ⟨x6, h6⟩ := (get_dict gs iso sec _ (by decide) (by decide)).2 (h (bs "IINST") (by simp))
      obtain ⟨x7, h7⟩ := (get_dict gs iso sec _ (by decide) (by decide)).2 (h (bs "PTEC") (by simp))
      obtain ⟨⟨x2, h2⟩, -⟩ := get_time gs iso sec
      exact ⟨⟨x1, x2, x3, x4, x5, x6, x7⟩, (pointOf_iff _ _).2 ⟨h1, h2, h3, h4, h5, h6, h7⟩⟩
  · intro p hp
    obtain ⟨h1, h2, h3, h4, h5, h6, h7⟩ := (pointOf_iff _ _).1 hp
    have num : ∀ {label v : Str} {x : JVal}, jsGet (frameDict iso sec none (meterPairs gs)) label = some x →
        Says gs label v → numeral v = true → x = .int (decVal v) := by
      intro label v x hx hs hv
      rw [get_number hs hv] at hx
      exact (Option.some.inj hx).symm
    refine ⟨fun h => ?_, fun v => num h1, fun v => num h3, fun v => num h4, fun v => num h5, fun v => num h6, ?_⟩
    · rw [(get_time gs iso sec).2 h] at h2
      exact (Option.some.inj h2).symm
    · intro v hs hv
      rw [get_says hs, groupJson, if_neg (by rw [hv]; simp)] at h7
      exact (Option.some.inj h7).symm

theorem Collector.message_eq {freq : Nat} {s : Collector} (hr : s.running = true) {t : Nat} {data : Str} {p : Point}
    (h : Bears data p) : s.message freq t data =
      if period freq t = s.last then (s, []) else ({ s with last := period freq t }, [(t, p)]) := by
  obtain ⟨v, h1, h2⟩ := h
  have e : t / (1000000 * freq) = period freq t := by rw [period, Nat.div_div_eq_div_mul]
  unfold Collector.message
  rw [if_neg (by rw [hr]; simp)]
  simp only [e, h1, h2]

theorem bears_unique {d : Str} {p q : Point} (h1 : Bears d p) (h2 : Bears d q) : p = q := by
  obtain ⟨v, a, b⟩ := h1
  obtain ⟨w, c, e⟩ := h2
  rw [a] at c
  obtain rfl := Option.some.inj c
  rw [b] at e
  exact Option.some.inj e

theorem period_mono {freq t u : Nat} (h : t ≤ u) : period freq t ≤ period freq u :=
  Nat.div_le_div_right (Nat.div_le_div_right h)

theorem Collector.run_from (freq : Nat) : ∀ (ms : List (Nat × Str)) (s : Collector), s.running = true →
    (∀ m ∈ ms, ∃ p, Bears m.2 p) → (ms.Pairwise fun x y => x.1 ≤ y.1) → (∀ m ∈ ms, s.last ≤ period freq m.1) →
    (s.run freq (ms.map fun m => .message m.1 m.2)).1.running = true ∧
    ((s.run freq (ms.map fun m => .message m.1 m.2)).2.Pairwise fun x y => period freq x.1 ≠ period freq y.1) ∧
    ∀ t p, (t, p) ∈ (s.run freq (ms.map fun m => .message m.1 m.2)).2 ↔ period freq t ≠ s.last ∧
      ∃ l1 d l2, ms = l1 ++ (t, d) :: l2 ∧ Bears d p ∧ ∀ m ∈ l1, period freq m.1 ≠ period freq t := by
  intro ms
  induction ms with
  | nil =>
    intro s hr _ _ _
    refine ⟨hr, by simp [Collector.run], fun t p => ?_⟩
    simp [Collector.run]
  | cons m r ih =>
    intro s hr hp ht hl
    obtain ⟨t0, d0⟩ := m
    obtain ⟨p0, hp0⟩ := hp _ (List.mem_cons_self)
    have hpr : ∀ m ∈ r, ∃ p, Bears m.2 p := fun m hm => hp m (List.mem_cons_of_mem _ hm)
    obtain ⟨ht0, htr⟩ := List.pairwise_cons.1 ht
    have hl0 : s.last ≤ period freq t0 := hl _ (List.mem_cons_self)
    simp only [List.map_cons, Collector.run, Collector.step]
    rw [Collector.message_eq hr hp0]
    by_cases he : period freq t0 = s.last
    · rw [if_pos he]
      obtain ⟨g1, g2, g3⟩ := ih s hr hpr htr (fun m hm => hl m (List.mem_cons_of_mem _ hm))
      refine ⟨g1, g2, fun t p => ?_⟩
      simp only [List.nil_append]
      rw [g3]
      constructor
      · rintro ⟨h1, l1, d, l2, rfl, h3, h4⟩
        refine ⟨h1, (t0, d0) :: l1, d, l2, rfl, h3, fun m hm => ?_⟩
        rcases List.mem_cons.1 hm with rfl | hm
        · exact fun e => h1 (e.symm.trans he)
        · exact h4 m hm
      · rintro ⟨h1, l1, d, l2, h2, h3, h4⟩
        cases l1 with
        | nil =>
          obtain ⟨e, -⟩ := List.cons.inj h2
          rw [(Prod.mk.inj e).1] at he
          exact absurd he h1
        | cons m l1 =>
          obtain ⟨-, e⟩ := List.cons.inj h2
          exact ⟨h1, l1, d, l2, e, h3, fun m hm => h4 m (List.mem_cons_of_mem _ hm)⟩
    · rw [if_neg he]
      obtain ⟨g1, g2, g3⟩ := ih { s with last := period freq t0 } hr hpr htr (fun m hm => period_mono (ht0 m hm))
      refine ⟨g1, ?_, fun t p => ?_⟩
      · simp only [List.cons_append, List.nil_append]
        refine List.pairwise_cons.2 ⟨fun x hx => ?_, g2⟩
        exact fun e => ((g3 x.1 x.2).1 hx).1 e.symm
      · simp only [List.cons_append, List.nil_append, List.mem_cons]
        rw [g3]
        constructor
        · rintro (e | ⟨h1, l1, d, l2, rfl, h3, h4⟩)
          · obtain ⟨rfl, rfl⟩ := Prod.mk.inj e
            exact ⟨he, [], d0, r, rfl, hp0, by simp⟩
          · have hm := period_mono (freq := freq) (ht0 (t, d) (by simp))
            refine ⟨fun e => ?_, (t0, d0) :: l1, d, l2, rfl, h3, fun m hm => ?_⟩
            · have hm : period freq t0 ≤ period freq t := hm
              rw [e] at hm
              exact he (Nat.le_antisymm hm hl0)
            · rcases List.mem_cons.1 hm with rfl | hm
              · exact fun e => h1 e.symm
              · exact h4 m hm
        · rintro ⟨h1, l1, d, l2, h2, h3, h4⟩
          cases l1 with
          | nil =>
            obtain ⟨e, -⟩ := List.cons.inj h2
            obtain ⟨rfl, rfl⟩ := Prod.mk.inj e
            exact Or.inl (by rw [bears_unique hp0 h3])
          | cons m l1 =>
            obtain ⟨rfl, e⟩ := List.cons.inj h2
            refine Or.inr ⟨fun e => h4 (t0, d0) (by simp) e.symm, l1, d, l2, e, h3, fun m hm => h4 m (List.mem_cons_of_mem _ hm)⟩

theorem Poller.run_append (odd : JVal → JVal → Bool) : ∀ (x y : List (Nat × Str)) (s : Poller),
    s.run odd (x ++ y) = (((s.run odd x).1.run odd y).1, (s.run odd x).2 ++ ((s.run odd x).1.run odd y).2) := by
  intro x y
  induction x with
  | nil => intro s; simp [Poller.run]
  | cons a x ih =>
    intro s
    simp only [List.cons_append, Poller.run]
    rw [ih]
    simp [List.append_assoc]

/-- One answer with a measure. -/
theorem Poller.answer_eq (odd : JVal → JVal → Bool) {s : Poller} (hr : s.running = true) {body iso : Str} {p : Point}
    (hd : DatedAs body iso) (hb : Bears body p) (hl : ∀ v, s.last = some v → ∃ i, v = .str i) :
    (s.last = some (.str iso) → s.answer odd 200 body = (s, [])) ∧
    (s.last ≠ some (.str iso) → s.answer odd 200 body = ({ s with last := some (.str iso) }, [p])) := by
  obtain ⟨v, h1, h2⟩ := hd
  obtain ⟨w, h3, h4⟩ := hb
  rw [h1] at h3
  obtain rfl := Option.some.inj h3
  unfold Poller.answer
  rw [if_neg (by rw [hr]; simp), if_pos rfl, h1]
  simp only [h2, h4]
  refine ⟨fun hs => ?_, fun hs => ?_⟩
  · rw [hs]
    simp [pyNe]
  · rw [if_pos]
    cases hx : s.last with
    | none => rfl
    | some x =>
      obtain ⟨i, rfl⟩ := hl x hx
      simp only [pyNe, bne_iff_ne]
      rintro rfl
      exact hs hx

theorem dated_unique {d i j : Str} (h1 : DatedAs d i) (h2 : DatedAs d j) : i = j := by
  obtain ⟨v, a, b⟩ := h1
  obtain ⟨w, c, e⟩ := h2
  rw [a] at c
  obtain rfl := Option.some.inj c
  rw [b] at e
  injection e with e
  injection e

/-- The state of the poller: the date of the last measure received. -/
theorem Poller.run_state (odd : JVal → JVal → Bool) (as : List (Nat × Str))
    (h : ∀ a ∈ as, a.1 = 200 → ∃ iso p, DatedAs a.2 iso ∧ Bears a.2 p) :
    (Poller.init.run odd as).1.running = true ∧
    (∀ v, (Poller.init.run odd as).1.last = some v → ∃ i, v = .str i) ∧
    ∀ iso, (Poller.init.run odd as).1.last = some (.str iso) ↔ LastDate as iso := by
  induction as using snoc_induction with
  | h0 =>
    refine ⟨rfl, fun v hv => (nomatch hv), fun iso => ⟨fun hv => (nomatch hv), ?_⟩⟩
    rintro ⟨l1, b, l2, e, -⟩
    simp at e
  | h1 as a ih =>
    obtain ⟨g1, g2, g3⟩ := ih (fun a ha => h a (List.mem_append_left _ ha))
    obtain ⟨code, body⟩ := a
    rw [Poller.run_append]
    simp only [Poller.run]
    by_cases hc : code = 200
    · subst hc
      obtain ⟨i, p, hd, hb⟩ := h (200, body) (by simp) rfl
      have key : ∀ iso, LastDate (as ++ [(200, body)]) iso ↔ iso = i := by
        intro iso
        constructor
        · rintro ⟨l1, b, l2, e, h1, h2⟩
          rcases List.eq_nil_or_concat l2 with rfl | ⟨l3, x, rfl⟩
          · obtain ⟨-, e⟩ := List.append_inj' e rfl
            injection e with e
            obtain ⟨-, rfl⟩ := Prod.mk.inj e
            exact dated_unique h1 hd
          · rw [List.concat_eq_append, ← List.cons_append, ← List.append_assoc] at e
            obtain ⟨-, e⟩ := List.append_inj' e rfl
            injection e with e
            exact absurd (by rw [← e]) (h2 x (by simp))
        · rintro rfl
          exact ⟨as, body, [], rfl, hd, by simp⟩
      obtain ⟨f1, f2⟩ := Poller.answer_eq odd g1 hd hb g2
      by_cases e : (Poller.init.run odd as).1.last = some (.str i)
      · rw [f1 e]
        refine ⟨g1, g2, fun iso => ?_⟩
        rw [key, e]
        constructor
        · intro h; injection h with h; injection h with h; exact h.symm
        · rintro rfl; rfl
      · rw [f2 e]
        refine ⟨g1, fun v hv => ⟨i, (Option.some.inj hv).symm⟩, fun iso => ?_⟩
        rw [key]
        constructor
        · intro h; injection h with h; injection h with h; exact h.symm
        · rintro rfl; rfl
    · have e : (Poller.init.run odd as).1.answer odd code body = ((Poller.init.run odd as).1, []) := by
        unfold Poller.answer
        rw [if_neg (by rw [g1]; simp), if_neg hc]
      rw [e]
      refine ⟨g1, g2, fun iso => ?_⟩
      rw [g3]
      constructor
      · rintro ⟨l1, b, l2, rfl, h1, h2⟩
        refine ⟨l1, b, l2 ++ [(code, body)], by simp, h1, fun a ha => ?_⟩
        rcases List.mem_append.1 ha with ha | ha
        · exact h2 a ha
        · rw [List.mem_singleton.1 ha]; exact hc
      · rintro ⟨l1, b, l2, e, h1, h2⟩
        rcases List.eq_nil_or_concat l2 with rfl | ⟨l3, x, rfl⟩
        · obtain ⟨-, e⟩ := List.append_inj' e rfl
          injection e with e
          exact absurd (Prod.mk.inj e).1 hc
        · rw [List.concat_eq_append, ← List.cons_append, ← List.append_assoc] at e
          obtain ⟨rfl, e⟩ := List.append_inj' e rfl
          exact ⟨l1, b, l3, rfl, h1, fun a ha => h2 a (by simp [ha])⟩

/-! ## C92 -/

/-- **C92**, the rate of the stream: as long as the connection holds and every message contains a measure, at most one
measure is recorded per period, and it is that of the first message of the period: exactly those messages are recorded
that come in a period in which none came before. -/
theorem c92_periods (freq : Nat) (ms : List (Nat × Str)) (hp : ∀ m ∈ ms, ∃ p, Bears m.2 p)
    (ht : ms.Pairwise fun x y => x.1 ≤ y.1) (h0 : ∀ m ∈ ms, period freq m.1 ≠ 0) {s : Collector} {l : List (Nat × Point)}
    (h : Collector.init.run freq (ms.map fun m => .message m.1 m.2) = (s, l)) :
    s.running = true ∧ (l.Pairwise fun x y => period freq x.1 ≠ period freq y.1) ∧
    ∀ t p, (t, p) ∈ l ↔ ∃ l1 d l2, ms = l1 ++ (t, d) :: l2 ∧ Bears d p ∧ ∀ m ∈ l1, period freq m.1 ≠ period freq t := by
  obtain ⟨g1, g2, g3⟩ := Collector.run_from freq ms Collector.init rfl hp ht (fun m _ => Nat.zero_le _)
  rw [h] at g1 g2 g3
  refine ⟨g1, g2, fun t p => ?_⟩
  rw [g3]
  constructor
  · exact fun h => h.2
  · rintro ⟨l1, d, l2, e, h3⟩
    exact ⟨h0 (t, d) (by rw [e]; simp), l1, d, l2, e, h3⟩

/-- A message with a measure. -/
def sampleMessage : Str :=
  bs "{\"ADCO\":1,\"timestamp\":\"\",\"HCHC\":1,\"HCHP\":2,\"PAPP\":3,\"IINST\":4,\"PTEC\":\"\"}"

theorem sample_bears : ∃ p, Bears sampleMessage p := by
  have h : ((parseJson sampleMessage).bind pointOf).isSome = true := by decide +kernel
  obtain ⟨p, hp⟩ := Option.isSome_iff_exists.1 h
  obtain ⟨v, h1, h2⟩ := Option.bind_eq_some_iff.1 hp
  exact ⟨p, v, h1, h2⟩

theorem sample_dated : ∃ i, DatedAs sampleMessage i := by
  have h : (match parseJson sampleMessage with
    | some v => (match jsGet v (bs "timestamp") with
      | some (.str _) => true
      | _ => false)
    | none => false) = true := by decide +kernel
  split at h
  · rename_i v hv
    split at h
    · rename_i i hi
      exact ⟨i, v, hv, hi⟩
    · cases h
  · cases h

/-- Three messages, two of them in the same period of ten seconds: two measures. -/
example : ∃ p, Collector.init.run 10 ([(12000000, sampleMessage), (19000000, sampleMessage), (20000000, sampleMessage)].map
    fun m => .message m.1 m.2) = (⟨true, 2⟩, [(12000000, p), (20000000, p)]) := by
  obtain ⟨p, hp⟩ := sample_bears
  refine ⟨p, ?_⟩
  have e : ∀ f n t, Collector.message f ⟨true, n⟩ t sampleMessage = if period f t = n then (⟨true, n⟩, [])
      else (⟨true, period f t⟩, [(t, p)]) := fun f n t => Collector.message_eq rfl hp
  simp [Collector.run, Collector.step, Collector.init, e, period]

/-- **C92**, exactly which frames are recorded, and what is recorded (partial): the message of a frame contains a measure
if and only if the meter gives all the labels of a contract with peak and off-peak hours, and it is then what the meter
says.  Missing with respect to the property as stated: the other contracts (`c92_refuted_base`) and the frames whose
message is not the frame (`c27_refuted_quote`). -/
theorem c92_frame_partial {j iso sec : Str} {gs : List MeterGroup}
    (h : parseJson j = some (frameDict iso sec none (meterPairs gs))) :
    ((∃ p, Bears j p) ↔ PeakMeter gs) ∧ ∀ p, Bears j p → Records gs iso p := by
  obtain ⟨h1, h2⟩ := point_frame gs iso sec
  refine ⟨⟨?_, ?_⟩, ?_⟩
  · rintro ⟨p, v, h3, h4⟩
    rw [h] at h3
    obtain rfl := Option.some.inj h3
    exact h1.1 ⟨p, h4⟩
  · intro hg
    obtain ⟨p, hp⟩ := h1.2 hg
    exact ⟨p, _, h, hp⟩
  · rintro p ⟨v, h3, h4⟩
    rw [h] at h3
    obtain rfl := Option.some.inj h3
    exact h2 p h4

/-- **C92 (partial)**, from the wire of the meter to the database: a device has run in any way; the byte that arrives
completes a frame of a meter with peak and off-peak hours whose texts have no quote and no backslash and whose values are
not made only of dots; the setting of the event rate is 0, the collector is connected as the client `c`.  Then the last
message of its stream is that of this frame, and the collector, if it has recorded nothing in this period, records what
the meter says.  Missing with respect to the property as stated: as in `c92_frame_partial`. -/
theorem c92_device_partial {b : Build} {f m a p k1 k2 k3} {d0 d d' : Device} {evs : List Event} {es l}
    (h0 : Device.boot b f m a p k1 k2 k3 = .ok d0) (h : d0.run b evs = .ok (d, es))
    (hr : ∀ l ∈ es, Eff.eraseSdk ∉ l) (hz : d.nv.config.sseFreq = 0)
    (hu : (hears false [] evs).1 = false) {now : TimeVal} {k : Tick} {conn : Nat → Bool} {x : Byte} {ts}
    {gs : List MeterGroup} (he : EndsWithFrame ((hears false [] evs).2 ++ [(now, x)]) ts (gs.map MeterGroup.raw))
    (hs : d.step b (.byte now k conn x) = .ok (d', l)) {seen : Seen}
    (hk : Seen.none.follow (evs.zip es) = some seen) (hus : ts.usec < 1000000)
    (hi : ∀ s, Plain (b.world.iso s)) (hl : ∀ g ∈ gs, g.Legal)
    (hq : ∀ g ∈ gs, (34 : Byte) ∉ g.label ++ g.value ∧ (92 : Byte) ∉ g.label ++ g.value ∧
      ∃ b ∈ g.value, b ≠ 46) (hg : PeakMeter gs)
    (hb : ∀ ev ∈ evs, NoBoot ev) (ht : ∀ ev ∈ evs, TypedOneLine ev) {c : Nat} (hc : c ∈ seen.live) (hn : conn c = true)
    (ho : SseEff.opened c true ∈ es.flatMap sseEffs) :
    ∃ msgs j, esAnswer (wire c ((es ++ [l]).flatMap sseEffs)) = some (msgs ++ [message j]) ∧
      ∀ freq (s : Collector) t, s.running = true → s.last ≠ period freq t →
        ∃ p, s.message freq t j = (⟨true, period freq t⟩, [(t, p)]) ∧ Records gs (b.world.iso ts.sec) p := by
  obtain ⟨j, sec, -, q2, q3⟩ := c57_parses_partial h0 h hr hz hu he hs hk hus (hi _) hl
  replace q2 := q2.2 hq
  have hi' : ∀ s, OneLine (b.world.iso s) := by
    intro s y hy
    have : ∀ b : Byte, plain b = true → b ≠ 10 ∧ b ≠ 13 := byte_all (by decide +kernel)
    exact this y (hi s y hy)
  have hrun : d0.run b (evs ++ [.byte now k conn x]) = .ok (d', es ++ [l]) := run_snoc h hs
  have h88 := (c88_run h0 hrun (by
    intro ev hev
    rcases List.mem_append.1 hev with hev | hev
    · exact hb ev hev
    · rw [List.mem_singleton.1 hev]; intro f m a p k1 k2 k3 e; cases e) hi' (by
    intro ev hev
    rcases List.mem_append.1 hev with hev | hev
    · exact ht ev hev
    · rw [List.mem_singleton.1 hev]; intro t cn e; cases e) c rfl).2 (by
      rw [List.flatMap_append]; exact List.mem_append_left _ ho)
  rw [List.flatMap_append, received_append, List.flatMap_cons, List.flatMap_nil, List.append_nil, q3 c,
    if_pos ⟨hc, hn⟩, List.map_append, List.map_cons, List.map_nil] at h88
  refine ⟨_, j, by rw [List.flatMap_append, List.flatMap_cons, List.flatMap_nil, List.append_nil]; exact h88, ?_⟩
  intro freq s t hrn hlast
  obtain ⟨p, hp⟩ := (c92_frame_partial q2).1.2 hg
  refine ⟨p, ?_, (c92_frame_partial q2).2 p hp⟩
  rw [Collector.message_eq hrn hp, if_neg (fun e => hlast e.symm)]
  obtain ⟨r, x⟩ := s
  obtain rfl : r = true := hrn
  rfl

/-- Such a meter, and what is recorded. -/
def peakMeter : List MeterGroup := ⟨bs "ADCO", bs "040422040644", 32⟩ :: hcMeter

example : PeakMeter peakMeter ∧ (∀ g ∈ peakMeter, g.label ≠ bs "timestamp") ∧
    Says peakMeter (bs "ADCO") (bs "040422040644") ∧ Says peakMeter (bs "PTEC") (bs "HC..") ∧
    dropDots (bs "HC..") = bs "HC" := by
  refine ⟨?_, by decide, ⟨by decide, by decide⟩, ⟨by decide, by decide⟩, by decide⟩
  unfold PeakMeter
  decide

/-- **C92** as stated is false: the collector ends at the first message when the contract has a single tariff, whatever
the rate. -/
theorem c92_refuted_base : ∃ t j,
    TinfoReach t [(⟨7, 5⟩, (oneFrame "BASE" "012345678").map MeterGroup.raw)] ∧
    ticJsonDict sampleWorld t none = .ok j ∧
    (∀ freq (s : Collector) t, s.running = true → s.last ≠ period freq t →
      ∃ s', s.message freq t j = (s', []) ∧ s'.running = false) ∧
    ∀ odd, ∃ s', Poller.init.answer odd 200 j = (s', []) ∧ s'.running = false := by
  have hl := oneFrame_legal "BASE" "012345678" (by decide) (by decide) (by decide)
  obtain ⟨t, h⟩ := reach_next .init ⟨7, 5⟩ (oneFrame_valid "BASE" "012345678" (by decide) (by decide) (by decide) (by decide))
  obtain ⟨j, sec, h1, -, h3⟩ := c27_meter_partial sampleWorld h (by decide) (plain_lit _ (by decide)) none hl
  replace h3 := h3.2 (by decide)
  have h4 : pointOf (frameDict (sampleWorld.iso 7) sec none (meterPairs (oneFrame "BASE" "012345678"))) = none := rfl
  refine ⟨t, j, h, h1, ?_, ?_⟩
  · intro freq s t hr hn
    refine ⟨⟨false, period freq t⟩, ?_, rfl⟩
    unfold Collector.message
    rw [if_neg (by rw [hr]; simp)]
    have e : t / (1000000 * freq) = period freq t := by rw [period, Nat.div_div_eq_div_mul]
    simp only [e]
    rw [if_neg (fun e => hn e.symm), h3]
    simp only [Option.map_none, h4]
  · intro odd
    unfold Poller.answer
    rw [h3]
    exact ⟨_, rfl, rfl⟩

/-- **C92** as stated is false: after the connection was lost (and ten seconds waited), a second measure can be recorded
in the same period. -/
theorem c92_refuted_lost : ∃ s p, Collector.init.run 20 [.message 20000000 sampleMessage, .lost, .message 35000000 sampleMessage] =
    (s, [(20000000, p), (35000000, p)]) ∧ period 20 20000000 = period 20 35000000 := by
  obtain ⟨p, hp⟩ := sample_bears
  refine ⟨⟨true, 1⟩, p, ?_, by decide⟩
  have e : ∀ f n t, Collector.message f ⟨true, n⟩ t sampleMessage = if period f t = n then (⟨true, n⟩, [])
      else (⟨true, period f t⟩, [(t, p)]) := fun f n t => Collector.message_eq rfl hp
  simp [Collector.run, Collector.step, Collector.init, e, period]

/-- **C92**, polling: as long as every answer with the code 200 contains a measure, the measure of an answer is recorded
if and only if its date is not that of the last measure received; the other answers are ignored. -/
theorem c92_poll (odd : JVal → JVal → Bool) (as : List (Nat × Str))
    (h : ∀ a ∈ as, a.1 = 200 → ∃ iso p, DatedAs a.2 iso ∧ Bears a.2 p) :
    (∀ code body, code ≠ 200 →
      (Poller.init.run odd (as ++ [(code, body)])).2 = (Poller.init.run odd as).2) ∧
    ∀ body iso p, DatedAs body iso → Bears body p →
      (LastDate as iso → (Poller.init.run odd (as ++ [(200, body)])).2 = (Poller.init.run odd as).2) ∧
      (¬ LastDate as iso → (Poller.init.run odd (as ++ [(200, body)])).2 = (Poller.init.run odd as).2 ++ [p]) := by
  obtain ⟨g1, g2, g3⟩ := Poller.run_state odd as h
  refine ⟨fun code body hc => ?_, fun body iso p hd hb => ?_⟩
  · rw [Poller.run_append]
    simp only [Poller.run]
    unfold Poller.answer
    rw [if_neg (by rw [g1]; simp), if_neg hc]
    simp
  · rw [Poller.run_append]
    simp only [Poller.run]
    obtain ⟨f1, f2⟩ := Poller.answer_eq odd g1 hd hb g2
    constructor
    · intro hl
      rw [f1 ((g3 iso).2 hl)]
      simp
    · intro hl
      rw [f2 (fun e => hl ((g3 iso).1 e))]
      simp

/-- Such answers: the same measure twice, then a refusal. -/
example : ∀ a ∈ [(200, sampleMessage), (200, sampleMessage), (503, bs "busy")], a.1 = 200 →
    ∃ iso p, DatedAs a.2 iso ∧ Bears a.2 p := by
  intro a ha hc
  simp only [List.mem_cons, List.not_mem_nil, or_false] at ha
  obtain ⟨p, hp⟩ := sample_bears
  obtain ⟨i, hi⟩ := sample_dated
  rcases ha with rfl | rfl | rfl
  · exact ⟨i, p, hi, hp⟩
  · exact ⟨i, p, hi, hp⟩
  · exact absurd hc (by decide)

/-- **C92** as stated is false: polling a device that has not yet had a frame ends the collector. -/
theorem c92_refuted_early (w : World) (odd : JVal → JVal → Bool) : ∃ j, ticJsonDict w Teleinfo.init none = .ok j ∧
    ∃ s, Poller.init.answer odd 200 j = (s, []) ∧ s.running = false := by
  obtain ⟨j, h1, h2⟩ := c27_no_frame w none
  refine ⟨j, h1, ?_⟩
  unfold Poller.answer
  rw [h2]
  exact ⟨_, rfl, rfl⟩

end Wifinfo
