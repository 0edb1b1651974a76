import Verif.Model.Gauges
import Verif.Props.EventStream
import Verif.Props.Simu
import Verif.Props.Timed

/-!
# C89: the gauges show the meter
-/

namespace Wifinfo

namespace Spec

/-- The meter says `v` for this label: there is such a group, and all those there are agree. -/
def Says (gs : List MeterGroup) (label v : Str) : Prop :=
  (∃ g ∈ gs, g.label = label) ∧ ∀ g ∈ gs, g.label = label → g.value = v

/-- A number of watt-hours in kWh with three decimals. -/
def IsKwh (t : Str) (n : Nat) : Prop :=
  ∃ a b, t = a ++ 46 :: b ∧ a ≠ [] ∧ numeral a = true ∧ Canonical a ∧ b.length = 3 ∧ numeral b = true ∧
    1000 * decVal a + decVal b = n

/-- The tab shows what the meter says, for a meter with peak and off-peak hours: power and current on the gauges, the
two indexes in kWh, the mark on the tariff in force. -/
structure ShowsMeter (gs : List MeterGroup) (g : Gauges) : Prop where
  papp : ∀ v, Says gs (bs "PAPP") v → numeral v = true → g.papp = some (.int (decVal v))
  iinst : ∀ v, Says gs (bs "IINST") v → numeral v = true → g.iinst = some (.int (decVal v))
  hchp : ∀ v, Says gs (bs "HCHP") v → numeral v = true → v.length ≤ 9 → IsKwh g.hchp (decVal v)
  hchc : ∀ v, Says gs (bs "HCHC") v → numeral v = true → v.length ≤ 9 → IsKwh g.hchc (decVal v)
  peak : Says gs (bs "PTEC") (bs "HP..") → g.mark = .hp
  offPeak : Says gs (bs "PTEC") (bs "HC..") → g.mark = .hc

end Spec
open Spec

/-! ## Lemmas -/

theorem kwhText_spec (n : Nat) : IsKwh (kwhText n) n := by
  obtain ⟨h1, h2, h3, h4⟩ := decText_spec (n / 1000)
  obtain ⟨d1, d2⟩ := dec3_digit (n / 100)
  obtain ⟨d3, d4⟩ := dec3_digit (n / 10)
  obtain ⟨d5, d6⟩ := dec3_digit n
  refine ⟨decText (n / 1000), [UInt8.ofNat (48 + n / 100 % 10), UInt8.ofNat (48 + n / 10 % 10),
    UInt8.ofNat (48 + n % 10)], by rw [kwhText, show bs "." = [46] from by decide, List.append_assoc]; rfl,
    h1, h2, h4, rfl, ?_, ?_⟩
  · simp only [numeral, List.all_cons, d1, d3, d5, List.all_nil, Bool.and_self]
  · rw [h3]
    simp only [decVal, List.foldl, d2, d4, d6]
    omega

theorem decVal_bound (v : Str) (h : numeral v = true) : decVal v < 10 ^ v.length := by
  induction v using snoc_induction with
  | h0 => decide
  | h1 x b ih =>
    have hx : numeral x = true := by
      simp only [numeral, List.all_append, Bool.and_eq_true] at h
      exact h.1
    have hb : digit b = true := by
      simp only [numeral, List.all_append, List.all_cons, List.all_nil, Bool.and_true, Bool.and_eq_true] at h
      exact h.2
    have := ih hx
    simp only [digit, Bool.and_eq_true, decide_eq_true_eq] at hb
    simp only [decVal, List.foldl_append, List.foldl_cons, List.foldl_nil, List.length_append, List.length_cons,
      List.length_nil]
    rw [Nat.pow_succ]
    simp only [decVal] at this
    omega

/-- The last member of a name, in the dictionary of a frame. -/
theorem get_says {gs : List MeterGroup} {label v iso sec : Str} (h : Says gs label v) :
    jsGet (frameDict iso sec none (meterPairs gs)) label = some (groupJson (dropDots v)) := by
  obtain ⟨⟨g0, hg0, hl0⟩, hall⟩ := h
  simp only [frameDict, jsGet]
  cases hf : List.find? (fun p : Str × JVal => p.1 == label)
      (([(bs "timestamp", JVal.str iso), (bs "seconds", JVal.str sec)] ++ [] ++
        (meterPairs gs).map fun p : Str × Str => (p.1, groupJson p.2)).reverse) with
  | none =>
    exfalso
    have := List.find?_eq_none.1 hf (label, groupJson (dropDots g0.value)) (by
      simp only [List.mem_reverse, List.mem_append]
      refine Or.inr (List.mem_map.2 ⟨(label, dropDots g0.value), ?_, rfl⟩)
      rw [← hl0]
      exact List.mem_map.2 ⟨g0, hg0, rfl⟩)
    simp at this
  | some p =>
    rw [List.reverse_append, List.find?_append] at hf
    cases hq : List.find? (fun p : Str × JVal => p.1 == label)
        ((meterPairs gs).map fun p : Str × Str => (p.1, groupJson p.2)).reverse with
    | none =>
      exfalso
      have := List.find?_eq_none.1 hq (label, groupJson (dropDots g0.value)) (by
        rw [List.mem_reverse]
        refine List.mem_map.2 ⟨(label, dropDots g0.value), ?_, rfl⟩
        rw [← hl0]
        exact List.mem_map.2 ⟨g0, hg0, rfl⟩)
      simp at this
    | some q =>
      rw [hq] at hf
      have e : q = p := Option.some.inj hf
      subst e
      have hm := List.mem_of_find?_eq_some hq
      have hn := List.find?_some hq
      rw [List.mem_reverse] at hm
      obtain ⟨r, hr, rfl⟩ := List.mem_map.1 hm
      obtain ⟨g, hg, rfl⟩ := List.mem_map.1 hr
      have hl : g.label = label := by simpa using hn
      simp [hall g hg hl]

theorem numeral_dots {v : Str} (h : numeral v = true) : dropDots v = v := by
  refine dropDots_id fun b hb e => ?_
  have := List.all_eq_true.1 h b hb
  rw [e] at this
  revert this
  decide

theorem get_number {gs : List MeterGroup} {label v iso sec : Str} (h : Says gs label v) (hv : numeral v = true) :
    jsGet (frameDict iso sec none (meterPairs gs)) label = some (.int (decVal v)) := by
  rw [get_says h, numeral_dots hv, groupJson, if_pos hv]

/-- The message of a frame. -/
theorem message_frame {js : JsOdd} {g : Gauges} {j iso sec : Str} {gs : List MeterGroup}
    (h : parseJson j = some (frameDict iso sec none (meterPairs gs))) : ShowsMeter gs (g.message js j) := by
  have hfix : ∀ {label v : Str}, Says gs label v → numeral v = true → v.length ≤ 9 →
      IsKwh (jsFixed js (jsGet (frameDict iso sec none (meterPairs gs)) label)) (decVal v) := by
    intro label v hs hv hl
    have hb := decVal_bound v hv
    have hp : 10 ^ v.length ≤ 10 ^ 9 := Nat.pow_le_pow_right (by decide) hl
    rw [get_number hs hv, jsFixed, if_pos (by omega), Int.toNat_natCast]
    exact kwhText_spec _
  have e : g.message js j = 
      { papp := jsGet (frameDict iso sec none (meterPairs gs)) (bs "PAPP")
        iinst := jsGet (frameDict iso sec none (meterPairs gs)) (bs "IINST")
        hchp := jsFixed js (jsGet (frameDict iso sec none (meterPairs gs)) (bs "HCHP"))
        hchc := jsFixed js (jsGet (frameDict iso sec none (meterPairs gs)) (bs "HCHC"))
        mark := if jsIsHC js (jsGet (frameDict iso sec none (meterPairs gs)) (bs "PTEC")) then .hc else .hp } := by
    unfold Gauges.message
    rw [h]
    rfl
  have e1 : groupJson (dropDots (bs "HP..")) = .str (bs "HP") := rfl
  have e2 : groupJson (dropDots (bs "HC..")) = .str (bs "HC") := rfl
  rw [e]
  refine ⟨fun v hs hv => get_number hs hv, fun v hs hv => get_number hs hv, fun v hs hv hl => hfix hs hv hl,
    fun v hs hv hl => hfix hs hv hl, fun hs => ?_, fun hs => ?_⟩
  · show (if _ then TariffMark.hc else TariffMark.hp) = _
    rw [get_says hs, e1, jsIsHC, if_neg (by decide)]
  · show (if _ then TariffMark.hc else TariffMark.hp) = _
    rw [get_says hs, e2, jsIsHC, if_pos (by decide)]

/-! ## C89 -/

/-- **C89 (partial).** A device has run in any way; the byte that arrives completes a frame of a meter whose texts have no
quote and no backslash and whose values are not made only of dots; the setting of the event rate is 0, a client is
connected.  Then the gauges of the page, which have followed all the messages of the stream, show what this frame says,
if the meter has peak and off-peak hours.  Missing with respect to the property as stated: other kinds of contract
(`c89_refuted_base`, `c89_refuted_tempo`) and other frames (`c27_refuted_quote`). -/
theorem c89_page_partial {b : Build} {f m a p k1 k2 k3} {d0 d d' : Device} {evs : List Event} {es l}
    (h0 : Device.boot b f m a p k1 k2 k3 = .ok d0) (h : d0.run b evs = .ok (d, es))
    (hr : ∀ l ∈ es, Eff.eraseSdk ∉ l) (hz : d.nv.config.sseFreq = 0)
    (hu : (hears false [] evs).1 = false) {now : TimeVal} {k : Tick} {conn : Nat → Bool} {x : Byte} {ts}
    {gs : List MeterGroup} (he : EndsWithFrame ((hears false [] evs).2 ++ [(now, x)]) ts (gs.map MeterGroup.raw))
    (hs : d.step b (.byte now k conn x) = .ok (d', l)) {seen : Seen}
    (hk : Seen.none.follow (evs.zip es) = some seen) (hus : ts.usec < 1000000)
    (hi : ∀ s, Plain (b.world.iso s)) (hl : ∀ g ∈ gs, g.Legal)
    (hq : ∀ g ∈ gs, (34 : Byte) ∉ g.label ++ g.value ∧ (92 : Byte) ∉ g.label ++ g.value ∧
      ∃ b ∈ g.value, b ≠ 46)
    (hb : ∀ ev ∈ evs, NoBoot ev) (ht : ∀ ev ∈ evs, TypedOneLine ev) {c : Nat} (hc : c ∈ seen.live) (hn : conn c = true)
    (ho : SseEff.opened c true ∈ es.flatMap sseEffs) (js : JsOdd) (g0 : Gauges) :
    ∃ msgs, esAnswer (wire c ((es ++ [l]).flatMap sseEffs)) = some msgs ∧ (∀ y ∈ msgs, y.type = bs "message") ∧
      ShowsMeter gs (g0.messages js (msgs.map EsEvent.data)) := by
  obtain ⟨j, sec, -, q2, q3⟩ := c57_parses_partial h0 h hr hz hu he hs hk hus (hi _) hl
  replace q2 := q2.2 hq
  have hi' : ∀ s, OneLine (b.world.iso s) := by
    intro s y hy
    have : ∀ b : Byte, plain b = true → b ≠ 10 ∧ b ≠ 13 := byte_all (by decide +kernel)
    exact this y (hi s y hy)
  have hrun : d0.run b (evs ++ [.byte now k conn x]) = .ok (d', es ++ [l]) := run_snoc h hs
  have h88 := (c88_run h0 hrun (by
    intro ev hev
    rcases List.mem_append.1 hev with hev | hev
    · exact hb ev hev
    · rw [List.mem_singleton.1 hev]; intro f m a p k1 k2 k3 e; cases e) hi' (by
    intro ev hev
    rcases List.mem_append.1 hev with hev | hev
    · exact ht ev hev
    · rw [List.mem_singleton.1 hev]; intro t cn e; cases e) c rfl).2 (by
      rw [List.flatMap_append]; exact List.mem_append_left _ ho)
  refine ⟨_, h88, ?_, ?_⟩
  · intro y hy
    obtain ⟨z, -, rfl⟩ := List.mem_map.1 hy
    rfl
  · rw [List.map_map, show (EsEvent.data ∘ message) = id from rfl, List.map_id, List.flatMap_append, received_append,
      List.flatMap_cons, List.flatMap_nil, List.append_nil, q3 c, if_pos ⟨hc, hn⟩, Gauges.messages, List.foldl_append]
    exact message_frame q2

/-- A frame of a meter with peak and off-peak hours. -/
def hcMeter : List MeterGroup :=
  [⟨bs "HCHC", bs "052890470", 32⟩, ⟨bs "HCHP", bs "049126843", 32⟩, ⟨bs "PTEC", bs "HC..", 32⟩,
   ⟨bs "IINST", bs "008", 32⟩, ⟨bs "PAPP", bs "01890", 32⟩]

/-- What the tab shows for its indexes and its tariff. -/
example : jsFixed ⟨fun _ => [], fun _ => false⟩ (some (.int 49126843)) = bs "49126.843" ∧
    jsFixed ⟨fun _ => [], fun _ => false⟩ (some (.int 5)) = bs "0.005" ∧
    jsIsHC ⟨fun _ => [], fun _ => false⟩ (some (.str (bs "HC"))) = true := by
  decide +kernel

/-- The frame meets the conditions on frames, and says all that the tab shows. -/
example : (∀ g ∈ hcMeter, g.Legal) ∧ meterFits 0 hcMeter ∧
    (∀ g ∈ hcMeter, (34 : Byte) ∉ g.label ++ g.value ∧ (92 : Byte) ∉ g.label ++ g.value ∧ ∃ b ∈ g.value, b ≠ 46) ∧
    Says hcMeter (bs "PAPP") (bs "01890") ∧ Says hcMeter (bs "IINST") (bs "008") ∧
    Says hcMeter (bs "HCHP") (bs "049126843") ∧ Says hcMeter (bs "HCHC") (bs "052890470") ∧
    Says hcMeter (bs "PTEC") (bs "HC..") := by
  refine ⟨?_, by simp [hcMeter, meterFits]; decide, by decide, ?_, ?_, ?_, ?_, ?_⟩
  · intro g hg
    simp [hcMeter] at hg
    rcases hg with rfl | rfl | rfl | rfl | rfl <;> exact ⟨by decide, by decide, by decide, by decide⟩
  all_goals exact ⟨by decide, by decide⟩

/-- **C89**, before the first frame: as long as nothing that arrives is a JSON object, the tab shows zeros and marks no tariff. -/
theorem c89_before (js : JsOdd) (l : List Str) (h : ∀ x ∈ l, parseJson x = none ∨ parseJson x = some .null) :
    (Gauges.init.messages js l).papp = some (.int 0) ∧ (Gauges.init.messages js l).iinst = some (.int 0) ∧
      (Gauges.init.messages js l).hchp = bs "0" ∧ (Gauges.init.messages js l).hchc = bs "0" ∧ (Gauges.init.messages js l).mark = .none := by
  have : ∀ (l : List Str) (g : Gauges), (∀ x ∈ l, parseJson x = none ∨ parseJson x = some .null) → g.messages js l = g := by
    intro l
    induction l with
    | nil => exact fun _ _ => rfl
    | cons x l ih =>
      intro g h
      have hx : g.message js x = g := by
        unfold Gauges.message
        rcases h x List.mem_cons_self with e | e <;> rw [e]
      show (g.message js x).messages js l = g
      rw [hx]
      exact ih g fun y hy => h y (List.mem_cons_of_mem _ hy)
  rw [this l _ h]
  exact ⟨rfl, rfl, rfl, rfl, rfl⟩

/-- Such texts. -/
example : (parseJson (bs "")).isNone = true ∧ (parseJson (bs "{\"PAPP\":")).isNone = true := by decide +kernel

/-- **C89** as stated is false: for a contract with a single tariff, the message of a frame makes the tab show `NaN` for
both indexes, and the mark of peak hours. -/
theorem c89_refuted_base (js : JsOdd) (g : Gauges) : ∃ t j,
    TinfoReach t [(⟨7, 5⟩, (oneFrame "BASE" "012345678").map MeterGroup.raw)] ∧
    ticJsonDict sampleWorld t none = .ok j ∧
    (g.message js j).hchp = bs "NaN" ∧ (g.message js j).hchc = bs "NaN" ∧ (g.message js j).mark = .hp := by
  have hl := oneFrame_legal "BASE" "012345678" (by decide) (by decide) (by decide)
  obtain ⟨t, h⟩ := reach_next .init ⟨7, 5⟩ (oneFrame_valid "BASE" "012345678" (by decide) (by decide) (by decide) (by decide))
  obtain ⟨j, sec, h1, -, h3⟩ := c27_meter_partial sampleWorld h (by decide) (plain_lit _ (by decide)) none hl
  replace h3 := h3.2 (by decide)
  refine ⟨t, j, h, h1, ?_⟩
  unfold Gauges.message
  rw [h3]
  exact ⟨rfl, rfl, rfl⟩

/-- **C89** as stated is false: with the Tempo contract, in off-peak hours, the mark is on peak hours. -/
theorem c89_refuted_tempo (js : JsOdd) (g : Gauges) : ∃ t j,
    TinfoReach t [(⟨7, 5⟩, (oneFrame "PTEC" "HCJB").map MeterGroup.raw)] ∧
    ticJsonDict sampleWorld t none = .ok j ∧ (g.message js j).mark = .hp := by
  have hl := oneFrame_legal "PTEC" "HCJB" (by decide) (by decide) (by decide)
  obtain ⟨t, h⟩ := reach_next .init ⟨7, 5⟩ (oneFrame_valid "PTEC" "HCJB" (by decide) (by decide) (by decide) (by decide))
  obtain ⟨j, sec, h1, -, h3⟩ := c27_meter_partial sampleWorld h (by decide) (plain_lit _ (by decide)) none hl
  replace h3 := h3.2 (by decide)
  refine ⟨t, j, h, h1, ?_⟩
  unfold Gauges.message
  rw [h3]
  rfl

end Wifinfo
