import Verif.Props.Date
import Verif.Props.TicJson
import Verif.Props.Http

/-!
# C111: the date of a frame, where it is published
-/

namespace Wifinfo
open Spec

/-- The dates are those of the device. -/
def World.Dated (w : World) : Prop := ∀ t s, isoDate t = some s → w.iso t = s

/-- The legal time of France tells `off` seconds more than UTC. -/
def Legal (t off : Nat) : Prop := SummerTime t ∧ off = 7200 ∨ ¬ SummerTime t ∧ off = 3600

theorem date_plain {t : Nat} (ht : t + 7200 < 253402300800) {s : Str} (hs : isoDate t = some s) : Plain s := by
  obtain ⟨p, q, h1, -, -, h4, h5⟩ := date_text ht
  rw [h1] at hs
  cases hs
  have hd : ∀ b : Byte, digit b = true → plain b = true := byte_all (by decide +kernel)
  intro b hb
  rcases List.mem_append.1 hb with hb | hb
  · rcases h4 b hb with h | rfl | rfl | rfl
    · exact hd b h
    all_goals decide
  · rcases List.mem_cons.1 hb with rfl | hb
    · decide
    · exact hd b (h5 b hb)

/-- **C111**: the dictionary and the array of every frame of a meter that can be told in JSON, the value asked by its name and the
value written for `$date` in an address all give one date, which denotes the second of the first byte of this frame, with the
difference to UTC of the legal time in France; `$timestamp` is the number of this second. -/
theorem c111_frame {w : World} (hw : w.Dated) {t : Teleinfo} {ts : TimeVal} {l} {gs : List MeterGroup}
    (h : TinfoReach t ((ts, gs.map MeterGroup.raw) :: l)) (hu : ts.usec < 1000000) (hs : ts.sec + 7200 < 253402300800)
    (hl : ∀ g ∈ gs, g.Legal)
    (hp : ∀ g ∈ gs, (34 : Byte) ∉ g.label ++ g.value ∧ (92 : Byte) ∉ g.label ++ g.value ∧ ∃ b ∈ g.value, b ≠ 46)
    (notif : Option Notif) : ∃ (s : Str) (off : Nat), readInstant s = some ((ts.sec : Int), (off : Int)) ∧ Legal ts.sec off ∧
      (∃ j sec, ticJsonDict w t (notif.map Notif.text) = .ok j ∧
        parseJson j = some (frameDict s sec (notif.map Notif.text) (meterPairs gs))) ∧
      (∃ j watt, ticJsonArray w t = .ok j ∧ parseJson j = some (frameArray s watt (meterPairs gs))) ∧
      ticGetValue w t (bs "timestamp") = .ok (some s) ∧
      (∀ label n, label ∈ [bs "date", bs "DATE", bs "Date"] → httpAddValueEx w t label n = .ok s) ∧
      (∀ n, ∃ d, httpAddValueEx w t (bs "timestamp") n = .ok d ∧ numeral d = true ∧ decVal d = ts.sec) := by
  obtain ⟨s, off, h1, h2, h3⟩ := c111_instant hs
  have hiso := hw _ _ h1
  have hts : t.fr.ts = ts := (reach_inv h).2.2.2.2.2
  obtain ⟨j, sec, d1, -, d3⟩ := c27_meter_partial w h hu (by rw [hiso]; exact date_plain hs h1) notif hl
  obtain ⟨j', watt, a1, -, a3⟩ := c28_meter_partial w h (by rw [hiso]; exact date_plain hs h1) hl
  rw [hiso] at d3 a3
  refine ⟨s, off, h2, h3, ⟨j, sec, d1, d3.2 hp⟩, ⟨j', _, a1, a3.2 fun g hg => ⟨(hp g hg).1, (hp g hg).2.1⟩⟩, ?_, ?_, ?_⟩
  · unfold ticGetValue
    rw [if_neg (by decide), if_neg (by decide), if_pos rfl, hts, hiso]
    rfl
  · intro label n hm
    have e : httpAddValueEx w t label n = .ok (w.iso t.fr.ts.sec) := by
      simp only [List.mem_cons, List.not_mem_nil, or_false] at hm
      rcases hm with rfl | rfl | rfl <;>
        (unfold httpAddValueEx; rw [if_neg (by decide), if_neg (by decide), if_pos (by decide)]; rfl)
    rw [e, hts, hiso]
  · intro n
    refine ⟨decText ts.sec, ?_, ?_, ?_⟩
    · unfold httpAddValueEx
      rw [if_neg (by decide), if_neg (by decide), if_neg (by decide), if_pos (by decide), hts]
      rfl
    · exact (decText_spec ts.sec).2.1
    · exact (decText_spec ts.sec).2.2.1

theorem form_keep : ∀ (p : Str), (∀ b ∈ p, b ≠ 43 ∧ b ≠ 37) → ∀ q, formText (p ++ q) = p ++ formText q
  | [], _, q => rfl
  | b :: p, h, q => by
    have hb := h b (by simp)
    have ih := form_keep p (fun x hx => h x (by simp [hx])) q
    unfold formText at ih ⊢
    rw [List.cons_append, formFrom, if_neg hb.1, if_neg hb.2]
    simp [ih]

/-- **C111, C109**: no date in the query of an address is read by a server as the date: for every instant, `$date` is written
with a `+`, that is a space in a query, and what the server reads is not a date. -/
theorem c111_query {t : Nat} (ht : t + 7200 < 253402300800) : ∃ s, isoDate t = some s ∧ s[19]? = some 43 ∧
    formText s = s.set 19 32 ∧ readInstant (formText s) = none := by
  obtain ⟨p, q, h1, h2, h3, h4, h5⟩ := date_text ht
  clear ht
  have hd : ∀ b : Byte, digit b = true → b ≠ 43 ∧ b ≠ 37 := byte_all (by decide +kernel)
  have e : formText (p ++ 43 :: q) = p ++ 32 :: q := by
    rw [form_keep p]
    · have hq := form_keep q (fun b hb => hd b (h5 b hb)) []
      rw [List.append_nil, show formText ([] : Str) = [] from rfl, List.append_nil] at hq
      have hq' : formText (43 :: q) = 32 :: formText q := by
        unfold formText
        rw [formFrom, if_pos rfl]
      rw [hq', hq]
    · intro b hb
      rcases h4 b hb with h | rfl | rfl | rfl
      · exact hd b h
      all_goals decide
  refine ⟨_, h1, by simp [h2], ?_, ?_⟩
  · rw [e, List.set_append_right _ _ (by omega), h2]
    rfl
  · rw [e]
    have : (p ++ 32 :: q)[19]? = some 32 := by simp [h2]
    simp [readInstant, this]

/-- The case of the last second of summer time. -/
example : ∃ w : World, w.Dated ∧ (1603587599 : Nat) + 7200 < 253402300800 ∧
    (∃ t, TinfoReach t [(⟨1603587599, 5⟩, sampleMeter.map MeterGroup.raw)]) ∧ Legal 1603587599 7200 ∧
    w.iso 1603587599 = bs "2020-10-25T02:59:59+0200" := by
  refine ⟨⟨fun t => (isoDate t).getD [], 0xABCDEF⟩, fun t s h => by simp [h], by decide, ?_, ?_, by decide +kernel⟩
  · obtain ⟨t, h⟩ := reach_next .init ⟨1603587599, 5⟩ (meter_valid (by decide) sampleMeter_legal sampleMeter_fits)
    exact ⟨t, h⟩
  · refine .inl ⟨?_, rfl⟩
    rw [← dst_iff]
    decide +kernel

end Wifinfo
