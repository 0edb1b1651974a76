import Verif.Spec.FrameJson
import Verif.Proofs.JsonExact
import Verif.Proofs.Tic
import Verif.Props.Power
import Verif.Props.Config

/-!
# C27, C28: the JSON of a frame
-/

namespace Wifinfo
open Spec

/-- Labels and values that need no JSON escape, no empty value. -/
def PlainPairs (ps : List (Str × Str)) : Prop := ∀ p ∈ ps, Plain p.1 ∧ Plain p.2 ∧ p.2 ≠ []

theorem plain_lit (s : String) (h : (bs s).all plain = true) : Plain (bs s) := by
  intro b hb
  exact List.all_eq_true.1 h b hb

theorem numeral_plain {s : Str} (h : numeral s = true) : Plain s := by
  intro b hb
  have := List.all_eq_true.1 h b hb
  revert this
  revert b
  have : ∀ b : Byte, digit b = true → plain b = true := byte_all (by decide +kernel)
  intro b _
  exact this b

theorem plain_append {a b : Str} (ha : Plain a) (hb : Plain b) : Plain (a ++ b) := by
  intro x hx
  rcases List.mem_append.1 hx with h | h
  · exact ha x h
  · exact hb x h

theorem dec3_digit (k : Nat) : digit (UInt8.ofNat (48 + k % 10)) = true ∧
    (UInt8.ofNat (48 + k % 10)).toNat - 48 = k % 10 := by
  have h : (UInt8.ofNat (48 + k % 10)).toNat = 48 + k % 10 := by
    rw [UInt8.toNat_ofNat']; omega
  simp only [digit, h]
  constructor
  · simp; omega
  · omega

theorem dec3_spec (n : Nat) (h : n < 1000) : (dec3 n).length = 3 ∧ numeral (dec3 n) = true ∧
    decVal (dec3 n) = n := by
  obtain ⟨a1, a2⟩ := dec3_digit (n / 100)
  obtain ⟨b1, b2⟩ := dec3_digit (n / 10)
  obtain ⟨c1, c2⟩ := dec3_digit n
  refine ⟨rfl, ?_, ?_⟩
  · simp only [numeral, dec3, List.all_cons, a1, b1, c1, List.all_nil, Bool.and_self]
  · simp only [decVal, dec3, List.foldl, a2, b2, c2]
    omega

theorem seconds_spec (t : Frame) (h : t.ts.usec < 1000000) : IsSeconds t.seconds t.ts.sec t.ts.usec := by
  obtain ⟨a1, a2, a3, _⟩ := decText_spec t.ts.sec
  obtain ⟨b1, b2, b3⟩ := dec3_spec (t.ts.usec / 1000) (by omega)
  exact ⟨decText t.ts.sec, dec3 (t.ts.usec / 1000), by simp [Frame.seconds, bs],
    a1, a2, a3, b1, b2, b3⟩

theorem seconds_plain (t : Frame) : Plain t.seconds := by
  obtain ⟨a1, a2, a3, _⟩ := decText_spec t.ts.sec
  refine plain_append (plain_append (numeral_plain a2) (plain_lit "." (by decide))) (numeral_plain ?_)
  obtain ⟨a1, a2⟩ := dec3_digit (t.ts.usec / 1000 / 100)
  obtain ⟨b1, b2⟩ := dec3_digit (t.ts.usec / 1000 / 10)
  obtain ⟨c1, c2⟩ := dec3_digit (t.ts.usec / 1000)
  simp only [numeral, dec3, List.all_cons, a1, b1, c1, List.all_nil, Bool.and_self]

theorem dictMember_good {p : Str × Str} (h : Plain p.1 ∧ Plain p.2 ∧ p.2 ≠ []) : (dictMember p).Good := by
  obtain ⟨h1, h2, h3⟩ := h
  unfold dictMember
  split
  · rename_i hn
    obtain ⟨s1, s2, s3, s4⟩ := stripZeros_spec p.2
    have e : normNum p.2 = stripZeros p.2 := by unfold normNum; rw [if_pos hn]
    rw [e]
    exact mRaw_good h1 (by rw [s2]; exact hn) (by rw [ne_eq, s4]; exact h3) s3
  · exact mText_good h1 h2

theorem dictMember_val (p : Str × Str) : ((dictMember p).1, (dictMember p).2.2) = (p.1, groupJson p.2) := by
  unfold dictMember groupJson
  split
  · rename_i hn
    simp only [mRaw, normNum, if_pos hn]
    rw [(stripZeros_spec p.2).1]
  · rfl

/-! ## C27 -/

theorem dictMember_built (p : Str × Str) : (dictMember p).Built := by
  unfold dictMember
  split
  · rename_i hn
    obtain ⟨s1, s2, s3, s4⟩ := stripZeros_spec p.2
    have e : normNum p.2 = stripZeros p.2 := by unfold normNum; rw [if_pos hn]
    rw [e]
    by_cases h0 : stripZeros p.2 = []
    · exact Or.inr (Or.inr h0)
    · exact Or.inr (Or.inl (mRaw_good (n := []) (by intro b hb; simp at hb) (by rw [s2]; exact hn) h0 s3).2)
  · exact mText_built _ _

theorem dictMember_good_iff {p : Str × Str} : (dictMember p).Good ↔ Plain p.1 ∧ Plain p.2 ∧ p.2 ≠ [] := by
  refine ⟨fun h => ?_, dictMember_good⟩
  unfold dictMember at h
  split at h
  · rename_i hn
    refine ⟨h.1, numeral_plain hn, ?_⟩
    intro e
    have key : ∀ z v, JItem z v → z ≠ [] := by
      intro z v hz
      cases hz with
      | text _ => simp
      | num _ h0 _ => exact h0
      | neg _ _ _ => simp
    refine key _ _ h.2 ?_
    show normNum p.2 = []
    rw [e]
    rfl
  · rename_i hn
    obtain ⟨h1, h2⟩ := mText_good_iff.1 h
    refine ⟨h1, h2, ?_⟩
    intro e
    rw [e] at hn
    exact hn rfl

theorem dictHead_good {w : World} {f : Frame} (hi : Plain (w.iso f.ts.sec)) (notif : Option Notif) :
    ∀ x ∈ dictHead w f (notif.map Notif.text), JMember.Good x := by
  have hs := seconds_plain f
  have hn : ∀ n : Notif, Plain n.text := by
    intro n; cases n <;> exact plain_lit _ (by decide)
  intro x hx
  cases notif with
  | none =>
    simp [dictHead] at hx
    rcases hx with rfl | rfl
    · exact mText_good (plain_lit _ (by decide)) hi
    · exact mText_good (plain_lit _ (by decide)) hs
  | some n =>
    simp [dictHead] at hx
    rcases hx with rfl | rfl | rfl
    · exact mText_good (plain_lit _ (by decide)) hi
    · exact mText_good (plain_lit _ (by decide)) hs
    · exact mText_good (plain_lit _ (by decide)) (hn n)

theorem dictHead_built (w : World) (f : Frame) (notif : Option Str) :
    ∀ x ∈ dictHead w f notif, JMember.Built x := by
  intro x hx
  cases notif <;> simp [dictHead] at hx
  · rcases hx with rfl | rfl <;> exact mText_built _ _
  · rcases hx with rfl | rfl | rfl <;> exact mText_built _ _

/-- **C27 (partial).** For every published frame the dictionary is parsed as the timestamp, the seconds, the kind
of notification if there is one, and every label with its value, numbers for digits-only values, if and
only if the labels and values need no JSON escape and no value is empty.
Missing with respect to the property as stated: the other frames, for which it is false (see also
`c27_refuted_empty_value`, `c27_refuted_quote`). -/
theorem c27_dict_partial (w : World) {t : Teleinfo} {ts gs l} (h : TinfoReach t ((ts, gs) :: l))
    (hu : ts.usec < 1000000) (hi : Plain (w.iso ts.sec)) (notif : Option Notif) :
    ∃ j sec, ticJsonDict w t (notif.map Notif.text) = .ok j ∧ IsSeconds sec ts.sec ts.usec ∧
      (parseJson j = some (frameDict (w.iso ts.sec) sec (notif.map Notif.text) (pairs (storedAll gs))) ↔
        PlainPairs (pairs (storedAll gs))) := by
  obtain ⟨h1, h2, h3⟩ := (reach_inv h).2.2.2
  refine ⟨_, t.fr.seconds, ticJsonDict_eq h1 h2 w _, ?_, ?_⟩
  · rw [← h3]; exact seconds_spec _ (by rw [h3]; exact hu)
  · have hv : frameDict (w.iso ts.sec) t.fr.seconds (notif.map Notif.text) (pairs (storedAll gs)) =
        .obj (memsVal (dictHead w t.fr (notif.map Notif.text) ++ (pairs (storedAll gs)).map dictMember)) := by
      simp only [frameDict, memsVal, List.map_append, List.map_map]
      congr 1
      rw [show ((fun x : JMember => (x.1, x.2.2)) ∘ dictMember) = (fun p => (p.1, groupJson p.2)) from
        funext dictMember_val]
      cases notif <;> simp [dictHead, mText, h3]
    rw [← h3] at hi
    rw [hv, parse_obj_iff]
    · constructor
      · intro h p hp
        exact dictMember_good_iff.1 (h _ (List.mem_append_right _ (List.mem_map_of_mem hp)))
      · intro hp x hx
        rcases List.mem_append.1 hx with hx | hx
        · exact dictHead_good hi notif x hx
        · obtain ⟨p, hp', rfl⟩ := List.mem_map.1 hx
          exact dictMember_good (hp p hp')
    · intro x hx
      rcases List.mem_append.1 hx with hx | hx
      · exact dictHead_built _ _ _ x hx
      · obtain ⟨p, hp', rfl⟩ := List.mem_map.1 hx
        exact dictMember_built p

theorem dropDots_nil_iff (v : Str) : dropDots v = [] ↔ ∀ b ∈ v, b = 46 := by
  have key : ∀ l : Str, l.dropWhile (· == 46) = [] ↔ ∀ x ∈ l, x = 46 := by
    intro l
    induction l with
    | nil => simp
    | cons a l ih =>
      by_cases ha : a = 46
      · subst ha
        simpa [List.dropWhile_cons] using ih
      · simp [ha]
  have : dropDots v = [] ↔ v.reverse.dropWhile (· == 46) = [] := by simp [dropDots]
  rw [this, key]
  simp

theorem mem_dropDots {v : Str} {b : Byte} (h : b ∈ v) (hb : b ≠ 46) : b ∈ dropDots v := by
  have key : ∀ l : Str, b ∈ l → b ∈ l.dropWhile (· == 46) := by
    intro l
    induction l with
    | nil => intro h; exact h
    | cons a l ih =>
      intro h
      by_cases ha : a = 46
      · subst ha
        rcases List.mem_cons.1 h with h | h
        · exact absurd h hb
        · simpa [List.dropWhile_cons] using ih h
      · simpa [List.dropWhile_cons, ha] using h
  simp only [dropDots, List.mem_reverse]
  exact key _ (by simpa using h)

/-- The texts of a group as the meter sends them and as they are shown: the same need for a JSON escape. -/
theorem group_plain {g : MeterGroup} (hL : g.Legal) : (Plain g.label ∧ Plain (dropDots g.value)) ↔
    (34 : Byte) ∉ g.label ++ g.value ∧ (92 : Byte) ∉ g.label ++ g.value := by
  have hpr : ∀ b : Byte, printable b = true → b ≠ 34 → b ≠ 92 → plain b = true :=
    byte_all (by decide +kernel)
  simp only [List.mem_append, not_or]
  constructor
  · rintro ⟨h1, h2⟩
    have q : ∀ b : Byte, b ∈ g.value → b ≠ 46 → plain b = true := fun b hb h => h2 b (mem_dropDots hb h)
    refine ⟨⟨fun h => ?_, fun h => ?_⟩, fun h => ?_, fun h => ?_⟩
    · exact absurd (h1 _ h) (by decide)
    · exact absurd (q _ h (by decide)) (by decide)
    · exact absurd (h1 _ h) (by decide)
    · exact absurd (q _ h (by decide)) (by decide)
  · rintro ⟨q1, q2⟩
    refine ⟨fun x hx => hpr x (hL.label x hx).1 (fun e => q1.1 (e ▸ hx)) (fun e => q2.1 (e ▸ hx)),
      fun x hx => ?_⟩
    have hx := dropDots_mem hx
    exact hpr x (hL.value x hx) (fun e => q1.2 (e ▸ hx)) (fun e => q2.2 (e ▸ hx))

/-- **C27 (partial)**, in terms of what the meter sends: the dictionary is right exactly when no label nor value has
`"` or `\` and no value is made only of dots. -/
theorem c27_meter_partial (w : World) {t : Teleinfo} {ts l} {gs : List MeterGroup}
    (h : TinfoReach t ((ts, gs.map MeterGroup.raw) :: l)) (hu : ts.usec < 1000000)
    (hi : Plain (w.iso ts.sec)) (notif : Option Notif) (hl : ∀ g ∈ gs, g.Legal) :
    ∃ j sec, ticJsonDict w t (notif.map Notif.text) = .ok j ∧ IsSeconds sec ts.sec ts.usec ∧
      (parseJson j = some (frameDict (w.iso ts.sec) sec (notif.map Notif.text) (meterPairs gs)) ↔
        ∀ g ∈ gs, (34 : Byte) ∉ g.label ++ g.value ∧ (92 : Byte) ∉ g.label ++ g.value ∧
          ∃ b ∈ g.value, b ≠ 46) := by
  obtain ⟨j, sec, h1, h2, h3⟩ := c27_dict_partial w h hu hi notif
  refine ⟨j, sec, h1, h2, ?_⟩
  rw [← meter_pairs hl, h3, meter_pairs hl]
  have hne : ∀ g : MeterGroup, dropDots g.value ≠ [] ↔ ∃ b ∈ g.value, b ≠ 46 := by
    intro g
    rw [ne_eq, dropDots_nil_iff]
    simp
  constructor
  · intro hp g hg
    obtain ⟨p1, p2, p3⟩ := hp (g.label, dropDots g.value) (List.mem_map.2 ⟨g, hg, rfl⟩)
    obtain ⟨q1, q2⟩ := (group_plain (hl g hg)).1 ⟨p1, p2⟩
    exact ⟨q1, q2, (hne g).1 p3⟩
  · intro hq p hp
    obtain ⟨g, hg, rfl⟩ := List.mem_map.1 hp
    obtain ⟨q1, q2, q3⟩ := hq g hg
    obtain ⟨p1, p2⟩ := (group_plain (hl g hg)).2 ⟨q1, q2⟩
    exact ⟨p1, p2, (hne g).2 q3⟩

/-- A world for the examples. -/
def sampleWorld : World := ⟨fun _ => bs "2026-01-02T03:04:05+0100", 0xABCDEF⟩

/-- A frame with one group. -/
def oneFrame (l v : String) : List MeterGroup := [⟨bs l, bs v, 32⟩]

theorem oneFrame_legal (l v : String) (h1 : ∀ b ∈ bs l, printable b = true ∧ b ≠ 32)
    (h2 : ∀ b ∈ bs v, printable b = true) (h3 : bs l ≠ []) : ∀ g ∈ oneFrame l v, g.Legal := by
  intro g hg
  simp only [oneFrame, List.mem_singleton] at hg
  subst hg
  exact ⟨Or.inl rfl, h1, h2, h3⟩

theorem oneFrame_valid (l v : String) (h1 : ∀ b ∈ bs l, printable b = true ∧ b ≠ 32)
    (h2 : ∀ b ∈ bs v, printable b = true) (h3 : bs l ≠ [])
    (hl : (bs l).length + (bs v).length ≤ 340) : ValidFrame ((oneFrame l v).map MeterGroup.raw) :=
  meter_valid (by simp [oneFrame]) (oneFrame_legal l v h1 h2 h3) (by
    simp only [oneFrame, meterFits]
    exact ⟨by omega, trivial⟩)

/-- The hypotheses of `c27_meter_partial` hold of the sample frame. -/
example : (∃ t, TinfoReach t [(⟨7, 5⟩, sampleMeter.map MeterGroup.raw)]) ∧ Plain (sampleWorld.iso 7) ∧
    (∀ g ∈ sampleMeter, g.Legal) ∧
    (∀ g ∈ sampleMeter, (34 : Byte) ∉ g.label ++ g.value ∧ (92 : Byte) ∉ g.label ++ g.value ∧
      ∃ b ∈ g.value, b ≠ 46) := by
  refine ⟨reach_next .init _ (meter_valid (by decide) sampleMeter_legal sampleMeter_fits),
    plain_lit _ (by decide), sampleMeter_legal, by decide⟩

/-- What goes out for a one-group frame in the sample world. -/
theorem dict_one {l v : String} (h1 : ∀ b ∈ bs l, printable b = true ∧ b ≠ 32)
    (h2 : ∀ b ∈ bs v, printable b = true) (h3 : bs l ≠ [])
    (hl : (bs l).length + (bs v).length ≤ 340) :
    ∃ t, TinfoReach t [(⟨7, 5⟩, (oneFrame l v).map MeterGroup.raw)] ∧
      ticJsonDict sampleWorld t none = .ok (123 :: memsText
        ([mText (bs "timestamp") (bs "2026-01-02T03:04:05+0100"), mText (bs "seconds") (bs "7.000"),
          dictMember (bs l, dropDots (bs v))])) := by
  obtain ⟨t, h⟩ := reach_next .init ⟨7, 5⟩ (oneFrame_valid l v h1 h2 h3 hl)
  obtain ⟨e1, e2, e3⟩ := (reach_inv h).2.2.2
  refine ⟨t, h, ?_⟩
  rw [ticJsonDict_eq e1 e2, meter_pairs (oneFrame_legal l v h1 h2 h3)]
  have : t.fr.seconds = bs "7.000" := by
    unfold Frame.seconds
    rw [e3]
    decide +kernel
  simp only [dictHead, this]
  rfl

/-- **C27** as stated is false: a value made of dots only (an unset value on the wire) gives text
that is not JSON. -/
theorem c27_refuted_empty_value : (∀ g ∈ oneFrame "PTEC" "....", g.Legal) ∧
    ∃ t, TinfoReach t [(⟨7, 5⟩, (oneFrame "PTEC" "....").map MeterGroup.raw)] ∧
      ∃ j, ticJsonDict sampleWorld t none = .ok j ∧ parseJson j = none := by
  refine ⟨oneFrame_legal _ _ (by decide) (by decide) (by decide), ?_⟩
  obtain ⟨t, h1, h2⟩ := dict_one (l := "PTEC") (v := "....") (by decide) (by decide) (by decide) (by decide)
  refine ⟨t, h1, _, h2, ?_⟩
  apply Option.isNone_iff_eq_none.1
  decide +kernel

/-- **C27** as stated is false: a quote in a value gives text that is not JSON. -/
theorem c27_refuted_quote : ∃ t, TinfoReach t [(⟨7, 5⟩, (oneFrame "X" "A\"B").map MeterGroup.raw)] ∧
      ∃ j, ticJsonDict sampleWorld t none = .ok j ∧ parseJson j = none := by
  obtain ⟨t, h1, h2⟩ := dict_one (l := "X") (v := "A\"B") (by decide) (by decide) (by decide) (by decide)
  refine ⟨t, h1, _, h2, ?_⟩
  apply Option.isNone_iff_eq_none.1
  decide +kernel

/-- **C27**: whatever the frame, the text is produced without reading outside the frame. -/
theorem c27_safe (w : World) {t : Teleinfo} {l} (h : TinfoReach t l) (notif : Option Str) :
    ∃ j, ticJsonDict w t notif = .ok j := by
  match l, h with
  | [], h =>
    have e : t = Teleinfo.init := (reach_inv h).2.2.2
    rw [e]
    exact ⟨_, rfl⟩
  | (ts, gs) :: l, h =>
    obtain ⟨h1, h2, h3⟩ := (reach_inv h).2.2.2
    exact ⟨_, ticJsonDict_eq h1 h2 w _⟩

/-- **C27**: before the first frame the dictionary is the empty object. -/
theorem c27_no_frame (w : World) (notif : Option Str) :
    ∃ j, ticJsonDict w Teleinfo.init notif = .ok j ∧ parseJson j = some (.obj []) := by
  refine ⟨_, rfl, ?_⟩
  exact parse_obj [] (by simp)

/-! ## C28 -/

/-- **C28 (partial).** For every published frame the array is parsed as one `{na, va}` object for the timestamp, the
power estimate and every group, in order, if and only if the labels and values need no JSON escape.  Missing
with respect to the property as stated: the other frames, for which it is false (see also `c28_refuted`). -/
theorem c28_array_partial (w : World) {t : Teleinfo} {ts gs l} (h : TinfoReach t ((ts, gs) :: l))
    (hi : Plain (w.iso ts.sec)) :
    ∃ j watt, ticJsonArray w t = .ok j ∧ t.watt = .ok watt ∧
      (parseJson j = some (frameArray (w.iso ts.sec) watt.toNat (pairs (storedAll gs))) ↔
        ∀ p ∈ pairs (storedAll gs), Plain p.1 ∧ Plain p.2) := by
  obtain ⟨h1, h2, h3⟩ := (reach_inv h).2.2.2
  obtain ⟨x, hx⟩ := c14_watt_default h
  refine ⟨_, x, ticJsonArray_eq h1 h2 w hx, hx, ?_⟩
  have hna := plain_lit "na" (by decide)
  have hva := plain_lit "va" (by decide)
  have hv : frameArray (w.iso ts.sec) x.toNat (pairs (storedAll gs)) =
      .arr (([arrElem (bs "timestamp", w.iso t.fr.ts.sec), [mText (bs "na") (bs "watt"), mNum (bs "va") x.toNat]] ++
        (pairs (storedAll gs)).map arrElem).map fun x => .obj (memsVal x)) := by
    rw [h3]
    simp only [frameArray, List.map_append, List.map_map]
    rfl
  rw [hv, parse_arr_iff]
  · constructor
    · intro h p hp
      have := h _ (List.mem_append_right _ (List.mem_map_of_mem hp))
      exact ⟨(mText_good_iff.1 (this (mText (bs "na") p.1) (by simp [arrElem]))).2,
        (mText_good_iff.1 (this (mText (bs "va") p.2) (by simp [arrElem]))).2⟩
    · intro hp
      rw [← h3] at hi
      intro y hy z hz
      rcases List.mem_append.1 hy with hy | hy
      · simp only [List.mem_cons, List.not_mem_nil, or_false] at hy
        rcases hy with rfl | rfl
        · simp only [arrElem, List.mem_cons, List.not_mem_nil, or_false] at hz
          rcases hz with rfl | rfl
          · exact mText_good hna (plain_lit _ (by decide))
          · exact mText_good hva hi
        · simp only [List.mem_cons, List.not_mem_nil, or_false] at hz
          rcases hz with rfl | rfl
          · exact mText_good hna (plain_lit _ (by decide))
          · exact mNum_good hva _
      · obtain ⟨p, hp', rfl⟩ := List.mem_map.1 hy
        obtain ⟨p1, p2⟩ := hp p hp'
        simp only [arrElem, List.mem_cons, List.not_mem_nil, or_false] at hz
        rcases hz with rfl | rfl
        · exact mText_good hna p1
        · exact mText_good hva p2
  · intro y hy z hz
    rcases List.mem_append.1 hy with hy | hy
    · simp only [List.mem_cons, List.not_mem_nil, or_false] at hy
      rcases hy with rfl | rfl
      · simp only [arrElem, List.mem_cons, List.not_mem_nil, or_false] at hz
        rcases hz with rfl | rfl <;> exact mText_built _ _
      · simp only [List.mem_cons, List.not_mem_nil, or_false] at hz
        rcases hz with rfl | rfl
        · exact mText_built _ _
        · exact mNum_built _ _
    · obtain ⟨p, hp', rfl⟩ := List.mem_map.1 hy
      simp only [arrElem, List.mem_cons, List.not_mem_nil, or_false] at hz
      rcases hz with rfl | rfl <;> exact mText_built _ _

/-- **C28 (partial)**, in terms of what the meter sends. -/
theorem c28_meter_partial (w : World) {t : Teleinfo} {ts l} {gs : List MeterGroup}
    (h : TinfoReach t ((ts, gs.map MeterGroup.raw) :: l))
    (hi : Plain (w.iso ts.sec)) (hl : ∀ g ∈ gs, g.Legal) :
    ∃ j watt, ticJsonArray w t = .ok j ∧ t.watt = .ok watt ∧
      (parseJson j = some (frameArray (w.iso ts.sec) watt.toNat (meterPairs gs)) ↔
        ∀ g ∈ gs, (34 : Byte) ∉ g.label ++ g.value ∧ (92 : Byte) ∉ g.label ++ g.value) := by
  obtain ⟨j, x, h1, h2, h3⟩ := c28_array_partial w h hi
  refine ⟨j, x, h1, h2, ?_⟩
  rw [← meter_pairs hl, h3, meter_pairs hl]
  constructor
  · intro hp g hg
    exact (group_plain (hl g hg)).1 (hp (g.label, dropDots g.value) (List.mem_map.2 ⟨g, hg, rfl⟩))
  · intro hq p hp
    obtain ⟨g, hg, rfl⟩ := List.mem_map.1 hp
    exact (group_plain (hl g hg)).2 (hq g hg)

/-- Such a frame, with an unset value. -/
example : (∃ t, TinfoReach t [(⟨7, 5⟩, (oneFrame "PTEC" "....").map MeterGroup.raw)]) ∧
    (∀ g ∈ oneFrame "PTEC" "....", (34 : Byte) ∉ g.label ++ g.value ∧ (92 : Byte) ∉ g.label ++ g.value) ∧
    meterPairs (oneFrame "PTEC" "....") = [(bs "PTEC", [])] :=
  ⟨reach_next .init _ (oneFrame_valid _ _ (by decide) (by decide) (by decide) (by decide)), by decide,
    by decide⟩

/-- **C28**: with no frame, the empty array. -/
theorem c28_no_frame (w : World) :
    ∃ j, ticJsonArray w Teleinfo.init = .ok j ∧ parseJson j = some (.arr []) := by
  refine ⟨_, rfl, ?_⟩
  exact parse_arr [] (by simp)

/-- **C28**: whatever the frame, the text is produced without reading outside the frame. -/
theorem c28_safe (w : World) {t : Teleinfo} {l} (h : TinfoReach t l) :
    ∃ j, ticJsonArray w t = .ok j := by
  match l, h with
  | [], h =>
    have e : t = Teleinfo.init := (reach_inv h).2.2.2
    rw [e]
    exact ⟨_, rfl⟩
  | (ts, gs) :: l, h =>
    obtain ⟨h1, h2, h3⟩ := (reach_inv h).2.2.2
    obtain ⟨x, hx⟩ := c14_watt_default h
    exact ⟨_, ticJsonArray_eq h1 h2 w hx⟩

/-- **C28** as stated is false: a quote in a value gives text that is not JSON. -/
theorem c28_refuted : ∃ t, TinfoReach t [(⟨7, 5⟩, (oneFrame "X" "A\"B").map MeterGroup.raw)] ∧
      ∃ j, ticJsonArray sampleWorld t = .ok j ∧ parseJson j = none := by
  obtain ⟨t, h⟩ := reach_next .init ⟨7, 5⟩ (oneFrame_valid "X" "A\"B" (by decide) (by decide) (by decide)
    (by decide))
  obtain ⟨e1, e2, e3⟩ := (reach_inv h).2.2.2
  have hx : t.watt = .ok 0 := by
    rw [watt_spec (reach_inv h).1]
    decide +kernel
  refine ⟨t, h, _, ticJsonArray_eq e1 e2 _ hx, ?_⟩
  rw [show sampleWorld.iso t.fr.ts.sec = bs "2026-01-02T03:04:05+0100" from rfl]
  rw [meter_pairs (oneFrame_legal "X" "A\"B" (by decide) (by decide) (by decide))]
  apply Option.isNone_iff_eq_none.1
  decide +kernel

end Wifinfo
