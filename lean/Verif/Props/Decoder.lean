import Verif.Proofs.Grammar

/-!
# Property theorems: the serial decoder (C01–C08)

Vocabulary: `(Dec.init mem).puts h` is the decoder after receiving the timed byte history `h`,
starting from any (possibly uninitialised) frame array `mem` of 350 cells.
-/

namespace Wifinfo
open Spec

/-- The bytes a user of the frame can see: the first `size` cells. -/
def Frame.visible (t : Frame) : List (Option Byte) := t.mem.take t.size

/-- `h` ends with a complete valid frame made of `gs`, whose start byte came at time `ts`. -/
def EndsWithFrame (h : List (TimeVal × Byte)) (ts : TimeVal) (gs : List RawGroup) : Prop :=
  ∃ pre body, h = pre ++ (ts, 2) :: body ∧ 2 :: bytesOf body = frameWire gs ∧ ValidFrame gs

/-! ## Bridge from runs to the abstract decoder -/

theorem run_of_init {mem : Mem} (hm : mem.length = 350) (h : List (TimeVal × Byte)) :
    ∃ d, (Dec.init mem).puts h = .ok d ∧ Sim d (ADec.idle.run none h).1 ∧
      Shows d (ADec.idle.run none h).2 :=
  puts_sim h (init_sim hm) (show Shows (Dec.init mem) none from rfl)

theorem shows_ready {d : Dec} {o} (h : Shows d o) : d.ready = o.isSome := by
  cases o with
  | none => simp [Dec.ready, show d.fr.size = 0 from h]
  | some p =>
    obtain ⟨ts, acc⟩ := p
    obtain ⟨h1, _, _, ⟨r, hr⟩, _⟩ := h
    simp [Dec.ready, h1, hr]

theorem holds_take {m : Mem} {xs : Str} (h : Holds m xs) : m.take xs.length = xs.map some := by
  obtain ⟨r, rfl⟩ := h
  rw [List.take_append_of_le_length (by simp)]
  exact List.take_of_length_le (by simp)

theorem run_of_endsWith {h : List (TimeVal × Byte)} {ts gs} (he : EndsWithFrame h ts gs) :
    (ADec.idle.run none h).2 = some (ts, storedAll gs) := by
  obtain ⟨pre, body, rfl, hb, hv⟩ := he
  rw [run_append, run_frame hv hb]

theorem endsWith_of_run {h : List (TimeVal × Byte)} {ts acc}
    (he : (ADec.idle.run none h).2 = some (ts, acc)) :
    ∃ gs, EndsWithFrame h ts gs ∧ acc = storedAll gs := by
  have := (run_explains h).2
  rw [he] at this
  obtain ⟨pre, body, gs, h1, h2, h3, h4⟩ := this
  exact ⟨gs, ⟨pre, body, h1, h2, h3⟩, h4⟩

/-! ## C01 -/

/-- **C01**: for every byte history, every clock and every initial array contents the decoder
runs without out-of-bounds access, without reading an uninitialised cell, and terminates. -/
theorem c01_decoder_memory_safe (mem : Mem) (hm : mem.length = 350)
    (h : List (TimeVal × Byte)) :
    ∃ d, (Dec.init mem).puts h = .ok d ∧ d.fr.mem.length = 350 := by
  obtain ⟨d, h1, h2, _⟩ := run_of_init hm h
  exact ⟨d, h1, h2.1⟩

/-- The theorem is not vacuous: the same code on a smaller array does fault. -/
example : (Dec.init (List.replicate 2 none)).puts
    ([2, 10, 65, 66, 67].map fun b => (⟨0, 0⟩, b)) = .error .outOfBounds := by decide

/-! ## C02 -/

/-- **C02**: a frame is reported if and only if the history ends with a complete valid frame. -/
theorem c02_ready_iff_valid_frame (mem : Mem) (hm : mem.length = 350)
    (h : List (TimeVal × Byte)) (d : Dec) (hd : (Dec.init mem).puts h = .ok d) :
    d.ready = true ↔ ∃ ts gs, EndsWithFrame h ts gs := by
  obtain ⟨d', h1, _, h3⟩ := run_of_init hm h
  obtain rfl : d' = d := by rw [hd] at h1; cases h1; rfl
  rw [shows_ready h3]
  constructor
  · intro hs
    cases ho : (ADec.idle.run none h).2 with
    | none => rw [ho] at hs; simp at hs
    | some p =>
      obtain ⟨ts, acc⟩ := p
      obtain ⟨gs, hg, _⟩ := endsWith_of_run ho
      exact ⟨ts, gs, hg⟩
  · rintro ⟨ts, gs, hg⟩
    rw [run_of_endsWith hg]; rfl

/-- **C02** (content): and then the visible content is the normalised text of exactly these
groups, stamped with the time of the start byte. -/
theorem c02_published_content (mem : Mem) (hm : mem.length = 350)
    (h : List (TimeVal × Byte)) (d : Dec) (hd : (Dec.init mem).puts h = .ok d)
    (ts : TimeVal) (gs : List RawGroup) (he : EndsWithFrame h ts gs) :
    d.fr.visible = (storedAll gs).map some ∧ d.fr.size = (storedAll gs).length ∧ d.fr.ts = ts := by
  obtain ⟨d', h1, _, h3⟩ := run_of_init hm h
  obtain rfl : d' = d := by rw [hd] at h1; cases h1; rfl
  rw [run_of_endsWith he] at h3
  obtain ⟨h4, h5, h6, _, _⟩ := h3
  refine ⟨?_, h4, h5⟩
  rw [Frame.visible, h4, holds_take h6]

/-- The decomposition is unique: a history does not end with two different frames. -/
theorem c02_frame_unique {h : List (TimeVal × Byte)} {ts ts' gs gs'}
    (h1 : EndsWithFrame h ts gs) (h2 : EndsWithFrame h ts' gs') : ts = ts' ∧ gs = gs' := by
  obtain ⟨pre, body, rfl, hb, hv⟩ := h1
  obtain ⟨pre', body', e, hb', hv'⟩ := h2
  have e' : bytesOf pre ++ frameWire gs = bytesOf pre' ++ frameWire gs' := by
    rw [← hb, ← hb']
    have := congrArg bytesOf e
    simpa [bytesOf] using this
  obtain ⟨e1, e2⟩ := frameWire_inj (fun g hg => (hv.good g hg).data)
    (fun g hg => (hv'.good g hg).data) e'
  have hlen : pre.length = pre'.length := by simpa using congrArg List.length e1
  have := List.append_inj e hlen
  simp at this
  exact ⟨this.2.1, e2⟩

/-- A group `ADCO 111111111111 #` is good, and a one-group frame is valid. -/
def sampleGroup : RawGroup := ⟨bs "ADCO 111111111111", 32, 35⟩

theorem sampleGroup_good : sampleGroup.Good := ⟨by decide, by decide, by decide⟩

theorem sampleFrame_valid : ValidFrame [sampleGroup, ⟨bs "PTEC HP..", 32, 32⟩] :=
  ⟨by decide, by
    intro g hg
    simp at hg
    rcases hg with rfl | rfl
    · exact sampleGroup_good
    · exact ⟨by decide, by decide, by decide⟩, by simp [Fits, sampleGroup]; decide⟩

example : EndsWithFrame ((bs "noise").map (fun b => (⟨0, 0⟩, b)) ++
    (frameWire [sampleGroup, ⟨bs "PTEC HP..", 32, 32⟩]).map (fun b => (⟨7, 5⟩, b)))
    ⟨7, 5⟩ [sampleGroup, ⟨bs "PTEC HP..", 32, 32⟩] :=
  ⟨_, ((frameWire [sampleGroup, ⟨bs "PTEC HP..", 32, 32⟩]).map (fun b => (⟨7, 5⟩, b))).tail, rfl,
    by decide, sampleFrame_valid⟩

/-! ## C03 -/

/-- **C03**: any frame a meter may send, received after any byte history, is decoded to exactly
its labels and values (trailing dots removed), in order — both as seen by the iterator of the
decoder and by any spec-level reading of the visible bytes. -/
theorem c03_meter_round_trip (mem : Mem) (hm : mem.length = 350)
    (pre frame : List (TimeVal × Byte)) (gs : List MeterGroup) (hne : gs ≠ [])
    (hl : ∀ g ∈ gs, g.Legal) (hf : meterFits 0 gs) (hw : bytesOf frame = meterWire gs) :
    ∃ d, (Dec.init mem).puts (pre ++ frame) = .ok d ∧ d.ready = true ∧
      d.fr.iter = .ok (meterPairs gs) ∧
      ∃ content, d.fr.visible = content.map some ∧ pairs content = meterPairs gs := by
  have hv := meter_valid hne hl hf
  rw [meterWire, frameWire, List.cons_append] at hw
  obtain ⟨ts, body, rfl, hb⟩ := bytesOf_cons hw
  have he : EndsWithFrame (pre ++ (ts, 2) :: body) ts (gs.map MeterGroup.raw) :=
    ⟨pre, body, rfl, by rw [hb, frameWire]; rfl, hv⟩
  obtain ⟨d, h1, h2, h3⟩ := run_of_init hm (pre ++ (ts, 2) :: body)
  have hready := (c02_ready_iff_valid_frame mem hm _ d h1).2 ⟨ts, _, he⟩
  obtain ⟨hc, hsz, _⟩ := c02_published_content mem hm _ d h1 ts _ he
  rw [run_of_endsWith he] at h3
  obtain ⟨h4, h5, h6, h7, h8⟩ := h3
  have hhas : d.fr.Has (storedAll (gs.map MeterGroup.raw)) := ⟨h2.1, h4, h6, Or.inr h7, h8⟩
  have hne' : storedAll (gs.map MeterGroup.raw) ≠ [] := by
    obtain ⟨r, hr⟩ := h7
    rw [hr]; simp
  refine ⟨d, h1, hready, ?_, _, hc, meter_pairs hl⟩
  rw [iter_spec hhas hne', meter_pairs hl]

/-- Non-vacuity: a legal meter frame, decoded by the model itself. -/
def sampleMeter : List MeterGroup :=
  [⟨bs "ADCO", bs "111111111111", 32⟩, ⟨bs "OPTARIF", bs "HC..", 32⟩, ⟨bs "HCHC", bs "052890470", 9⟩,
   ⟨bs "PTEC", bs "HP..", 32⟩]

theorem sampleMeter_legal : ∀ g ∈ sampleMeter, g.Legal := by
  intro g hg
  simp [sampleMeter] at hg
  rcases hg with rfl | rfl | rfl | rfl <;> exact ⟨by decide, by decide, by decide, by decide⟩

theorem sampleMeter_fits : meterFits 0 sampleMeter := by
  simp [sampleMeter, meterFits]; decide

example : meterPairs sampleMeter = [(bs "ADCO", bs "111111111111"), (bs "OPTARIF", bs "HC"),
    (bs "HCHC", bs "052890470"), (bs "PTEC", bs "HP")] := by decide

/-! ## C04 -/

/-- Reception of a frame-shaped byte string publishes exactly when it is a valid frame. -/
theorem shaped_ready_iff (mem : Mem) (hm : mem.length = 350) (pre frame : List (TimeVal × Byte))
    (gs : List RawGroup) (hs : ∀ g ∈ gs, Shaped g) (hw : bytesOf frame = frameWire gs) (d : Dec)
    (hd : (Dec.init mem).puts (pre ++ frame) = .ok d) : d.ready = true ↔ ValidFrame gs := by
  rw [c02_ready_iff_valid_frame mem hm _ d hd]
  constructor
  · rintro ⟨ts, gs', pre', body', e, hb', hv'⟩
    have e' : bytesOf pre ++ frameWire gs = bytesOf pre' ++ frameWire gs' := by
      rw [← hb', ← hw]
      have := congrArg bytesOf e
      simpa [bytesOf] using this
    obtain ⟨_, rfl⟩ := frameWire_inj hs (fun g hg => (hv'.good g hg).data) e'
    exact hv'
  · intro hv
    have hw' := hw
    rw [frameWire, List.cons_append] at hw'
    obtain ⟨ts, body, rfl, hb⟩ := bytesOf_cons hw'
    exact ⟨ts, gs, pre, body, rfl, by rw [hb, frameWire]; rfl, hv⟩

theorem byteSum_append (a b : Str) : byteSum (a ++ b) = byteSum a + byteSum b := by
  simp [byteSum]

/-- **C04** (text): replacing one byte of the checksummed text (label, inner separator or value)
of one group of a valid frame by a data byte that differs modulo 64 prevents publication. -/
theorem c04_text_substitution_rejected (mem : Mem) (hm : mem.length = 350)
    (pre frame : List (TimeVal × Byte)) (gsA gsB : List RawGroup) (u v : Str) (b b' sep ck : Byte)
    (hv : ValidFrame (gsA ++ ⟨u ++ b :: v, sep, ck⟩ :: gsB))
    (hb' : isData b' = true) (hdiff : b.toNat % 64 ≠ b'.toNat % 64)
    (hw : bytesOf frame = frameWire (gsA ++ ⟨u ++ b' :: v, sep, ck⟩ :: gsB)) (d : Dec)
    (hd : (Dec.init mem).puts (pre ++ frame) = .ok d) : d.ready = false := by
  have hg := hv.good ⟨u ++ b :: v, sep, ck⟩ (by simp)
  have hs : ∀ g ∈ gsA ++ ⟨u ++ b' :: v, sep, ck⟩ :: gsB, Shaped g := by
    intro g hgm
    simp only [List.mem_append, List.mem_cons] at hgm
    rcases hgm with h | rfl | h
    · exact (hv.good g (by simp [h])).data
    · intro x hx
      have := hg.data x
      simp only [List.mem_append, List.mem_cons, List.not_mem_nil, or_false] at hx this
      rcases hx with (hx | rfl | hx) | hx
      · exact this (by simp [hx])
      · exact hb'
      · exact this (by simp [hx])
      · exact this (by simp [hx])
    · exact (hv.good g (by simp [h])).data
  have := shaped_ready_iff mem hm pre frame _ hs hw d hd
  cases hr : d.ready with
  | false => rfl
  | true =>
    have hv' := this.1 hr
    have hg' := hv'.good ⟨u ++ b' :: v, sep, ck⟩ (by simp)
    have e1 := hg.sum
    have e2 := hg'.sum
    simp only [byteSum_append] at e1 e2
    simp only [byteSum, List.map_cons, List.sum_cons] at e1 e2
    omega

/-- **C04** (checksum): replacing the checksum byte of one group by any other data byte prevents
publication. -/
theorem c04_checksum_substitution_rejected (mem : Mem) (hm : mem.length = 350)
    (pre frame : List (TimeVal × Byte)) (gsA gsB : List RawGroup) (u : Str) (sep ck ck' : Byte)
    (hv : ValidFrame (gsA ++ ⟨u, sep, ck⟩ :: gsB))
    (hb' : isData ck' = true) (hdiff : ck' ≠ ck)
    (hw : bytesOf frame = frameWire (gsA ++ ⟨u, sep, ck'⟩ :: gsB)) (d : Dec)
    (hd : (Dec.init mem).puts (pre ++ frame) = .ok d) : d.ready = false := by
  have hg := hv.good ⟨u, sep, ck⟩ (by simp)
  have hs : ∀ g ∈ gsA ++ ⟨u, sep, ck'⟩ :: gsB, Shaped g := by
    intro g hgm
    simp only [List.mem_append, List.mem_cons] at hgm
    rcases hgm with h | rfl | h
    · exact (hv.good g (by simp [h])).data
    · intro x hx
      have := hg.data x
      simp only [List.mem_append, List.mem_cons, List.not_mem_nil, or_false] at hx this
      rcases hx with hx | rfl | rfl
      · exact this (by simp [hx])
      · exact this (by simp)
      · exact hb'
    · exact (hv.good g (by simp [h])).data
  have := shaped_ready_iff mem hm pre frame _ hs hw d hd
  cases hr : d.ready with
  | false => rfl
  | true =>
    have hv' := this.1 hr
    have e1 := hg.sum
    have e2 := (hv'.good ⟨u, sep, ck'⟩ (by simp)).sum
    simp only at e1 e2
    exact absurd (UInt8.toNat_inj.1 (e2.trans e1.symm)) hdiff

/-- **C04** (control bytes): replacing one byte of the body of a group (text, last separator or
checksum) by STX, ETX, EOT, LF or CR prevents publication. -/
theorem c04_control_substitution_rejected (mem : Mem) (hm : mem.length = 350)
    (pre frame : List (TimeVal × Byte)) (gsA gsB : List RawGroup) (u v : Str) (c : Byte)
    (hA : ∀ g ∈ gsA, Shaped g) (hB : ∀ g ∈ gsB, Shaped g)
    (hu : ∀ b ∈ u, isData b = true) (hv : ∀ b ∈ v, isData b = true) (hc : isData c = false)
    (hw : bytesOf frame = 2 :: gsA.flatMap RawGroup.wire ++
      (10 :: u ++ c :: v ++ [13]) ++ gsB.flatMap RawGroup.wire ++ [3]) (d : Dec)
    (hd : (Dec.init mem).puts (pre ++ frame) = .ok d) : d.ready = false := by
  cases hr : d.ready with
  | false => rfl
  | true =>
    exfalso
    obtain ⟨ts, gs', pre', body', e, hb', hv'⟩ := (c02_ready_iff_valid_frame mem hm _ d hd).1 hr
    have hs' : ∀ g ∈ gs', Shaped g := fun g hg => (hv'.good g hg).data
    have e0 : bytesOf pre ++ (2 :: gsA.flatMap RawGroup.wire ++
        (10 :: u ++ c :: v ++ [13]) ++ gsB.flatMap RawGroup.wire ++ [3]) =
        bytesOf pre' ++ 2 :: (gs'.flatMap RawGroup.wire ++ [3]) := by
      have := congrArg bytesOf e
      simp only [bytesOf, List.map_append, List.map_cons] at this hw hb' ⊢
      rw [hw, hb'] at this
      simpa [frameWire] using this
    have hnB := stx_not_mem_wires hB
    have hn' := stx_not_mem_wires hs'
    have hvB : (2 : Byte) ∉ v ++ 13 :: (gsB.flatMap RawGroup.wire ++ [3]) := by
      intro hm
      rcases List.mem_append.1 hm with h | h
      · exact (data_ne (hv _ h)).1 rfl
      · rcases List.mem_cons.1 h with h | h
        · revert h; decide
        · exact hnB h
    by_cases hc2 : c = 2
    · subst hc2
      have e1 : (bytesOf pre ++ 2 :: gsA.flatMap RawGroup.wire ++ 10 :: u) ++
          2 :: (v ++ 13 :: (gsB.flatMap RawGroup.wire ++ [3])) =
          bytesOf pre' ++ 2 :: (gs'.flatMap RawGroup.wire ++ [3]) := by
        rw [← e0]; simp
      have h2 := (split_at_last hvB hn' e1).2
      cases gs' with
      | nil => exact hv'.nonempty rfl
      | cons g gs' =>
        cases v with
        | nil => simp [RawGroup.wire] at h2
        | cons x v =>
          simp [RawGroup.wire] at h2
          exact (data_ne (hv x (by simp))).2.2.2.1 h2.1
    · have hnA : (2 : Byte) ∉ gsA.flatMap RawGroup.wire ++
          10 :: (u ++ c :: (v ++ 13 :: (gsB.flatMap RawGroup.wire ++ [3]))) := by
        intro hm
        rcases List.mem_append.1 hm with h | h
        · exact stx_not_mem_wires hA (List.mem_append.2 (Or.inl h))
        · rcases List.mem_cons.1 h with h | h
          · revert h; decide
          · rcases List.mem_append.1 h with h | h
            · exact (data_ne (hu _ h)).1 rfl
            · rcases List.mem_cons.1 h with h | h
              · exact hc2 h.symm
              · exact hvB h
      have e1 : bytesOf pre ++ 2 :: (gsA.flatMap RawGroup.wire ++
          10 :: (u ++ c :: (v ++ 13 :: (gsB.flatMap RawGroup.wire ++ [3])))) =
          bytesOf pre' ++ 2 :: (gs'.flatMap RawGroup.wire ++ [3]) := by
        rw [← e0]; simp
      have h2 := (split_at_last hnA hn' e1).2
      clear e e0 e1 hnA hv' hr hd hb' hw
      induction gsA generalizing gs' with
      | nil =>
        cases gs' with
        | nil => simp at h2
        | cons g gs' =>
          have hg := hs' g (by simp)
          have e3 : u ++ c :: (v ++ 13 :: (gsB.flatMap RawGroup.wire ++ [3])) =
              (g.text ++ [g.sep, g.check]) ++ 13 :: (gs'.flatMap RawGroup.wire ++ [3]) := by
            simpa [RawGroup.wire] using h2
          by_cases hc13 : c = 13
          · subst hc13
            obtain ⟨_, h4⟩ := split_at_first (fun hm => (data_ne (hu _ hm)).2.2.2.2 rfl)
              (fun hm => (data_ne (hg _ hm)).2.2.2.2 rfl) e3
            cases gs' with
            | nil =>
              cases v with
              | nil => simp at h4
              | cons x v =>
                simp at h4
            | cons g' gs' =>
              cases v with
              | nil => simp [RawGroup.wire] at h4
              | cons x v =>
                simp [RawGroup.wire] at h4
                exact (data_ne (hv x (by simp))).2.2.2.1 h4.1
          · have e4 : (u ++ c :: v) ++ 13 :: (gsB.flatMap RawGroup.wire ++ [3]) =
              (g.text ++ [g.sep, g.check]) ++ 13 :: (gs'.flatMap RawGroup.wire ++ [3]) := by
              rw [← e3]; simp
            have hn13 : (13 : Byte) ∉ u ++ c :: v := by
              intro hm
              rcases List.mem_append.1 hm with h | h
              · exact (data_ne (hu _ h)).2.2.2.2 rfl
              · rcases List.mem_cons.1 h with h | h
                · exact hc13 h.symm
                · exact (data_ne (hv _ h)).2.2.2.2 rfl
            obtain ⟨h4, _⟩ := split_at_first hn13
              (fun hm => (data_ne (hg _ hm)).2.2.2.2 rfl) e4
            have : isData c = true := hg c (by rw [← h4]; simp)
            rw [hc] at this
            simp at this
      | cons a gsA ih =>
        cases gs' with
        | nil => simp [RawGroup.wire] at h2
        | cons g gs' =>
          have ha := hA a (by simp)
          have hg := hs' g (by simp)
          have e3 : (a.text ++ [a.sep, a.check]) ++ 13 :: (gsA.flatMap RawGroup.wire ++
              10 :: (u ++ c :: (v ++ 13 :: (gsB.flatMap RawGroup.wire ++ [3])))) =
              (g.text ++ [g.sep, g.check]) ++ 13 :: (gs'.flatMap RawGroup.wire ++ [3]) := by
            simpa [RawGroup.wire] using h2
          obtain ⟨_, h4⟩ := split_at_first (fun hm => (data_ne (ha _ hm)).2.2.2.2 rfl)
            (fun hm => (data_ne (hg _ hm)).2.2.2.2 rfl) e3
          exact ih (fun x hx => hA x (by simp [hx])) gs' (fun x hx => hs' x (by simp [hx]))
            (fun hm => stx_not_mem_wires (fun x hx => hs' x (by simp [hx])) hm) h4

/-- The condition "differs modulo 64" is needed: flipping bit 6 of a byte goes unnoticed
(`PAPP 00060` / `PAPP 00060` with `0` turned into `p`). -/
example : (⟨bs "PAPP 00060", 32, 39⟩ : RawGroup).Good ∧ (⟨bs "PAPP 0006p", 32, 39⟩ : RawGroup).Good :=
  ⟨⟨by decide, by decide, by decide⟩, ⟨by decide, by decide, by decide⟩⟩

/-! ## C05 -/

/-- **C05 refuted**: two accepted groups, the first one without inner separator (`AB #`), the
second one `PAPP 00060`; the published frame reads as the single pair (`AB`, `PAPP`). -/
theorem c05_refuted : ValidFrame [⟨bs "AB", 32, 35⟩, ⟨bs "PAPP 00060", 32, 39⟩] ∧
    pairs (storedAll [⟨bs "AB", 32, 35⟩, ⟨bs "PAPP 00060", 32, 39⟩]) = [(bs "AB", bs "PAPP")] := by
  refine ⟨⟨by decide, ?_, ?_⟩, by decide⟩
  · intro g hg
    simp at hg
    rcases hg with rfl | rfl <;> exact ⟨by decide, by decide, by decide⟩
  · simp [Fits]; decide

/-- A group that has an inner separator and neither NUL nor byte 255. -/
structure Separated (g : RawGroup) : Prop where
  sep : g.sep ∈ g.text
  nul : (0 : Byte) ∉ g.text
  ff : (255 : Byte) ∉ g.text

/-- What a separated group means. -/
def groupPair (g : RawGroup) : Str × Str :=
  ((splitSep g.sep g.text).1, dropDots (splitSep g.sep g.text).2)

theorem splitSep_spec {sep : Byte} {text : Str} (h : sep ∈ text) :
    text = (splitSep sep text).1 ++ sep :: (splitSep sep text).2 ∧ sep ∉ (splitSep sep text).1 := by
  induction text with
  | nil => simp at h
  | cons b t ih =>
    by_cases hb : b = sep
    · subst hb; simp [splitSep]
    · simp [Ne.symm hb] at h
      have := ih h
      simp only [splitSep] at this ⊢
      simp [hb]
      exact ⟨by simpa using this.1, Ne.symm hb, by simpa using this.2⟩

theorem separated_pairs {gs : List RawGroup} (h : ∀ g ∈ gs, Separated g) :
    pairs (storedAll gs) = gs.map groupPair := by
  induction gs with
  | nil => rfl
  | cons g gs ih =>
    have hg := h g (by simp)
    obtain ⟨e, hs⟩ := splitSep_spec hg.sep
    have hsub1 : ∀ b ∈ (splitSep g.sep g.text).1, b ∈ g.text := by
      intro b hb; rw [e]; simp [hb]
    have hsub2 : ∀ b ∈ (splitSep g.sep g.text).2, b ∈ g.text := by
      intro b hb; rw [e]; simp [hb]
    have hst := stored_of_split e hs (fun hm => hg.ff (hsub2 _ hm))
    have e1 : storedAll (g :: gs) = g.stored ++ storedAll gs := by simp [storedAll]
    rw [e1, hst, pairs_append_pair, ih (fun x hx => h x (by simp [hx]))]
    · rfl
    · intro b hb h0; exact hg.nul (h0 ▸ hsub1 b hb)
    · intro b hb h0; exact hg.nul (h0 ▸ hsub2 b (dropDots_mem hb))

theorem separated_cut {gs : List RawGroup} (hs : ∀ g ∈ gs, Separated g) :
    cut (storedAll gs) = (gs.map groupPair).flatMap fun p => [p.1, p.2] := by
  induction gs with
  | nil => rfl
  | cons g gs ih =>
    have hg := hs g (by simp)
    obtain ⟨e, hsep⟩ := splitSep_spec hg.sep
    have hsub1 : ∀ b ∈ (splitSep g.sep g.text).1, b ∈ g.text := by
      intro b hb; rw [e]; simp [hb]
    have hsub2 : ∀ b ∈ (splitSep g.sep g.text).2, b ∈ g.text := by
      intro b hb; rw [e]; simp [hb]
    have hst := stored_of_split e hsep (fun hm => hg.ff (hsub2 _ hm))
    have e1 : storedAll (g :: gs) = (splitSep g.sep g.text).1 ++ 0 ::
        (dropDots (splitSep g.sep g.text).2 ++ 0 :: storedAll gs) := by
      simp [storedAll, hst]
    rw [e1, cut_append_nul, cut_append_nul, ih (fun x hx => hs x (by simp [hx]))]
    · simp [groupPair]
    · intro b hb h0; exact hg.nul (h0 ▸ hsub2 b (dropDots_mem hb))
    · intro b hb h0; exact hg.nul (h0 ▸ hsub1 b hb)

/-- **C05 (partial)**: when every received group has an inner separator and neither NUL nor byte
255, the published frame is the list of one label/value pair per group.  Missing for the full
statement: groups without inner separator (or with NUL bytes) are accepted by the code
(`c05_refuted`). -/
theorem c05_pairs_partial (mem : Mem) (hm : mem.length = 350) (h : List (TimeVal × Byte)) (d : Dec)
    (hd : (Dec.init mem).puts h = .ok d) (ts : TimeVal) (gs : List RawGroup)
    (he : EndsWithFrame h ts gs) (hs : ∀ g ∈ gs, Separated g) :
    ∃ content, d.fr.visible = content.map some ∧ pairs content = gs.map groupPair ∧
      cut content = (gs.map groupPair).flatMap fun p => [p.1, p.2] := by
  exact ⟨_, (c02_published_content mem hm h d hd ts gs he).1, separated_pairs hs, separated_cut hs⟩

theorem markSep_none {sep : Byte} {text : Str} (h : sep ∉ text) : markSep sep text = text := by
  induction text with
  | nil => rfl
  | cons b t ih =>
    have hb : b ≠ sep := fun e => h (by simp [e])
    rw [markSep, if_neg hb, ih (fun hm => h (by simp [hm]))]

/-- The strings a group gives: a label and a value, or one string if there is no separator in its text. -/
def groupStrings (g : RawGroup) : List Str :=
  if g.sep ∈ g.text then [(groupPair g).1, (groupPair g).2] else [dropDots g.text]

theorem cut_strings {gs : List RawGroup} (h : ∀ g ∈ gs, (0 : Byte) ∉ g.text ∧ (255 : Byte) ∉ g.text) :
    cut (storedAll gs) = gs.flatMap groupStrings := by
  induction gs with
  | nil => rfl
  | cons g gs ih =>
    have hg := h g (by simp)
    have ih := ih (fun x hx => h x (by simp [hx]))
    by_cases hm : g.sep ∈ g.text
    · obtain ⟨e, hsep⟩ := splitSep_spec hm
      have hsub1 : ∀ b ∈ (splitSep g.sep g.text).1, b ∈ g.text := by
        intro b hb; rw [e]; simp [hb]
      have hsub2 : ∀ b ∈ (splitSep g.sep g.text).2, b ∈ g.text := by
        intro b hb; rw [e]; simp [hb]
      have hst := stored_of_split e hsep (fun hm => hg.2 (hsub2 _ hm))
      have e1 : storedAll (g :: gs) = (splitSep g.sep g.text).1 ++ 0 ::
          (dropDots (splitSep g.sep g.text).2 ++ 0 :: storedAll gs) := by
        simp [storedAll, hst]
      rw [e1, cut_append_nul, cut_append_nul, ih]
      · simp [groupPair, groupStrings, hm]
      · intro b hb h0; exact hg.1 (h0 ▸ hsub2 b (dropDots_mem hb))
      · intro b hb h0; exact hg.1 (h0 ▸ hsub1 b hb)
    · have e1 : storedAll (g :: gs) = dropDots g.text ++ 0 :: storedAll gs := by
        simp [storedAll, RawGroup.stored, markSep_none hm]
      rw [e1, cut_append_nul, ih]
      · simp [groupStrings, hm]
      · intro b hb h0; exact hg.1 (h0 ▸ dropDots_mem hb)

theorem pairUp_length (l : List Str) : (pairUp l).length = l.length / 2 := by
  match l with
  | [] => rfl
  | [_] => simp [pairUp]
  | a :: b :: r =>
    rw [pairUp, List.length_cons, pairUp_length r]
    simp only [List.length_cons]
    omega

/-- **C05, exactly**: for groups without NUL and byte 255, the strings of the published frame are those of the groups,
and the frame is one label/value pair per group if and only if every group has a separator inside its text. -/
theorem c05_exact (mem : Mem) (hm : mem.length = 350) (h : List (TimeVal × Byte)) (d : Dec)
    (hd : (Dec.init mem).puts h = .ok d) (ts : TimeVal) (gs : List RawGroup)
    (he : EndsWithFrame h ts gs) (hs : ∀ g ∈ gs, (0 : Byte) ∉ g.text ∧ (255 : Byte) ∉ g.text) :
    ∃ content, d.fr.visible = content.map some ∧ cut content = gs.flatMap groupStrings ∧
      (pairs content = gs.map groupPair ↔ ∀ g ∈ gs, g.sep ∈ g.text) := by
  refine ⟨_, (c02_published_content mem hm h d hd ts gs he).1, cut_strings hs, fun hp => ?_,
    fun hm => separated_pairs fun g hg => ⟨hm g hg, (hs g hg).1, (hs g hg).2⟩⟩
  have hl := congrArg List.length hp
  rw [pairs, pairUp_length, cut_strings hs, List.length_map] at hl
  have key : ∀ l : List RawGroup, (l.flatMap groupStrings).length ≤ 2 * l.length ∧
      ((l.flatMap groupStrings).length = 2 * l.length → ∀ g ∈ l, g.sep ∈ g.text) := by
    intro l
    induction l with
    | nil => simp
    | cons g l ih =>
      rw [List.flatMap_cons, List.length_append, List.length_cons]
      by_cases hc : g.sep ∈ g.text
      · have : (groupStrings g).length = 2 := by simp [groupStrings, hc]
        refine ⟨by omega, fun e x hx => ?_⟩
        rcases List.mem_cons.1 hx with rfl | hx
        · exact hc
        · exact ih.2 (by omega) x hx
      · have : (groupStrings g).length = 1 := by simp [groupStrings, hc]
        exact ⟨by omega, fun e => by omega⟩
  have := key gs
  exact this.2 (by omega)

example : Separated sampleGroup ∧ groupPair sampleGroup = (bs "ADCO", bs "111111111111") :=
  ⟨⟨by decide, by decide, by decide⟩, by decide⟩

/-! ## C06 -/

/-- **C06**: after a start-of-frame byte, what is published does not depend on anything received
before (nor on the initial array contents). -/
theorem c06_resynchronisation (mem1 mem2 : Mem) (hm1 : mem1.length = 350) (hm2 : mem2.length = 350)
    (h1 h2 : List (TimeVal × Byte)) (t : TimeVal) (s : List (TimeVal × Byte)) :
    ∃ d1 d2, (Dec.init mem1).puts (h1 ++ (t, 2) :: s) = .ok d1 ∧
      (Dec.init mem2).puts (h2 ++ (t, 2) :: s) = .ok d2 ∧
      d1.ready = d2.ready ∧ d1.fr.visible = d2.fr.visible ∧ (d1.ready = true → d1.fr.ts = d2.fr.ts) := by
  obtain ⟨d1, e1, s1, o1⟩ := run_of_init hm1 (h1 ++ (t, 2) :: s)
  obtain ⟨d2, e2, s2, o2⟩ := run_of_init hm2 (h2 ++ (t, 2) :: s)
  have key : ∀ (a : ADec) (o), a.run o ((t, 2) :: s) = (ADec.between t []).run none s := by
    intro a o; simp [ADec.run, ADec.step, STX]
  rw [run_append, key] at o1 o2
  refine ⟨d1, d2, e1, e2, by rw [shows_ready o1, shows_ready o2], ?_, ?_⟩
  · cases ho : ((ADec.between t []).run none s).2 with
    | none =>
      rw [ho] at o1 o2
      simp [Frame.visible, show d1.fr.size = 0 from o1, show d2.fr.size = 0 from o2]
    | some p =>
      rw [ho] at o1 o2
      obtain ⟨ts, acc⟩ := p
      rw [Frame.visible, Frame.visible, o1.1, o2.1, holds_take o1.2.2.1, holds_take o2.2.2.1]
  · intro hr
    rw [shows_ready o1] at hr
    cases ho : ((ADec.between t []).run none s).2 with
    | none => rw [ho] at hr; simp at hr
    | some p =>
      rw [ho] at o1 o2
      obtain ⟨ts, acc⟩ := p
      rw [o1.2.1, o2.2.1]

/-! ## C07 -/

/-- The frames a caller that checks `ready` after each byte gets to see (`tic_decode`). -/
def Dec.trace (d : Dec) : List (TimeVal × Byte) → Res (List (TimeVal × List (Option Byte)))
  | [] => .ok []
  | (t, c) :: r =>
    match d.put t c with
    | .error e => .error e
    | .ok d' =>
      match d'.trace r with
      | .error e => .error e
      | .ok l => .ok (if d'.ready then (d'.fr.ts, d'.fr.visible) :: l else l)

/-- **C07** (marker): a frame is only ready just after an ETX byte. -/
theorem c07_ready_only_after_etx (mem : Mem) (hm : mem.length = 350) (h : List (TimeVal × Byte))
    (t : TimeVal) (c : Byte) (d : Dec) (hd : (Dec.init mem).puts (h ++ [(t, c)]) = .ok d)
    (hr : d.ready = true) : c = ETX := by
  obtain ⟨ts, gs, pre, body, e, hb, hv⟩ := (c02_ready_iff_valid_frame mem hm _ d hd).1 hr
  have : (bytesOf (h ++ [(t, c)])).getLast? = (bytesOf pre ++ frameWire gs).getLast? := by
    rw [e, ← hb]; simp [bytesOf]
  have e1 : bytesOf pre ++ frameWire gs = (bytesOf pre ++ 2 :: gs.flatMap RawGroup.wire) ++ [3] := by
    simp [frameWire]
  rw [e1, List.getLast?_append] at this
  simpa [bytesOf, ETX] using this

/-- **C07** (withdrawal): once a frame is ready, the next byte, whatever it is, withdraws it and
does not publish another one. -/
theorem c07_next_byte_withdraws (mem : Mem) (hm : mem.length = 350) (h : List (TimeVal × Byte))
    (d : Dec) (hd : (Dec.init mem).puts h = .ok d) (hr : d.ready = true) (t : TimeVal) (c : Byte) :
    ∃ d', d.put t c = .ok d' ∧ d'.ready = false := by
  obtain ⟨d0, e, hs, ho⟩ := run_of_init hm h
  obtain rfl : d0 = d := by rw [hd] at e; cases e; rfl
  obtain ⟨ts, gs, he⟩ := (c02_ready_iff_valid_frame mem hm _ d0 hd).1 hr
  have hidle : (ADec.idle.run none h).1 = .idle := by
    obtain ⟨pre, body, rfl, hb, hv⟩ := he
    rw [run_append, run_frame hv hb]
  rw [hidle] at hs
  obtain ⟨d', h1, _, h3⟩ := put_sim hs t c
  refine ⟨d', h1, ?_⟩
  rw [shows_ready h3]
  simp only [ADec.step]
  repeat' split
  all_goals rfl

/-- Outputs of the abstract decoder along a history. -/
def ADec.outs (a : ADec) : List (TimeVal × Byte) → List (TimeVal × Str)
  | [] => []
  | (t, c) :: r => (a.step t c).2.toList ++ (a.step t c).1.outs r

theorem trace_outs (h : List (TimeVal × Byte)) : ∀ {d : Dec} {a : ADec}, Sim d a →
    d.trace h = .ok ((a.outs h).map fun p => (p.1, p.2.map some)) := by
  induction h with
  | nil => intro d a _; rfl
  | cons x h ih =>
    intro d a hs
    obtain ⟨t, c⟩ := x
    obtain ⟨d1, h1, h2, h3⟩ := put_sim hs t c
    simp only [Dec.trace, h1, ih h2, ADec.outs, shows_ready h3]
    cases ho : (a.step t c).2 with
    | none => simp
    | some p =>
      obtain ⟨ts, acc⟩ := p
      rw [ho] at h3
      simp [Frame.visible, h3.1, h3.2.1, holds_take h3.2.2.1]

theorem outs_append (h1 h2 : List (TimeVal × Byte)) : ∀ (a : ADec),
    a.outs (h1 ++ h2) = a.outs h1 ++ (a.run none h1).1.outs h2 := by
  have hrun : ∀ (h : List (TimeVal × Byte)) (a : ADec) o o', (a.run o h).1 = (a.run o' h).1 := by
    intro h a o o'; cases h <;> rfl
  induction h1 with
  | nil => intro a; rfl
  | cons x h1 ih =>
    intro a
    obtain ⟨t, c⟩ := x
    simp only [List.cons_append, ADec.outs, ih, List.append_assoc, ADec.run]
    rw [hrun h1 _ (a.step t c).2 none]

theorem outs_no_etx (h : List (TimeVal × Byte)) : ∀ (a : ADec), (3 : Byte) ∉ bytesOf h →
    a.outs h = [] := by
  induction h with
  | nil => intro a _; rfl
  | cons x h ih =>
    intro a hn
    obtain ⟨t, c⟩ := x
    simp [bytesOf] at hn
    have hc : c ≠ ETX := fun e => hn.1 (by rw [e]; rfl)
    have : (a.step t c).2 = none := by
      simp only [ADec.step, if_neg hc]
      repeat' split
      all_goals rfl
    simp only [ADec.outs, this]
    simpa using ih _ (by simpa [bytesOf] using hn.2)

theorem etx_not_mem_wires {gs : List RawGroup} (h : ∀ g ∈ gs, Shaped g) :
    (3 : Byte) ∉ gs.flatMap RawGroup.wire := by
  intro hm
  simp only [List.mem_flatMap] at hm
  obtain ⟨g, hg, hm⟩ := hm
  have hs := h g hg
  simp only [RawGroup.wire, List.cons_append, List.mem_cons, List.mem_append] at hm
  rcases hm with hm | hm | hm | hm | hm | hm
  · revert hm; decide
  · exact (data_ne (hs 3 (by simp [hm]))).2.1 rfl
  · exact (data_ne (hs 3 (by simp [hm]))).2.1 rfl
  · exact (data_ne (hs 3 (by simp [hm]))).2.1 rfl
  · revert hm; decide
  · simp at hm

/-- One received segment: noise without start byte, then a valid frame started at `ts`. -/
structure Segment where
  noise : List (TimeVal × Byte)
  ts : TimeVal
  body : List (TimeVal × Byte)
  groups : List RawGroup

/-- A well-formed segment. -/
structure Segment.Ok (s : Segment) : Prop where
  noise : (2 : Byte) ∉ bytesOf s.noise
  wire : 2 :: bytesOf s.body = frameWire s.groups
  valid : ValidFrame s.groups

/-- Bytes of a segment. -/
def Segment.bytes (s : Segment) : List (TimeVal × Byte) := s.noise ++ (s.ts, 2) :: s.body

theorem outs_idle_noise (h : List (TimeVal × Byte)) (hn : (2 : Byte) ∉ bytesOf h) :
    ADec.idle.outs h = [] ∧ (ADec.idle.run none h).1 = .idle := by
  induction h with
  | nil => exact ⟨rfl, rfl⟩
  | cons x h ih =>
    obtain ⟨t, c⟩ := x
    simp [bytesOf] at hn
    have hstep : ADec.idle.step t c = (.idle, none) := by
      have : c ≠ STX := fun h => hn.1 (by rw [h]; rfl)
      simp only [ADec.step, if_neg this]
      repeat' split
      all_goals rfl
    have := ih (by simpa [bytesOf] using hn.2)
    simp only [ADec.outs, ADec.run, hstep]
    exact ⟨by simpa using this.1, this.2⟩

theorem outs_frame {gs : List RawGroup} (hv : ValidFrame gs) {ts : TimeVal}
    {body : List (TimeVal × Byte)} (hx : 2 :: bytesOf body = frameWire gs) (a : ADec) :
    a.outs ((ts, 2) :: body) = [(ts, storedAll gs)] := by
  have hr := run_frame hv hx a none (ts := ts)
  simp only [frameWire, List.cons_append, List.cons.injEq, true_and] at hx
  obtain ⟨x1, x2, rfl, h1, h2⟩ := bytesOf_split hx
  obtain ⟨t2, x3, rfl, h3⟩ := bytesOf_cons h2
  have : x3 = [] := by simpa using h3
  subst this
  have e : (ts, (2 : Byte)) :: (x1 ++ [(t2, 3)]) = ((ts, 2) :: x1) ++ [(t2, 3)] := by simp
  rw [e] at hr ⊢
  rw [outs_append, outs_no_etx]
  · rw [run_append] at hr
    simp only [ADec.run] at hr
    have := congrArg Prod.snd hr
    simp only at this
    simp only [ADec.outs, List.nil_append, List.append_nil]
    simp only [ADec.run]
    rw [this]; rfl
  · simp only [bytesOf, List.map_cons, List.mem_cons, not_or]
    refine ⟨by decide, ?_⟩
    rw [show List.map Prod.snd x1 = bytesOf x1 from rfl, h1]
    exact etx_not_mem_wires (fun g hg => (hv.good g hg).data)

/-- **C07** (exactly once): over a stream of any number of valid frames separated by arbitrary
noise without start byte, the caller that checks after each byte sees exactly these frames, each
once, in order, and nothing else. -/
theorem c07_each_frame_once (mem : Mem) (hm : mem.length = 350) (segs : List Segment)
    (hs : ∀ s ∈ segs, s.Ok) (tail : List (TimeVal × Byte)) (ht : (2 : Byte) ∉ bytesOf tail) :
    (Dec.init mem).trace (segs.flatMap Segment.bytes ++ tail) =
      .ok (segs.map fun s => (s.ts, (storedAll s.groups).map some)) := by
  rw [trace_outs _ (init_sim hm)]
  congr 1
  have key : ∀ segs : List Segment, (∀ s ∈ segs, s.Ok) →
      ADec.idle.outs (segs.flatMap Segment.bytes ++ tail) =
        segs.map fun s => (s.ts, storedAll s.groups) := by
    intro segs
    induction segs with
    | nil => intro _; simpa using (outs_idle_noise tail ht).1
    | cons s segs ih =>
      intro h
      have hs := h s (by simp)
      obtain ⟨h1, h2⟩ := outs_idle_noise s.noise hs.noise
      simp only [List.flatMap_cons, Segment.bytes, List.append_assoc, List.map_cons]
      rw [outs_append, h1, h2]
      have e : (s.ts, (2 : Byte)) :: s.body ++ (segs.flatMap Segment.bytes ++ tail) =
        ((s.ts, 2) :: s.body) ++ (segs.flatMap Segment.bytes ++ tail) := rfl
      rw [e, outs_append, outs_frame hs.valid hs.wire, run_frame hs.valid hs.wire,
        ih (fun x hx => h x (by simp [hx]))]
      rfl
  rw [key segs hs]
  simp

/-- The publications of a history, told only in terms of its prefixes: going through the bytes one
by one, a frame is published exactly when the bytes received so far end with a complete valid
frame. -/
inductive Publications : List (TimeVal × Byte) → List (TimeVal × Str) → Prop
  | nil : Publications [] []
  | silent {h l x} : Publications h l → (¬ ∃ ts gs, EndsWithFrame (h ++ [x]) ts gs) →
      Publications (h ++ [x]) l
  | frame {h l x ts gs} : Publications h l → EndsWithFrame (h ++ [x]) ts gs →
      Publications (h ++ [x]) (l ++ [(ts, storedAll gs)])

/-- **C07** (any history): the frames seen along any byte history, including aborted and corrupted
frames, are one for each prefix that ends with a complete valid frame. -/
theorem c07_publications (mem : Mem) (hm : mem.length = 350) (h : List (TimeVal × Byte)) :
    ∃ l, Publications h l ∧
      (Dec.init mem).trace h = .ok (l.map fun p => (p.1, p.2.map some)) := by
  rw [trace_outs _ (init_sim hm)]
  refine ⟨ADec.idle.outs h, ?_, rfl⟩
  induction h using snoc_induction with
  | h0 => exact .nil
  | h1 h x ih =>
    obtain ⟨t, c⟩ := x
    have e1 : ADec.idle.outs (h ++ [(t, c)]) =
        ADec.idle.outs h ++ ((ADec.idle.run none (h ++ [(t, c)])).2).toList := by
      rw [outs_append, run_append]; simp [ADec.outs, ADec.run]
    rw [e1]
    cases ho : (ADec.idle.run none (h ++ [(t, c)])).2 with
    | none =>
      simp only [Option.toList_none, List.append_nil]
      refine .silent ih ?_
      rintro ⟨ts, gs, he⟩
      rw [run_of_endsWith he] at ho
      cases ho
    | some p =>
      obtain ⟨ts, acc⟩ := p
      obtain ⟨gs, he, rfl⟩ := endsWith_of_run ho
      exact .frame ih he

/-! ## C08 -/

/-- **C08**: a published frame has between 1 and 346 bytes and ends with NUL. -/
theorem c08_published_size (mem : Mem) (hm : mem.length = 350) (h : List (TimeVal × Byte))
    (d : Dec) (hd : (Dec.init mem).puts h = .ok d) (hr : d.ready = true) :
    1 ≤ d.fr.size ∧ d.fr.size ≤ 346 ∧ d.fr.mem.rd (d.fr.size - 1) = .ok 0 := by
  obtain ⟨d', h1, _, h3⟩ := run_of_init hm h
  obtain rfl : d' = d := by rw [hd] at h1; cases h1; rfl
  rw [shows_ready h3] at hr
  cases ho : (ADec.idle.run none h).2 with
  | none => rw [ho] at hr; simp at hr
  | some p =>
    rw [ho] at h3
    obtain ⟨ts, acc⟩ := p
    obtain ⟨a1, a2, a3, ⟨r, rfl⟩, a5⟩ := h3
    rw [a1]
    refine ⟨by simp, a5, ?_⟩
    have := Holds.rd_append (a := r) (b := 0) (c := []) (by simpa using a3)
    simpa using this

/-- **C08** (too long): a transmission one group of which does not fit is not published. -/
theorem c08_too_long_rejected (mem : Mem) (hm : mem.length = 350)
    (pre frame : List (TimeVal × Byte)) (gs : List RawGroup) (hs : ∀ g ∈ gs, Shaped g)
    (hlong : ¬ Fits 0 gs) (hw : bytesOf frame = frameWire gs) (d : Dec)
    (hd : (Dec.init mem).puts (pre ++ frame) = .ok d) : d.ready = false := by
  have := shaped_ready_iff mem hm pre frame gs hs hw d hd
  cases hr : d.ready with
  | false => rfl
  | true => exact absurd (this.1 hr).fits hlong

theorem fits_one (g : RawGroup) (h : g.text.length + 2 < 348) : Fits 0 [g] :=
  ⟨by omega, trivial⟩

/-- The bound is reached: a single group of 345 text bytes is published with 346 bytes. -/
example : ∃ g : RawGroup, ValidFrame [g] ∧ g.stored.length = 346 := by
  have hgood : RawGroup.Good ⟨List.replicate 345 65, 32, 57⟩ :=
    ⟨by decide +kernel, by decide +kernel, by decide +kernel⟩
  refine ⟨⟨List.replicate 345 65, 32, 57⟩, ⟨by decide, ?_, ?_⟩, by decide +kernel⟩
  · intro g hg
    rw [List.mem_singleton.1 hg]; exact hgood
  · exact fits_one _ (by decide +kernel)

end Wifinfo
