import Verif.Proofs.Queries

/-!
# Unambiguity of the frame grammar; meter frames
-/

namespace Wifinfo
open Spec

/-- Groups made of data bytes only (whatever their checksum). -/
def Shaped (g : RawGroup) : Prop := ∀ b ∈ g.text ++ [g.sep, g.check], isData b = true

theorem Good.shaped {g : RawGroup} (h : g.Good) : Shaped g := h.data

/-- Cutting at the first occurrence of a byte is unambiguous. -/
theorem split_at_first {c : Byte} : ∀ {u u' v v' : Str}, c ∉ u → c ∉ u' →
    u ++ c :: v = u' ++ c :: v' → u = u' ∧ v = v' := by
  intro u
  induction u with
  | nil =>
    intro u' v v' _ h2 e
    cases u' with
    | nil => simp at e; exact ⟨rfl, e⟩
    | cons x u' => simp at e; simp [e.1] at h2
  | cons x u ih =>
    intro u' v v' h1 h2 e
    cases u' with
    | nil => simp at e; simp [e.1] at h1
    | cons y u' =>
      simp at e h1 h2
      have := ih h1.2 h2.2 e.2
      exact ⟨by rw [e.1, this.1], this.2⟩

/-- Cutting at the last occurrence of a byte is unambiguous. -/
theorem split_at_last {c : Byte} {u u' v v' : Str} (h1 : c ∉ v) (h2 : c ∉ v')
    (e : u ++ c :: v = u' ++ c :: v') : u = u' ∧ v = v' := by
  have e' : v.reverse ++ c :: u.reverse = v'.reverse ++ c :: u'.reverse := by
    have := congrArg List.reverse e
    simpa using this
  have := split_at_first (by simpa using h1) (by simpa using h2) e'
  exact ⟨List.reverse_inj.1 this.2, List.reverse_inj.1 this.1⟩

theorem data_ne {b : Byte} (h : isData b = true) : b ≠ 2 ∧ b ≠ 3 ∧ b ≠ 4 ∧ b ≠ 10 ∧ b ≠ 13 :=
  (isData_iff b).1 h

theorem body_inj {g g' : RawGroup}
    (e : g.text ++ [g.sep, g.check] = g'.text ++ [g'.sep, g'.check]) : g = g' := by
  obtain ⟨t, s, c⟩ := g
  obtain ⟨t', s', c'⟩ := g'
  have := congrArg List.reverse e
  simp at this
  simp [this]

theorem wires_inj : ∀ {gs gs' : List RawGroup}, (∀ g ∈ gs, Shaped g) → (∀ g ∈ gs', Shaped g) →
    gs.flatMap RawGroup.wire ++ [3] = gs'.flatMap RawGroup.wire ++ [3] → gs = gs' := by
  intro gs
  induction gs with
  | nil =>
    intro gs' _ _ e
    cases gs' with
    | nil => rfl
    | cons g' gs' => simp [RawGroup.wire] at e
  | cons g gs ih =>
    intro gs' h h' e
    cases gs' with
    | nil => simp [RawGroup.wire] at e
    | cons g' gs' =>
      simp only [List.flatMap_cons, RawGroup.wire, List.cons_append, List.append_assoc,
        List.cons.injEq, true_and, List.nil_append] at e
      have e' : (g.text ++ [g.sep, g.check]) ++ 13 :: (gs.flatMap RawGroup.wire ++ [3]) =
          (g'.text ++ [g'.sep, g'.check]) ++ 13 :: (gs'.flatMap RawGroup.wire ++ [3]) := by
        simpa [RawGroup.wire] using e
      have hs := h g (by simp)
      have hs' := h' g' (by simp)
      obtain ⟨e1, e2⟩ := split_at_first (fun hm => (data_ne (hs 13 hm)).2.2.2.2 rfl)
        (fun hm => (data_ne (hs' 13 hm)).2.2.2.2 rfl) e'
      rw [body_inj e1, ih (fun x hx => h x (by simp [hx])) (fun x hx => h' x (by simp [hx])) e2]

theorem stx_not_mem_wires {gs : List RawGroup} (h : ∀ g ∈ gs, Shaped g) :
    (2 : Byte) ∉ gs.flatMap RawGroup.wire ++ [3] := by
  intro hm
  simp only [List.mem_append, List.mem_flatMap] at hm
  rcases hm with ⟨g, hg, hm⟩ | hm
  · have hs := h g hg
    simp only [RawGroup.wire, List.cons_append, List.mem_cons, List.mem_append] at hm
    rcases hm with hm | hm | hm | hm | hm | hm
    · revert hm; decide
    · exact (data_ne (hs 2 (by simp [hm]))).1 rfl
    · exact (data_ne (hs 2 (by simp [hm]))).1 rfl
    · exact (data_ne (hs 2 (by simp [hm]))).1 rfl
    · revert hm; decide
    · simp at hm
  · revert hm; decide

/-- A history ends with at most one frame. -/
theorem frameWire_inj {pre pre' : Str} {gs gs' : List RawGroup} (h : ∀ g ∈ gs, Shaped g)
    (h' : ∀ g ∈ gs', Shaped g) (e : pre ++ frameWire gs = pre' ++ frameWire gs') :
    pre = pre' ∧ gs = gs' := by
  have e' : pre ++ 2 :: (gs.flatMap RawGroup.wire ++ [3]) =
      pre' ++ 2 :: (gs'.flatMap RawGroup.wire ++ [3]) := by simpa [frameWire] using e
  obtain ⟨e1, e2⟩ := split_at_last (stx_not_mem_wires h) (stx_not_mem_wires h') e'
  exact ⟨e1, wires_inj h h' e2⟩

/-! ## Groups with a separator -/

/-- Text cut at the first separator. -/
def splitSep (sep : Byte) (text : Str) : Str × Str :=
  (text.takeWhile (· != sep), (text.dropWhile (· != sep)).drop 1)

theorem markSep_of_split {sep : Byte} {l v : Str} (hl : sep ∉ l) (hv : (255 : Byte) ∉ v) :
    markSep sep (l ++ sep :: v) = l ++ 0 :: v := by
  induction l with
  | nil =>
    simp only [List.nil_append, markSep, if_true, List.cons.injEq, true_and]
    rw [List.map_congr_left (g := id)]
    · simp
    · intro c hc
      have : c ≠ 255 := fun h => hv (h ▸ hc)
      simp [this]
  | cons b l ih =>
    simp at hl
    have hb : b ≠ sep := fun h => hl.1 h.symm
    simp [markSep, hb]
    exact ih hl.2

theorem dropDots_append_nul (l v : Str) : dropDots (l ++ 0 :: v) = l ++ 0 :: dropDots v := by
  induction v using snoc_induction with
  | h0 => exact dropDots_snoc (by decide)
  | h1 v b ih =>
    have e : l ++ 0 :: (v ++ [b]) = (l ++ 0 :: v) ++ [b] := by simp
    rw [e]
    by_cases hb : b = 46
    · subst hb; rw [dropDots_snoc_dot, dropDots_snoc_dot, ih]
    · rw [dropDots_snoc hb, dropDots_snoc hb]; simp

theorem stored_of_split {g : RawGroup} {l v : Str} (e : g.text = l ++ g.sep :: v)
    (hl : g.sep ∉ l) (hv : (255 : Byte) ∉ v) : g.stored = l ++ 0 :: (dropDots v ++ [0]) := by
  rw [RawGroup.stored, e, markSep_of_split hl hv, dropDots_append_nul]; simp

/-! ## Meter frames -/

theorem printable_bounds {b : Byte} (h : printable b = true) : 32 ≤ b.toNat ∧ b.toNat < 127 := by
  simpa [printable, UInt8.le_iff_toNat_le, UInt8.lt_iff_toNat_lt] using h

theorem isData_of_ge {b : Byte} (h : 32 ≤ b.toNat) : isData b = true := by
  rw [isData_iff]
  refine ⟨?_, ?_, ?_, ?_, ?_⟩ <;> (rintro rfl; revert h; decide)

theorem check_toNat (n : Nat) : (UInt8.ofNat (n % 64 + 32)).toNat = n % 64 + 32 := by
  simp; omega

theorem meter_raw_good {g : MeterGroup} (h : g.Legal) : g.raw.Good := by
  have hne : 1 ≤ g.label.length := by
    have := h.nonempty
    cases hl : g.label with
    | nil => exact absurd hl this
    | cons _ _ => simp
  refine ⟨?_, ?_, ?_⟩
  · intro b hb
    simp only [MeterGroup.raw, List.mem_append, List.mem_cons, List.not_mem_nil, or_false] at hb
    have hsep : isData g.sep = true := by
      rcases h.sep with e | e <;> rw [e] <;> decide
    rcases hb with ((hb | hb) | hb) | hb | hb
    · exact isData_of_ge (printable_bounds (h.label b hb).1).1
    · rw [hb]; exact hsep
    · exact isData_of_ge (printable_bounds (h.value b hb)).1
    · rw [hb]; exact hsep
    · subst hb
      apply isData_of_ge
      rw [check_toNat]; omega
  · simp [MeterGroup.raw]; omega
  · exact check_toNat _

theorem meter_raw_stored {g : MeterGroup} (h : g.Legal) :
    g.raw.stored = g.label ++ 0 :: (dropDots g.value ++ [0]) := by
  apply stored_of_split (l := g.label) (v := g.value)
  · simp [MeterGroup.raw]
  · intro hm; exact (h.label _ hm).2 rfl
  · intro hm
    have := (printable_bounds (h.value _ hm)).2
    revert this; decide

theorem meterFits_iff (gs : List MeterGroup) (h : ∀ g ∈ gs, g.Legal) : ∀ n,
    meterFits n gs ↔ Fits n (gs.map MeterGroup.raw) := by
  induction gs with
  | nil => intro n; exact Iff.rfl
  | cons g gs ih =>
    intro n
    simp only [meterFits, List.map_cons, Fits]
    rw [ih (fun x hx => h x (by simp [hx])), meter_raw_stored (h g (by simp))]
    have e1 : n + g.raw.text.length + 2 = n + g.label.length + g.value.length + 3 := by
      simp [MeterGroup.raw]; omega
    have e2 : n + (g.label ++ 0 :: (dropDots g.value ++ [0])).length =
        n + g.label.length + (dropDots g.value).length + 2 := by simp; omega
    rw [e1, e2]

theorem nulFree_label {g : MeterGroup} (h : g.Legal) : NulFree g.label := by
  intro b hb h0
  have := (printable_bounds (h.label b hb).1).1
  subst h0; revert this; decide

theorem nulFree_value {g : MeterGroup} (h : g.Legal) : NulFree (dropDots g.value) := by
  intro b hb h0
  have := (printable_bounds (h.value b (dropDots_mem hb))).1
  subst h0; revert this; decide

theorem pairs_append_pair {l v : Str} (hl : NulFree l) (hv : NulFree v) (r : Str) :
    pairs (l ++ 0 :: (v ++ [0]) ++ r) = (l, v) :: pairs r := by
  unfold pairs
  have e : l ++ 0 :: (v ++ [0]) ++ r = l ++ 0 :: (v ++ 0 :: r) := by simp
  rw [e, cut_append_nul hl, cut_append_nul hv]
  rfl

theorem meter_pairs {gs : List MeterGroup} (h : ∀ g ∈ gs, g.Legal) :
    pairs (storedAll (gs.map MeterGroup.raw)) = meterPairs gs := by
  induction gs with
  | nil => rfl
  | cons g gs ih =>
    have hg := h g (by simp)
    have e : storedAll ((g :: gs).map MeterGroup.raw) =
        g.label ++ 0 :: (dropDots g.value ++ [0]) ++ storedAll (gs.map MeterGroup.raw) := by
      simp [storedAll, ← meter_raw_stored hg]
    rw [e, pairs_append_pair (nulFree_label hg) (nulFree_value hg),
      ih (fun x hx => h x (by simp [hx]))]
    rfl

theorem meter_valid {gs : List MeterGroup} (hne : gs ≠ []) (h : ∀ g ∈ gs, g.Legal)
    (hf : meterFits 0 gs) : ValidFrame (gs.map MeterGroup.raw) := by
  refine ⟨by simpa using hne, ?_, (meterFits_iff gs h 0).1 hf⟩
  intro g hg
  obtain ⟨m, hm, rfl⟩ := List.mem_map.1 hg
  exact meter_raw_good (h m hm)

end Wifinfo
