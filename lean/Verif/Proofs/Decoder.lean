import Verif.Model.Teleinfo
import Verif.Spec.Frame
import Verif.Proofs.Mem

/-!
# Refinement of `TeleinfoDecoder::put` to a list decoder, and the grammar of published frames
-/

namespace Wifinfo
open Spec

/-! ## List facts -/

theorem dropDots_nil : dropDots [] = [] := rfl

theorem dropDots_snoc_dot (x : Str) : dropDots (x ++ [46]) = dropDots x := by
  simp [dropDots]

theorem dropDots_snoc {x : Str} {b : Byte} (h : b ≠ 46) : dropDots (x ++ [b]) = x ++ [b] := by
  simp [dropDots, h]

theorem snoc_induction {α} {P : List α → Prop} (h0 : P []) (h1 : ∀ x b, P x → P (x ++ [b]))
    (x : List α) : P x := by
  have : ∀ y : List α, P y.reverse := by
    intro y
    induction y with
    | nil => exact h0
    | cons b y ih => simpa using h1 _ b ih
  simpa using this x.reverse

theorem split_last2 {cur : Str} (h : 2 ≤ cur.length) : ∃ x sep ck, cur = x ++ [sep, ck] := by
  rcases List.eq_nil_or_concat cur with rfl | ⟨y, ck, rfl⟩
  · simp at h
  · rcases List.eq_nil_or_concat y with rfl | ⟨x, sep, rfl⟩
    · simp at h
    · exact ⟨x, sep, ck, by simp⟩

/-- `dropDots` removes a run of dots at the end and nothing else. -/
theorem dropDots_split (x : Str) : ∃ n, x = dropDots x ++ List.replicate n 46 := by
  induction x using snoc_induction with
  | h0 => exact ⟨0, rfl⟩
  | h1 x b ih =>
    by_cases hb : b = 46
    · subst hb
      obtain ⟨n, hn⟩ := ih
      refine ⟨n + 1, ?_⟩
      rw [dropDots_snoc_dot, List.replicate_succ', ← List.append_assoc, ← hn]
    · exact ⟨0, by simp [dropDots_snoc hb]⟩

theorem dropDots_length_le (x : Str) : (dropDots x).length ≤ x.length := by
  obtain ⟨n, hn⟩ := dropDots_split x
  have := congrArg List.length hn
  simp at this
  omega

theorem dropDots_mem {x : Str} {b : Byte} (h : b ∈ dropDots x) : b ∈ x := by
  obtain ⟨n, hn⟩ := dropDots_split x
  rw [hn]; simp [h]

theorem markSep_255 (x : Str) : markSep 255 x = x.map fun c => if c = 255 then 0 else c := by
  induction x with
  | nil => rfl
  | cons b x ih =>
    simp only [markSep, List.map_cons]
    split <;> simp_all

theorem markSep_cons_eq (b : Byte) (r : Str) : markSep b (b :: r) = 0 :: markSep 255 r := by
  rw [markSep_255]; simp [markSep]

theorem markSep_cons_ne {s b : Byte} (h : b ≠ s) (r : Str) :
    markSep s (b :: r) = b :: markSep s r := by simp [markSep, h]

theorem markSep_length (s : Byte) (x : Str) : (markSep s x).length = x.length := by
  induction x with
  | nil => rfl
  | cons b x ih => simp only [markSep]; split <;> simp_all

/-! ## The loops of the CR case -/

theorem sumLoop_spec (x : Str) : ∀ (m : Mem) (sep : Byte) (a c : Str) (s : Nat),
    Holds m (a ++ x ++ c) →
    ∃ m', sumLoop x.length m sep a.length s = .ok (m', s + byteSum x) ∧
      Holds m' (a ++ markSep sep x ++ c) ∧ m'.length = m.length := by
  induction x with
  | nil =>
    intro m sep a c s h
    exact ⟨m, by simp [sumLoop, byteSum, pure, Except.pure], by simpa [markSep] using h, rfl⟩
  | cons b x ih =>
    intro m sep a c s h
    have hr := Holds.rd_append (m := m) (a := a) (b := b) (c := x ++ c) (by simpa using h)
    by_cases hb : b = sep
    · obtain ⟨m1, hw, hm1, hl1⟩ := Holds.wr (m := m) (a := a) (b := b) (c := x ++ c)
        (by simpa using h) 0
      obtain ⟨m2, hs, hm2, hl2⟩ := ih m1 255 (a ++ [0]) c (s + b.toNat) (by simpa using hm1)
      simp only [List.length_append, List.length_cons, List.length_nil, Nat.zero_add] at hs
      refine ⟨m2, ?_, ?_, by omega⟩
      · simp [sumLoop, hr, hb, bind, Except.bind]
        subst hb
        rw [hw]
        simp only [hs]
        simp [byteSum, Nat.add_assoc]
      · subst hb; rw [markSep_cons_eq]; simpa using hm2
    · obtain ⟨m2, hs, hm2, hl2⟩ := ih m sep (a ++ [b]) c (s + b.toNat) (by simpa using h)
      simp only [List.length_append, List.length_cons, List.length_nil, Nat.zero_add] at hs
      refine ⟨m2, ?_, ?_, by omega⟩
      · simp [sumLoop, hr, hb, bind, Except.bind, hs]
        simp [byteSum, Nat.add_assoc]
      · rw [markSep_cons_ne hb]; simpa using hm2

/-- `acc` is empty or ends with NUL. -/
def EndsNul (acc : Str) : Prop := acc = [] ∨ ∃ r, acc = r ++ [0]

theorem stripLoop_spec (x : Str) : ∀ (m : Mem) (a c : Str) (e : Byte) (f : Nat),
    Holds m (a ++ x ++ e :: c) → EndsNul a → x.length < f →
    stripLoop m f (a.length + x.length + 1) = .ok (a.length + (dropDots x).length + 1) := by
  induction x using snoc_induction with
  | h0 =>
    intro m a c e f h ha hf
    cases f with
    | zero => simp at hf
    | succ f =>
      rcases ha with rfl | ⟨r, rfl⟩
      · simp [stripLoop, pure, Except.pure, dropDots_nil]
      · have := Holds.rd_append (m := m) (a := r) (b := 0) (c := e :: c) (by simpa using h)
        simp [stripLoop, pure, Except.pure, dropDots_nil, this, bind, Except.bind]
  | h1 x b ih =>
    intro m a c e f h ha hf
    cases f with
    | zero => simp at hf
    | succ f =>
      have hr := Holds.rd_append (m := m) (a := a ++ x) (b := b) (c := e :: c) (by simpa using h)
      rw [List.length_append] at hr
      have e1 : a.length + (x ++ [b]).length + 1 - 2 = a.length + x.length := by simp
      have e2 : a.length + (x ++ [b]).length + 1 ≥ 2 := by simp; omega
      rw [stripLoop, if_pos e2, e1, hr]
      simp only [bind, Except.bind]
      by_cases hb : b = 46
      · subst hb
        rw [if_pos rfl, dropDots_snoc_dot]
        have := ih m a (e :: c) 46 f (by simpa using h) ha (by simp at hf; omega)
        simpa [Nat.add_assoc] using this
      · rw [if_neg hb, dropDots_snoc hb]; rfl

/-! ## The list decoder -/

/-- Abstract decoder: nothing pending / between groups / inside a group, with the start time. -/
inductive ADec
  | idle
  | between (ts : TimeVal) (acc : Str)
  | inGroup (ts : TimeVal) (acc cur : Str)
deriving DecidableEq

/-- What a finished group body becomes: `none` when it must be rejected. -/
def closeGroup (acc cur : Str) : Option Str :=
  if 4 ≤ cur.length ∧ acc.length + cur.length < 348 then
    let x := cur.take (cur.length - 2)
    let sep := cur.getD (cur.length - 2) 0
    let ck := cur.getD (cur.length - 1) 0
    if byteSum x % 64 + 32 = ck.toNat then some (acc ++ (dropDots (markSep sep x) ++ [0]))
    else none
  else none

/-- Abstract `put`. -/
def ADec.step (a : ADec) (now : TimeVal) (c : Byte) : ADec × Option (TimeVal × Str) :=
  if c = STX then (.between now [], none)
  else if c = LF then
    match a with
    | .between ts acc => (.inGroup ts acc [], none)
    | _ => (.idle, none)
  else if c = CR then
    match a with
    | .inGroup ts acc cur =>
      match closeGroup acc cur with
      | some acc' => (.between ts acc', none)
      | none => (.idle, none)
    | _ => (.idle, none)
  else if c = ETX then
    match a with
    | .between ts acc => (.idle, if acc = [] then none else some (ts, acc))
    | _ => (.idle, none)
  else if c = EOT then (.idle, none)
  else
    match a with
    | .inGroup ts acc cur =>
      if acc.length + cur.length < 350 then (.inGroup ts acc (cur ++ [c]), none) else (.idle, none)
    | _ => (.idle, none)

/-- Simulation relation. -/
def Sim (d : Dec) (a : ADec) : Prop :=
  d.fr.mem.length = 350 ∧
  match a with
  | .idle => d.state = .waitStx
  | .between ts acc => d.state = .waitLfOrEtx ∧ d.fr.ts = ts ∧ d.offset = acc.length ∧
      Holds d.fr.mem acc ∧ EndsNul acc ∧ acc.length ≤ 346
  | .inGroup ts acc cur => d.state = .waitCr ∧ d.fr.ts = ts ∧ d.start = acc.length ∧
      d.offset = acc.length + cur.length ∧ Holds d.fr.mem (acc ++ cur) ∧ EndsNul acc ∧
      acc.length ≤ 346

/-- What the decoder shows to its user. -/
def Shows (d : Dec) (out : Option (TimeVal × Str)) : Prop :=
  match out with
  | none => d.fr.size = 0
  | some (ts, acc) => d.fr.size = acc.length ∧ d.fr.ts = ts ∧ Holds d.fr.mem acc ∧
      (∃ r, acc = r ++ [0]) ∧ acc.length ≤ 346

theorem onCr_sim {d : Dec} {ts : TimeVal} {acc cur : Str} (hs : Sim d (.inGroup ts acc cur))
    (h0 : d.fr.size = 0) :
    ∃ d', d.onCr = .ok d' ∧ d'.fr.size = 0 ∧
      Sim d' (match closeGroup acc cur with
        | some acc' => .between ts acc' | none => .idle) := by
  obtain ⟨hl, hst, hts, hsg, hoff, hh, hacc, hlen⟩ := hs
  by_cases hg : 4 ≤ cur.length ∧ acc.length + cur.length < 348
  · -- decompose the body
    obtain ⟨x, sep, ck, rfl⟩ := split_last2 (cur := cur) (by omega)
    simp only [List.length_append, List.length_cons, List.length_nil] at hoff hg
    have hcg : closeGroup acc (x ++ [sep, ck]) =
        if byteSum x % 64 + 32 = ck.toNat then some (acc ++ (dropDots (markSep sep x) ++ [0]))
        else none := by
      have e1 : (x ++ [sep, ck]).length - 1 = x.length + 1 := by simp
      have e2 : (x ++ [sep, ck]).length - 2 = x.length := by simp
      unfold closeGroup
      rw [if_pos (by simp; omega), e1, e2]
      simp
    have hrs := Holds.rd_append (m := d.fr.mem) (a := acc ++ x) (b := sep) (c := [ck])
      (by simpa using hh)
    have hrc := Holds.rd_append (m := d.fr.mem) (a := acc ++ x ++ [sep]) (b := ck) (c := [])
      (by simpa using hh)
    obtain ⟨m1, hsum, hm1, hl1⟩ := sumLoop_spec x d.fr.mem sep acc [sep, ck] 0 (by simpa using hh)
    have eo : d.offset - 2 = (acc ++ x).length := by simp; omega
    have eo1 : d.offset - 1 = (acc ++ x ++ [sep]).length := by simp; omega
    have eo2 : d.offset - 2 - d.start = x.length := by omega
    have c1 : d.offset ≥ 4 ∧ d.offset < MAX_FRAME_SIZE - 2 := by
      simp [MAX_FRAME_SIZE]; omega
    have c2 : d.start < d.offset - 3 := by omega
    unfold Dec.onCr
    rw [if_pos c1, if_pos c2, eo2, eo, eo1, hrs, hrc, hsg, hcg]
    simp only [bind, Except.bind, hsum, Nat.zero_add]
    by_cases hck : byteSum x % 64 + 32 = ck.toNat
    · simp only [if_pos hck]
      have hst2 := stripLoop_spec (markSep sep x) m1 acc [ck] sep
        ((acc ++ x ++ [sep]).length + 1) (by simpa using hm1) hacc
        (by rw [markSep_length]; simp; omega)
      have eo3 : (acc ++ x ++ [sep]).length = acc.length + (markSep sep x).length + 1 := by
        rw [markSep_length]; simp; omega
      rw [eo3] at hst2 ⊢
      rw [hst2]
      simp only [Nat.add_sub_cancel]
      obtain ⟨n, hn⟩ := dropDots_split (markSep sep x)
      -- the cell that receives the terminator
      have hm1' : ∃ b c, Holds m1 ((acc ++ dropDots (markSep sep x)) ++ b :: c) := by
        cases n with
        | zero =>
          refine ⟨sep, [ck], ?_⟩
          simp only [List.replicate_zero, List.append_nil] at hn
          rw [← hn]; simpa using hm1
        | succ n =>
          refine ⟨46, List.replicate n 46 ++ [sep, ck], ?_⟩
          rw [hn] at hm1
          simpa [List.replicate_succ] using hm1
      obtain ⟨b, c, hm1'⟩ := hm1'
      obtain ⟨m2, hw, hm2, hl2⟩ := hm1'.wr 0
      rw [List.length_append] at hw
      rw [hw]
      refine ⟨_, rfl, h0, ?_, rfl, hts, ?_, ?_, ?_, ?_⟩
      · simp; omega
      · simp; omega
      · refine Holds.prefix (b := c) ?_
        simpa using hm2
      · exact Or.inr ⟨acc ++ dropDots (markSep sep x), by simp⟩
      · have := dropDots_length_le (markSep sep x)
        rw [markSep_length] at this
        simp; omega
    · simp only [if_neg hck]
      exact ⟨_, rfl, h0, by simp; omega, rfl⟩
  · have hcg : closeGroup acc cur = none := by
      unfold closeGroup; rw [if_neg hg]
    rw [hcg]
    unfold Dec.onCr
    split
    · rename_i c1
      rw [if_neg (by simp [MAX_FRAME_SIZE] at c1; omega)]
      exact ⟨_, rfl, h0, hl, rfl⟩
    · exact ⟨_, rfl, h0, hl, rfl⟩

theorem put_sim {d : Dec} {a : ADec} (hs : Sim d a) (now : TimeVal) (c : Byte) :
    ∃ d', d.put now c = .ok d' ∧ Sim d' (a.step now c).1 ∧ Shows d' (a.step now c).2 := by
  unfold Dec.put ADec.step
  by_cases h1 : c = STX
  · simp only [h1, if_true]
    exact ⟨_, rfl, ⟨hs.1, rfl, rfl, rfl, Holds.nil _, Or.inl rfl, by simp⟩, rfl⟩
  simp only [if_neg h1]
  by_cases h2 : c = LF
  · simp only [h2, if_true]
    cases a with
    | idle => obtain ⟨hl, hst⟩ := hs; simp [hst, pure, Except.pure, Sim, Shows, hl]
    | between ts acc =>
      obtain ⟨hl, hst, hts, ho, hh, hn, hlen⟩ := hs
      simp [hst, pure, Except.pure, Sim, Shows, hl, hts, ho, hh, hn, hlen]
    | inGroup ts acc cur =>
      obtain ⟨hl, hst, hts, ho, hh, hn, hlen⟩ := hs
      simp [hst, pure, Except.pure, Sim, Shows, hl]
  simp only [if_neg h2]
  by_cases h3 : c = CR
  · simp only [h3, if_true]
    cases a with
    | idle => obtain ⟨hl, hst⟩ := hs; simp [hst, pure, Except.pure, Sim, Shows, hl]
    | between ts acc =>
      obtain ⟨hl, hst, hts, ho, hh, hn, hlen⟩ := hs
      simp [hst, pure, Except.pure, Sim, Shows, hl]
    | inGroup ts acc cur =>
      obtain ⟨d', he, hz, hsim⟩ := onCr_sim
        (d := { d with fr := { d.fr with size := 0 } }) hs rfl
      rw [if_pos hs.2.1]
      refine ⟨d', he, ?_, ?_⟩
      · revert hsim; simp only; cases closeGroup acc cur <;> exact id
      · simp only; cases closeGroup acc cur <;> exact hz
  simp only [if_neg h3]
  by_cases h4 : c = ETX
  · simp only [h4, if_true]
    cases a with
    | idle => obtain ⟨hl, hst⟩ := hs; simp [hst, pure, Except.pure, Sim, Shows, hl]
    | between ts acc =>
      obtain ⟨hl, hst, hts, ho, hh, hn, hlen⟩ := hs
      simp only [hst, pure, Except.pure, if_true]
      refine ⟨_, rfl, ⟨hl, rfl⟩, ?_⟩
      by_cases ha : acc = []
      · simp [ha, Shows, ho]
      · simp only [if_neg ha, Shows]
        refine ⟨ho, hts, hh, ?_, hlen⟩
        rcases hn with h | h
        · exact absurd h ha
        · exact h
    | inGroup ts acc cur =>
      obtain ⟨hl, hst, hts, ho, hh, hn, hlen⟩ := hs
      simp [hst, pure, Except.pure, Sim, Shows, hl]
  simp only [if_neg h4]
  by_cases h5 : c = EOT
  · simp only [h5, if_true]
    exact ⟨_, rfl, ⟨hs.1, rfl⟩, rfl⟩
  simp only [if_neg h5]
  cases a with
  | idle => obtain ⟨hl, hst⟩ := hs; simp [hst, pure, Except.pure, Sim, Shows, hl]
  | between ts acc =>
    obtain ⟨hl, hst, hts, ho, hh, hn, hlen⟩ := hs
    simp [hst, pure, Except.pure, Sim, Shows, hl]
  | inGroup ts acc cur =>
    obtain ⟨hl, hst, hts, hsg, ho, hh, hn, hlen⟩ := hs
    by_cases hlt : acc.length + cur.length < 350
    · obtain ⟨m', hw, hm', hl'⟩ := hh.snoc (by simp; omega) c
      rw [List.length_append, ← ho] at hw
      simp only [hst, if_true, ho, MAX_FRAME_SIZE, if_pos hlt, bind, Except.bind]
      rw [← ho, hw]
      refine ⟨_, rfl, ⟨by simp; omega, rfl, hts, hsg, ?_, ?_, hn, hlen⟩, rfl⟩
      · simp [ho, Nat.add_assoc]
      · simpa using hm'
    · simp only [hst, if_true, ho, MAX_FRAME_SIZE, if_neg hlt]
      exact ⟨_, rfl, ⟨hl, rfl⟩, rfl⟩

/-! ## Runs -/

/-- Abstract run: final state and last output. -/
def ADec.run (a : ADec) (o : Option (TimeVal × Str)) :
    List (TimeVal × Byte) → ADec × Option (TimeVal × Str)
  | [] => (a, o)
  | (t, c) :: r => (a.step t c).1.run (a.step t c).2 r

theorem run_append (h1 h2 : List (TimeVal × Byte)) : ∀ (a : ADec) (o),
    a.run o (h1 ++ h2) = (a.run o h1).1.run (a.run o h1).2 h2 := by
  induction h1 with
  | nil => intros; rfl
  | cons x h1 ih => intro a o; exact ih _ _

theorem puts_sim (h : List (TimeVal × Byte)) : ∀ {d : Dec} {a : ADec} {o},
    Sim d a → Shows d o →
    ∃ d', d.puts h = .ok d' ∧ Sim d' (a.run o h).1 ∧ Shows d' (a.run o h).2 := by
  induction h with
  | nil => intro d a o hs hsh; exact ⟨d, rfl, hs, hsh⟩
  | cons x h ih =>
    intro d a o hs hsh
    obtain ⟨t, c⟩ := x
    obtain ⟨d1, h1, h2, h3⟩ := put_sim hs t c
    obtain ⟨d2, h4, h5, h6⟩ := ih h2 h3
    exact ⟨d2, by simp [Dec.puts, h1, bind, Except.bind, h4], h5, h6⟩

theorem init_sim {mem : Mem} (h : mem.length = 350) : Sim (Dec.init mem) .idle := ⟨h, rfl⟩

theorem puts_append (h1 h2 : List (TimeVal × Byte)) : ∀ (d : Dec),
    d.puts (h1 ++ h2) = (d.puts h1 >>= fun d => d.puts h2) := by
  induction h1 with
  | nil => intro d; rfl
  | cons x h1 ih =>
    intro d
    obtain ⟨t, c⟩ := x
    simp only [List.cons_append, Dec.puts, bind, Except.bind]
    cases d.put t c with
    | error e => rfl
    | ok d => exact ih d

/-! ## Soundness: what the state says about the history -/

/-- Bytes of a history. -/
abbrev bytesOf (h : List (TimeVal × Byte)) : Str := h.map Prod.snd

/-- Meaning of the abstract state in terms of the history. -/
def Explains (h : List (TimeVal × Byte)) : ADec → Prop
  | .idle => True
  | .between ts acc => ∃ pre body gs, h = pre ++ (ts, 2) :: body ∧
      bytesOf body = gs.flatMap RawGroup.wire ∧ (∀ g ∈ gs, g.Good) ∧ Fits 0 gs ∧
      acc = storedAll gs
  | .inGroup ts acc cur => ∃ pre body gs, h = pre ++ (ts, 2) :: body ∧
      bytesOf body = gs.flatMap RawGroup.wire ++ 10 :: cur ∧ (∀ g ∈ gs, g.Good) ∧ Fits 0 gs ∧
      acc = storedAll gs ∧ ∀ b ∈ cur, isData b = true

/-- Meaning of an output. -/
def ExplainsOut (h : List (TimeVal × Byte)) : Option (TimeVal × Str) → Prop
  | none => True
  | some (ts, acc) => ∃ pre body gs, h = pre ++ (ts, 2) :: body ∧
      2 :: bytesOf body = frameWire gs ∧ ValidFrame gs ∧ acc = storedAll gs

theorem storedAll_append (gs hs : List RawGroup) :
    storedAll (gs ++ hs) = storedAll gs ++ storedAll hs := by simp [storedAll]

theorem Fits_append (gs hs : List RawGroup) : ∀ n, Fits n (gs ++ hs) ↔
    Fits n gs ∧ Fits (n + (storedAll gs).length) hs := by
  induction gs with
  | nil => intro n; simp [Fits, storedAll]
  | cons g gs ih =>
    intro n
    simp only [List.cons_append, Fits, ih, storedAll, List.flatMap_cons, List.length_append,
      and_assoc]
    simp [Nat.add_assoc]

/-- Closing a group, read as a raw group. -/
theorem closeGroup_iff {acc cur acc' : Str} (hd : ∀ b ∈ cur, isData b = true) :
    closeGroup acc cur = some acc' ↔ ∃ g : RawGroup, g.Good ∧ cur = g.text ++ [g.sep, g.check] ∧
      acc.length + g.text.length + 2 < 348 ∧ acc' = acc ++ g.stored := by
  constructor
  · intro h
    unfold closeGroup at h
    split at h
    · rename_i hg
      obtain ⟨x, sep, ck, rfl⟩ := split_last2 (cur := cur) (by omega)
      have e1 : (x ++ [sep, ck]).length - 1 = x.length + 1 := by simp
      have e2 : (x ++ [sep, ck]).length - 2 = x.length := by simp
      rw [e1, e2] at h
      simp at h hg
      exact ⟨⟨x, sep, ck⟩, ⟨hd, by simp; omega, h.1.symm⟩, rfl, by simp; omega,
        by rw [RawGroup.stored, ← h.2]⟩
    · simp at h
  · rintro ⟨⟨x, sep, ck⟩, hg, rfl, hl, rfl⟩
    have e1 : (x ++ [sep, ck]).length - 1 = x.length + 1 := by simp
    have e2 : (x ++ [sep, ck]).length - 2 = x.length := by simp
    have h2 := hg.len
    have h3 := hg.sum
    simp only at h2 h3 hl
    unfold closeGroup
    rw [if_pos (by simp; omega), e1, e2]
    simp [RawGroup.stored, h3]

theorem isData_iff (c : Byte) :
    isData c = true ↔ c ≠ STX ∧ c ≠ ETX ∧ c ≠ EOT ∧ c ≠ LF ∧ c ≠ CR := by
  simp [isData, STX, ETX, EOT, LF, CR, and_assoc]

theorem step_explains {h : List (TimeVal × Byte)} {a : ADec} (ha : Explains h a)
    (t : TimeVal) (c : Byte) :
    Explains (h ++ [(t, c)]) (a.step t c).1 ∧ ExplainsOut (h ++ [(t, c)]) (a.step t c).2 := by
  unfold ADec.step
  by_cases h1 : c = STX
  · simp only [h1, if_true]
    exact ⟨⟨h, [], [], rfl, rfl, by simp, trivial, rfl⟩, trivial⟩
  simp only [if_neg h1]
  by_cases h2 : c = LF
  · simp only [h2, if_true]
    cases a with
    | idle => exact ⟨trivial, trivial⟩
    | between ts acc =>
      obtain ⟨pre, body, gs, rfl, hb, hg, hf, hacc⟩ := ha
      exact ⟨⟨pre, body ++ [(t, 10)], gs, by simp [LF], by simp [hb], hg, hf, hacc, by simp⟩, trivial⟩
    | inGroup ts acc cur => exact ⟨trivial, trivial⟩
  simp only [if_neg h2]
  by_cases h3 : c = CR
  · simp only [h3, if_true]
    cases a with
    | idle => exact ⟨trivial, trivial⟩
    | between ts acc => exact ⟨trivial, trivial⟩
    | inGroup ts acc cur =>
      obtain ⟨pre, body, gs, rfl, hb, hg, hf, hacc, hd⟩ := ha
      simp only
      cases hc : closeGroup acc cur with
      | none => exact ⟨trivial, trivial⟩
      | some acc' =>
        obtain ⟨g, hgood, rfl, hl, rfl⟩ := (closeGroup_iff hd).1 hc
        refine ⟨⟨pre, body ++ [(t, 13)], gs ++ [g], by simp [CR], ?_, ?_, ?_, ?_⟩, trivial⟩
        · simp [hb, RawGroup.wire]
        · intro g' hg'
          simp at hg'
          rcases hg' with hg' | rfl
          · exact hg g' hg'
          · exact hgood
        · rw [Fits_append]
          refine ⟨hf, ?_, trivial⟩
          rw [← hacc]; simpa using hl
        · rw [storedAll_append, hacc]; simp [storedAll]
  simp only [if_neg h3]
  by_cases h4 : c = ETX
  · simp only [h4, if_true]
    cases a with
    | idle => exact ⟨trivial, trivial⟩
    | between ts acc =>
      refine ⟨trivial, ?_⟩
      by_cases he : acc = []
      · simp only [if_pos he]; trivial
      · simp only [if_neg he]
        obtain ⟨pre, body, gs, rfl, hb, hg, hf, hacc⟩ := ha
        refine ⟨pre, body ++ [(t, 3)], gs, by simp [ETX], ?_, ⟨?_, hg, hf⟩, hacc⟩
        · simp [frameWire, hb]
        · rintro rfl; exact he hacc
    | inGroup ts acc cur => exact ⟨trivial, trivial⟩
  simp only [if_neg h4]
  by_cases h5 : c = EOT
  · simp only [h5, if_true]; exact ⟨trivial, trivial⟩
  simp only [if_neg h5]
  cases a with
  | idle => exact ⟨trivial, trivial⟩
  | between ts acc => exact ⟨trivial, trivial⟩
  | inGroup ts acc cur =>
    by_cases hlt : acc.length + cur.length < 350
    · simp only [if_pos hlt]
      obtain ⟨pre, body, gs, rfl, hb, hg, hf, hacc, hd⟩ := ha
      refine ⟨⟨pre, body ++ [(t, c)], gs, by simp, by simp [hb], hg, hf, hacc, ?_⟩, trivial⟩
      intro b hb
      simp at hb
      rcases hb with hb | rfl
      · exact hd b hb
      · exact (isData_iff b).2 ⟨h1, h4, h5, h2, h3⟩
    · simp only [if_neg hlt]; exact ⟨trivial, trivial⟩

theorem run_explains (h : List (TimeVal × Byte)) :
    Explains h (ADec.idle.run none h).1 ∧ ExplainsOut h (ADec.idle.run none h).2 := by
  induction h using snoc_induction with
  | h0 => exact ⟨trivial, trivial⟩
  | h1 h x ih =>
    obtain ⟨t, c⟩ := x
    rw [run_append]
    exact step_explains ih.1 t c

/-! ## Completeness: running a valid frame -/

theorem step_data {ts : TimeVal} {acc cur : Str} {c : Byte} (hc : isData c = true) (t : TimeVal)
    (hl : acc.length + cur.length < 350) :
    (ADec.inGroup ts acc cur).step t c = (.inGroup ts acc (cur ++ [c]), none) := by
  obtain ⟨h1, h2, h3, h4, h5⟩ := (isData_iff c).1 hc
  simp [ADec.step, h1, h2, h3, h4, h5, hl]

theorem run_data (x : List (TimeVal × Byte)) : ∀ {ts : TimeVal} {acc cur : Str} {o},
    (∀ b ∈ bytesOf x, isData b = true) → acc.length + cur.length + x.length < 350 →
    x ≠ [] →
    (ADec.inGroup ts acc cur).run o x = (.inGroup ts acc (cur ++ bytesOf x), none) := by
  induction x with
  | nil => intro _ _ _ _ _ _ h; exact absurd rfl h
  | cons p x ih =>
    intro ts acc cur o hd hl _
    obtain ⟨t, c⟩ := p
    simp only [ADec.run]
    rw [step_data (hd c (by simp)) t (by simp at hl; omega)]
    by_cases hx : x = []
    · subst hx; simp [ADec.run, bytesOf]
    · rw [ih (fun b hb => hd b (by simp [bytesOf] at hb ⊢; right; exact hb))
        (by simp at hl ⊢; omega) hx]
      simp [bytesOf]

/-- Splitting a timed history along a split of its bytes. -/
theorem bytesOf_split {h : List (TimeVal × Byte)} {x y : Str} (e : bytesOf h = x ++ y) :
    ∃ h1 h2, h = h1 ++ h2 ∧ bytesOf h1 = x ∧ bytesOf h2 = y := by
  have := List.map_eq_append_iff.1 e
  obtain ⟨h1, h2, a, b, c⟩ := this
  exact ⟨h1, h2, a, b, c⟩

theorem bytesOf_cons {h : List (TimeVal × Byte)} {b : Byte} {y : Str} (e : bytesOf h = b :: y) :
    ∃ t h2, h = (t, b) :: h2 ∧ bytesOf h2 = y := by
  cases h with
  | nil => simp at e
  | cons p h =>
    obtain ⟨t, c⟩ := p
    simp at e
    exact ⟨t, h, by rw [e.1], e.2⟩

theorem run_group {g : RawGroup} (hg : g.Good) {ts : TimeVal} {acc : Str} {o}
    (hl : acc.length + g.text.length + 2 < 348) {x : List (TimeVal × Byte)}
    (hx : bytesOf x = g.wire) :
    (ADec.between ts acc).run o x = (.between ts (acc ++ g.stored), none) := by
  rw [RawGroup.wire, List.cons_append] at hx
  obtain ⟨t1, x1, rfl, hx1⟩ := bytesOf_cons hx
  have hx1' : bytesOf x1 = (g.text ++ [g.sep, g.check]) ++ [13] := by simp [hx1]
  obtain ⟨x2, x3, rfl, h2, h3⟩ := bytesOf_split hx1'
  obtain ⟨t2, x4, rfl, h4⟩ := bytesOf_cons h3
  have : x4 = [] := by simpa using h4
  subst this
  have hlen : x2.length = g.text.length + 2 := by
    have := congrArg List.length h2
    simpa using this
  simp only [ADec.run]
  rw [run_append]
  have hs : (ADec.between ts acc).step t1 10 = (.inGroup ts acc [], none) := by
    simp [ADec.step, STX, LF]
  rw [hs]
  simp only
  rw [run_data x2 (by rw [h2]; exact hg.data) (by simp [hlen]; omega)
    (by intro h; subst h; simp at hlen)]
  simp only [ADec.run]
  have hc : closeGroup acc ([] ++ bytesOf x2) = some (acc ++ g.stored) := by
    rw [closeGroup_iff (by simpa [h2] using hg.data)]
    exact ⟨g, hg, by simp [h2], hl, rfl⟩
  simp [ADec.step, STX, LF, CR]
  simp at hc
  simp [hc]

theorem run_groups (gs : List RawGroup) : ∀ {ts : TimeVal} {acc : Str} {x : List (TimeVal × Byte)},
    (∀ g ∈ gs, g.Good) → Fits acc.length gs → bytesOf x = gs.flatMap RawGroup.wire →
    (ADec.between ts acc).run none x = (.between ts (acc ++ storedAll gs), none) := by
  induction gs with
  | nil =>
    intro ts acc x _ _ hx
    have : x = [] := by simpa using hx
    subst this
    simp [ADec.run, storedAll]
  | cons g gs ih =>
    intro ts acc x hg hf hx
    simp only [List.flatMap_cons] at hx
    obtain ⟨x1, x2, rfl, h1, h2⟩ := bytesOf_split hx
    obtain ⟨hf1, hf2⟩ := hf
    rw [run_append, run_group (hg g (by simp)) hf1 h1]
    simp only
    rw [ih (fun g' hg' => hg g' (by simp [hg'])) (by simpa using hf2) h2]
    simp [storedAll]

theorem stored_ne_nil (g : RawGroup) : g.stored ≠ [] := by simp [RawGroup.stored]

/-- A valid frame, from any state, is published with its content and its start time. -/
theorem run_frame {gs : List RawGroup} (hv : ValidFrame gs) {ts : TimeVal}
    {body : List (TimeVal × Byte)} (hx : 2 :: bytesOf body = frameWire gs) (a : ADec) (o) :
    a.run o ((ts, 2) :: body) = (.idle, some (ts, storedAll gs)) := by
  simp only [frameWire, List.cons_append, List.cons.injEq, true_and] at hx
  obtain ⟨x1, x2, rfl, h1, h2⟩ := bytesOf_split hx
  obtain ⟨t2, x3, rfl, h3⟩ := bytesOf_cons h2
  have : x3 = [] := by simpa using h3
  subst this
  simp only [ADec.run]
  have hs : a.step ts 2 = (.between ts [], none) := by simp [ADec.step, STX]
  rw [hs, run_append]
  simp only
  rw [run_groups gs hv.good (by simpa using hv.fits) h1]
  have hne : storedAll gs ≠ [] := by
    cases gs with
    | nil => exact absurd rfl hv.nonempty
    | cons g gs => simp [storedAll, stored_ne_nil]
  simp [ADec.run, ADec.step, STX, LF, CR, ETX, hne]

end Wifinfo
