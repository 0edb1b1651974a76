import Verif.Props.Decoder
import Verif.Proofs.Power

/-!
# C09–C13: reading a published frame

`Published fr ts gs` is the situation all the readers of the firmware are in: `fr` is the frame
held by the decoder when it is ready, or the copy of it in the `tinfo` object, after any history.
-/

namespace Wifinfo
open Spec

/-- States of the `tinfo` object: initial, or after copying a frame published by the decoder after
any byte history.  The list is the history of the frames copied, latest first. -/
inductive TinfoReach : Teleinfo → List (TimeVal × List RawGroup) → Prop
  | init : TinfoReach Teleinfo.init []
  | copy {t l mem h d ts gs t'} : TinfoReach t l → mem.length = 350 →
      (Dec.init mem).puts h = .ok d → EndsWithFrame h ts gs → t.copyFrom d.fr = .ok t' →
      TinfoReach t' ((ts, gs) :: l)

/-- A frame as its readers see it. -/
inductive Published : Frame → TimeVal → List RawGroup → Prop
  | decoder {mem h d ts gs} : mem.length = 350 → (Dec.init mem).puts h = .ok d →
      EndsWithFrame h ts gs → Published d.fr ts gs
  | copied {t ts gs l} : TinfoReach t ((ts, gs) :: l) → Published t.fr ts gs

/-! ## Bridges -/

theorem decoder_has {mem : Mem} {h : List (TimeVal × Byte)} {d : Dec} {ts gs}
    (hm : mem.length = 350) (hd : (Dec.init mem).puts h = .ok d) (he : EndsWithFrame h ts gs) :
    d.fr.Has (storedAll gs) ∧ storedAll gs ≠ [] ∧ d.fr.ts = ts := by
  obtain ⟨d', h1, h2, h3⟩ := run_of_init hm h
  obtain rfl : d' = d := by rw [hd] at h1; cases h1; rfl
  rw [run_of_endsWith he] at h3
  obtain ⟨a, b, c, e, f⟩ := h3
  obtain ⟨r, hr⟩ := e
  exact ⟨⟨h2.1, a, c, by rw [hr]; exact Or.inr ⟨r, rfl⟩, f⟩, by rw [hr]; simp, b⟩

/-- Reference and samples after a history of frames, latest first. -/
def sampleHist : List (TimeVal × Str) → Conso × List Conso
  | [] => (⟨0, 0⟩, [])
  | (ts, c) :: l =>
    let s := nextSample (sampleHist l).1 ts (frameWh c)
    (s.1, s.2 :: (sampleHist l).2)

/-- Stored contents of a history of frames. -/
def contents (l : List (TimeVal × List RawGroup)) : List (TimeVal × Str) :=
  l.map fun p => (p.1, storedAll p.2)

theorem reach_inv {t : Teleinfo} {l} (h : TinfoReach t l) :
    RingInv t (sampleHist (contents l)).2 ∧ t.conso0 = (sampleHist (contents l)).1 ∧
      t.fr.mem.length = 350 ∧
      (match l with
       | [] => t = Teleinfo.init
       | (ts, gs) :: _ => t.fr.Has (storedAll gs) ∧ storedAll gs ≠ [] ∧ t.fr.ts = ts) := by
  induction h with
  | init => exact ⟨ring_init, rfl, List.length_replicate, rfl⟩
  | copy hr hm hd he hc ih =>
    obtain ⟨i1, i2, i3, _⟩ := ih
    obtain ⟨a, b, c⟩ := decoder_has hm hd he
    obtain ⟨t'', e1, e2, e3, e4, e5⟩ := copyFrom_spec i1 i3 a b
    rw [hc] at e1
    cases e1
    rw [c, i2] at e4 e5
    exact ⟨e5, e4, e2.len, e2, b, by rw [e3, c]⟩

theorem published_has {fr ts gs} (h : Published fr ts gs) :
    fr.Has (storedAll gs) ∧ storedAll gs ≠ [] ∧ fr.ts = ts := by
  cases h with
  | decoder hm hd he => exact decoder_has hm hd he
  | copied hr => exact (reach_inv hr).2.2.2

/-- Copying a published frame never fails (so the histories above are all real). -/
theorem reach_copy {t : Teleinfo} {l} (h : TinfoReach t l) {fr ts gs} (hp : Published fr ts gs) :
    ∃ t', t.copyFrom fr = .ok t' ∧ t'.fr.Has (storedAll gs) ∧ t'.fr.ts = ts := by
  obtain ⟨i1, _, i3, _⟩ := reach_inv h
  obtain ⟨a, b, c⟩ := published_has hp
  obtain ⟨t', e1, e2, e3, _⟩ := copyFrom_spec i1 i3 a b
  exact ⟨t', e1, e2, by rw [e3, c]⟩

/-- The history with which the hypotheses of this file are instantiated. -/
def sampleHistory : List (TimeVal × Byte) :=
  (bs "noise").map (fun b => (⟨0, 0⟩, b)) ++
    (frameWire (sampleMeter.map MeterGroup.raw)).map (fun b => (⟨7, 5⟩, b))

theorem sampleHistory_ends :
    EndsWithFrame sampleHistory ⟨7, 5⟩ (sampleMeter.map MeterGroup.raw) :=
  ⟨_, ((frameWire (sampleMeter.map MeterGroup.raw)).map (fun b => (⟨7, 5⟩, b))).tail, rfl,
    by decide +kernel, meter_valid (by decide) sampleMeter_legal sampleMeter_fits⟩

theorem sample_published (mem : Mem) (hm : mem.length = 350) :
    ∃ d, (Dec.init mem).puts sampleHistory = .ok d ∧
      Published d.fr ⟨7, 5⟩ (sampleMeter.map MeterGroup.raw) ∧
      ∃ t', Teleinfo.init.copyFrom d.fr = .ok t' ∧
        TinfoReach t' [(⟨7, 5⟩, sampleMeter.map MeterGroup.raw)] := by
  obtain ⟨d, hd, _⟩ := run_of_init hm sampleHistory
  have hp := Published.decoder hm hd sampleHistory_ends
  obtain ⟨t', h1, _⟩ := reach_copy .init hp
  exact ⟨d, hd, hp, t', h1, .copy .init hm hd sampleHistory_ends h1⟩

/-! ## C09 -/

/-- **C09**: looking a label up returns the value of the first pair of the frame carrying it (with
leading zeros of numbers removed if asked), and the default (`none`) if there is none.  The `.ok`
says that no cell outside the array or never written was read, and that the search ends. -/
theorem c09_lookup {fr ts gs} (h : Published fr ts gs) (label : Str) (rz : Bool) :
    fr.getValue label rz = .ok
      ((lookup label (pairs (storedAll gs))).map fun v => if rz then normNum v else v) :=
  getValue_spec (published_has h).1 label rz

/-- **C09** for a frame made of separated groups (what meters send), without reference to the
stored bytes: first group whose label matches. -/
theorem c09_lookup_groups {fr ts gs} (h : Published fr ts gs) (hs : ∀ g ∈ gs, Separated g)
    (label : Str) :
    fr.getValue label = .ok
      ((gs.find? fun g => (groupPair g).1 == label).map fun g => (groupPair g).2) := by
  rw [c09_lookup h, separated_pairs hs]
  congr 1
  clear h hs
  induction gs with
  | nil => rfl
  | cons g gs ih =>
    simp only [List.map_cons, lookup, List.find?_cons]
    by_cases hl : (groupPair g).1 = label
    · simp [hl]
    · have : ((groupPair g).1 == label) = false := by simpa using hl
      simp only [this, if_neg hl]
      exact ih

/-- **C09**, before any frame: every lookup gives the default. -/
theorem c09_lookup_no_frame (label : Str) (rz : Bool) :
    Teleinfo.init.fr.getValue label rz = .ok none := by
  simp [Frame.getValue, Frame.getValuePtr, getValueLoop, Teleinfo.init, bind, Except.bind, pure,
    Except.pure]

example : lookup (bs "OPTARIF") (pairs (storedAll (sampleMeter.map MeterGroup.raw))) =
    some (bs "HC") := by decide +kernel

/-! ## C10 -/

/-- **C10**: iterating until false yields every pair once, in order, and stops. -/
theorem c10_iteration {fr ts gs} (h : Published fr ts gs) :
    fr.iter = .ok (pairs (storedAll gs)) :=
  iter_spec (published_has h).1 (published_has h).2.1

/-- **C10** for separated groups: exactly one pair per group received. -/
theorem c10_iteration_groups {fr ts gs} (h : Published fr ts gs) (hs : ∀ g ∈ gs, Separated g) :
    fr.iter = .ok (gs.map groupPair) := by
  rw [c10_iteration h, separated_pairs hs]

/-- **C10**: on the empty `tinfo` object the iteration yields nothing. -/
theorem c10_iteration_no_frame : Teleinfo.init.fr.iter = .ok [] :=
  iter_empty rfl ⟨0, rfl⟩

example : pairs (storedAll (sampleMeter.map MeterGroup.raw)) =
    [(bs "ADCO", bs "111111111111"), (bs "OPTARIF", bs "HC"), (bs "HCHC", bs "052890470"),
     (bs "PTEC", bs "HP")] := by decide +kernel

/-! ## C11 -/

/-- **C11**: on any C string (at any place of any initialised buffer), integer normalisation says
whether it is made of digits only; the string then designated is a suffix of the same numeric
value, without superfluous zero and not empty unless the string was; other strings are left as
they are. -/
theorem c11_leading_zeros {m : Mem} {a s c : Str} (h : Holds m (a ++ s ++ 0 :: c))
    (hs : ∀ b ∈ s, b ≠ 0) :
    ∃ q s', getInteger m a.length = .ok (numeral s, q) ∧ m.cstr q = .ok s' ∧
      (∃ pre, s = pre ++ s' ∧ ∀ b ∈ pre, b = 48) ∧
      (numeral s = false → s' = s ∧ q = a.length) ∧
      (numeral s = true → decVal s' = decVal s ∧ Canonical s' ∧ numeral s' = true ∧
        (s' = [] ↔ s = [])) := by
  obtain ⟨pre, h1, h2⟩ := getInteger_spec h hs
  refine ⟨a.length + pre.length, normNum s, h2, ?_, ⟨pre, h1, ?_⟩, ?_, ?_⟩
  · have e : a ++ s ++ 0 :: c = (a ++ pre) ++ normNum s ++ 0 :: c := by
      conv => lhs; rw [h1]
      simp
    rw [e] at h
    have := Holds.cstr h (fun b hb => hs b (by rw [h1]; simp [hb]))
    simpa using this
  · by_cases hn : numeral s = true
    · have key : ∀ (s pre : Str), s = pre ++ stripZeros s → ∀ b ∈ pre, b = 48 := by
        intro s
        induction s with
        | nil => intro pre hp; have : pre = [] := by
                   simpa [stripZeros] using hp.symm
                 simp [this]
        | cons x s ih =>
          intro pre hp b hb
          cases pre with
          | nil => simp at hb
          | cons y pre =>
            simp only [List.cons_append, List.cons.injEq] at hp
            obtain ⟨rfl, hp⟩ := hp
            cases s with
            | nil => simp [stripZeros] at hp
            | cons z r =>
              by_cases hx : x = 48
              · subst hx
                have e : stripZeros (48 :: z :: r) = stripZeros (z :: r) := rfl
                rw [e] at hp
                rcases List.mem_cons.1 hb with rfl | hb
                · rfl
                · exact ih pre hp b hb
              · exfalso
                have e : stripZeros (x :: z :: r) = x :: z :: r := by
                  rw [stripZeros]; intro b' r' e; exact absurd (List.cons.inj e).1 hx
                rw [e] at hp
                have := congrArg List.length hp
                simp at this
                omega
      unfold normNum at h1
      rw [if_pos hn] at h1
      exact key s pre h1
    · unfold normNum at h1
      rw [if_neg hn] at h1
      have : pre = [] := by simpa using h1
      simp [this]
  · intro hn
    unfold normNum at h1 ⊢
    simp only [hn] at h1 ⊢
    have : pre = [] := by simpa using h1
    simp [this]
  · intro hn
    obtain ⟨a1, a2, a3, a4⟩ := stripZeros_spec s
    unfold normNum
    rw [if_pos hn]
    exact ⟨a1, a3, by rw [a2, hn], a4⟩

/-- Concrete cases: `000`, `00012`, `0001A`. -/
example : (getInteger ((bs "000").map some ++ [some 0]) 0 = .ok (true, 2)) ∧
    (getInteger ((bs "00012").map some ++ [some 0]) 0 = .ok (true, 3)) ∧
    (getInteger ((bs "0001A").map some ++ [some 0]) 0 = .ok (false, 0)) := by decide

/-! ## C12 -/

/-- **C12**: reading a label as an integer. -/
theorem c12_integer {fr ts gs} (h : Published fr ts gs) (label : Str) (dflt : UInt32) :
    ∃ n, fr.getValueInt label dflt = .ok n ∧
      (lookup label (pairs (storedAll gs)) = none → n = dflt) ∧
      (∀ v, lookup label (pairs (storedAll gs)) = some v →
        (numeral v = true → n.toNat = decVal v % 2 ^ 32) ∧ (numeral v = false → n = dflt)) := by
  refine ⟨_, getValueInt_spec (published_has h).1 label dflt, ?_, ?_⟩
  · intro e; rw [e]; rfl
  · intro v e
    rw [e]
    exact ⟨fun hn => by simp [intOf, hn], fun hn => by simp [intOf, hn]⟩

/-- Digits-only values of up to nine digits (all those of a meter) are read exactly. -/
theorem c12_integer_exact {fr ts gs} (h : Published fr ts gs) (label v : Str) (dflt : UInt32)
    (hv : lookup label (pairs (storedAll gs)) = some v) (hn : numeral v = true)
    (hl : decVal v < 2 ^ 32) : ∃ n, fr.getValueInt label dflt = .ok n ∧ n.toNat = decVal v := by
  obtain ⟨n, h1, _, h3⟩ := c12_integer h label dflt
  exact ⟨n, h1, by rw [(h3 v hv).1 hn]; exact Nat.mod_eq_of_lt hl⟩

example : ∃ v, lookup (bs "HCHC") (pairs (storedAll (sampleMeter.map MeterGroup.raw))) = some v ∧
    numeral v = true ∧ decVal v = 52890470 := ⟨bs "052890470", by decide +kernel⟩

/-! ## C13 -/

/-- **C13** (safety): for any buffer of at least two bytes, dumping stays inside the buffer,
leaves a NUL-terminated text in it and returns its length. -/
theorem c13_dump_safe {fr ts gs} (h : Published fr ts gs) (out : Mem) (size : Nat)
    (h2 : 2 ≤ size) (h32 : size < 2 ^ 32) (hs : size ≤ out.length) :
    ∃ n out', fr.ascii out size = .ok (n, out') ∧ n < size ∧ out'.length = out.length ∧
      ∃ text, Holds out' (text ++ [0]) ∧ text.length = n ∧
        (text ≠ [] → text.getLast? = some 10) := by
  obtain ⟨out', e1, e2, e3, e4⟩ := ascii_spec (published_has h).1 h2 h32 hs
  refine ⟨_, out', e1, e3, e4, _, e2, rfl, ?_⟩
  unfold asciiResult
  simp only
  split
  · intro _; assumption
  · intro hc; exact absurd rfl hc

/-- **C13** (content): with the buffer of 350 bytes the callers use, any frame whose groups are
label/value pairs is dumped entirely, one `LABEL value` line per group. -/
theorem c13_dump_content {fr ts gs} (h : Published fr ts gs) (hsep : ∀ g ∈ gs, Separated g)
    (out : Mem) (size : Nat) (h350 : 350 ≤ size) (h32 : size < 2 ^ 32) (hs : size ≤ out.length) :
    ∃ n out', fr.ascii out size = .ok (n, out') ∧ n = (dumpText (gs.map groupPair)).length ∧
      Holds out' (dumpText (gs.map groupPair) ++ [0]) := by
  obtain ⟨a, b, c⟩ := published_has h
  obtain ⟨out', e1, e2, -⟩ := ascii_spec a (by omega) h32 hs
  have hb := a.bound
  have he : (cut (storedAll gs)).length % 2 = 0 := by
    rw [separated_cut hsep]
    clear e1 e2 a b c h hb hsep
    induction gs with
    | nil => rfl
    | cons g gs ih =>
      rw [List.map_cons, List.flatMap_cons, List.length_append, Nat.add_mod, ih]
      simp
  have hfull := asciiResult_full (size := size) a.nul (by omega) he
  rw [separated_pairs hsep] at hfull
  rw [hfull] at e1 e2
  exact ⟨_, out', e1, rfl, e2⟩

/-- The lower bound of two bytes in `c13_dump_safe` is needed: with a one-byte buffer the bound
`size - 2` wraps around and the dump writes outside. -/
theorem c13_one_byte_buffer_overflows :
    Frame.ascii { mem := (bs "AB" ++ [0] ++ bs "12" ++ [0]).map some, size := 6, ts := ⟨0, 0⟩ }
      [none] 1 = .error .outOfBounds := by decide

example : dumpText ((sampleMeter.map MeterGroup.raw).map groupPair) =
    bs "ADCO 111111111111\nOPTARIF HC\nHCHC 052890470\nPTEC HP\n" := by decide +kernel

end Wifinfo
