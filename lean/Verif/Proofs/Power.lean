import Verif.Proofs.Queries
import Verif.Spec.Power

/-!
# Dump, sample ring and power estimate
-/

namespace Wifinfo
open Spec

/-! ## get_frame_ascii -/

/-- Replace NULs alternately by space and LF. -/
def altText : Bool → Str → Str
  | _, [] => []
  | lab, b :: r => if b = 0 then (if lab then 32 else 10) :: altText (!lab) r else b :: altText lab r

theorem altText_length (x : Str) : ∀ lab, (altText lab x).length = x.length := by
  induction x with
  | nil => intro; rfl
  | cons b x ih => intro lab; simp only [altText]; split <;> simp [ih]

theorem asciiLoop_spec (size : Nat) (h2 : 2 ≤ size) (h32 : size < 2 ^ 32) (x : Str) :
    ∀ {m out : Mem} {a c w : Str} {lab : Bool},
    Holds m (a ++ x ++ c) → Holds out w → size ≤ out.length →
    (w.length < size - 2 ∨ w = []) →
    ∃ out', asciiLoop m size x.length a.length w.length lab out =
        .ok ((w ++ (altText lab x).take (max 1 (size - 2) - w.length)).length, out') ∧
      Holds out' (w ++ (altText lab x).take (max 1 (size - 2) - w.length)) ∧
      out'.length = out.length := by
  have hmod : (size + 2 ^ 32 - 2) % 2 ^ 32 = size - 2 := by omega
  induction x with
  | nil =>
    intro m out a c w lab _ ho _ _
    exact ⟨out, by simp [asciiLoop, altText], by simpa [altText] using ho, rfl⟩
  | cons b x ih =>
    intro m out a c w lab hm ho hs hw
    have hr := Holds.rd_append (m := m) (a := a) (b := b) (c := x ++ c) (by simpa using hm)
    have hwl : w.length < max 1 (size - 2) := by
      rcases hw with h | h
      · omega
      · subst h; simp; omega
    obtain ⟨k, hk⟩ : ∃ k, max 1 (size - 2) - w.length = k + 1 :=
      ⟨max 1 (size - 2) - w.length - 1, by omega⟩
    obtain ⟨b', lab', hb', halt⟩ : ∃ b' lab', (if b = 0 then (do
          let out ← Mem.wr out w.length (if lab then 0x20 else LF)
          pure (out, !lab)) else (do
          let out ← Mem.wr out w.length b
          pure (out, lab)) : Res (Mem × Bool)) =
          (Mem.wr out w.length b' >>= fun o => .ok (o, lab')) ∧
          altText lab (b :: x) = b' :: altText lab' x := by
      by_cases h0 : b = 0
      · exact ⟨if lab then 32 else 10, !lab, by simp [h0, LF], by simp [altText, h0]⟩
      · exact ⟨b, lab, by simp [h0], by simp [altText, h0]⟩
    obtain ⟨out1, hw1, ho1, hl1⟩ := ho.snoc (by omega) b'
    rw [hk, halt]
    simp only [List.length_cons, asciiLoop, hr, ok_bind]
    rw [hb', hw1]
    simp only [ok_bind, hmod]
    by_cases hstop : w.length + 1 ≥ size - 2
    · have hk0 : k = 0 := by
        rcases hw with h | h
        · omega
        · subst h; simp at hk hstop; omega
      subst hk0
      rw [if_pos hstop]
      exact ⟨out1, by simp, by simpa using ho1, hl1⟩
    · rw [if_neg hstop]
      have hk2 : max 1 (size - 2) - (w ++ [b']).length = k := by simp; omega
      obtain ⟨out2, e1, e2, e3⟩ := ih (m := m) (out := out1) (a := a ++ [b]) (c := c) (w := w ++ [b'])
        (lab := lab') (by simpa using hm) ho1 (by omega) (Or.inl (by simp; omega))
      rw [hk2] at e1 e2
      simp only [List.length_append, List.length_cons, List.length_nil, Nat.zero_add] at e1
      refine ⟨out2, ?_, by simpa using e2, by omega⟩
      rw [e1]
      simp; omega

/-- What `get_frame_ascii` leaves in the caller's buffer. -/
def asciiResult (content : Str) (size : Nat) : Str :=
  let w := (altText true content).take (max 1 (size - 2))
  if w.getLast? = some 10 then w else []

theorem ascii_spec {t : Frame} {content : Str} (h : t.Has content) {out : Mem} {size : Nat}
    (h2 : 2 ≤ size) (h32 : size < 2 ^ 32) (hs : size ≤ out.length) :
    ∃ out', t.ascii out size = .ok ((asciiResult content size).length, out') ∧
      Holds out' (asciiResult content size ++ [0]) ∧
      (asciiResult content size).length < size ∧ out'.length = out.length := by
  obtain ⟨out1, e1, e2, e3⟩ := asciiLoop_spec size h2 h32 content (m := t.mem) (out := out) (a := [])
    (c := []) (w := []) (lab := true) (by simpa using h.holds) (Holds.nil _) hs (Or.inr rfl)
  simp only [List.length_nil, Nat.sub_zero, List.nil_append] at e1 e2
  have hw : ((altText true content).take (max 1 (size - 2))).length < size := by
    simp; omega
  unfold Frame.ascii
  rw [h.size, e1]
  unfold asciiResult
  generalize hwd : (altText true content).take (max 1 (size - 2)) = w at *
  simp only [ok_bind]
  rcases List.eq_nil_or_concat w with rfl | ⟨w', b, rfl⟩
  · obtain ⟨out2, f1, f2, f3⟩ := (Holds.nil out1).snoc (by simp; omega) 0
    simp only [List.length_nil] at f1
    refine ⟨out2, ?_, by simpa using f2, by simp; omega, by omega⟩
    simp [f1]
  · have hlast : out1.rd w'.length = .ok b :=
      Holds.rd_append (a := w') (b := b) (c := []) (by simpa using e2)
    by_cases hb : b = 10
    · subst hb
      obtain ⟨out2, f1, f2, f3⟩ := e2.snoc (by simp at hw ⊢; omega) 0
      refine ⟨out2, ?_, ?_, ?_, by omega⟩
      · simp [hlast, LF]
        simp at f1
        rw [f1]; rfl
      · simpa using f2
      · simpa using hw
    · obtain ⟨out2, f1, f2, f3⟩ := (Holds.nil out1).snoc (by simp; omega) 0
      simp only [List.length_nil] at f1
      refine ⟨out2, ?_, ?_, ?_, by omega⟩
      · simp [hlast, LF, hb, f1]
      · simpa [hb] using f2
      · simp [hb]; omega

theorem altText_append_nul {s : Str} (hs : NulFree s) (r : Str) (lab : Bool) :
    altText lab (s ++ 0 :: r) = s ++ (if lab then 32 else 10) :: altText (!lab) r := by
  induction s with
  | nil => simp [altText]
  | cons b s ih =>
    have hb : b ≠ 0 := hs b (by simp)
    simp only [List.cons_append, altText, if_neg hb]
    rw [ih (fun x hx => hs x (by simp [hx]))]

theorem altText_glue (n : Nat) : ∀ (ss : List Str), ss.length ≤ n → ss.length % 2 = 0 →
    (∀ s ∈ ss, NulFree s) → altText true (glue ss) = dumpText (pairUp ss) := by
  induction n with
  | zero =>
    intro ss hn _ _
    have : ss = [] := by simpa using hn
    subst this; rfl
  | succ n ih =>
    intro ss hn he hz
    match ss with
    | [] => rfl
    | [s] => simp at he
    | s :: v :: r =>
      simp only [glue_cons]
      rw [altText_append_nul (hz s (by simp)), altText_append_nul (hz v (by simp))]
      simp only [Bool.not_true, Bool.not_false]
      rw [ih r (by simp at hn; omega) (by simp at he; omega) (fun x hx => hz x (by simp [hx]))]
      simp [dumpText, pairUp]

theorem asciiResult_full {content : Str} (hn : EndsNul content) {size : Nat}
    (hs : content.length ≤ size - 2) (he : (cut content).length % 2 = 0) :
    asciiResult content size = dumpText (pairs content) := by
  have e1 : altText true content = dumpText (pairs content) := by
    conv => lhs; rw [← glue_cut hn]
    exact altText_glue _ _ (Nat.le_refl _) he (cut_nulFree content)
  have e2 : (altText true content).take (max 1 (size - 2)) = altText true content := by
    apply List.take_of_length_le
    rw [altText_length]; omega
  unfold asciiResult
  rw [e2, e1]
  simp only
  split
  · rfl
  · rename_i hne
    cases hp : pairs content with
    | nil => rfl
    | cons p ps =>
      exfalso
      apply hne
      rw [hp]
      have : ∀ (ps : List (Str × Str)), ps ≠ [] → (dumpText ps).getLast? = some 10 := by
        intro ps
        induction ps with
        | nil => intro h; exact absurd rfl h
        | cons p ps ih =>
          intro _
          by_cases hps : ps = []
          · subst hps
            have e : dumpText [p] = (p.1 ++ 32 :: p.2) ++ [10] := by simp [dumpText]
            rw [e, List.getLast?_append]; rfl
          · have := ih hps
            simp only [dumpText, List.flatMap_cons] at this ⊢
            rw [List.getLast?_append, this]; rfl
      exact this (p :: ps) (by simp)

/-! ## The ring -/

/-- The ring holds the samples `hist` (latest first); slots never written are zero. -/
structure RingInv (t : Teleinfo) (hist : List Conso) : Prop where
  len : t.consos.length = 48
  idx : t.iConsos < 48
  slot : ∀ k, k < 48 → t.consos[(t.iConsos + 47 - k) % 48]? = some (hist.getD k ⟨0, 0⟩)

theorem ring_init : RingInv Teleinfo.init [] := by
  refine ⟨by simp [Teleinfo.init, CONSO_MAX], by simp [Teleinfo.init], ?_⟩
  intro k hk
  simp only [Teleinfo.init, CONSO_MAX, List.getElem?_replicate]
  simp
  omega

/-- The sample recorded for a frame, and the new reference. -/
def nextSample (conso0 : Conso) (ts : TimeVal) (wh : UInt32) : Conso × Conso :=
  let sec := UInt32.ofNat ts.sec
  let base : Conso := if conso0.dateMs = 0 then ⟨sec - 1, wh - 1⟩ else conso0
  (base, ⟨(sec - base.dateMs) * 1000 + UInt32.ofNat (ts.usec / 1000), wh - base.wattHeure⟩)

/-- Total index of a frame. -/
def frameWh (content : Str) : UInt32 :=
  intOf 0 (lookup (bs "HCHP") (pairs content)) + intOf 0 (lookup (bs "HCHC") (pairs content))

theorem memmove_has {dst src : Mem} {c : Str} (hd : dst.length = 350) (hs : Holds src c)
    (hl : c.length ≤ 346) :
    ∃ m, memmove dst src c.length = .ok m ∧ Holds m c ∧ m.length = 350 := by
  have hle := hs.le
  obtain ⟨r, rfl⟩ := hs
  refine ⟨c.map some ++ dst.drop c.length, ?_, ⟨_, rfl⟩, ?_⟩
  · unfold memmove
    rw [if_pos ⟨by omega, hle⟩, List.take_append_of_le_length (by simp)]
    rw [List.take_of_length_le (by simp)]
  · simp; omega

theorem copyFrom_spec {t : Teleinfo} {hist : List Conso} {src : Frame} {content : Str}
    (hr : RingInv t hist) (hm : t.fr.mem.length = 350) (hs : src.Has content) (hne : content ≠ []) :
    ∃ t', t.copyFrom src = .ok t' ∧ t'.fr.Has content ∧ t'.fr.ts = src.ts ∧
      t'.conso0 = (nextSample t.conso0 src.ts (frameWh content)).1 ∧
      RingInv t' ((nextSample t.conso0 src.ts (frameWh content)).2 :: hist) := by
  obtain ⟨m, h1, h2, h3⟩ := memmove_has hm hs.holds hs.bound
  have hhas : Frame.Has { mem := m, size := src.size, ts := src.ts } content :=
    ⟨h3, hs.size, h2, hs.nul, hs.bound⟩
  have hemp : Frame.isEmpty { mem := m, size := src.size, ts := src.ts } = false := by
    simp [Frame.isEmpty, hs.size, hne]
  unfold Teleinfo.copyFrom
  rw [hs.size, h1]
  simp only [ok_bind]
  rw [← hs.size, if_neg (by rw [hemp]; simp), getValueInt_spec hhas, getValueInt_spec hhas]
  simp only [ok_bind]
  rw [if_pos (by rw [hr.len]; exact hr.idx)]
  refine ⟨_, rfl, hhas, rfl, rfl, ?_⟩
  refine ⟨by simp [hr.len], by simp [CONSO_MAX]; omega, ?_⟩
  intro k hk
  simp only [CONSO_MAX]
  cases k with
  | zero =>
    have : ((t.iConsos + 1) % 48 + 47 - 0) % 48 = t.iConsos := by have := hr.idx; omega
    rw [this, List.getElem?_set_self (by rw [hr.len]; exact hr.idx)]
    rfl
  | succ k =>
    have hi := hr.idx
    have e : ((t.iConsos + 1) % 48 + 47 - (k + 1)) % 48 = (t.iConsos + 47 - k) % 48 := by omega
    have hneq : t.iConsos ≠ (t.iConsos + 47 - k) % 48 := by omega
    rw [e, List.getElem?_set_ne hneq, hr.slot k (by omega)]
    simp

theorem copyFrom_index {t t' : Teleinfo} {src : Frame} {content : Str}
    (hc : t.copyFrom src = .ok t') (hs : src.Has content) (hne : content ≠ []) :
    t'.iConsos = (t.iConsos + 1) % 48 := by
  unfold Teleinfo.copyFrom at hc
  cases hm : memmove t.fr.mem src.mem src.size with
  | error e => rw [hm] at hc; cases hc
  | ok m =>
    rw [hm] at hc
    have hemp : Frame.isEmpty { mem := m, size := src.size, ts := src.ts } = false := by
      simp [Frame.isEmpty, hs.size, hne]
    simp only [ok_bind, hemp] at hc
    simp only [Bool.false_eq_true, if_false] at hc
    cases h1 : Frame.getValueInt { mem := m, size := src.size, ts := src.ts } (bs "HCHP") with
    | error e => rw [h1] at hc; cases hc
    | ok a =>
      cases h2 : Frame.getValueInt { mem := m, size := src.size, ts := src.ts } (bs "HCHC") with
      | error e => rw [h1, h2] at hc; cases hc
      | ok b =>
        rw [h1, h2] at hc
        simp only [ok_bind] at hc
        split at hc
        · cases hc; rfl
        · cases hc

/-! ## watt -/

/-- Going back in the samples. -/
def goBack (now periode : UInt32) : Conso → List Conso → Conso
  | cur, [] => cur
  | cur, s :: r =>
    if s.wattHeure = 0 ∨ now - s.dateMs > periode then cur else goBack now periode s r

theorem wattLoop_spec {t : Teleinfo} {hist : List Conso} (hr : RingInv t hist)
    (now periode : UInt32) (n : Nat) : ∀ (k f : Nat), k + n = 47 → n < f → 0 < n →
    ∃ j c, wattLoop t.consos t.iConsos now periode f ((t.iConsos + 47 - k) % 48) = .ok j ∧
      t.consos[j]? = some c ∧
      c = goBack now periode (hist.getD k ⟨0, 0⟩) ((hist.drop (k + 1)).take n) := by
  have hi := hr.idx
  induction n with
  | zero => intro k f _ _ h; omega
  | succ n ih =>
    intro k f hk hf _
    cases f with
    | zero => omega
    | succ f =>
      have hsv : (CONSO_MAX + (t.iConsos + 47 - k) % 48 - 1) % CONSO_MAX
          = (t.iConsos + 47 - (k + 1)) % 48 := by simp only [CONSO_MAX]; omega
      have hslot := hr.slot (k + 1) (by omega)
      have hcur := hr.slot k (by omega)
      have hrd : rdConso t.consos ((t.iConsos + 47 - (k + 1)) % 48) =
          .ok (hist.getD (k + 1) ⟨0, 0⟩) := by simp only [rdConso, hslot]
      simp only [wattLoop, hsv, hrd, ok_bind]
      by_cases hlen : k + 1 < hist.length
      · have hdrop : (hist.drop (k + 1)).take (n + 1) =
            hist.getD (k + 1) ⟨0, 0⟩ :: (hist.drop (k + 2)).take n := by
          rw [List.drop_eq_getElem_cons hlen, List.take_succ_cons]
          simp [List.getD, hlen]
        rw [hdrop]
        generalize hs : hist.getD (k + 1) ⟨0, 0⟩ = s at *
        by_cases h0 : s.wattHeure = 0
        · rw [if_pos h0]
          exact ⟨_, _, rfl, hcur, by simp [goBack, h0]⟩
        · rw [if_neg h0]
          by_cases hp : now - s.dateMs > periode
          · rw [if_pos hp]
            exact ⟨_, _, rfl, hcur, by simp [goBack, hp]⟩
          · rw [if_neg hp]
            have hgb : ∀ l, goBack now periode (hist.getD k ⟨0, 0⟩) (s :: l) = goBack now periode s l := by
              intro l; rw [goBack, if_neg (by simp [h0]; simpa using hp)]
            rw [hgb]
            by_cases hend : n = 0
            · subst hend
              have hk47 : k + 1 = 47 := by omega
              have : (t.iConsos + 47 - (k + 1)) % 48 = t.iConsos := by omega
              rw [if_neg (by rw [this]; simp)]
              exact ⟨_, _, rfl, hslot, by simp [goBack]⟩
            · have hne : (t.iConsos + 47 - (k + 1)) % 48 ≠ t.iConsos := by omega
              rw [if_pos hne]
              obtain ⟨j, c, e1, e2, e3⟩ := ih (k + 1) f (by omega) (by omega) (by omega)
              rw [hs] at e3
              exact ⟨j, c, e1, e2, e3⟩
      · have hd0 : hist.getD (k + 1) ⟨0, 0⟩ = ⟨0, 0⟩ := by
          simp only [List.getD]
          rw [List.getElem?_eq_none (by omega)]; rfl
        have hdrop : (hist.drop (k + 1)).take (n + 1) = [] := by
          rw [List.drop_eq_nil_of_le (by omega)]; rfl
        rw [hd0, hdrop, if_pos rfl]
        exact ⟨_, _, rfl, hcur, by simp [goBack]⟩

/-- The estimate computed from the samples. -/
def wattOf (periode : UInt32) (hist : List Conso) : Res UInt32 :=
  let a := hist.getD 0 ⟨0, 0⟩
  let p := goBack a.dateMs (periode * 1000) a ((hist.drop 1).take 47)
  if a.dateMs = p.dateMs then .ok 0
  else
    let t := a.dateMs - p.dateMs
    let t := if t ≥ 0x80000000 then t + 1000000 else t
    if t = 0 then .error .divByZero
    else .ok ((3600000 * (a.wattHeure - p.wattHeure)) / t)

theorem watt_spec {t : Teleinfo} {hist : List Conso} (hr : RingInv t hist) (periode : UInt32) :
    t.watt periode = wattOf periode hist := by
  have hi := hr.idx
  have ha : (CONSO_MAX + t.iConsos - 1) % CONSO_MAX = (t.iConsos + 47 - 0) % 48 := by
    simp only [CONSO_MAX]; omega
  have hslot := hr.slot 0 (by omega)
  obtain ⟨j, c, e1, e2, e3⟩ := wattLoop_spec hr (hist.getD 0 ⟨0, 0⟩).dateMs (periode * 1000) 47 0
    (CONSO_MAX + 1) (by omega) (by simp [CONSO_MAX]) (by omega)
  unfold Teleinfo.watt wattOf
  rw [ha]
  simp only [rdConso, hslot, ok_bind, e1, e2, ← e3]
  rfl

end Wifinfo
