import Verif.Model.Term
import Verif.Props.Cli
import Verif.Props.Simu

/-!
# C107: the terminal of the project drives a device
-/

namespace Wifinfo
open Spec

namespace Spec

/-- A key that types a character of a command: printable, but for the back-quote. -/
def PlainKey (c : Nat) : Prop := 32 ≤ c ∧ c < 127 ∧ c ≠ 96

/-- The meter shown when a frame is built. -/
def drawn (s : SimuTic) (w : Draw) : SimuTic := { s with hchc := w.hchc, hchp := w.hchp, iinst := w.iinst, papp := w.papp }

/-- What is typed while a command is entered: plain keys; the timer of the frames only while these are suspended. -/
def Entering (paused : Bool) (e : TermEvent) : Prop :=
  (∃ c w, e = .key c w ∧ PlainKey c) ∨ paused = true ∧ ∃ w, e = .tick w

/-- The characters typed. -/
def textOfKeys (l : List TermEvent) : Str :=
  l.filterMap fun
    | .key c _ => some (UInt8.ofNat c)
    | .tick _ => none

/-- `Typing s paused l fs cs`: somebody who uses the terminal as `l` tells means to send the frames `fs` and the commands `cs`.
The simulated meter is `s`, the automatic frames are suspended or not. -/
inductive Typing : SimuTic → Bool → List TermEvent → List SimuTic → List Str → Prop
  | done (s p) : Typing s p [] [] []
  /-- Ctrl-T sends a frame -/
  | frame {s p w l fs cs} : Typing (drawn s w) p l fs cs → Typing s p (.key 0x14 w :: l) (drawn s w :: fs) cs
  /-- Ctrl-P changes between peak and off-peak hours -/
  | tariff {s p w l fs cs s'} : s' = drawn { s with heuresCreuses := !s.heuresCreuses } w → Typing s' p l fs cs →
      Typing s p (.key 0x10 w :: l) (s' :: fs) cs
  /-- Ctrl-A begins or ends an overload -/
  | overload {s p w l fs cs s'} : s' = drawn { s with adps := if s.adps = 0 then s.isousc + 1 else 0 } w → Typing s' p l fs cs →
      Typing s p (.key 0x01 w :: l) (s' :: fs) cs
  /-- Ctrl-D changes the power that is drawn -/
  | power {s p w l fs cs} : Typing (drawn s w) p l fs cs → Typing s p (.key 0x04 w :: l) (drawn s w :: fs) cs
  /-- the timer -/
  | auto {s w l fs cs} : Typing (drawn s w) false l fs cs → Typing s false (.tick w :: l) (drawn s w :: fs) cs
  | quiet {s w l fs cs} : Typing s true l fs cs → Typing s true (.tick w :: l) fs cs
  /-- Ctrl-Y suspends the automatic frames or goes on with them -/
  | toggle {s p w l fs cs} : Typing s (!p) l fs cs → Typing s p (.key 0x19 w :: l) fs cs
  /-- a command: TAB, ESC or back-quote, at most 127 characters, Enter -/
  | command {s p m w evs w' l fs cs} : m = 9 ∨ m = 27 ∨ m = 96 → (∀ e ∈ evs, Entering p e) → (textOfKeys evs).length ≤ 127 →
      Typing s p l fs cs → Typing s p (.key m w :: evs ++ .key 10 w' :: l) fs ((textOfKeys evs ++ [13]) :: cs)
  /-- Ctrl-C ends it all -/
  | quit {s p w l} : Typing s p (.key 0x03 w :: l) [] []

/-- The published frame is the simulated one. -/
def Received (pub : TimeVal × List (Option Byte)) (s : SimuTic) : Prop :=
  ∃ content, pub.2 = content.map some ∧ (pairs content).map Prod.fst = (simulated s).map Prod.fst ∧
    ∀ p ∈ (pairs content).zip (simulated s), p.2.2.Shown p.1.2

end Spec

theorem term_append (l1 l2 : List TermEvent) : ∀ t : Term, t.run (l1 ++ l2) =
    (((t.run l1).1.run l2).1, (t.run l1).2 ++ ((t.run l1).1.run l2).2) := by
  induction l1 with
  | nil => intro t; rfl
  | cons e l ih =>
    intro t
    simp only [List.cons_append, Term.run, ih, List.append_assoc]

theorem term_dead (l : List TermEvent) : ∀ t : Term, t.alive = false → t.run l = (t, []) := by
  induction l with
  | nil => intro t _; rfl
  | cons e l ih =>
    intro t ht
    have : t.step e = (t, []) := by
      cases e <;> simp [Term.step, ht]
    simp only [Term.run, this, ih t ht, List.append_nil]

theorem step_plain {s : SimuTic} {p : Bool} {c : Nat} {w : Draw} (hc : PlainKey c) :
    (⟨s, p, true⟩ : Term).step (.key c w) = (⟨s, p, true⟩, [UInt8.ofNat c]) := by
  obtain ⟨h1, h2, h3⟩ := hc
  have hk : termKey c = c := if_neg (by omega)
  have ht : termTx c = [UInt8.ofNat c] := by
    unfold termTx
    rw [if_neg (by omega), if_pos (by omega)]
  simp only [Term.step, hk, ht, Bool.not_true, Bool.false_eq_true, if_false]
  rw [if_neg (by omega), if_neg (by omega), if_neg (by omega), if_neg (by omega), if_neg (by omega), if_neg (by omega)]

theorem run_entering {s : SimuTic} {p : Bool} : ∀ (evs : List TermEvent), (∀ e ∈ evs, Entering p e) →
    (⟨s, p, true⟩ : Term).run evs = (⟨s, p, true⟩, textOfKeys evs) := by
  intro evs
  induction evs with
  | nil => intro _; rfl
  | cons e l ih =>
    intro h
    have hl := ih fun e he => h e (List.mem_cons_of_mem _ he)
    rcases h e List.mem_cons_self with ⟨c, w, rfl, hc⟩ | ⟨rfl, w, rfl⟩
    · simp only [Term.run, step_plain hc, hl]
      rfl
    · have : (⟨s, true, true⟩ : Term).step (.tick w) = (⟨s, true, true⟩, []) := rfl
      simp only [Term.run, this, hl]
      rfl

theorem plain_byte {c : Nat} (hc : PlainKey c) : ¬ Calls (UInt8.ofNat c) ∧ ¬ Eol (UInt8.ofNat c) ∧ UInt8.ofNat c ≠ 2 := by
  obtain ⟨h1, h2, h3⟩ := hc
  have : ∀ n : Fin 127, 32 ≤ n.1 → n.1 ≠ 96 → ¬ Calls (UInt8.ofNat n.1) ∧ ¬ Eol (UInt8.ofNat n.1) ∧ UInt8.ofNat n.1 ≠ 2 := by
    unfold Eol Calls
    decide +kernel
  exact this ⟨c, h2⟩ h1 h3

theorem entering_bytes {p : Bool} {evs : List TermEvent} (h : ∀ e ∈ evs, Entering p e) :
    ∀ b ∈ textOfKeys evs, ¬ Calls b ∧ ¬ Eol b ∧ b ≠ 2 := by
  intro b hb
  obtain ⟨e, he, hx⟩ := List.mem_filterMap.1 hb
  rcases h e he with ⟨c, w, rfl, hc⟩ | ⟨-, w, rfl⟩
  · obtain rfl := Option.some.inj hx
    exact plain_byte hc
  · cases hx

theorem typed_plain {c : Str} (h : ∀ b ∈ c, ¬ Calls b) : typed c = c := by
  unfold typed
  rw [List.filter_eq_self]
  intro b hb
  simpa using h b hb

/-- A command line on a quiet line. -/
theorem cli_command {m : Byte} (hm : Calls m) {c : Str} (h1 : ∀ b ∈ c, ¬ Calls b ∧ ¬ Eol b) {e : Byte} (he : Eol e)
    (h2 : c.length ≤ 127) (r : Str) :
    Cli.init.run (m :: c ++ e :: r) =
      ((Cli.init.run r).1, (Cli.init.run r).2.1, (c ++ [e]) :: (Cli.init.run r).2.2) := by
  have ho : Open ([] ++ typed c) := by
    rw [typed_plain fun b hb => (h1 b hb).1]
    exact ⟨fun b hb => (h1 b hb).2, by simp; omega⟩
  have hne : ¬ Calls e := by
    rcases he with rfl | rfl <;> (unfold Calls; decide)
  have h3 := cli_run_typing c (e :: r) [] ho
  rw [typed_plain fun b hb => (h1 b hb).1, List.nil_append, cli_run_closing c e r hne (.inl he)] at h3
  rw [List.cons_append, Cli.run, cli_step_marker hm]
  simp only [Option.toList_none, List.nil_append]
  rw [show ({ Cli.init with mode := true } : Cli) = { mode := true, input := [] } from rfl, h3]

/-! ## Frames on the line -/

/-- A byte of a frame after its start: neither a call of the console nor another start. -/
def Inner (b : Byte) : Prop := ¬ Calls b ∧ b ≠ 2

instance : DecidablePred Inner := fun _ => inferInstanceAs (Decidable (_ ∧ _))

theorem checksum_inner (n : Nat) : Inner (UInt8.ofNat ((n &&& 63) + 32)) := by
  have h : n &&& 63 < 64 := by
    rw [show n &&& 63 = n % 64 from Nat.and_two_pow_sub_one_eq_mod n 6]; omega
  have : ∀ k : Fin 64, Inner (UInt8.ofNat (k.1 + 32)) := by decide +kernel
  exact this ⟨_, h⟩

theorem group_inner {l v : Str} (hl : ∀ b ∈ l, Inner b) (hv : ∀ b ∈ v, Inner b) : ∀ b ∈ simuGroup l v, Inner b := by
  intro b hb
  unfold simuGroup at hb
  simp only [List.mem_append, List.mem_singleton] at hb
  rcases hb with ((((((rfl | hb) | rfl) | hb) | rfl) | rfl) | rfl)
  · decide +kernel
  · exact hl b hb
  · decide +kernel
  · exact hv b hb
  · decide +kernel
  · exact checksum_inner _
  · decide +kernel

theorem numeral_inner {t : Str} (h : numeral t = true) : ∀ b ∈ t, Inner b := by
  intro b hb
  have h1 : digit b = true := List.all_eq_true.1 h b hb
  have : ∀ b : Byte, digit b = true → Inner b := byte_all (by decide +kernel)
  exact this b h1

theorem trame_inner {s : SimuTic} (ha : ∀ b ∈ s.adco, Inner b) : ∃ r, s.trame = 2 :: r ∧ ∀ b ∈ r, Inner b := by
  have z : ∀ w n, ∀ b ∈ zeroPad w n, Inner b := fun w n => numeral_inner (zeroPad_spec w n).2.1
  have hp : ∀ b ∈ s.ptecRaw, Inner b := by
    rcases ptec_cases s with e | e <;> rw [e] <;> decide +kernel
  refine ⟨s.trame.tail, rfl, ?_⟩
  intro b hb
  have hb : b ∈ simuGroup (bs "ADCO") s.adco ++ simuGroup (bs "OPTARIF") (bs "HC..") ++
    simuGroup (bs "ISOUSC") (zeroPad 2 s.isousc) ++ simuGroup (bs "HCHC") (zeroPad 9 s.hchc) ++
    simuGroup (bs "HCHP") (zeroPad 9 s.hchp) ++ simuGroup (bs "PTEC") s.ptecRaw ++
    simuGroup (bs "IINST") (zeroPad 3 s.iinst) ++ simuGroup (bs "IMAX") (bs "042") ++
    simuGroup (bs "PAPP") (zeroPad 5 s.papp) ++
    (if s.adps ≠ 0 then simuGroup (bs "ADPS") (zeroPad 3 s.adps) else []) ++
    simuGroup (bs "HHPHC") (bs "D") ++ simuGroup (bs "MOTDETAT") (bs "000000") ++ [3] := hb
  simp only [List.mem_append] at hb
  rcases hb with ((((((((((((hb | hb) | hb) | hb) | hb) | hb) | hb) | hb) | hb) | hb) | hb) | hb) | hb)
  · exact group_inner (by decide +kernel) ha b hb
  · exact group_inner (by decide +kernel) (by decide +kernel) b hb
  · exact group_inner (by decide +kernel) (z _ _) b hb
  · exact group_inner (by decide +kernel) (z _ _) b hb
  · exact group_inner (by decide +kernel) (z _ _) b hb
  · exact group_inner (by decide +kernel) hp b hb
  · exact group_inner (by decide +kernel) (z _ _) b hb
  · exact group_inner (by decide +kernel) (by decide +kernel) b hb
  · exact group_inner (by decide +kernel) (z _ _) b hb
  · split at hb
    · exact group_inner (by decide +kernel) (z _ _) b hb
    · cases hb
  · exact group_inner (by decide +kernel) (by decide +kernel) b hb
  · exact group_inner (by decide +kernel) (by decide +kernel) b hb
  · rw [List.mem_singleton.1 hb]; decide +kernel

theorem trame_quiet {s : SimuTic} (ha : ∀ b ∈ s.adco, Inner b) : ∀ b ∈ s.trame, ¬ Calls b := by
  obtain ⟨r, h, hr⟩ := trame_inner ha
  intro b hb
  rw [h] at hb
  rcases List.mem_cons.1 hb with rfl | hb
  · decide +kernel
  · exact (hr b hb).1

/-- The frames and the ends of line that reach the decoder, as segments. -/
def Segmented (h : List (TimeVal × Byte)) (fs : List SimuTic) : Prop :=
  ∃ (segs : List Segment) (tail : List (TimeVal × Byte)), h = segs.flatMap Segment.bytes ++ tail ∧ (∀ s ∈ segs, s.Ok) ∧ (2 : Byte) ∉ bytesOf tail ∧
    segs.map (·.groups) = fs.map fun f => (simuGroups f).map MeterGroup.raw

theorem Segmented.frame {h1 h2 : List (TimeVal × Byte)} {f : SimuTic} {fs} (hf : Meterlike f) (hb : bytesOf h1 = f.trame)
    (h : Segmented h2 fs) : Segmented (h1 ++ h2) (f :: fs) := by
  obtain ⟨segs, tail, rfl, g1, g2, g3⟩ := h
  rw [trame_wire, meterWire, frameWire, List.cons_append] at hb
  obtain ⟨ts, body, rfl, hb'⟩ := bytesOf_cons hb
  refine ⟨⟨[], ts, body, (simuGroups f).map MeterGroup.raw⟩ :: segs, tail, ?_, ?_, g2, ?_⟩
  · simp [Segment.bytes]
  · intro s hs
    rcases List.mem_cons.1 hs with rfl | hs
    · exact ⟨by simp [bytesOf], by rw [hb', frameWire]; rfl, meter_valid (by simp [simuGroups]) (simu_legal hf) (simu_fits hf)⟩
    · exact g1 s hs
  · rw [List.map_cons, List.map_cons, g3]

theorem Segmented.noise {t : TimeVal} {b : Byte} (hb : b ≠ 2) {l : List (TimeVal × Byte)} {fs} (h : Segmented l fs) :
    Segmented ((t, b) :: l) fs := by
  obtain ⟨segs, tail, rfl, g1, g2, g3⟩ := h
  cases segs with
  | nil => exact ⟨[], (t, b) :: tail, rfl, by simp, by simp [bytesOf] at g2 ⊢; exact ⟨fun e => hb e.symm, g2⟩, g3⟩
  | cons s segs =>
    refine ⟨{ s with noise := (t, b) :: s.noise } :: segs, tail, by simp [Segment.bytes], ?_, g2, by simpa using g3⟩
    intro s' hs'
    rcases List.mem_cons.1 hs' with rfl | hs'
    · have := g1 s List.mem_cons_self
      refine ⟨?_, this.wire, this.valid⟩
      have h2 := this.noise
      simp [bytesOf] at h2 ⊢
      exact ⟨fun e => hb e.symm, h2⟩
    · exact g1 s' (List.mem_cons_of_mem _ hs')

/-! ## Sessions -/

theorem drawn_adco (s : SimuTic) (w : Draw) : (drawn s w).adco = s.adco := rfl

theorem step_key {s : SimuTic} {p : Bool} {w : Draw} :
    (⟨s, p, true⟩ : Term).step (.key 0x14 w) = (⟨drawn s w, p, true⟩, (drawn s w).trame) ∧
    (⟨s, p, true⟩ : Term).step (.key 0x10 w) = (⟨drawn (s.bascule 84) w, p, true⟩, (drawn (s.bascule 84) w).trame) ∧
    (⟨s, p, true⟩ : Term).step (.key 0x01 w) = (⟨drawn (s.bascule 65) w, p, true⟩, (drawn (s.bascule 65) w).trame) ∧
    (⟨s, p, true⟩ : Term).step (.key 0x04 w) = (⟨drawn (s.bascule 80) w, p, true⟩, (drawn (s.bascule 80) w).trame) ∧
    (⟨s, p, true⟩ : Term).step (.key 0x19 w) = (⟨s, !p, true⟩, []) ∧
    (⟨s, p, true⟩ : Term).step (.key 0x03 w) = (⟨s, p, false⟩, []) ∧
    (⟨s, p, true⟩ : Term).step (.key 10 w) = (⟨s, p, true⟩, [13, 10]) ∧
    (⟨s, false, true⟩ : Term).step (.tick w) = (⟨drawn s w, false, true⟩, (drawn s w).trame) ∧
    (⟨s, true, true⟩ : Term).step (.tick w) = (⟨s, true, true⟩, []) :=
  ⟨rfl, rfl, rfl, rfl, rfl, rfl, rfl, rfl, rfl⟩

theorem step_call {s : SimuTic} {p : Bool} {w : Draw} {m : Nat} (hm : m = 9 ∨ m = 27 ∨ m = 96) :
    ∃ b : Byte, Calls b ∧ (⟨s, p, true⟩ : Term).step (.key m w) = (⟨s, p, true⟩, [b]) := by
  rcases hm with rfl | rfl | rfl
  · exact ⟨9, by decide, rfl⟩
  · exact ⟨27, by decide, rfl⟩
  · exact ⟨96, by decide, rfl⟩

/-- What the device makes of a session. -/
theorem session_line {s : SimuTic} {p : Bool} {l : List TermEvent} {fs : List SimuTic} {cs : List Str} (h : Typing s p l fs cs)
    (hf : ∀ f ∈ fs, Meterlike f) (ha : ∀ b ∈ s.adco, Inner b) :
    ∃ data, (Cli.init.run ((⟨s, p, true⟩ : Term).run l).2).2 = (data, cs) ∧
      ∀ h, bytesOf h = data → Segmented h fs := by
  have sent : ∀ {f : SimuTic} {out : Str} {fs cs}, Meterlike f → (∀ b ∈ f.adco, Inner b) →
      (∃ data, (Cli.init.run out).2 = (data, cs) ∧ ∀ h, bytesOf h = data → Segmented h fs) →
      ∃ data, (Cli.init.run (f.trame ++ out)).2 = (data, cs) ∧ ∀ h, bytesOf h = data → Segmented h (f :: fs) := by
    intro f out fs cs hf ha ⟨data, h1, h2⟩
    refine ⟨f.trame ++ data, ?_, ?_⟩
    · rw [cli_run_data _ _ (trame_quiet ha), h1]
    · intro h hb
      obtain ⟨a, b, rfl, ha', hb'⟩ := List.map_eq_append_iff.1 (show h.map Prod.snd = _ from hb)
      exact .frame hf ha' (h2 b hb')
  induction h with
  | done s p => exact ⟨[], rfl, fun h hb => ⟨[], h, rfl, by simp, by rw [hb]; simp, rfl⟩⟩
  | frame _ ih =>
    simp only [Term.run, step_key.1]
    exact sent (hf _ List.mem_cons_self) ha (ih (fun f hf' => hf f (List.mem_cons_of_mem _ hf')) ha)
  | tariff e _ ih =>
    subst e
    simp only [Term.run, step_key.2.1]
    exact sent (hf _ List.mem_cons_self) ha (ih (fun f hf' => hf f (List.mem_cons_of_mem _ hf')) ha)
  | @overload s p w l fs cs s' e _ ih =>
    have hm := hf s' List.mem_cons_self
    have hb : s' = drawn (s.bascule 65) w := by
      have hi : s.isousc < 100 := by rw [e] at hm; exact hm.isousc
      rw [e]
      unfold SimuTic.bascule SimuTic.setAdps
      rw [if_neg (show ¬ (65 : Byte) = 84 by decide), if_pos rfl]
      by_cases h0 : s.adps = 0
      · rw [if_pos h0, if_neg (by simpa using h0), if_neg (by omega)]
      · rw [if_neg h0, if_pos h0]
        split <;> rfl
    have ha' : ∀ b ∈ s'.adco, Inner b := by rw [e]; exact ha
    have := sent hm ha' (ih (fun f hf' => hf f (List.mem_cons_of_mem _ hf')) ha')
    simp only [Term.run, step_key.2.2.1]
    rw [hb] at this ⊢
    exact this
  | power _ ih =>
    simp only [Term.run, step_key.2.2.2.1]
    exact sent (hf _ List.mem_cons_self) ha (ih (fun f hf' => hf f (List.mem_cons_of_mem _ hf')) ha)
  | auto _ ih =>
    simp only [Term.run, step_key.2.2.2.2.2.2.2.1]
    exact sent (hf _ List.mem_cons_self) ha (ih (fun f hf' => hf f (List.mem_cons_of_mem _ hf')) ha)
  | quiet _ ih =>
    simp only [Term.run, step_key.2.2.2.2.2.2.2.2]
    exact ih hf ha
  | toggle _ ih =>
    simp only [Term.run, step_key.2.2.2.2.1]
    exact ih hf ha
  | @command s p m w evs w' l fs cs hm he hl _ ih =>
    obtain ⟨b, hb, hs⟩ := step_call (s := s) (p := p) (w := w) hm
    obtain ⟨data, h1, h2⟩ := ih hf ha
    have hr : ((⟨s, p, true⟩ : Term).run (.key m w :: evs ++ .key 10 w' :: l)).2 =
        b :: textOfKeys evs ++ 13 :: ([10] ++ ((⟨s, p, true⟩ : Term).run l).2) := by
      rw [List.cons_append]
      simp only [Term.run, hs, term_append, run_entering evs he, step_key.2.2.2.2.2.2.1]
      simp
    have hq := entering_bytes he
    rw [hr, cli_command hb (fun b hb => ⟨(hq b hb).1, (hq b hb).2.1⟩) (.inr rfl) hl, cli_run_data [10] _ (by decide), h1]
    refine ⟨_, rfl, ?_⟩
    intro h hb
    cases h with
    | nil => cases hb
    | cons x h =>
      obtain ⟨t, c⟩ := x
      obtain ⟨rfl, hb'⟩ := List.cons.inj (show c :: h.map Prod.snd = 10 :: data from hb)
      exact .noise (by decide) (h2 h hb')
  | @quit s p w l =>
    simp only [Term.run, step_key.2.2.2.2.2.1, term_dead l ⟨s, p, false⟩ rfl]
    exact ⟨[], rfl, fun h hb => ⟨[], h, rfl, by simp, by rw [hb]; simp, rfl⟩⟩

theorem received {f : SimuTic} (hf : Meterlike f) (ts : TimeVal) :
    Received (ts, (storedAll ((simuGroups f).map MeterGroup.raw)).map some) f := by
  obtain ⟨h1, h2⟩ := simu_pairs hf
  refine ⟨_, rfl, ?_⟩
  rw [meter_pairs (simu_legal hf)]
  exact ⟨h1, h2⟩

/-- **C107 (partial), a session in the terminal.** The device executes exactly the commands that were typed, in order, each
ended by a carriage return, and its decoder, whenever the bytes arrive, publishes exactly the frames that were sent, in order.

Partial: no frame is sent while a command is typed (`c107_refuted_mixed`) and nothing is corrected
(`c107_refuted_correction`). -/
theorem c107_session_partial {s : SimuTic} {p : Bool} {l : List TermEvent} {fs : List SimuTic} {cs : List Str}
    (h : Typing s p l fs cs) (hf : ∀ f ∈ fs, Meterlike f) (ha : ∀ b ∈ s.adco, b ≠ 2 ∧ b ≠ 9 ∧ b ≠ 27 ∧ b ≠ 96) :
    (Cli.init.run ((⟨s, p, true⟩ : Term).run l).2).2.2 = cs ∧
    ∀ (mem : Mem) (h : List (TimeVal × Byte)), mem.length = 350 →
      bytesOf h = (Cli.init.run ((⟨s, p, true⟩ : Term).run l).2).2.1 →
      ∃ pubs, (Dec.init mem).trace h = .ok pubs ∧ pubs.length = fs.length ∧
        ∀ i (h1 : i < pubs.length) (h2 : i < fs.length), Received pubs[i] fs[i] := by
  obtain ⟨data, h1, h2⟩ := session_line h hf fun b hb => by
    obtain ⟨g1, g2, g3, g4⟩ := ha b hb
    exact ⟨by unfold Calls; simp [g2, g3, g4], g1⟩
  rw [h1]
  refine ⟨rfl, fun mem h hm hb => ?_⟩
  obtain ⟨segs, tail, rfl, g1, g2, g3⟩ := h2 h hb
  have hlen : segs.length = fs.length := by
    have := congrArg List.length g3
    simpa using this
  refine ⟨_, c07_each_frame_once mem hm segs g1 tail g2, by simpa using hlen, ?_⟩
  intro i k1 k2
  have k3 : i < segs.length := by omega
  have hg : (segs[i]).groups = (simuGroups fs[i]).map MeterGroup.raw := by
    have := congrArg (fun l => l[i]?) g3
    simpa [k3, k2] using this
  rw [List.getElem_map, hg]
  exact received (hf _ (List.getElem_mem k2)) _

/-! ## Where it fails -/

theorem run_keys {s : SimuTic} {p : Bool} (a : List Nat) (ha : ∀ c ∈ a, PlainKey c) (w : Draw) :
    (⟨s, p, true⟩ : Term).run (a.map fun c => .key c w) = (⟨s, p, true⟩, a.map UInt8.ofNat) := by
  rw [run_entering]
  · congr 1
    unfold textOfKeys
    rw [List.filterMap_map]
    exact congrFun (List.filterMap_eq_map' (f := UInt8.ofNat)) a
  · intro e he
    obtain ⟨c, hc, rfl⟩ := List.mem_map.1 he
    exact .inl ⟨c, w, rfl, ha c hc⟩

theorem keys_bytes {a : List Nat} (ha : ∀ c ∈ a, PlainKey c) :
    ∀ b ∈ a.map UInt8.ofNat, ¬ Calls b ∧ ¬ Eol b ∧ b ≠ 2 := by
  intro b hb
  obtain ⟨c, hc, rfl⟩ := List.mem_map.1 hb
  exact plain_byte (ha c hc)

/-- **C107** as stated is false when a frame is sent while a command is typed, by the timer for instance: what was typed before is
executed, with the first byte of the frame, the rest of the command goes to the decoder, and the frame is lost. -/
theorem c107_refuted_mixed {s : SimuTic} (hs : ∀ b ∈ s.adco, b ≠ 2 ∧ b ≠ 9 ∧ b ≠ 27 ∧ b ≠ 96) (w : Draw) {a c : List Nat}
    (ha : ∀ k ∈ a, PlainKey k) (hc : ∀ k ∈ c, PlainKey k) (hl : a.length ≤ 126) :
    let l := .key 27 w :: (a.map fun k => .key k w) ++ .tick w :: (c.map fun k => .key k w) ++ [.key 10 w]
    (Cli.init.run ((⟨s, false, true⟩ : Term).run l).2).2.2 = [a.map UInt8.ofNat ++ [2, 10]] ∧
    ∀ (mem : Mem) (h : List (TimeVal × Byte)), mem.length = 350 →
      bytesOf h = (Cli.init.run ((⟨s, false, true⟩ : Term).run l).2).2.1 → (Dec.init mem).trace h = .ok [] := by
  intro l
  have hin : ∀ b ∈ (drawn s w).adco, Inner b := fun b hb => by
    obtain ⟨g1, g2, g3, g4⟩ := hs b hb
    exact ⟨by unfold Calls; simp [g2, g3, g4], g1⟩
  obtain ⟨r, hr, hi⟩ := trame_inner hin
  obtain ⟨r', rfl⟩ : ∃ r', r = 10 :: r' := by
    have : (drawn s w).trame.tail.head? = some 10 := rfl
    rw [hr] at this
    cases r with
    | nil => cases this
    | cons x r => exact ⟨r, by rw [Option.some.inj this]⟩
  have hk := keys_bytes ha
  have hk' := keys_bytes hc
  have hout : ((⟨s, false, true⟩ : Term).run l).2 =
      27 :: (a.map UInt8.ofNat ++ [2]) ++ 10 :: (r' ++ c.map UInt8.ofNat ++ [13, 10]) := by
    have h27 : (⟨s, false, true⟩ : Term).step (.key 27 w) = (⟨s, false, true⟩, [27]) := rfl
    have ht : (⟨s, false, true⟩ : Term).step (.tick w) = (⟨drawn s w, false, true⟩, (drawn s w).trame) := rfl
    simp only [l, List.cons_append, Term.run, h27, List.append_assoc, term_append, run_keys a ha w, run_keys c hc w, ht,
      step_key.2.2.2.2.2.2.1, hr]
    simp
  have hcli := cli_command (m := 27) (by decide) (c := a.map UInt8.ofNat ++ [2]) (e := 10) (by
    intro b hb
    rcases List.mem_append.1 hb with hb | hb
    · exact ⟨(hk b hb).1, (hk b hb).2.1⟩
    · rw [List.mem_singleton.1 hb]; exact ⟨by decide, by decide⟩) (.inl rfl) (by simp; omega)
    (r' ++ c.map UInt8.ofNat ++ [13, 10])
  have hdata := cli_run_data (r' ++ c.map UInt8.ofNat ++ [13, 10]) [] (by
    intro b hb
    simp only [List.mem_append] at hb
    rcases hb with (hb | hb) | hb
    · exact (hi b (List.mem_cons_of_mem _ hb)).1
    · exact (hk' b hb).1
    · revert b; decide)
  rw [List.append_nil] at hdata
  rw [hout, hcli, hdata]
  refine ⟨by simp [Cli.run], fun mem h hm hb => ?_⟩
  have := c07_each_frame_once mem hm [] (by simp) h (by
    rw [hb]
    intro h2
    simp only [Cli.run, List.append_nil, List.mem_append] at h2
    rcases h2 with (h2 | h2) | h2
    · exact (hi 2 (List.mem_cons_of_mem _ h2)).2 rfl
    · exact (hk' 2 h2).2.2 rfl
    · exact absurd h2 (by decide))
  simpa using this

/-- **C107** as stated is false when a key is corrected: the wrong character and the correction are part of the command. -/
theorem c107_refuted_correction {s : SimuTic} {p : Bool} (w : Draw) {a c : List Nat} {x : Nat} (ha : ∀ k ∈ a, PlainKey k)
    (hx : PlainKey x) (hc : ∀ k ∈ c, PlainKey k) (hl : a.length + c.length ≤ 125) :
    (Cli.init.run ((⟨s, p, true⟩ : Term).run (.key 27 w :: (a.map fun k => .key k w) ++ .key x w :: .key 0x7F w ::
      (c.map fun k => .key k w) ++ [.key 10 w])).2).2.2 =
      [a.map UInt8.ofNat ++ [UInt8.ofNat x, 8] ++ c.map UInt8.ofNat ++ [13]] := by
  have h27 : (⟨s, p, true⟩ : Term).step (.key 27 w) = (⟨s, p, true⟩, [27]) := rfl
  have h7f : (⟨s, p, true⟩ : Term).step (.key 0x7F w) = (⟨s, p, true⟩, [8]) := rfl
  have hout : ((⟨s, p, true⟩ : Term).run (.key 27 w :: (a.map fun k => .key k w) ++ .key x w :: .key 0x7F w ::
      (c.map fun k => .key k w) ++ [.key 10 w])).2 =
      27 :: (a.map UInt8.ofNat ++ [UInt8.ofNat x, 8] ++ c.map UInt8.ofNat) ++ 13 :: [10] := by
    simp only [List.cons_append, Term.run, h27, h7f, List.append_assoc, term_append, run_keys a ha w, run_keys c hc w,
      step_plain hx, step_key.2.2.2.2.2.2.1]
    simp
  have hk := keys_bytes ha
  have hk' := keys_bytes hc
  have hx' := plain_byte hx
  rw [hout, cli_command (by decide) (by
    intro b hb
    simp only [List.mem_append, List.mem_cons, List.not_mem_nil, or_false] at hb
    rcases hb with (hb | rfl | rfl) | hb
    · exact ⟨(hk b hb).1, (hk b hb).2.1⟩
    · exact ⟨hx'.1, hx'.2.1⟩
    · exact ⟨by decide, by decide⟩
    · exact ⟨(hk' b hb).1, (hk' b hb).2.1⟩) (.inr rfl) (by simp; omega)]
  rfl

/-! ## Examples -/

/-- A simulated meter. -/
def benchMeter : SimuTic := ⟨bs "021528603314", 30, 0, 0, false, 0, 0, 0⟩

/-- What is drawn for the frames. -/
def benchDraw : Draw := ⟨123456, 9876543, 12, 2760⟩

/-- A frame, the beginning of an overload, the automatic frames for a while, and the command `reset`, typed with TAB while the
frames are suspended again. -/
def benchKeys : List TermEvent :=
  .key 0x14 benchDraw :: .key 0x01 benchDraw :: .key 0x19 benchDraw :: .tick benchDraw :: .key 0x19 benchDraw ::
    ((.key 9 benchDraw :: [.key 114 benchDraw, .key 101 benchDraw, .tick benchDraw, .key 115 benchDraw, .key 101 benchDraw,
      .key 116 benchDraw]) ++ .key 10 benchDraw :: [.key 0x03 benchDraw, .key 0x14 benchDraw])

theorem bench_typing :
    Typing benchMeter true benchKeys
      [drawn benchMeter benchDraw, { drawn benchMeter benchDraw with adps := 31 }, { drawn benchMeter benchDraw with adps := 31 }]
      [bs "reset" ++ [13]] := by
  refine .frame (.overload rfl (.toggle (.auto (.toggle ?_))))
  refine .command (.inl rfl) ?_ (by decide) .quit
  intro e he
  simp only [List.mem_cons, List.not_mem_nil, or_false] at he
  rcases he with rfl | rfl | rfl | rfl | rfl | rfl
  · exact .inl ⟨_, _, rfl, by unfold PlainKey; decide⟩
  · exact .inl ⟨_, _, rfl, by unfold PlainKey; decide⟩
  · exact .inr ⟨rfl, _, rfl⟩
  · exact .inl ⟨_, _, rfl, by unfold PlainKey; decide⟩
  · exact .inl ⟨_, _, rfl, by unfold PlainKey; decide⟩
  · exact .inl ⟨_, _, rfl, by unfold PlainKey; decide⟩

/-- The hypotheses of `c107_session_partial` hold for this session. -/
example : (∀ f ∈ [drawn benchMeter benchDraw, { drawn benchMeter benchDraw with adps := 31 },
      { drawn benchMeter benchDraw with adps := 31 }], Meterlike f) ∧
    (∀ b ∈ benchMeter.adco, b ≠ 2 ∧ b ≠ 9 ∧ b ≠ 27 ∧ b ≠ 96) ∧
    (Cli.init.run ((⟨benchMeter, true, true⟩ : Term).run benchKeys).2).2.2 = [bs "reset" ++ [13]] := by
  have hf : ∀ f ∈ [drawn benchMeter benchDraw, { drawn benchMeter benchDraw with adps := 31 },
      { drawn benchMeter benchDraw with adps := 31 }], Meterlike f := by
    intro f hf
    simp only [List.mem_cons, List.not_mem_nil, or_false] at hf
    rcases hf with rfl | rfl | rfl <;>
      exact ⟨by decide +kernel, by decide +kernel, by decide +kernel, by decide +kernel, by decide +kernel, by decide +kernel,
        by decide +kernel, by decide +kernel, by decide +kernel⟩
  have ha : ∀ b ∈ benchMeter.adco, b ≠ 2 ∧ b ≠ 9 ∧ b ≠ 27 ∧ b ≠ 96 := by decide +kernel
  exact ⟨hf, ha, (c107_session_partial bench_typing hf ha).1⟩

/-- A frame sent by the timer in the middle of `reset`: the command becomes `res`, STX, LF. -/
example : (Cli.init.run ((⟨benchMeter, false, true⟩ : Term).run
    (.key 27 benchDraw :: ([114, 101, 115].map fun k => .key k benchDraw) ++ .tick benchDraw ::
      ([101, 116].map fun k => .key k benchDraw) ++ [.key 10 benchDraw])).2).2.2 = [bs "res" ++ [2, 10]] :=
  (c107_refuted_mixed (by decide +kernel) benchDraw (by unfold PlainKey; decide) (by unfold PlainKey; decide) (by decide)).1

/-- `rex`, Backspace, `set`: the device gets `rex`, backspace, `set`. -/
example : (Cli.init.run ((⟨benchMeter, true, true⟩ : Term).run
    (.key 27 benchDraw :: ([114, 101].map fun k => .key k benchDraw) ++ .key 120 benchDraw :: .key 0x7F benchDraw ::
      ([115, 101, 116].map fun k => .key k benchDraw) ++ [.key 10 benchDraw])).2).2.2 =
      [[114, 101] ++ [120, 8] ++ [115, 101, 116] ++ [13]] :=
  c107_refuted_correction benchDraw (by unfold PlainKey; decide) (by unfold PlainKey; decide) (by unfold PlainKey; decide)
    (by decide)

end Wifinfo
