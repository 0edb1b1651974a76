import Verif.Model.Cli
import Verif.Spec.Console
import Verif.Props.Decoder

/-!
# C50: the console and the meter on the same serial line
-/

namespace Wifinfo
open Spec

theorem cliMarker_iff (c : Byte) : cliMarker c = true ↔ Calls c := by
  simp [cliMarker, Calls, or_assoc]

theorem marker_no {c : Byte} (h : ¬ Calls c) : cliMarker c = false := by
  rw [← cliMarker_iff] at h; simpa using h

theorem cli_step_data {s : Cli} {c : Byte} (hs : s.mode = false) (h : ¬ Calls c) : s.step c = (s, some c, none) := by
  simp [Cli.step, marker_no h, hs]

theorem cli_step_marker {s : Cli} {c : Byte} (h : Calls c) : s.step c = ({ s with mode := true }, none, none) := by
  simp [Cli.step, (cliMarker_iff c).2 h]

/-- Bytes without a marker go through. -/
theorem cli_run_data (a b : Str) (h : ∀ x ∈ a, ¬ Calls x) :
    Cli.init.run (a ++ b) = ((Cli.init.run b).1, a ++ (Cli.init.run b).2.1, (Cli.init.run b).2.2) := by
  induction a with
  | nil => rfl
  | cons x a ih =>
    rw [List.cons_append, Cli.run, cli_step_data rfl (h x (by simp))]
    simp only []
    rw [ih fun y hy => h y (by simp [hy])]
    rfl

theorem typed_cons (x : Byte) (c : Str) : typed (x :: c) = if Calls x then typed c else x :: typed c := by
  by_cases h : Calls x <;> simp [typed, h]

/-- An open command line takes what is typed. -/
theorem cli_run_typing (c b : Str) : ∀ t, Open (t ++ typed c) →
    Cli.run { mode := true, input := t } (c ++ b) = Cli.run { mode := true, input := t ++ typed c } b := by
  induction c with
  | nil => intro t _; simp [typed]
  | cons x c ih =>
    intro t ht
    rw [List.cons_append, Cli.run]
    by_cases hx : Calls x
    · rw [cli_step_marker hx, typed_cons, if_pos hx]
      simp only []
      rw [typed_cons, if_pos hx] at ht
      rw [ih t ht]
      rfl
    · rw [typed_cons, if_neg hx] at ht ⊢
      have h1 : ¬ Eol x := ht.1 x (by simp)
      have h2 := ht.2
      simp only [List.length_append, List.length_cons] at h2
      have : Cli.step { mode := true, input := t } x = ({ mode := true, input := t ++ [x] }, none, none) := by
        have h3 : ¬ (128 ≤ t.length + 1) := by omega
        simp only [Eol, not_or] at h1
        simp [Cli.step, marker_no hx, h1.1, h1.2, h3]
      rw [this]
      simp only []
      rw [ih (t ++ [x]) (by rw [List.append_assoc]; exact ht), List.append_assoc]
      rfl

/-- The byte that ends the command line. -/
theorem cli_run_closing (t : Str) (e : Byte) (r : Str) (he : ¬ Calls e) (h : Eol e ∨ (t ++ [e]).length = 128) :
    Cli.run { mode := true, input := t } (e :: r) =
      ((Cli.init.run r).1, (Cli.init.run r).2.1, (t ++ [e]) :: (Cli.init.run r).2.2) := by
  have : Cli.step { mode := true, input := t } e = (Cli.init, none, some (t ++ [e])) := by
    have h3 : (e == 0x0A || e == 0x0D || decide ((t ++ [e]).length ≥ 128)) = true := by
      rcases h with (h | h) | h
      · simp [h]
      · simp [h]
      · simp only [Bool.or_eq_true, decide_eq_true_eq]; right; omega
    rw [Cli.step, marker_no he]
    simp only [Bool.false_eq_true, if_false, if_true, h3]
    rfl
  rw [Cli.run, this]
  rfl

theorem open_of_closed {t : Str} {e : Byte} (h : Closed (t ++ [e])) : Open t ∧ (Eol e ∨ (t ++ [e]).length = 128) := by
  obtain ⟨u, e', h1, h2, h3⟩ := h
  have := List.append_inj' h1 rfl
  simp only [List.cons.injEq, and_true] at this
  obtain ⟨rfl, rfl⟩ := this
  exact ⟨h2, h3⟩

/-- **C50.**  Whatever comes on the line, the decoder and the console get what `Line` says. -/
theorem c50_split (s d : Str) (p : List Str) (h : Line s d p) : (Cli.init.run s).2 = (d, p) := by
  induction h with
  | data a h =>
    have := cli_run_data a [] h
    rw [List.append_nil] at this
    rw [this]
    simp [Cli.run]
  | typing a m c h hm hc =>
    rw [cli_run_data a _ h, Cli.run, cli_step_marker hm]
    have := cli_run_typing c [] [] hc
    rw [List.append_nil] at this
    show (a ++ _, _) = _
    simp only [Option.toList_none, List.nil_append]
    rw [show ({ Cli.init with mode := true } : Cli) = { mode := true, input := [] } from rfl, this]
    simp [Cli.run]
  | command a m c e r d p h hm he hc hr ih =>
    obtain ⟨h1, h2⟩ := open_of_closed hc
    rw [List.append_assoc, cli_run_data a _ h, List.cons_append, Cli.run, cli_step_marker hm]
    simp only [Option.toList_none, List.nil_append]
    rw [show ({ Cli.init with mode := true } : Cli) = { mode := true, input := [] } from rfl,
      cli_run_typing c (e :: r) [] h1, List.nil_append, cli_run_closing _ _ _ he h2]
    simp only [ih]

/-- First byte that calls the console, if any. -/
theorem first_call (s : Str) : (∀ b ∈ s, ¬ Calls b) ∨ ∃ a m r, s = a ++ m :: r ∧ (∀ b ∈ a, ¬ Calls b) ∧ Calls m := by
  induction s with
  | nil => left; simp
  | cons x s ih =>
    by_cases hx : Calls x
    · exact .inr ⟨[], x, s, rfl, by simp, hx⟩
    · rcases ih with h | ⟨a, m, r, h1, h2, h3⟩
      · left; intro b hb
        rcases List.mem_cons.1 hb with rfl | hb
        · exact hx
        · exact h b hb
      · refine .inr ⟨x :: a, m, r, by rw [h1]; rfl, ?_, h3⟩
        intro b hb
        rcases List.mem_cons.1 hb with rfl | hb
        · exact hx
        · exact h2 b hb

/-- What follows the call: an open command line or a finished one. -/
theorem first_end (s : Str) : ∀ t, Open t → Open (t ++ typed s) ∨
    ∃ c e r, s = c ++ e :: r ∧ ¬ Calls e ∧ Closed (t ++ typed c ++ [e]) := by
  induction s with
  | nil => intro t ht; left; simpa [typed] using ht
  | cons x s ih =>
    intro t ht
    by_cases hx : Calls x
    · rcases ih t ht with h | ⟨c, e, r, h1, h2, h3⟩
      · left; rw [typed_cons, if_pos hx]; exact h
      · exact .inr ⟨x :: c, e, r, by rw [h1]; rfl, h2, by rw [typed_cons, if_pos hx]; exact h3⟩
    · by_cases he : Eol x ∨ (t ++ [x]).length = 128
      · exact .inr ⟨[], x, s, rfl, hx, t, x, by simp [typed], ht, by simpa [typed] using he⟩
      · have : Open (t ++ [x]) := by
          rw [not_or] at he
          refine ⟨?_, ?_⟩
          · intro b hb
            rcases List.mem_append.1 hb with hb | hb
            · exact ht.1 b hb
            · rw [List.mem_singleton.1 hb]; exact he.1
          · have := ht.2
            have h4 := he.2
            simp only [List.length_append, List.length_cons, List.length_nil] at h4 ⊢
            omega
        rcases ih (t ++ [x]) this with h | ⟨c, e, r, h1, h2, h3⟩
        · left; rw [typed_cons, if_neg hx]; rwa [List.append_assoc] at h
        · exact .inr ⟨x :: c, e, r, by rw [h1]; rfl, h2, by
            rw [typed_cons, if_neg hx]; rwa [List.append_assoc t [x]] at h3⟩

theorem line_exists_aux (n : Nat) : ∀ s : Str, s.length ≤ n → ∃ d p, Line s d p := by
  induction n with
  | zero =>
    intro s hs
    have : s = [] := List.eq_nil_of_length_eq_zero (by omega)
    exact ⟨[], [], this ▸ .data [] (by simp)⟩
  | succ n ih =>
    intro s hs
    rcases first_call s with h | ⟨a, m, q, rfl, h2, h3⟩
    · exact ⟨_, _, .data s h⟩
    · rcases first_end q [] ⟨by simp, by simp⟩ with h | ⟨c, e, r, rfl, h5, h6⟩
      · exact ⟨_, _, .typing a m q h2 h3 h⟩
      · simp only [List.length_append, List.length_cons] at hs
        obtain ⟨d, p, hr⟩ := ih r (by omega)
        refine ⟨a ++ d, (typed c ++ [e]) :: p, ?_⟩
        have := Line.command a m c e r d p h2 h3 h5 h6 hr
        rw [List.append_assoc, List.cons_append] at this
        exact this

/-- **C50.**  `Line` tells what happens to every stream, and in one way only. -/
theorem c50_every_stream (s : Str) : ∃ d p, Line s d p ∧ ∀ d' p', Line s d' p' → d' = d ∧ p' = p := by
  obtain ⟨d, p, h⟩ := line_exists_aux s.length s (Nat.le_refl _)
  refine ⟨d, p, h, fun d' p' h' => ?_⟩
  have := (c50_split s d' p' h').symm.trans (c50_split s d p h)
  simpa using this

/-- **C50**, a stream without TAB, ESC and back-quote is passed unchanged. -/
theorem c50_unchanged (s : Str) (h : ∀ b ∈ s, b ≠ 0x09 ∧ b ≠ 0x1B ∧ b ≠ 0x60) : (Cli.init.run s).2 = (s, []) :=
  c50_split s s [] (.data s fun b hb hc => by
    obtain ⟨h1, h2, h3⟩ := h b hb
    rcases hc with h | h | h
    · exact h1 h
    · exact h2 h
    · exact h3 h)

/-- **C50**, after one of these, a line is taken for the command line and none of it reaches the
decoder; what follows is as if nothing had happened. -/
theorem c50_command (a : Str) (m : Byte) (c : Str) (e : Byte) (r : Str) (ha : ∀ b ∈ a, ¬ Calls b) (hm : Calls m)
    (hc : ∀ b ∈ c, ¬ Calls b ∧ ¬ Eol b) (hl : c.length < 128) (he : Eol e) :
    (Cli.init.run (a ++ m :: c ++ e :: r)).2 = (a ++ (Cli.init.run r).2.1, (c ++ [e]) :: (Cli.init.run r).2.2) := by
  obtain ⟨d, p, hr, -⟩ := c50_every_stream r
  have ht : typed c = c := List.filter_eq_self.2 fun b hb => by simp [(hc b hb).1]
  have h1 : ¬ Calls e := by rcases he with rfl | rfl <;> decide
  have := c50_split _ _ _ (.command a m c e r d p ha hm h1
    (by rw [ht]; exact ⟨c, e, rfl, ⟨fun b hb => (hc b hb).2, hl⟩, .inl he⟩) hr)
  rw [this, c50_split r d p hr, ht]

/-- **C50**, no command line is longer than 128 bytes, it is never empty, and no byte that calls the
console reaches the decoder or a command. -/
theorem c50_bounded (s : Str) : (∀ t ∈ (Cli.init.run s).2.2, 1 ≤ t.length ∧ t.length ≤ 128 ∧ ∀ b ∈ t, ¬ Calls b) ∧
    ∀ b ∈ (Cli.init.run s).2.1, ¬ Calls b := by
  obtain ⟨d, p, h, -⟩ := c50_every_stream s
  rw [c50_split s d p h]
  induction h with
  | data a h => exact ⟨by simp, h⟩
  | typing a m c h hm hc => exact ⟨by simp, h⟩
  | command a m c e r d p h hm he hc hr ih =>
    constructor
    · intro t ht
      rcases List.mem_cons.1 ht with rfl | ht
      · obtain ⟨h1, h2⟩ := open_of_closed hc
        have := h1.2
        refine ⟨by simp, by simp; omega, ?_⟩
        intro b hb
        rcases List.mem_append.1 hb with hb | hb
        · have := (List.mem_filter.1 hb).2; simpa using this
        · rw [List.mem_singleton.1 hb]; exact he
      · exact ih.1 t ht
    · intro b hb
      rcases List.mem_append.1 hb with hb | hb
      · exact h b hb
      · exact ih.2 b hb

/-- **C50**, the frames of a meter that separates with spaces and sends no back-quote reach the decoder
unchanged, wherever they are between command lines. -/
theorem c50_meter (gs : List MeterGroup) (hl : ∀ g ∈ gs, g.Legal ∧ g.sep = 32)
    (hq : ∀ g ∈ gs, (0x60 : Byte) ∉ g.label ++ g.value) (r : Str) :
    (Cli.init.run (meterWire gs ++ r)).2 = (meterWire gs ++ (Cli.init.run r).2.1, (Cli.init.run r).2.2) := by
  rw [cli_run_data]
  intro b hb hc
  simp only [meterWire, frameWire, List.cons_append, List.mem_cons, List.mem_append, List.mem_flatMap,
    List.mem_map] at hb
  rcases hb with rfl | ⟨_, ⟨g, hg, rfl⟩, hb⟩ | rfl | hb
  · revert hc; decide
  · obtain ⟨h1, h2⟩ := hl g hg
    have hp : ∀ x ∈ g.label ++ g.value, ¬ Calls x := by
      intro x hx hx'
      have h3 : printable x = true := by
        rcases List.mem_append.1 hx with h | h
        · exact (h1.label x h).1
        · exact h1.value x h
      rcases hx' with rfl | rfl | rfl
      · revert h3; decide
      · revert h3; decide
      · exact hq g hg hx
    simp only [RawGroup.wire, MeterGroup.raw, h2, List.cons_append, List.append_assoc, List.nil_append,
      List.mem_cons, List.mem_append] at hb
    rcases hb with rfl | hb | rfl | hb | rfl | rfl | rfl | hb
    · revert hc; decide
    · exact hp b (List.mem_append_left _ hb) hc
    · revert hc; decide
    · exact hp b (List.mem_append_right _ hb) hc
    · revert hc; decide
    · have : ∀ n : Nat, n < 64 → ¬ Calls (UInt8.ofNat (n + 32)) := by decide
      exact this _ (Nat.mod_lt _ (by decide)) hc
    · revert hc; decide
    · cases hb
  · revert hc; decide
  · cases hb

/-- A frame, a command in the middle of a group, the rest of the frame: the decoder sees the frame, the
console the command. -/
example : (Cli.init.run (2 :: 10 :: bs "PAPP 00" ++ 0x60 :: bs "esp restart" ++ 10 :: bs "750 -" ++ [13, 3])).2 =
    (2 :: 10 :: bs "PAPP 00750 -" ++ [13, 3], [bs "esp restart" ++ [10]]) := by decide +kernel

/-- 200 bytes typed without end of line: the first 128 are the command. -/
example : (Cli.init.run (0x1B :: List.replicate 200 65)).2 =
    (List.replicate 72 65, [List.replicate 128 65]) := by decide +kernel

/-- The hypotheses of `c50_meter` are met by a real frame. -/
example : ∀ g ∈ [(⟨bs "ADCO", bs "012345678901", 32⟩ : MeterGroup), ⟨bs "PTEC", bs "HP..", 32⟩],
    (g.Legal ∧ g.sep = 32) ∧ (0x60 : Byte) ∉ g.label ++ g.value := by
  intro g hg
  simp only [List.mem_cons, List.not_mem_nil, or_false] at hg
  rcases hg with rfl | rfl
  · exact ⟨⟨⟨.inl rfl, by decide +kernel, by decide +kernel, by decide⟩, rfl⟩, by decide +kernel⟩
  · exact ⟨⟨⟨.inl rfl, by decide +kernel, by decide +kernel, by decide⟩, rfl⟩, by decide +kernel⟩

/-- With the tabulation that the decoder accepts as a separator, the same frame goes to the console: a
meter that uses it is not understood by the console build (the comment of cli.cpp:282 knows it). -/
theorem c50_tab_frame_lost : (Cli.init.run (meterWire [⟨bs "ADCO", bs "012345678901", 9⟩])).2 =
    (2 :: 10 :: bs "ADCO" ++ [3], [bs "012345678901." ++ [13]]) := by decide +kernel

end Wifinfo
