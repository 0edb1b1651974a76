import Verif.Model.Port
import Verif.Props.Config

/-!
# C121: the terminal opens the port that is chosen and shows what the device prints
-/

namespace Wifinfo
open Spec

namespace Spec

/-- A typed number: blanks around decimal digits. -/
def IsNumber (line : Str) (n : Nat) : Prop :=
  ∃ a d c, line = a ++ d ++ c ∧ a.all (· = 32) = true ∧ c.all (· = 32) = true ∧ d ≠ [] ∧ numeral d = true ∧ decVal d = n

/-- A typed number with a sign in front of it. -/
def IsSigned (sign : Byte) (line : Str) (n : Nat) : Prop :=
  ∃ a d c, line = a ++ (sign :: d) ++ c ∧ a.all (· = 32) = true ∧ c.all (· = 32) = true ∧ d ≠ [] ∧ numeral d = true ∧ decVal d = n

/-- A typed name: what begins with neither a digit, nor a blank, nor a sign. -/
def IsName (line : Str) : Prop := ∃ b r, line = b :: r ∧ b ≠ 45 ∧ b ≠ 43 ∧ digit b = false ∧ (33 ≤ b ∧ b ≤ 126)

/-- What a screen shows of a text: the colours, from ESC to `m`, are not characters.  The flag tells that we are inside a colour. -/
def consoleShows : Bool → List Nat → List Nat
  | _, [] => []
  | false, c :: r => if c = 27 then consoleShows true r else c :: consoleShows false r
  | true, c :: r => if c = 109 then consoleShows false r else consoleShows true r

end Spec

/-! ## Numbers -/

theorem pyDigits_numeral (d : Str) (h : numeral d = true) : ∀ n, pyDigits n d = some (d.foldl (fun a b => 10 * a + (b.toNat - 48)) n) := by
  induction d with
  | nil => intro n; rfl
  | cons b r ih =>
    intro n
    have hb : digit b = true ∧ numeral r = true := by simpa [numeral] using h
    rw [pyDigits.eq_def]
    simp only [hb.1, if_true]
    rw [ih hb.2]
    rfl

theorem drop_blanks {a : Str} (h : a.all (· = 32) = true) (r : Str) : (a ++ r).dropWhile pyBlank = r.dropWhile pyBlank := by
  apply List.dropWhile_append_of_pos
  intro b hb
  have : b = 32 := by simpa using List.all_eq_true.1 h b hb
  rw [this]
  rfl

theorem digit_facts : ∀ b : Byte, digit b = true → pyBlank b = false ∧ b ≠ 45 ∧ b ≠ 43 := byte_all (by decide +kernel)

theorem strip_core {d : Str} (hd : d ≠ []) (h1 : ∀ b, d.head? = some b → pyBlank b = false)
    (h2 : ∀ b, d.getLast? = some b → pyBlank b = false) {a c : Str} (ha : a.all (· = 32) = true) (hc : c.all (· = 32) = true) :
    pyStrip (a ++ d ++ c) = d := by
  have key : ∀ (e t : Str), e ≠ [] → (∀ b, e.head? = some b → pyBlank b = false) → (e ++ t).dropWhile pyBlank = e ++ t := by
    intro e t he hh
    cases e with
    | nil => exact absurd rfl he
    | cons x y => rw [List.cons_append, List.dropWhile_cons_of_neg (by simp [hh x rfl])]
  unfold pyStrip
  rw [List.append_assoc, drop_blanks ha, key d c hd h1, List.reverse_append, drop_blanks (by simpa using hc)]
  have := key d.reverse [] (by simpa using hd) (by rw [List.head?_reverse]; exact h2)
  rw [List.append_nil] at this
  rw [this, List.reverse_reverse]

theorem pyIntText_number {line : Str} {n : Nat} (h : IsNumber line n) : pyIntText line = some n := by
  obtain ⟨a, d, c, rfl, ha, hc, hd, hn, hv⟩ := h
  have hall : ∀ b ∈ d, digit b = true := List.all_eq_true.1 hn
  have hs : pyStrip (a ++ d ++ c) = d := by
    apply strip_core hd _ _ ha hc
    · intro b hb; exact (digit_facts b (hall b (List.mem_of_head? hb))).1
    · intro b hb; exact (digit_facts b (hall b (List.mem_of_getLast? hb))).1
  unfold pyIntText
  rw [hs]
  cases d with
  | nil => exact absurd rfl hd
  | cons b r =>
    have hb := hall b (by simp)
    obtain ⟨-, f1, f2⟩ := digit_facts b hb
    simp only [List.head?_cons, Option.some.injEq, f1, f2, or_self, if_false, hb, if_true, pyDigits_numeral _ hn]
    have : List.foldl (fun a b => 10 * a + (b.toNat - 48)) 0 (b :: r) = n := hv
    rw [this]
    rfl

theorem pyIntText_signed {sign : Byte} {line : Str} {n : Nat} (hsg : sign = 43 ∨ sign = 45) (h : IsSigned sign line n) :
    pyIntText line = some (if sign = 45 then -(n : Int) else n) := by
  obtain ⟨a, d, c, rfl, ha, hc, hd, hn, hv⟩ := h
  have hall : ∀ b ∈ d, digit b = true := List.all_eq_true.1 hn
  have hb0 : pyBlank sign = false := by rcases hsg with rfl | rfl <;> decide
  have hs : pyStrip (a ++ (sign :: d) ++ c) = sign :: d := by
    apply strip_core (List.cons_ne_nil _ _) _ _ ha hc
    · intro b hb; rw [← Option.some.inj hb]; exact hb0
    · intro b hb
      rw [List.getLast?_cons_of_ne_nil hd] at hb
      exact (digit_facts b (hall b (List.mem_of_getLast? hb))).1
  unfold pyIntText
  rw [hs]
  cases d with
  | nil => exact absurd rfl hd
  | cons b r =>
    have hb := hall b (by simp)
    have hf : List.foldl (fun a b => 10 * a + (b.toNat - 48)) 0 (b :: r) = n := hv
    rcases hsg with rfl | rfl <;> simp [hb, pyDigits_numeral _ hn, hf]

theorem name_blank : ∀ b : Byte, 33 ≤ b ∧ b ≤ 126 → pyBlank b = false := byte_all (by decide +kernel)

theorem pyIntText_name {line : Str} (h : IsName line) : pyIntText line = none := by
  obtain ⟨b, r, rfl, h1, h2, h3, h4⟩ := h
  have hb := name_blank b h4
  have hs : ∃ t, pyStrip (b :: r) = b :: t := by
    unfold pyStrip
    rw [List.dropWhile_cons_of_neg (by simp [hb]), List.reverse_cons]
    have : ∀ l : Str, ∃ t, (l ++ [b]).dropWhile pyBlank = t ++ [b] := by
      intro l
      induction l with
      | nil => exact ⟨[], by rw [List.nil_append, List.dropWhile_cons_of_neg (by simp [hb])]⟩
      | cons x l ih =>
        by_cases hx : pyBlank x = true
        · rw [List.cons_append, List.dropWhile_cons_of_pos hx]; exact ih
        · rw [List.cons_append, List.dropWhile_cons_of_neg hx]; exact ⟨x :: l, rfl⟩
    obtain ⟨t, ht⟩ := this r.reverse
    rw [ht]
    exact ⟨t.reverse, by simp⟩
  obtain ⟨t, hs⟩ := hs
  unfold pyIntText
  rw [hs]
  simp [h1, h2, h3]

/-! ## The port -/

/-- **C121**: the only port is taken without a question. -/
theorem c121_only {comports : List Str} {p : Str} (h : keptPorts comports = [p]) (lines : List Str) : askForPort comports lines = some p := by
  simp [askForPort, h]

theorem ask_skip {ports : List Str} : ∀ (wrong more : List Str), (∀ l ∈ wrong, ∃ n, IsNumber l n ∧ ¬ (1 ≤ n ∧ n ≤ ports.length)) →
    askLoop ports (wrong ++ more) = askLoop ports more
  | [], _, _ => rfl
  | l :: wrong, more, h => by
    obtain ⟨n, h1, h2⟩ := h l (by simp)
    rw [List.cons_append, askLoop, pyIntText_number h1]
    show (if ¬(0 ≤ ((n : Nat) : Int) - 1 ∧ ((n : Nat) : Int) - 1 < ports.length) then _ else _) = _
    rw [if_pos (by omega)]
    exact ask_skip wrong more (fun x hx => h x (List.mem_cons_of_mem _ hx))

/-- **C121**: when there is not one port only, the numbers that are not in the list are refused, and the first one that is in it gives
the port that has this number. -/
theorem c121_index {comports : List Str} (hl : (keptPorts comports).length ≠ 1) (wrong more : List Str)
    (hw : ∀ l ∈ wrong, ∃ n, IsNumber l n ∧ ¬ (1 ≤ n ∧ n ≤ (keptPorts comports).length)) {line : Str} {n : Nat} (hn : IsNumber line (n + 1))
    (h : n < (keptPorts comports).length) : askForPort comports (wrong ++ line :: more) = some (keptPorts comports)[n] := by
  unfold askForPort
  simp only
  rw [if_neg hl, ask_skip wrong _ hw, askLoop, pyIntText_number hn]
  show (if ¬(0 ≤ ((n + 1 : Nat) : Int) - 1 ∧ ((n + 1 : Nat) : Int) - 1 < (keptPorts comports).length) then _ else _) = _
  rw [if_neg (by omega), show ((n + 1 : Nat) : Int) - 1 = (n : Int) from by omega]
  simp [h]

/-- **C121**, exactly for the signs: a number with a minus sign is refused, one with a plus sign is the number. -/
theorem c121_signed {comports : List Str} (hl : (keptPorts comports).length ≠ 1) {line : Str} {n : Nat} (more : List Str) :
    (IsSigned 45 line n → askForPort comports (line :: more) = askForPort comports more) ∧
    (IsSigned 43 line n → ¬ (1 ≤ n ∧ n ≤ (keptPorts comports).length) → askForPort comports (line :: more) = askForPort comports more) ∧
    (IsSigned 43 line n → 1 ≤ n → (h : n - 1 < (keptPorts comports).length) →
      askForPort comports (line :: more) = some (keptPorts comports)[n - 1]) := by
  unfold askForPort
  simp only
  rw [if_neg hl, if_neg hl]
  refine ⟨fun h => ?_, fun h hn => ?_, fun h hn h2 => ?_⟩
  · rw [askLoop, pyIntText_signed (.inr rfl) h]
    show (if ¬(0 ≤ -((n : Nat) : Int) - 1 ∧ _) then _ else _) = _
    rw [if_pos (by omega)]
  · rw [askLoop, pyIntText_signed (.inl rfl) h]
    show (if ¬(0 ≤ ((n : Nat) : Int) - 1 ∧ ((n : Nat) : Int) - 1 < (keptPorts comports).length) then _ else _) = _
    rw [if_pos (by omega)]
  · rw [askLoop, pyIntText_signed (.inl rfl) h]
    show (if ¬(0 ≤ ((n : Nat) : Int) - 1 ∧ ((n : Nat) : Int) - 1 < (keptPorts comports).length) then _ else _) = _
    rw [if_neg (by omega)]
    show (keptPorts comports)[(((n : Nat) : Int) - 1).toNat]? = _
    rw [show (((n : Nat) : Int) - 1).toNat = n - 1 from by omega]
    simp [h2]

/-- Such lines exist. -/
example : IsSigned 45 (bs " -1") 1 ∧ IsSigned 43 (bs "+2 ") 2 :=
  ⟨⟨bs " ", bs "1", [], rfl, rfl, rfl, by decide, by decide, by decide⟩, ⟨[], bs "2", bs " ", rfl, rfl, rfl, by decide, by decide, by decide⟩⟩

/-- **C121**: a name is taken as it is typed, also when it is not in the list. -/
theorem c121_name {comports : List Str} (hl : (keptPorts comports).length ≠ 1) (wrong more : List Str)
    (hw : ∀ l ∈ wrong, ∃ n, IsNumber l n ∧ ¬ (1 ≤ n ∧ n ≤ (keptPorts comports).length)) {line : Str} (hn : IsName line) :
    askForPort comports (wrong ++ line :: more) = some line := by
  unfold askForPort
  simp only
  rw [if_neg hl, ask_skip wrong _ hw, askLoop, pyIntText_name hn]

/-- **C121**: the port is one of the list or a line that was typed. -/
theorem c121_chosen {comports lines : List Str} {p : Str} (h : askForPort comports lines = some p) : p ∈ comports ∨ p ∈ lines := by
  have hk : ∀ q ∈ keptPorts comports, q ∈ comports := fun q hq => (List.mem_filter.1 hq).1
  have loop : ∀ (ls : List Str), askLoop (keptPorts comports) ls = some p → p ∈ comports ∨ p ∈ ls := by
    intro ls
    induction ls with
    | nil => intro h; cases h
    | cons l r ih =>
      intro h
      rw [askLoop] at h
      split at h
      · simp only at h
        split at h
        · rcases ih h with h | h
          · exact .inl h
          · exact .inr (List.mem_cons_of_mem _ h)
        · exact .inl (hk _ (List.mem_of_getElem? h))
      · cases h; exact .inr (by simp)
  unfold askForPort at h
  simp only at h
  split at h
  · exact .inl (hk _ (List.mem_of_getElem? h))
  · exact loop _ h

/-- **C121**: outside macOS, all the ports are in the list. -/
theorem c121_listed_partial {comports : List Str} (h : ∀ p ∈ comports, ¬ bs "/dev/cu." <+: p ∨ bs "/dev/cu.usb" <+: p) :
    keptPorts comports = comports := by
  unfold keptPorts
  rw [List.filter_eq_self]
  intro p hp
  rcases h p hp with h | h
  · have : (bs "/dev/cu.").isPrefixOf p = false := by
      rw [Bool.eq_false_iff]
      exact fun e => h (List.isPrefixOf_iff_prefix.1 e)
    simp [this]
  · simp [List.isPrefixOf_iff_prefix.2 h]

/-- **C121** is false: on macOS the port of a board whose serial chip is a CH340 or a CP2102, as many boards have, is not
in the list; when there is one other port, it is opened without a question. -/
theorem c121_refuted_listed : keptPorts [bs "/dev/cu.wchusbserial1420"] = [] ∧ keptPorts [bs "/dev/cu.SLAB_USBtoUART"] = [] ∧
    ∀ lines, askForPort [bs "/dev/cu.usbmodem101", bs "/dev/cu.wchusbserial1420"] lines = some (bs "/dev/cu.usbmodem101") := by
  refine ⟨by decide, by decide, fun lines => c121_only (by decide) lines⟩

/-- Two ports and what is typed. -/
example : askForPort [bs "/dev/ttyUSB0", bs "/dev/ttyUSB1"] [bs "0", bs "3", bs " 2 "] = some (bs "/dev/ttyUSB1") ∧
    askForPort [bs "/dev/ttyUSB0", bs "/dev/ttyUSB1"] [bs "/dev/ttyS0"] = some (bs "/dev/ttyS0") ∧
    askForPort [bs "/dev/ttyUSB0"] [] = some (bs "/dev/ttyUSB0") ∧ askForPort [] [bs "1"] = none := by decide

example : IsNumber (bs " 12 ") 12 ∧ IsName (bs "/dev/ttyS0") :=
  ⟨⟨bs " ", bs "12", bs " ", by decide⟩, ⟨47, bs "dev/ttyS0", by decide⟩⟩

/-! ## The screen -/

theorem screen_text : ∀ (l : List Nat) (r : List Nat), 27 ∉ l → consoleShows false (l ++ r) = l ++ consoleShows false r
  | [], _, _ => rfl
  | c :: l, r, h => by
    have hc : c ≠ 27 := fun e => h (by simp [e])
    rw [List.cons_append, consoleShows, if_neg hc, screen_text l r (fun hm => h (by simp [hm]))]
    rfl

theorem screen_color (r : List Nat) : consoleShows false (inputColor ++ r) = consoleShows false r := rfl

theorem ascii_esc : ∀ b : Byte, asciiChar b = 27 → b = 27 := byte_all (by decide +kernel)

/-- **C121**: the screen shows the bytes of the device in order, whatever the pieces in which they arrive; those that are not ASCII are
shown as `�`. -/
theorem c121_screen_exact (pieces : List Str) (h : 27 ∉ pieces.flatten) :
    consoleShows false (readerOut pieces) = pieces.flatten.map fun b => if b.toNat < 128 then b.toNat else 0xFFFD := by
  induction pieces with
  | nil => rfl
  | cons d l ih =>
    rw [List.flatten_cons, List.mem_append, not_or] at h
    have ih := ih h.2
    unfold readerOut at ih ⊢
    rw [List.flatMap_cons, List.flatten_cons, List.map_append, ← ih]
    have hn : 27 ∉ d.map asciiChar := by
      intro hm
      obtain ⟨b, hb, e⟩ := List.mem_map.1 hm
      exact h.1 (ascii_esc b e ▸ hb)
    split
    · rename_i e; subst e; rfl
    · rw [List.append_assoc, screen_color, screen_text _ _ hn]
      rfl

/-- **C121**, in part: ASCII text is shown as the device prints it.  Missing: other characters (`c121_refuted_screen`). -/
theorem c121_screen_partial (pieces : List Str) (h : ∀ b ∈ pieces.flatten, b.toNat < 128 ∧ b ≠ 27) :
    consoleShows false (readerOut pieces) = pieces.flatten.map UInt8.toNat := by
  rw [c121_screen_exact _ (fun hm => (h _ hm).2 rfl)]
  apply List.map_congr_left
  intro b hb
  rw [if_pos (h b hb).1]

/-- **C121** is false: the name of a network with an accent, in UTF-8, is shown as two `�`. -/
theorem c121_refuted_screen : consoleShows false (readerOut [bs "caf" ++ [0xC3, 0xA9]]) = [99, 97, 102, 0xFFFD, 0xFFFD] := by decide

example : consoleShows false (readerOut [bs "Free", [], bs " RAM\r\n"]) = (bs "Free RAM\r\n").map UInt8.toNat := by decide

end Wifinfo
