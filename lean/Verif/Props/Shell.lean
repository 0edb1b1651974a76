import Verif.Model.Shell
import Verif.Props.DateFrame
import Verif.Props.CliSet
import Verif.Props.Period

/-!
# C119: the commands `tic` and `set` of the console do what they say
-/

namespace Wifinfo
open Spec

namespace Spec

/-- The lines of a text, each ended by a line feed. -/
def listLines : Str → Str → List Str
  | _, [] => []
  | acc, b :: r => if b = 10 then acc :: listLines [] r else listLines (acc ++ [b]) r

/-- A line is a label, a blank and a value. -/
def readLine (l : Str) : Str × Str := (l.takeWhile (· ≠ 32), (l.dropWhile (· ≠ 32)).drop 1)

/-- The groups that are read in a listing. -/
def readListing (s : Str) : List (Str × Str) := (listLines [] s).map readLine

end Spec

theorem listLines_line : ∀ (l acc r : Str), 10 ∉ l → listLines acc (l ++ 10 :: r) = (acc ++ l) :: listLines [] r
  | [], acc, r, _ => by simp [listLines]
  | b :: l, acc, r, h => by
    have hb : b ≠ 10 := fun e => h (by simp [e])
    rw [List.cons_append, listLines, if_neg hb, listLines_line l _ r (fun hm => h (by simp [hm]))]
    simp

theorem readLine_pair {a v : Str} (h : 32 ∉ a) : readLine (a ++ 32 :: v) = (a, v) := by
  have ha : ∀ b ∈ a, (decide (b ≠ 32)) = true := by
    intro b hb
    simp only [decide_eq_true_eq]
    rintro rfl
    exact h hb
  unfold readLine
  rw [List.takeWhile_append_of_pos ha, List.dropWhile_append_of_pos ha]
  simp

theorem read_dump {ps : List (Str × Str)} (h : ∀ p ∈ ps, 32 ∉ p.1 ∧ 10 ∉ p.1 ∧ 10 ∉ p.2) : readListing (dumpText ps) = ps := by
  induction ps with
  | nil => rfl
  | cons p ps ih =>
    obtain ⟨h1, h2, h3⟩ := h p (by simp)
    have e : dumpText (p :: ps) = (p.1 ++ 32 :: p.2) ++ 10 :: dumpText ps := by simp [dumpText]
    unfold readListing at ih ⊢
    rw [e, listLines_line _ _ _ (by simp [h2, h3]), List.nil_append, List.map_cons, readLine_pair h1,
      ih (fun q hq => h q (List.mem_cons_of_mem _ hq))]

theorem meter_separated {g : MeterGroup} (h : g.Legal) : Separated g.raw ∧ groupPair g.raw = (g.label, dropDots g.value) := by
  have hp : ∀ b : Byte, printable b = true → b ≠ 0 ∧ b ≠ 255 := byte_all (by decide +kernel)
  have hs : g.sep ≠ 0 ∧ g.sep ≠ 255 := by rcases h.sep with e | e <;> rw [e] <;> decide
  have hm : ∀ b ∈ g.raw.text, b ≠ 0 ∧ b ≠ 255 := by
    intro b hb
    simp only [MeterGroup.raw, List.mem_append, List.mem_singleton] at hb
    rcases hb with (hb | rfl) | hb
    · exact hp b (h.label b hb).1
    · exact hs
    · exact hp b (h.value b hb)
  refine ⟨⟨by simp [MeterGroup.raw], fun hz => (hm 0 hz).1 rfl, fun hz => (hm 255 hz).2 rfl⟩, ?_⟩
  have hl : ∀ b ∈ g.label, b ≠ g.sep := fun b hb => (h.label b hb).2
  unfold groupPair
  have e : splitSep g.raw.sep g.raw.text = (g.label, g.value) := by
    have hne : ∀ b ∈ g.label, (b != g.sep) = true := fun b hb => by simpa using hl b hb
    simp only [splitSep, MeterGroup.raw, List.append_assoc, List.singleton_append]
    rw [List.takeWhile_append_of_pos hne, List.dropWhile_append_of_pos hne]
    simp
  rw [e]

/-- **C119**, `tic`: after a frame of a meter, the date of the frame is printed, then its groups, one in a line, whatever the array on
the stack held. -/
theorem c119_tic {w : World} (hw : w.Dated) {t : Teleinfo} {ts : TimeVal} {l} {gs : List MeterGroup}
    (h : TinfoReach t ((ts, gs.map MeterGroup.raw) :: l)) (hs : ts.sec + 7200 < 253402300800)
    (hl : ∀ g ∈ gs, g.Legal) (hb : ∀ g ∈ gs, 32 ∉ g.label) (raw : Mem) (hr : raw.length = 350) :
    ∃ (s body : Str) (off : Nat), ticDump w t raw = .ok (s ++ [13, 10] ++ body ++ [13, 10]) ∧
      readInstant s = some ((ts.sec : Int), (off : Int)) ∧ Legal ts.sec off ∧ readListing body = meterPairs gs := by
  obtain ⟨s, off, h1, h2, h3⟩ := c111_instant hs
  have hiso := hw _ _ h1
  have hts : t.fr.ts = ts := (reach_inv h).2.2.2.2.2
  have hpairs : (gs.map MeterGroup.raw).map groupPair = meterPairs gs := by
    unfold meterPairs
    rw [List.map_map]
    apply List.map_congr_left
    intro g hg
    exact (meter_separated (hl g hg)).2
  obtain ⟨n, out, a1, -, a3⟩ := c13_dump_content (.copied h) (by
    intro g hg
    obtain ⟨x, hx, rfl⟩ := List.mem_map.1 hg
    exact (meter_separated (hl x hx)).1) raw MAX_FRAME_SIZE (by decide) (by decide) (by rw [hr]; decide)
  rw [hpairs] at a3
  have hpr : ∀ b : Byte, printable b = true → b ≠ 0 ∧ b ≠ 10 := byte_all (by decide +kernel)
  have hmem : ∀ p ∈ meterPairs gs, (∀ b ∈ p.1, b ≠ 0 ∧ b ≠ 10) ∧ (∀ b ∈ p.2, b ≠ 0 ∧ b ≠ 10) := by
    intro p hp
    obtain ⟨g, hg, rfl⟩ := List.mem_map.1 hp
    exact ⟨fun b hb => hpr b ((hl g hg).label b hb).1, fun b hb => hpr b ((hl g hg).value b (dropDots_mem hb))⟩
  have hz : ∀ b ∈ dumpText (meterPairs gs), b ≠ 0 := by
    intro b hb
    obtain ⟨p, hp, hb⟩ := List.mem_flatMap.1 hb
    simp only [List.mem_append, List.mem_cons, List.not_mem_nil, or_false] at hb
    rcases hb with (hb | rfl | hb) | rfl
    · exact ((hmem p hp).1 b hb).1
    · decide
    · exact ((hmem p hp).2 b hb).1
    · decide
  have hc : out.cstr 0 = .ok (dumpText (meterPairs gs)) := Holds.cstr (a := []) (c := []) (by simpa using a3) hz
  refine ⟨s, dumpText (meterPairs gs), off, ?_, h2, h3, read_dump ?_⟩
  · unfold ticDump
    rw [a1]
    simp only [ok_bind, hc, hts, hiso, pure_ok, println]
    simp
  · intro p hp
    obtain ⟨g, hg, rfl⟩ := List.mem_map.1 hp
    refine ⟨hb g hg, ?_, ?_⟩
    · intro hm; exact ((hmem _ hp).1 _ hm).2 rfl
    · intro hm; exact ((hmem _ hp).2 _ hm).2 rfl

/-- **C119**, `tic` before the first frame: the date 1970, and no group. -/
theorem c119_tic_none {w : World} (hw : w.Dated) (raw : Mem) (hr : raw.length = 350) :
    ticDump w Teleinfo.init raw = .ok (bs "1970-01-01T01:00:00+0100" ++ [13, 10] ++ [13, 10]) := by
  have hd : w.iso 0 = bs "1970-01-01T01:00:00+0100" := hw _ _ (by decide +kernel)
  obtain ⟨b, r, rfl⟩ : ∃ b r, raw = b :: r := by
    cases raw with
    | nil => cases hr
    | cons b r => exact ⟨b, r, rfl⟩
  have e : Teleinfo.init.fr.ascii (b :: r) MAX_FRAME_SIZE = .ok (0, some 0 :: r) := rfl
  unfold ticDump
  rw [e]
  have hc : Mem.cstr (some 0 :: r) 0 = .ok [] := Holds.cstr (a := []) (s := []) (c := []) ⟨r, rfl⟩ (by simp)
  simp only [ok_bind, hc, pure_ok]
  rw [show Teleinfo.init.fr.ts.sec = 0 from rfl, hd]
  rfl

/-! ## `set` -/

/-- **C119**, `set wifi NAME KEY`: the two settings become what is typed, cut to the size of their fields, and nothing else changes;
the device restarts. -/
theorem c119_wifi {b : Build} {d : Device} (hn : NvReach d.nv) (level : UInt8 → UInt8) (ssid psk : Str) (k : Commit) :
    ∃ o, d.shellSet b level k [bs "wifi", ssid, psk] = .ok o ∧ o.effs = [.restart] ∧ o.reads = [] ∧ o.writes = [] ∧
      settings o.dev.nv.config = changed [("ssid", cutText ssid 32), ("psk", cutText psk 64)] (settings d.nv.config) := by
  obtain ⟨d', h1, h2, -⟩ := c90_wifi (b := b) hn ssid psk k
  have e : cliSet [bs "wifi", ssid, psk] = .wifi ssid psk := by
    simp only [cliSet, argAt, List.length_cons, List.length_nil, List.getD_cons_zero, List.getD_cons_succ]
    rfl
  refine ⟨⟨d', [.restart], [], [], []⟩, ?_, rfl, rfl, rfl, h2⟩
  simp only [Device.shellSet, e, h1, ok_bind, pure_ok]

/-- **C119**, `set ap NAME KEY`. -/
theorem c119_ap {b : Build} {d : Device} (hn : NvReach d.nv) (level : UInt8 → UInt8) (host psk : Str) (k : Commit) :
    ∃ o, d.shellSet b level k [bs "ap", host, psk] = .ok o ∧ o.effs = [.restart] ∧ o.reads = [] ∧ o.writes = [] ∧
      settings o.dev.nv.config = changed [("host", cutText host 16), ("ap_psk", cutText psk 64)] (settings d.nv.config) := by
  obtain ⟨d', h1, h2, -⟩ := c90_ap (b := b) hn host psk k
  have e : cliSet [bs "ap", host, psk] = .ap host psk := by
    simp only [cliSet, argAt, List.length_cons, List.length_nil, List.getD_cons_zero, List.getD_cons_succ]
    rfl
  refine ⟨⟨d', [.restart], [], [], []⟩, ?_, rfl, rfl, rfl, h2⟩
  simp only [Device.shellSet, e, h1, ok_bind, pure_ok]

theorem toU8_int {v : Int} {n : Nat} (h : v = n) (hn : n ≤ 255) : (toU8 v).toNat = n := by rw [h, toU8_nat hn]

theorem toInt_small {s : Str} {n : Nat} (h : leadingInt s = n) (hn : n ≤ 255) : toInt s = n := by
  rw [toInt_eq, h]; omega

/-- **C119**, `set gpio PIN`: for a number that fits a byte, this pin is read, and its level is printed. -/
theorem c119_gpio_read_partial {b : Build} {d : Device} (level : UInt8 → UInt8) (k : Commit) {a : Str} {pin : Nat}
    (ha : leadingInt a = pin) (hp : pin ≤ 255) :
    d.shellSet b level k [bs "gpio", a] = .ok ⟨d, [],
      bs "gpio " ++ decText pin ++ bs " read " ++ decText (level (UInt8.ofNat pin)).toNat ++ [10], [pin], []⟩ := by
  have e : cliSet [bs "gpio", a] = .pinRead (UInt8.ofNat pin) := by
    have : toU8 (toInt a) = UInt8.ofNat pin := by
      rw [toInt_small ha hp]; apply UInt8.toNat_inj.1; rw [toU8_nat hp, UInt8.toNat_ofNat']; omega
    rw [← this]
    simp only [cliSet, argAt, List.length_cons, List.length_nil, List.getD_cons_zero, List.getD_cons_succ]
    rfl
  have t : (UInt8.ofNat pin).toNat = pin := by rw [UInt8.toNat_ofNat']; omega
  simp only [Device.shellSet, e, pure_ok, t]

/-- **C119**, `set gpio PIN VALUE`: for numbers that fit a byte, this value is written to this pin, and the line says so. -/
theorem c119_gpio_write_partial {b : Build} {d : Device} (level : UInt8 → UInt8) (k : Commit) {a v : Str} {pin value : Nat}
    (ha : leadingInt a = pin) (hp : pin ≤ 255) (hv : leadingInt v = value) (hx : value ≤ 255) :
    d.shellSet b level k [bs "gpio", a, v] = .ok ⟨d, [],
      bs "gpio " ++ decText pin ++ bs " write " ++ decText value ++ [10], [], [(pin, value)]⟩ := by
  have e : cliSet [bs "gpio", a, v] = .pinWrite (toU8 (toInt a)) (toU8 (toInt v)) := by
    simp only [cliSet, argAt, List.length_cons, List.length_nil, List.getD_cons_zero, List.getD_cons_succ]
    rfl
  simp only [Device.shellSet, e, pure_ok, toU8_int (toInt_small ha hp) hp, toU8_int (toInt_small hv hx) hx]

/-- The pins of the board and what a program writes to them are among the numbers of the theorems. -/
example : leadingInt (bs "2") = 2 ∧ leadingInt (bs "1") = 1 ∧ leadingInt (bs "16") = 16 := by decide +kernel

/-- **C119** is false: the number of a pin is cut to a byte without a word, and `set gpio 258 1` writes to the pin 2. -/
theorem c119_refuted_pin {b : Build} {d : Device} (level : UInt8 → UInt8) (k : Commit) :
    ∃ o, d.shellSet b level k [bs "gpio", bs "258", bs "1"] = .ok o ∧ leadingInt (bs "258") = 258 ∧ o.writes = [(2, 1)] := by
  have e : cliSet [bs "gpio", bs "258", bs "1"] = .pinWrite 2 1 := by decide +kernel
  refine ⟨_, by simp only [Device.shellSet, e, pure_ok]; rfl, by decide +kernel, rfl⟩

/-- **C119** is false: a word instead of a number is the pin 0. -/
theorem c119_refuted_word {b : Build} {d : Device} (level : UInt8 → UInt8) (k : Commit) :
    ∃ o, d.shellSet b level k [bs "gpio", bs "led", bs "on"] = .ok o ∧ o.writes = [(0, 0)] := by
  have e : cliSet [bs "gpio", bs "led", bs "on"] = .pinWrite 0 0 := by decide +kernel
  exact ⟨_, by simp only [Device.shellSet, e, pure_ok]; rfl, rfl⟩

/-- **C119** is false: with nothing after `wifi`, the name and the key of the network are erased and the device restarts
(`countArgs() >= 1` is always true there). -/
theorem c119_refuted_missing {b : Build} {d : Device} (hn : NvReach d.nv) (level : UInt8 → UInt8) (k : Commit) :
    ∃ o, d.shellSet b level k [bs "wifi"] = .ok o ∧ o.effs = [.restart] ∧
      settings o.dev.nv.config =
        changed [("ssid", .text (some [])), ("psk", .text (some []))] (settings d.nv.config) := by
  obtain ⟨d', h1, h2, -⟩ := c90_wifi (b := b) hn [] [] k
  have e : cliSet [bs "wifi"] = .wifi [] [] := by decide
  refine ⟨⟨d', [.restart], [], [], []⟩, ?_, rfl, ?_⟩
  · simp only [Device.shellSet, e, h1, ok_bind, pure_ok]
  · rw [h2]; rfl

/-- **C119**, what is not a command: nothing changes and no pin is touched, unless the first word is one of the four. -/
theorem c119_other {b : Build} {d : Device} (level : UInt8 → UInt8) (k : Commit) (args : List Str)
    (h : ∀ w, args.head? = some w → w ≠ bs "timers" ∧ w ≠ bs "wifi" ∧ w ≠ bs "ap" ∧ (w = bs "gpio" → args.length = 1)) :
    ∃ o, d.shellSet b level k args = .ok o ∧ o.dev = d ∧ o.effs = [] ∧ o.reads = [] ∧ o.writes = [] := by
  have e : ∃ t, cliSet args = .message t := by
    cases args with
    | nil => exact ⟨_, rfl⟩
    | cons w r =>
      obtain ⟨h1, h2, h3, h4⟩ := h w rfl
      refine ⟨[], ?_⟩
      simp only [cliSet, argAt, List.getD_cons_zero, h1, h2, h3, false_and, if_false]
      rw [if_neg (by simp), if_neg]
      rintro ⟨hg, hl⟩
      have := h4 hg
      omega
  obtain ⟨t, e⟩ := e
  exact ⟨_, by simp only [Device.shellSet, e, pure_ok]; rfl, rfl, rfl, rfl, rfl⟩

/-- Without a word, the line says it. -/
theorem c119_none {b : Build} {d : Device} (level : UInt8 → UInt8) (k : Commit) :
    d.shellSet b level k [] = .ok ⟨d, [], bs "nothing to set" ++ [13, 10], [], []⟩ := rfl

/-- **C119**, `set timers`: the timers are those that the settings ask for (within the bound of C65), and the settings are as
before. -/
theorem c119_timers_partial {b : Build} {d : Device} (hn : NvReach d.nv) (level : UInt8 → UInt8) (k : Commit)
    (h1 : d.nv.config.httpreq.freq.toNat * 1000 < 4294967296) (h2 : d.nv.config.jeedom.freq.toNat * 1000 < 4294967296)
    (h3 : d.nv.config.emoncms.freq.toNat * 1000 < 4294967296) :
    ∃ o, d.shellSet b level k [bs "timers"] = .ok o ∧ AsAsked o.dev.timers (publicSettings d.nv.config) ∧ o.dev.nv = d.nv ∧
      o.effs = [] := by
  have e : cliSet [bs "timers"] = .timers := by decide
  exact ⟨_, by simp only [Device.shellSet, e]; rfl, c65_period_partial (c32_terminated hn) h1 h2 h3, rfl, rfl⟩

/-- A device with settings that are reachable. -/
example (b : Build) (f : Arr 1024) (m : Vector (Option Byte) MAX_FRAME_SIZE) : ∃ d,
    Device.boot b f m [] [] .ok .ok .ok = .ok d ∧ NvReach d.nv := device_boot_ok b f m [] [] .ok .ok .ok

/-- A listing as it is read. -/
example : readListing (bs "ADCO 111111111111\nBASE 000012345\n") =
    [(bs "ADCO", bs "111111111111"), (bs "BASE", bs "000012345")] := by decide

end Wifinfo
