import Verif.Model.Simu
import Verif.Props.Decoder
import Verif.Props.Config
import Verif.Proofs.Json
import Verif.Props.TicJson

/-!
# C77, C78: the meter simulator is understood, its JSON against the JSON of the device
-/

namespace Wifinfo
open Spec

namespace Spec

/-- What a reader should find for a label. -/
inductive Reading
  | text (t : Str)
  | num (n : Nat)

/-- A decoded value is what was simulated. -/
def Reading.Shown : Reading → Str → Prop
  | .text t, v => v = t
  | .num n, v => v ≠ [] ∧ numeral v = true ∧ decVal v = n

/-- Labels and values of the simulated meter. -/
def simulated (s : SimuTic) : List (Str × Reading) :=
  [(bs "ADCO", .text s.adco), (bs "OPTARIF", .text (bs "HC")), (bs "ISOUSC", .num s.isousc),
   (bs "HCHC", .num s.hchc), (bs "HCHP", .num s.hchp),
   (bs "PTEC", .text (if s.heuresCreuses then bs "HC" else bs "HP")), (bs "IINST", .num s.iinst),
   (bs "IMAX", .num 42), (bs "PAPP", .num s.papp)] ++
  (if s.adps = 0 then [] else [(bs "ADPS", .num s.adps)]) ++
  [(bs "HHPHC", .text (bs "D")), (bs "MOTDETAT", .num 0)]

/-- The simulated values have the sizes of those of a meter: a twelve-character address, an index of nine digits
at most, and so on. -/
structure Meterlike (s : SimuTic) : Prop where
  adco : s.adco.length = 12
  printable : ∀ b ∈ s.adco, printable b = true
  dots : ∀ b ∈ s.adco, b ≠ 46
  isousc : s.isousc < 100
  hchc : s.hchc < 1000000000
  hchp : s.hchp < 1000000000
  iinst : s.iinst < 1000
  papp : s.papp < 100000
  adps : s.adps < 1000

end Spec

theorem decDigits_len (f n k : Nat) (hk : 0 < k) (h : n < 10 ^ k) : (decDigits f n).length ≤ k := by
  induction f generalizing n k with
  | zero => simp [decDigits]
  | succ f ih =>
    unfold decDigits
    split
    · show 1 ≤ k; omega
    · rename_i hn
      cases k with
      | zero => omega
      | succ k =>
        have hk0 : 0 < k := by
          rcases Nat.eq_zero_or_pos k with rfl | h0
          · simp at h; omega
          · exact h0
        have := ih (n / 10) k hk0 (by rw [Nat.pow_succ] at h; omega)
        simp only [List.length_append, List.length_singleton]
        omega

theorem zeroPad_spec (w n : Nat) : zeroPad w n ≠ [] ∧ numeral (zeroPad w n) = true ∧ decVal (zeroPad w n) = n := by
  obtain ⟨h1, h2, h3, _⟩ := decText_spec n
  refine ⟨by simp [zeroPad, h1], ?_, ?_⟩
  · unfold numeral zeroPad
    rw [List.all_append, Bool.and_eq_true]
    refine ⟨?_, h2⟩
    rw [List.all_eq_true]
    intro b hb
    rw [(List.mem_replicate.1 hb).2]
    rfl
  · unfold zeroPad
    generalize w - (decText n).length = k
    induction k with
    | zero => exact h3
    | succ k ih => rw [List.replicate_succ, List.cons_append]; exact ih

theorem zeroPad_len {w n : Nat} (hw : 0 < w) (h : n < 10 ^ w) : (zeroPad w n).length = w := by
  have := decDigits_len (n + 1) n w hw h
  unfold zeroPad decText
  rw [List.length_append, List.length_replicate]
  omega

theorem numeral_printable {v : Str} (h : numeral v = true) : ∀ b ∈ v, printable b = true ∧ b ≠ 46 := by
  intro b hb
  have := List.all_eq_true.1 h b hb
  have hall : ∀ c : Byte, digit c = true → printable c = true ∧ c ≠ 46 := byte_all (by decide +kernel)
  exact hall b this

theorem dropDots_id {v : Str} (h : ∀ b ∈ v, b ≠ 46) : dropDots v = v := by
  unfold dropDots
  cases hr : v.reverse with
  | nil => rw [← List.reverse_reverse v, hr]; rfl
  | cons x l =>
    have : x ∈ v := by rw [← List.mem_reverse, hr]; simp
    rw [List.dropWhile_cons_of_neg (by simpa using h x this), ← hr, List.reverse_reverse]

/-- The groups of a simulated frame. -/
def simuGroups (s : SimuTic) : List MeterGroup :=
  [⟨bs "ADCO", s.adco, 32⟩, ⟨bs "OPTARIF", bs "HC..", 32⟩, ⟨bs "ISOUSC", zeroPad 2 s.isousc, 32⟩,
   ⟨bs "HCHC", zeroPad 9 s.hchc, 32⟩, ⟨bs "HCHP", zeroPad 9 s.hchp, 32⟩, ⟨bs "PTEC", s.ptecRaw, 32⟩,
   ⟨bs "IINST", zeroPad 3 s.iinst, 32⟩, ⟨bs "IMAX", bs "042", 32⟩, ⟨bs "PAPP", zeroPad 5 s.papp, 32⟩] ++
  (if s.adps ≠ 0 then [⟨bs "ADPS", zeroPad 3 s.adps, 32⟩] else []) ++
  [⟨bs "HHPHC", bs "D", 32⟩, ⟨bs "MOTDETAT", bs "000000", 32⟩]

theorem simuGroup_wire (l v : Str) : simuGroup l v = (MeterGroup.raw ⟨l, v, 32⟩).wire := by
  have h : ∀ n : Nat, n &&& 63 = n % 64 := fun n => Nat.and_two_pow_sub_one_eq_mod n 6
  simp only [simuGroup, MeterGroup.raw, RawGroup.wire, h, byteSum, List.map_append, List.sum_append_nat, List.map_cons,
    List.map_nil, List.sum_cons, List.sum_nil, List.append_assoc, List.cons_append, List.nil_append,
    show UInt8.toNat 32 = 32 from rfl, Nat.add_assoc]

theorem trame_wire (s : SimuTic) : s.trame = meterWire (simuGroups s) := by
  unfold SimuTic.trame meterWire simuGroups frameWire
  split <;> simp [simuGroup_wire]

theorem ptec_cases (s : SimuTic) : s.ptecRaw = bs "HC.." ∨ s.ptecRaw = bs "HP.." := by
  unfold SimuTic.ptecRaw
  cases s.heuresCreuses
  · exact .inr (by decide +kernel)
  · exact .inl (by decide +kernel)

theorem simu_legal {s : SimuTic} (h : Meterlike s) : ∀ g ∈ simuGroups s, g.Legal := by
  have mk : ∀ (l : String) (v : Str), (∀ b ∈ bs l, printable b = true ∧ b ≠ 32) → bs l ≠ [] →
      (∀ b ∈ v, printable b = true) → (⟨bs l, v, 32⟩ : MeterGroup).Legal :=
    fun l v h1 h2 h3 => ⟨.inl rfl, h1, h3, h2⟩
  have z : ∀ w n, ∀ b ∈ zeroPad w n, printable b = true := fun w n b hb =>
    (numeral_printable (zeroPad_spec w n).2.1 b hb).1
  have hp : ∀ b ∈ s.ptecRaw, printable b = true := by
    rcases ptec_cases s with e | e <;> rw [e] <;> decide +kernel
  intro g hg
  unfold simuGroups at hg
  simp only [List.mem_append, List.mem_cons, List.not_mem_nil, or_false] at hg
  have ha : ∀ g : MeterGroup, g ∈ (if s.adps ≠ 0 then [⟨bs "ADPS", zeroPad 3 s.adps, 32⟩] else []) → g.Legal := by
    intro g hg
    split at hg
    · rw [List.mem_singleton.1 hg]
      exact mk _ _ (by decide +kernel) (by decide +kernel) (z _ _)
    · cases hg
  rcases hg with ((rfl | rfl | rfl | rfl | rfl | rfl | rfl | rfl | rfl) | hg) | rfl | rfl
  · exact mk _ _ (by decide +kernel) (by decide +kernel) h.printable
  · exact mk _ _ (by decide +kernel) (by decide +kernel) (by decide +kernel)
  · exact mk _ _ (by decide +kernel) (by decide +kernel) (z _ _)
  · exact mk _ _ (by decide +kernel) (by decide +kernel) (z _ _)
  · exact mk _ _ (by decide +kernel) (by decide +kernel) (z _ _)
  · exact mk _ _ (by decide +kernel) (by decide +kernel) hp
  · exact mk _ _ (by decide +kernel) (by decide +kernel) (z _ _)
  · exact mk _ _ (by decide +kernel) (by decide +kernel) (by decide +kernel)
  · exact mk _ _ (by decide +kernel) (by decide +kernel) (z _ _)
  · exact ha g hg
  · exact mk _ _ (by decide +kernel) (by decide +kernel) (by decide +kernel)
  · exact mk _ _ (by decide +kernel) (by decide +kernel) (by decide +kernel)

theorem dropDots_zeroPad (w n : Nat) : dropDots (zeroPad w n) = zeroPad w n :=
  dropDots_id fun b hb => (numeral_printable (zeroPad_spec w n).2.1 b hb).2

theorem meterFits_sum {gs : List MeterGroup} : ∀ {n : Nat},
    n + (gs.map fun g => g.label.length + g.value.length + 3).sum < 348 → meterFits n gs := by
  induction gs with
  | nil => intro n _; trivial
  | cons g gs ih =>
    intro n h
    rw [List.map_cons, List.sum_cons] at h
    have hd : (dropDots g.value).length ≤ g.value.length := by
      unfold dropDots
      rw [List.length_reverse]
      exact Nat.le_trans (List.dropWhile_suffix _).length_le (by simp)
    exact ⟨by omega, ih (by omega)⟩

theorem simu_fits {s : SimuTic} (h : Meterlike s) : meterFits 0 (simuGroups s) := by
  apply meterFits_sum
  have hp : s.ptecRaw.length = 4 := by rcases ptec_cases s with e | e <;> rw [e] <;> decide +kernel
  have e := (by decide +kernel : (bs "ADCO").length = 4 ∧ (bs "OPTARIF").length = 7 ∧ (bs "ISOUSC").length = 6 ∧
    (bs "HCHC").length = 4 ∧ (bs "HCHP").length = 4 ∧ (bs "PTEC").length = 4 ∧ (bs "IINST").length = 5 ∧
    (bs "IMAX").length = 4 ∧ (bs "PAPP").length = 4 ∧ (bs "ADPS").length = 4 ∧ (bs "HHPHC").length = 5 ∧
    (bs "MOTDETAT").length = 8 ∧ (bs "HC..").length = 4 ∧ (bs "042").length = 3 ∧ (bs "D").length = 1 ∧
    (bs "000000").length = 6)
  obtain ⟨e1, e2, e3, e4, e5, e6, e7, e8, e9, e10, e11, e12, e13, e14, e15, e16⟩ := e
  unfold simuGroups
  split <;>
    simp only [List.map_append, List.map_cons, List.map_nil, List.sum_append_nat, List.sum_cons, List.sum_nil, h.adco, hp,
      zeroPad_len (w := 2) (by decide) h.isousc, zeroPad_len (w := 9) (by decide) h.hchc,
      zeroPad_len (w := 9) (by decide) h.hchp, zeroPad_len (w := 3) (by decide) h.iinst,
      zeroPad_len (w := 5) (by decide) h.papp, zeroPad_len (w := 3) (by decide) h.adps,
      e1, e2, e3, e4, e5, e6, e7, e8, e9, e10, e11, e12, e13, e14, e15, e16] <;> decide

theorem simu_pairs {s : SimuTic} (h : Meterlike s) :
    (meterPairs (simuGroups s)).map Prod.fst = (simulated s).map Prod.fst ∧
      ∀ p ∈ (meterPairs (simuGroups s)).zip (simulated s), p.2.2.Shown p.1.2 := by
  have z : ∀ w n, (Reading.num n).Shown (dropDots (zeroPad w n)) := fun w n => by
    rw [dropDots_zeroPad]; exact zeroPad_spec w n
  have hp : (Reading.text (if s.heuresCreuses then bs "HC" else bs "HP")).Shown (dropDots s.ptecRaw) := by
    unfold SimuTic.ptecRaw
    cases s.heuresCreuses
    · show _ = _; decide +kernel
    · show _ = _; decide +kernel
  have ha : (Reading.text s.adco).Shown (dropDots s.adco) := dropDots_id h.dots
  have f1 : (Reading.text (bs "HC")).Shown (dropDots (bs "HC..")) := by show _ = _; decide +kernel
  have f2 : (Reading.num 42).Shown (dropDots (bs "042")) :=
    ⟨by decide +kernel, by decide +kernel, by decide +kernel⟩
  have f3 : (Reading.text (bs "D")).Shown (dropDots (bs "D")) := by show _ = _; decide +kernel
  have f4 : (Reading.num 0).Shown (dropDots (bs "000000")) :=
    ⟨by decide +kernel, by decide +kernel, by decide +kernel⟩
  by_cases h0 : s.adps = 0
  · simp only [simuGroups, simulated, h0, ne_eq, not_true_eq_false, if_false, if_true, meterPairs, List.append_nil,
      List.cons_append, List.nil_append, List.map_cons, List.map_nil, List.zip_cons_cons, List.zip_nil_left,
      List.forall_mem_cons, List.not_mem_nil, false_implies, implies_true, and_true, true_and]
    exact ⟨ha, f1, z _ _, z _ _, z _ _, hp, z _ _, f2, z _ _, f3, f4⟩
  · simp only [simuGroups, simulated, h0, ne_eq, not_false_eq_true, if_false, if_true, meterPairs,
      List.cons_append, List.nil_append, List.map_cons, List.map_nil, List.zip_cons_cons, List.zip_nil_left,
      List.forall_mem_cons, List.not_mem_nil, false_implies, implies_true, and_true, true_and]
    exact ⟨ha, f1, z _ _, z _ _, z _ _, hp, z _ _, f2, z _ _, z _ _, f3, f4⟩

/-- **C77.**  A frame of the simulator, received after any history, is published; its labels are those of the
simulated meter, in order, and its values are the simulated ones. -/
theorem c77_simulated (mem : Mem) (hm : mem.length = 350) (pre frame : List (TimeVal × Byte)) (s : SimuTic)
    (hs : Meterlike s) (hw : bytesOf frame = s.trame) :
    ∃ d ps, (Dec.init mem).puts (pre ++ frame) = .ok d ∧ d.ready = true ∧ d.fr.iter = .ok ps ∧
      ps.map Prod.fst = (simulated s).map Prod.fst ∧
      ∀ p ∈ ps.zip (simulated s), p.2.2.Shown p.1.2 := by
  obtain ⟨d, h1, h2, h3, -⟩ := c03_meter_round_trip mem hm pre frame (simuGroups s)
    (by simp [simuGroups]) (simu_legal hs) (simu_fits hs) (by rw [hw, trame_wire])
  exact ⟨d, _, h1, h2, h3, simu_pairs hs⟩

/-- **C77.**  The switches: `A` adds an overload of one ampere more than the subscription, or removes it; `T` changes
the tariff period; no other key changes anything that a frame says. -/
theorem c77_switches {s : SimuTic} (hs : Meterlike s) :
    (s.adps = 0 → simulated (s.bascule 65) = simulated { s with adps := s.isousc + 1 }) ∧
    (s.adps ≠ 0 → simulated (s.bascule 65) = simulated { s with adps := 0 }) ∧
    simulated (s.bascule 84) = simulated { s with heuresCreuses := !s.heuresCreuses } ∧
    ∀ q, q ≠ 65 → q ≠ 84 → simulated (s.bascule q) = simulated s := by
  have h1 := hs.isousc
  refine ⟨fun h => ?_, fun h => ?_, rfl, fun q h2 h3 => ?_⟩
  · unfold SimuTic.bascule
    rw [if_neg (by decide), if_pos rfl, if_neg (by simpa using h)]
    unfold SimuTic.setAdps
    rw [if_neg (by omega)]
  · unfold SimuTic.bascule
    rw [if_neg (by decide), if_pos rfl, if_pos h]
    unfold SimuTic.setAdps
    split
    · rfl
    · rfl
  · unfold SimuTic.bascule
    rw [if_neg h3, if_neg h2]

/-- **C77.**  The setters and the switches of the simulator keep the sizes of the values. -/
theorem c77_setters {s : SimuTic} (hs : Meterlike s) :
    (∀ v : Str, (∀ b ∈ v, printable b = true ∧ b ≠ 46) → Meterlike (s.setAdco v)) ∧
    (∀ n, Meterlike (s.setAdps n)) ∧ (∀ q, Meterlike (s.bascule q)) := by
  have ha : ∀ n, Meterlike (s.setAdps n) := by
    intro n
    unfold SimuTic.setAdps
    split
    · exact { hs with adps := Nat.zero_lt_succ _ }
    · rename_i h
      have h := Decidable.of_not_not h
      exact { hs with adps := by show n < 1000; omega }
  refine ⟨?_, ha, ?_⟩
  · intro v hv
    have hr : ∀ b ∈ List.replicate (12 - (v.take 12).length) (48 : Byte) ++ v.take 12, printable b = true ∧ b ≠ 46 := by
      intro b hb
      rcases List.mem_append.1 hb with hb | hb
      · rw [(List.mem_replicate.1 hb).2]; decide
      · exact hv b (List.mem_of_mem_take hb)
    exact { hs with
      adco := by
        show (List.replicate (12 - (v.take 12).length) (48 : Byte) ++ v.take 12).length = 12
        rw [List.length_append, List.length_replicate, List.length_take]
        omega
      printable := fun b hb => (hr b hb).1
      dots := fun b hb => (hr b hb).2 }
  · intro q
    unfold SimuTic.bascule
    split
    · exact { hs with }
    · split
      · split
        · exact ha _
        · exact ha _
      · exact hs

/-- A simulated meter above its subscribed current during the off-peak hours. -/
def simuSample : SimuTic := ⟨bs "012345678123", 30, 52000000, 49000000, true, 12, 2750, 31⟩

example : Meterlike simuSample ∧ (simulated simuSample).length = 12 :=
  ⟨⟨by decide +kernel, by decide +kernel, by decide +kernel, by decide, by decide, by decide, by decide, by decide, by decide⟩,
    by decide⟩

/-! ## C78 -/

/-- The groups of a simulated frame other than the address and the warning, before and after the warning. -/
def simuHead (s : SimuTic) : List (Str × JVal) :=
  [(bs "OPTARIF", .str (bs "HC")), (bs "ISOUSC", .int s.isousc), (bs "HCHC", .int s.hchc), (bs "HCHP", .int s.hchp),
   (bs "PTEC", .str (if s.heuresCreuses then bs "HC" else bs "HP")), (bs "IINST", .int s.iinst),
   (bs "IMAX", .int 42), (bs "PAPP", .int s.papp)]

def simuTail : List (Str × JVal) := [(bs "HHPHC", .str (bs "D")), (bs "MOTDETAT", .int 0)]

def simuAdps (s : SimuTic) : List (Str × JVal) := if s.adps ≠ 0 then [(bs "ADPS", .int s.adps)] else []

theorem groupJson_pad (w n : Nat) : groupJson (dropDots (zeroPad w n)) = .int n := by
  rw [dropDots_zeroPad]
  unfold groupJson
  rw [if_pos (zeroPad_spec w n).2.1, (zeroPad_spec w n).2.2]

theorem ptec_drop (s : SimuTic) : dropDots s.ptecRaw = if s.heuresCreuses then bs "HC" else bs "HP" := by
  unfold SimuTic.ptecRaw
  cases s.heuresCreuses <;> decide +kernel

theorem groupJson_ptec (s : SimuTic) :
    groupJson (dropDots s.ptecRaw) = .str (if s.heuresCreuses then bs "HC" else bs "HP") := by
  rw [ptec_drop]
  unfold groupJson
  cases s.heuresCreuses
  · rw [if_neg (by decide +kernel)]
  · rw [if_neg (by decide +kernel)]

theorem simu_members {s : SimuTic} (h : Meterlike s) :
    (meterPairs (simuGroups s)).map (fun p => (p.1, groupJson p.2)) =
      (bs "ADCO", groupJson s.adco) :: (simuHead s ++ simuAdps s ++ simuTail) := by
  have e1 : groupJson (dropDots (bs "HC..")) = .str (bs "HC") := by
    rw [show dropDots (bs "HC..") = bs "HC" from by decide +kernel]
    exact if_neg (by decide +kernel)
  have e2 : groupJson (dropDots (bs "042")) = .int 42 := by
    rw [show dropDots (bs "042") = bs "042" from by decide +kernel]
    unfold groupJson
    rw [if_pos (by decide +kernel), show decVal (bs "042") = 42 from by decide +kernel]; rfl
  have e3 : groupJson (dropDots (bs "D")) = .str (bs "D") := by
    rw [show dropDots (bs "D") = bs "D" from by decide +kernel]
    exact if_neg (by decide +kernel)
  have e4 : groupJson (dropDots (bs "000000")) = .int 0 := by
    rw [show dropDots (bs "000000") = bs "000000" from by decide +kernel]
    unfold groupJson
    rw [if_pos (by decide +kernel), show decVal (bs "000000") = 0 from by decide +kernel]; rfl
  unfold simuGroups simuHead simuAdps simuTail meterPairs
  split <;>
    simp only [List.map_append, List.map_cons, List.map_nil, List.cons_append, List.nil_append, List.append_nil,
      groupJson_pad, groupJson_ptec, e1, e2, e3, e4, dropDots_id h.dots]

/-- The address has no character that JSON escapes. -/
def PlainAdco (s : SimuTic) : Prop := ∀ b ∈ s.adco, b ≠ 34 ∧ b ≠ 92

theorem simu_quotes {s : SimuTic} (h : Meterlike s) (hq : PlainAdco s) : ∀ g ∈ simuGroups s,
    (34 : Byte) ∉ g.label ++ g.value ∧ (92 : Byte) ∉ g.label ++ g.value ∧ ∃ b ∈ g.value, b ≠ 46 := by
  have mk : ∀ (l : String) (v : Str), (34 : Byte) ∉ bs l ∧ (92 : Byte) ∉ bs l →
      (34 : Byte) ∉ v ∧ (92 : Byte) ∉ v ∧ (∃ b ∈ v, b ≠ 46) → (34 : Byte) ∉ (⟨bs l, v, 32⟩ : MeterGroup).label ++ v ∧
      (92 : Byte) ∉ (⟨bs l, v, 32⟩ : MeterGroup).label ++ v ∧ ∃ b ∈ v, b ≠ 46 :=
    fun l v h1 h2 => ⟨fun hm => (List.mem_append.1 hm).elim h1.1 h2.1,
      fun hm => (List.mem_append.1 hm).elim h1.2 h2.2.1, h2.2.2⟩
  have hd : ∀ c : Byte, digit c = true → c ≠ 34 ∧ c ≠ 92 ∧ c ≠ 46 := byte_all (by decide +kernel)
  have z : ∀ w n, (34 : Byte) ∉ zeroPad w n ∧ (92 : Byte) ∉ zeroPad w n ∧ ∃ b ∈ zeroPad w n, b ≠ 46 := by
    intro w n
    obtain ⟨h1, h2, -⟩ := zeroPad_spec w n
    have h2 := List.all_eq_true.1 h2
    refine ⟨fun hm => (hd _ (h2 _ hm)).1 rfl, fun hm => (hd _ (h2 _ hm)).2.1 rfl, ?_⟩
    obtain ⟨b, hb⟩ := List.exists_mem_of_ne_nil _ h1
    exact ⟨b, hb, (hd _ (h2 _ hb)).2.2⟩
  have ha : (34 : Byte) ∉ s.adco ∧ (92 : Byte) ∉ s.adco ∧ ∃ b ∈ s.adco, b ≠ 46 := by
    refine ⟨fun hm => (hq _ hm).1 rfl, fun hm => (hq _ hm).2 rfl, ?_⟩
    obtain ⟨b, hb⟩ := List.exists_mem_of_ne_nil s.adco (by
      intro e; have := h.adco; rw [e] at this; cases this)
    exact ⟨b, hb, h.dots b hb⟩
  have hp : (34 : Byte) ∉ s.ptecRaw ∧ (92 : Byte) ∉ s.ptecRaw ∧ ∃ b ∈ s.ptecRaw, b ≠ 46 := by
    rcases ptec_cases s with e | e <;> rw [e] <;> decide +kernel
  intro g hg
  unfold simuGroups at hg
  simp only [List.mem_append, List.mem_cons, List.not_mem_nil, or_false] at hg
  rcases hg with ((rfl | rfl | rfl | rfl | rfl | rfl | rfl | rfl | rfl) | hg) | rfl | rfl
  · exact mk _ _ (by decide +kernel) ha
  · exact mk _ _ (by decide +kernel) (by decide +kernel)
  · exact mk _ _ (by decide +kernel) (z _ _)
  · exact mk _ _ (by decide +kernel) (z _ _)
  · exact mk _ _ (by decide +kernel) (z _ _)
  · exact mk _ _ (by decide +kernel) hp
  · exact mk _ _ (by decide +kernel) (z _ _)
  · exact mk _ _ (by decide +kernel) (by decide +kernel)
  · exact mk _ _ (by decide +kernel) (z _ _)
  · split at hg
    · rw [List.mem_singleton.1 hg]
      exact mk _ _ (by decide +kernel) (z _ _)
    · cases hg
  · exact mk _ _ (by decide +kernel) (by decide +kernel)
  · exact mk _ _ (by decide +kernel) (by decide +kernel)

/-- **C78 (partial).**  A device whose last frame is one of the simulator (`trame_wire`: these groups are its
bytes) and the simulator itself give dictionaries with the same members, up to the order, except the times, the
notification and the address.  Missing with respect to the property as stated: the address, for which it is
false (`c78_refuted_adco`), and the array (`c78_array_partial`). -/
theorem c78_dict_partial (w : World) {t : Teleinfo} {ts l} {s : SimuTic} (hs : Meterlike s) (hq : PlainAdco s)
    (h : TinfoReach t ((ts, (simuGroups s).map MeterGroup.raw) :: l)) (hu : ts.usec < 1000000)
    (hi : Plain (w.iso ts.sec)) (notif : Option Notif) (date : Str) :
    ∃ j a b, ticJsonDict w t (notif.map Notif.text) = .ok j ∧ parseJson j = some (.obj a) ∧
      s.jsonDict date = .obj b ∧
      ∀ x : Str × JVal, x.1 ∉ [bs "timestamp", bs "seconds", bs "notif", bs "ADCO"] → (x ∈ a ↔ x ∈ b) := by
  obtain ⟨j, sec, h1, -, h3⟩ := c27_meter_partial w h hu hi notif (simu_legal hs)
  replace h3 := h3.2 (simu_quotes hs hq)
  refine ⟨j, _, _, h1, h3, rfl, ?_⟩
  rintro ⟨n, v⟩ hx
  simp only [List.mem_cons, List.not_mem_nil, or_false, not_or] at hx
  obtain ⟨x1, x2, x3, x4⟩ := hx
  rw [simu_members hs]
  have hn : (n, v) ∉ (match notif.map Notif.text with
      | some n => [(bs "notif", JVal.str n)] | none => []) := by
    cases notif with
    | none => simp
    | some m => simpa using fun e _ => x3 e
  have hb : ∀ d a : JVal, (n, v) ∈ [(bs "timestamp", d), (bs "ADCO", a)] ++ simuHead s ++ simuTail ++ simuAdps s ↔
      (n, v) ∈ simuHead s ∨ (n, v) ∈ simuTail ∨ (n, v) ∈ simuAdps s := by
    intro d a
    simp only [List.mem_append, List.mem_cons, List.not_mem_nil, or_false, Prod.mk.injEq, x1, x4, false_and, false_or,
      or_assoc]
  refine Iff.trans ?_ (hb (.str date) (.str s.adco)).symm
  rw [List.mem_append, List.mem_append]
  refine (or_congr (or_iff_left hn) Iff.rfl).trans ?_
  simp only [List.mem_append, List.mem_cons, List.not_mem_nil, or_false, Prod.mk.injEq, x1, x2, x4, false_and, false_or,
    or_assoc]
  exact or_congr Iff.rfl or_comm

/-- **C78** as stated is false for the address: the device gives the number, without its leading zeros, the
simulator a text. -/
theorem c78_refuted_adco (w : World) {t : Teleinfo} {ts l} (hu : ts.usec < 1000000) (hi : Plain (w.iso ts.sec))
    (h : TinfoReach t ((ts, (simuGroups simuSample).map MeterGroup.raw) :: l)) (hs : Meterlike simuSample)
    (hq : PlainAdco simuSample) (date : Str) :
    ∃ j a b, ticJsonDict w t none = .ok j ∧ parseJson j = some (.obj a) ∧ simuSample.jsonDict date = .obj b ∧
      (bs "ADCO", .int 12345678123) ∈ a ∧ (bs "ADCO", .str (bs "012345678123")) ∈ b ∧
      (bs "ADCO", .str (bs "012345678123")) ∉ a := by
  obtain ⟨j, sec, h1, -, h3⟩ := c27_meter_partial w h hu hi none (simu_legal hs)
  replace h3 := h3.2 (simu_quotes hs hq)
  have e : groupJson simuSample.adco = .int 12345678123 := by
    unfold groupJson
    rw [if_pos (by decide +kernel), show decVal simuSample.adco = 12345678123 from by decide +kernel]; rfl
  refine ⟨j, _, _, h1, h3, rfl, ?_, List.mem_of_getElem? (i := 1) rfl, ?_⟩
  · rw [simu_members hs, e]
    exact List.mem_of_getElem? (i := 2) rfl
  · rw [simu_members hs, e]
    intro hm
    have hne : ∀ x ∈ [bs "timestamp", bs "seconds"] ++ ((simuHead simuSample ++ simuAdps simuSample ++
        simuTail).map Prod.fst), bs "ADCO" ≠ x := by decide +kernel
    rcases List.mem_append.1 hm with hm | hm
    · simp only [Option.map_none, List.append_nil, List.mem_cons, List.not_mem_nil, or_false, Prod.mk.injEq] at hm
      rcases hm with hm | hm
      · exact hne _ (by simp) hm.1
      · exact hne _ (by simp) hm.1
    · rcases List.mem_cons.1 hm with hm | hm
      · cases (Prod.mk.inj hm).2
      · exact hne _ (List.mem_append_right _ (List.mem_map_of_mem hm)) rfl

/-- The raw groups of the simulator's array, before and after the warning. -/
theorem simu_raw (s : SimuTic) : ∃ A B C, (simuGroups s).map (fun g => (g.label, g.value)) = A ++ C ++ B ∧
    ∀ date, s.jsonArray date = .arr (naVa (bs "timestamp") (.str date) ::
      (A ++ B ++ C).map fun p => naVa p.1 (.str p.2)) := by
  refine ⟨[(bs "ADCO", s.adco), (bs "OPTARIF", bs "HC.."), (bs "ISOUSC", zeroPad 2 s.isousc),
   (bs "HCHC", zeroPad 9 s.hchc), (bs "HCHP", zeroPad 9 s.hchp), (bs "PTEC", s.ptecRaw),
   (bs "IINST", zeroPad 3 s.iinst), (bs "IMAX", bs "042"), (bs "PAPP", zeroPad 5 s.papp)],
   [(bs "HHPHC", bs "D"), (bs "MOTDETAT", bs "000000")],
   if s.adps ≠ 0 then [(bs "ADPS", zeroPad 3 s.adps)] else [], ?_, ?_⟩
  · unfold simuGroups
    split <;> rfl
  · intro date
    unfold SimuTic.jsonArray
    split <;> rfl

/-- **C78 (partial).**  The arrays of the device and of the simulator have the same elements, up to the order,
except the times and the power estimate, which the simulator does not give, and the trailing dots of a value,
which the device drops.  Missing with respect to the property as stated: these differences
(`c78_refuted_ptec`). -/
theorem c78_array_partial (w : World) {t : Teleinfo} {ts l} {s : SimuTic} (hs : Meterlike s) (hq : PlainAdco s)
    (h : TinfoReach t ((ts, (simuGroups s).map MeterGroup.raw) :: l)) (hi : Plain (w.iso ts.sec)) (date : Str) :
    ∃ (j : Str) (watt : Nat) (ps qs : List (Str × Str)), ticJsonArray w t = .ok j ∧
      parseJson j = some (.arr ([naVa (bs "timestamp") (.str (w.iso ts.sec)), naVa (bs "watt") (.int watt)] ++
        ps.map fun p => naVa p.1 (.str (dropDots p.2)))) ∧
      s.jsonArray date = .arr (naVa (bs "timestamp") (.str date) :: qs.map fun p => naVa p.1 (.str p.2)) ∧
      ps.Perm qs := by
  obtain ⟨j, watt, h1, -, h3⟩ := c28_meter_partial w h hi (simu_legal hs)
  replace h3 := h3.2 (fun g hg => ⟨(simu_quotes hs hq g hg).1, (simu_quotes hs hq g hg).2.1⟩)
  obtain ⟨A, B, C, e1, e2⟩ := simu_raw s
  refine ⟨j, watt.toNat, A ++ C ++ B, A ++ B ++ C, h1, ?_, e2 date, ?_⟩
  · rw [h3, ← e1, frameArray, meterPairs, List.map_map, List.map_map]
    rfl
  · rw [List.append_assoc, List.append_assoc]
    exact (List.perm_append_comm).append_left A

/-- **C78** as stated is false for the array: the device says `HC` where the simulator says `HC..`. -/
theorem c78_refuted_ptec (w : World) {t : Teleinfo} {ts l} (hs : Meterlike simuSample) (hq : PlainAdco simuSample)
    (h : TinfoReach t ((ts, (simuGroups simuSample).map MeterGroup.raw) :: l)) (hi : Plain (w.iso ts.sec))
    (date : Str) :
    ∃ (j : Str) (a b : List JVal), ticJsonArray w t = .ok j ∧ parseJson j = some (.arr a) ∧
      simuSample.jsonArray date = .arr b ∧ naVa (bs "PTEC") (.str (bs "HC..")) ∈ b ∧
      naVa (bs "PTEC") (.str (bs "HC")) ∈ a ∧ naVa (bs "PTEC") (.str (bs "HC..")) ∉ a := by
  obtain ⟨j, watt, h1, -, h3⟩ := c28_meter_partial w h hi (simu_legal hs)
  replace h3 := h3.2 (fun g hg => ⟨(simu_quotes hs hq g hg).1, (simu_quotes hs hq g hg).2.1⟩)
  have e : (meterPairs (simuGroups simuSample))[5]? = some (bs "PTEC", bs "HC") := by decide +kernel
  have e2 : (bs "PTEC", bs "HC..") ∉ meterPairs (simuGroups simuSample) := by decide +kernel
  refine ⟨j, _, _, h1, h3, rfl, List.mem_of_getElem? (i := 6) rfl, ?_, ?_⟩
  · exact List.mem_append_right _ (List.mem_map.2 ⟨_, List.mem_of_getElem? e, rfl⟩)
  · intro hm
    rcases List.mem_append.1 hm with hm | hm
    · simp only [naVa, List.mem_cons, List.not_mem_nil, or_false, JVal.obj.injEq, List.cons.injEq, Prod.mk.injEq,
        JVal.str.injEq] at hm
      rcases hm with hm | hm
      · exact absurd hm.1.2 (by decide +kernel)
      · exact absurd hm.1.2 (by decide +kernel)
    · obtain ⟨⟨n, v⟩, hp, hv⟩ := List.mem_map.1 hm
      simp only [naVa, JVal.obj.injEq, List.cons.injEq, Prod.mk.injEq, JVal.str.injEq] at hv
      rw [hv.1.2, hv.2.1.2] at hp
      exact e2 hp

/-- The hypotheses hold of the sample. -/
example : PlainAdco simuSample ∧ Plain (sampleWorld.iso 7) ∧
    ∃ t, TinfoReach t [(⟨7, 5⟩, (simuGroups simuSample).map MeterGroup.raw)] := by
  have hs : Meterlike simuSample := ⟨by decide +kernel, by decide +kernel, by decide +kernel, by decide, by decide,
    by decide, by decide, by decide, by decide⟩
  exact ⟨by unfold PlainAdco; decide +kernel, plain_lit _ (by decide), reach_next .init _ (meter_valid (by simp [simuGroups]) (simu_legal hs) (simu_fits hs))⟩

end Wifinfo
