import Verif.Model.Script
import Verif.Props.Upload
import Verif.Props.Config

/-!
# C81–C83: what the page says about an update, about the values and about the load
-/

namespace Wifinfo
open Spec

/-! ## C81 -/

/-- An upper-case letter. -/
def upper (b : Byte) : Bool := 65 ≤ b && b ≤ 90

/-- What the device writes to. -/
def Writes (l : List Eff) (k : UpdateKind) : Prop :=
  ∃ size, l.head? = some (.updBegin size (match k with | .web => true | .firmware => false))

theorem lower_id {n : Str} (h : ∀ b ∈ n, upper b = false) : n.map jsLower = n := by
  induction n with
  | nil => rfl
  | cons b n ih =>
    have hb := h b (by simp)
    have : jsLower b = b := by
      unfold jsLower
      rw [if_neg]
      intro hh
      simp [upper, hh.1, hh.2] at hb
    rw [List.map_cons, this, ih fun x hx => h x (by simp [hx])]

theorem dot_once {stem a c : Str} (hd : (46 : Byte) ∉ stem) (h : a ++ (bs "fs.bin" ++ c) = stem ++ bs ".bin") :
    stem = a ++ bs "fs" ∧ c = [] := by
  have e : (stem ++ bs ".bin")[a.length + 2]? = some 46 := by
    rw [← h, List.getElem?_append_right (by omega), show a.length + 2 - a.length = 2 by omega]
    rfl
  have hlen : a.length + 2 = stem.length := by
    rcases Nat.lt_trichotomy (a.length + 2) stem.length with h1 | h1 | h1
    · rw [List.getElem?_append_left h1] at e
      exact absurd (List.mem_of_getElem? e) hd
    · exact h1
    · rw [List.getElem?_append_right (by omega)] at e
      have hk : ∀ k : Nat, (bs ".bin")[k]? = some 46 → k = 0 := by
        intro k hk
        by_cases h4 : k < 4
        · have : ∀ i : Fin 4, (bs ".bin")[i.val]? = some 46 → i.val = 0 := by decide +kernel
          exact this ⟨k, h4⟩ hk
        · rw [List.getElem?_eq_none (by simpa using (show (bs ".bin").length ≤ k from by
            rw [show (bs ".bin").length = 4 from by decide +kernel]; omega))] at hk
          cases hk
      have := hk _ e
      omega
  have h2 : (a ++ bs "fs") ++ (bs ".bin" ++ c) = stem ++ bs ".bin" := by
    rw [← h, List.append_assoc]
    rfl
  obtain ⟨e1, e2⟩ := List.append_inj h2 (by
    rw [List.length_append, show (bs "fs").length = 2 from by decide +kernel]; exact hlen)
  refine ⟨e1.symm, ?_⟩
  have := congrArg List.length e2
  rw [List.length_append] at this
  exact List.length_eq_zero_iff.1 (by omega)

theorem chosen_web {a : Str} (h : ∀ b ∈ a, upper b = false) :
    chooseFile true (a ++ bs "fs.bin") = some .web := by
  unfold chooseFile
  rw [lower_id (by
    intro b hb
    rcases List.mem_append.1 hb with hb | hb
    · exact h b hb
    · exact (by decide +kernel : ∀ b ∈ bs "fs.bin", upper b = false) b hb)]
  have e : jsEndsFs (a ++ bs "fs.bin") = true := by
    unfold jsEndsFs
    rw [List.reverse_append]
    rfl
  simp [e]

/-- **C81 (partial).**  For a file `name.bin` in small letters, without another dot in the name: the page announces
an update of the pages if the name ends with `fs`, of the firmware otherwise, and the device writes there.
Missing with respect to the property as stated: other names that the page accepts, for which it is false
(`c81_refuted_case`, `c81_refuted_inside`, `c81_refuted_dot`). -/
theorem c81_names_partial (b : Build) (d : Device) (stem : Str) (len : Nat) (x : Bool)
    (hl : ∀ c ∈ stem, upper c = false) (hd : (46 : Byte) ∉ stem) :
    ∃ k, chooseFile true (stem ++ bs ".bin") = some k ∧ (k = .web ↔ bs "fs" <:+ stem) ∧
      ∀ ok, Writes (d.upload b (.start (stem ++ bs ".bin") len ok x)).2 k := by
  have hw : ∀ ok, (d.upload b (.start (stem ++ bs ".bin") len ok x)).2.head? =
      some (.updBegin (if contains (bs "fs.bin") (stem ++ bs ".bin") then b.fsSize else len)
        (contains (bs "fs.bin") (stem ++ bs ".bin"))) := by
    intro ok
    unfold Device.upload
    cases ok <;> rfl
  by_cases hs : bs "fs" <:+ stem
  · obtain ⟨a, rfl⟩ := hs
    have e : (a ++ bs "fs") ++ bs ".bin" = a ++ bs "fs.bin" := by rw [List.append_assoc]; rfl
    have hc : contains (bs "fs.bin") ((a ++ bs "fs") ++ bs ".bin") = true :=
      (Wifinfo.isIn_iff (bs "fs.bin") _).2 ⟨a, [], by rw [e, List.append_nil]⟩
    refine ⟨.web, by rw [e]; exact chosen_web fun c hc => hl c (by simp [hc]), ⟨fun _ => ⟨a, rfl⟩, fun _ => rfl⟩, ?_⟩
    intro ok
    refine ⟨b.fsSize, ?_⟩
    rw [hw ok, hc]
    rfl
  · have hc : contains (bs "fs.bin") (stem ++ bs ".bin") = false := by
      cases hcc : contains (bs "fs.bin") (stem ++ bs ".bin") with
      | false => rfl
      | true =>
        obtain ⟨a, c, e⟩ := (Wifinfo.isIn_iff (bs "fs.bin") _).1 hcc
        exact (hs ⟨a, (dot_once hd (by rw [← List.append_assoc]; exact e)).1.symm⟩).elim
    refine ⟨.firmware, ?_, ⟨fun h => (nomatch h), fun h => absurd h hs⟩, ?_⟩
    · unfold chooseFile
      rw [lower_id (by
        intro b hb
        rcases List.mem_append.1 hb with hb | hb
        · exact hl b hb
        · exact (by decide +kernel : ∀ b ∈ bs ".bin", upper b = false) b hb)]
      have e1 : jsEndsBin (stem ++ bs ".bin") = true := by
        unfold jsEndsBin
        rw [List.reverse_append]
        rfl
      have e2 : jsEndsFs (stem ++ bs ".bin") = false := by
        cases hq : jsEndsFs (stem ++ bs ".bin") with
        | false => rfl
        | true =>
          unfold jsEndsFs at hq
          rw [List.reverse_append, show (bs ".bin").reverse = [110, 105, 98, 46] from by decide +kernel] at hq
          split at hq
          · rename_i c t he
            simp only [List.cons_append, List.nil_append, List.cons.injEq, true_and] at he
            refine (hs ⟨t.reverse, ?_⟩).elim
            have := congrArg List.reverse he.2
            rw [List.reverse_reverse] at this
            rw [this]
            simp [show bs "fs" = [102, 115] from by decide +kernel]
          · cases hq
      simp [e1, e2]
    · intro ok
      refine ⟨len, ?_⟩
      rw [hw ok, hc]
      rfl

theorem reverse_cons_eq {l r t : Str} (h : l.reverse = r ++ t) : l = t.reverse ++ r.reverse := by
  rw [← List.reverse_append, ← h, List.reverse_reverse]

theorem jsEndsBin_iff (l : Str) : jsEndsBin l = true ↔ ∃ stem c, l = stem ++ c :: bs "bin" ∧ c ≠ 10 ∧ c ≠ 13 := by
  unfold jsEndsBin
  constructor
  · intro h
    split at h
    · rename_i c t he
      refine ⟨t.reverse, c, ?_, by simpa [jsAny] using h⟩
      have := reverse_cons_eq (r := [110, 105, 98, c]) (t := t) he
      rw [this]; rfl
    · cases h
  · rintro ⟨stem, c, rfl, h1, h2⟩
    rw [List.reverse_append, show (c :: bs "bin").reverse = [110, 105, 98, c] from by
      rw [List.reverse_cons]; rfl]
    simp [jsAny, h1, h2]

theorem jsEndsFs_iff (l : Str) :
    jsEndsFs l = true ↔ ∃ stem c, l = stem ++ bs "fs" ++ c :: bs "bin" ∧ c ≠ 10 ∧ c ≠ 13 := by
  unfold jsEndsFs
  constructor
  · intro h
    split at h
    · rename_i c t he
      refine ⟨t.reverse, c, ?_, by simpa [jsAny] using h⟩
      have := reverse_cons_eq (r := [110, 105, 98, c, 115, 102]) (t := t) he
      rw [this, List.append_assoc]; rfl
    · cases h
  · rintro ⟨stem, c, rfl, h1, h2⟩
    rw [List.reverse_append, List.reverse_append, show (c :: bs "bin").reverse = [110, 105, 98, c] from by
      rw [List.reverse_cons]; rfl, show (bs "fs").reverse = [115, 102] from rfl]
    simp [jsAny, h1, h2]

theorem jsLower_eq : jsLower = Spec.lower := funext (byte_all (by decide +kernel))

/-- **C81.**  Exactly which files the page accepts, and what it announces. -/
theorem c81_chosen (typeOk : Bool) (fname : Str) (k : UpdateKind) : chooseFile typeOk fname = some k ↔
    typeOk = true ∧ ∃ stem c, fname.map Spec.lower = stem ++ c :: bs "bin" ∧ c ≠ 10 ∧ c ≠ 13 ∧ (k = .web ↔ bs "fs" <:+ stem) := by
  rw [← jsLower_eq]
  have hfs : ∀ stem c, fname.map jsLower = stem ++ c :: bs "bin" → c ≠ 10 → c ≠ 13 →
      (jsEndsFs (fname.map jsLower) = true ↔ bs "fs" <:+ stem) := by
    intro stem c h h1 h2
    rw [jsEndsFs_iff]
    constructor
    · rintro ⟨s, c', e, _, _⟩
      rw [h] at e
      have hlen : (c :: bs "bin").length = (c' :: bs "bin").length := rfl
      exact ⟨s, (List.append_inj_left' e hlen).symm⟩
    · rintro ⟨s, rfl⟩
      exact ⟨s, c, h, h1, h2⟩
  unfold chooseFile
  cases typeOk with
  | false => simp
  | true =>
    simp only [Bool.true_eq_false, if_false, true_and]
    cases hb : jsEndsBin (fname.map jsLower) with
    | false =>
      have hf : jsEndsFs (fname.map jsLower) = false := by
        cases hf : jsEndsFs (fname.map jsLower) with
        | false => rfl
        | true =>
          obtain ⟨s, c, e, h⟩ := (jsEndsFs_iff _).1 hf
          have : jsEndsBin (fname.map jsLower) = true := (jsEndsBin_iff _).2 ⟨_, c, e, h⟩
          rw [hb] at this; cases this
      rw [hf]
      simp only [Bool.not_false, Bool.false_and, Bool.and_self, if_true, reduceCtorEq, false_iff]
      rintro ⟨stem, c, e, h1, h2, -⟩
      have := (jsEndsBin_iff _).2 ⟨stem, c, e, h1, h2⟩
      rw [hb] at this; cases this
    | true =>
      obtain ⟨stem, c, e, h1, h2⟩ := (jsEndsBin_iff _).1 hb
      have key := hfs stem c e h1 h2
      cases hf : jsEndsFs (fname.map jsLower) with
      | true =>
        have hs := key.1 hf
        simp only [Bool.not_true, Bool.false_and, Bool.and_false, Bool.false_eq_true, if_false, Option.some.injEq]
        constructor
        · rintro rfl
          exact ⟨stem, c, e, h1, h2, fun _ => hs, fun _ => rfl⟩
        · rintro ⟨s, c', e', h1', h2', hk⟩
          exact (hk.2 ((hfs s c' e' h1' h2').1 hf)).symm
      | false =>
        have hs : ¬ bs "fs" <:+ stem := fun h => by rw [key.2 h] at hf; cases hf
        simp only [Bool.not_false, Bool.and_self, Bool.not_true, Bool.and_false, Bool.false_eq_true, if_false, if_true,
          Option.some.injEq]
        constructor
        · rintro rfl
          exact ⟨stem, c, e, h1, h2, fun h => (nomatch h), fun h => absurd h hs⟩
        · rintro ⟨s, c', e', h1', h2', hk⟩
          cases k with
          | firmware => rfl
          | web =>
            have := (hfs s c' e' h1' h2').2 (hk.1 rfl)
            rw [hf] at this; cases this

example : chooseFile true (bs "readme.txt") = none ∧ chooseFile false (bs "erfs.bin") = none ∧
    chooseFile true (bs "ERFS-BIN") = some .web ∧ chooseFile true (bs "fs\nbin") = none := by decide +kernel

/-- The names of the documentation. -/
example : chooseFile true (bs "firmware.bin") = some .firmware ∧ chooseFile true (bs "erfs.bin") = some .web ∧
    (∀ c ∈ bs "firmware", upper c = false) ∧ (46 : Byte) ∉ bs "firmware" := by decide +kernel

theorem other_place (b : Build) (d : Device) (n : Str) (len : Nat) (x : Bool) (k : UpdateKind) (hk : chooseFile true n = some k)
    (hc : contains (bs "fs.bin") n = (match k with | .web => false | .firmware => true)) :
    ∀ ok, ¬ Writes (d.upload b (.start n len ok x)).2 k := by
  rintro ok ⟨size, h⟩
  have hw : (d.upload b (.start n len ok x)).2.head? =
      some (.updBegin (if contains (bs "fs.bin") n then b.fsSize else len) (contains (bs "fs.bin") n)) := by
    unfold Device.upload
    cases ok <;> rfl
  rw [hw, hc] at h
  cases k <;> simp at h

/-- **C81** as stated is false: `ERFS.BIN` is announced as an update of the pages, and written as a firmware. -/
theorem c81_refuted_case (b : Build) (d : Device) (len : Nat) (x ok : Bool) :
    chooseFile true (bs "ERFS.BIN") = some .web ∧ ¬ Writes (d.upload b (.start (bs "ERFS.BIN") len ok x)).2 .web :=
  ⟨by decide +kernel, other_place b d _ len x .web (by decide +kernel) (by decide +kernel) ok⟩

/-- **C81** as stated is false: a firmware named `erfs.bin.new.bin` is written over the pages. -/
theorem c81_refuted_inside (b : Build) (d : Device) (len : Nat) (x ok : Bool) :
    chooseFile true (bs "erfs.bin.new.bin") = some .firmware ∧
      ¬ Writes (d.upload b (.start (bs "erfs.bin.new.bin") len ok x)).2 .firmware :=
  ⟨by decide +kernel, other_place b d _ len x .firmware (by decide +kernel) (by decide +kernel) ok⟩

/-- **C81** as stated is false: the dot of the pattern of the page stands for any character. -/
theorem c81_refuted_dot (b : Build) (d : Device) (len : Nat) (x ok : Bool) :
    chooseFile true (bs "erfs_bin") = some .web ∧ ¬ Writes (d.upload b (.start (bs "erfs_bin") len ok x)).2 .web :=
  ⟨by decide +kernel, other_place b d _ len x .web (by decide +kernel) (by decide +kernel) ok⟩

/-! ## C82 -/

/-- The marks of a value. -/
inductive Mark
  | none | up | down
deriving DecidableEq

def Mark.text : Mark → Str
  | .none => []
  | .up => arrowUp
  | .down => arrowDown

/-- The mark that compares a value with the one before. -/
def change (before now : Nat) : Mark := if before < now then .up else if now < before then .down else .none

/-- What is known of `isNaN`: a numeral is a number, a text with a `<` is not. -/
structure IsNumber (f : Str → Bool) : Prop where
  numeral : ∀ t, t ≠ [] → Spec.numeral t = true → f t = true
  tag : ∀ t, (60 : Byte) ∈ t → f t = false

/-- What the table shows for rows in the order of their arrival, refresh after refresh. -/
def tableRows (isNumber : Str → Bool) : (Str → Option Str) → List (Str × Str) → List (Str × Str)
  | _, [] => []
  | c, (na, v) :: rows =>
    (na, (formatValue isNumber c na v).1) :: tableRows isNumber (formatValue isNumber c na v).2 rows

/-- The marks that the page gives: each is missing when the one before is there. -/
def pageMarks : Mark → Nat → List Nat → List Mark
  | _, _, [] => []
  | m, before, n :: ns =>
    let m' := if m = .none then change before n else .none
    m' :: pageMarks m' n ns

theorem decVal_acc (s : Str) : ∀ acc, s.foldl (fun a b => 10 * a + (b.toNat - 48)) acc = acc * 10 ^ s.length + decVal s := by
  induction s with
  | nil => intro acc; simp [decVal]
  | cons b s ih =>
    intro acc
    have e : decVal (b :: s) = (10 * 0 + (b.toNat - 48)) * 10 ^ s.length + decVal s := by
      conv => lhs; rw [decVal, List.foldl_cons]
      exact ih _
    rw [List.foldl_cons, ih, e, List.length_cons, Nat.pow_succ]
    have : (10 * acc + (b.toNat - 48)) * 10 ^ s.length = acc * (10 ^ s.length * 10) + (b.toNat - 48) * 10 ^ s.length := by
      rw [Nat.add_mul, Nat.mul_comm 10 acc, Nat.mul_assoc, Nat.mul_comm 10 (10 ^ s.length)]
    rw [this, Nat.mul_zero, Nat.zero_add]
    omega

theorem decVal_cons (b : Byte) (s : Str) : decVal (b :: s) = (b.toNat - 48) * 10 ^ s.length + decVal s := by
  rw [decVal, List.foldl_cons, decVal_acc, Nat.mul_zero, Nat.zero_add]

theorem digit_range : ∀ b : Byte, digit b = true → 48 ≤ b.toNat ∧ b.toNat ≤ 57 := byte_all (by decide +kernel)

theorem decVal_lt {s : Str} (h : numeral s = true) : decVal s < 10 ^ s.length := by
  induction s with
  | nil => exact Nat.zero_lt_one
  | cons b s ih =>
    rw [numeral, List.all_cons, Bool.and_eq_true] at h
    have hb := digit_range b h.1
    have hs := ih h.2
    rw [decVal_cons, List.length_cons, Nat.pow_succ]
    have : (b.toNat - 48) * 10 ^ s.length ≤ 9 * 10 ^ s.length := Nat.mul_le_mul_right _ (by omega)
    omega

theorem jsLess_num {a b : Str} (hl : a.length = b.length) (ha : numeral a = true) (hb : numeral b = true) :
    jsLess a b = decide (decVal a < decVal b) := by
  induction a generalizing b with
  | nil =>
    cases b with
    | nil => rfl
    | cons _ _ => cases hl
  | cons x r ih =>
    cases b with
    | nil => cases hl
    | cons y s =>
      have hl : r.length = s.length := Nat.succ.inj hl
      rw [numeral, List.all_cons, Bool.and_eq_true] at ha hb
      have hx := digit_range x ha.1
      have hy := digit_range y hb.1
      have hr := decVal_lt ha.2
      have hs := decVal_lt hb.2
      rw [decVal_cons, decVal_cons, hl]
      rw [hl] at hr
      unfold jsLess
      by_cases h1 : x < y
      · rw [if_pos h1]
        have h1 : x.toNat < y.toNat := UInt8.lt_iff_toNat_lt.1 h1
        symm
        rw [decide_eq_true_eq]
        have : (x.toNat - 48 + 1) * 10 ^ s.length ≤ (y.toNat - 48) * 10 ^ s.length :=
          Nat.mul_le_mul_right _ (by omega)
        rw [Nat.add_mul, Nat.one_mul] at this
        omega
      · rw [if_neg h1]
        by_cases h2 : y < x
        · rw [if_pos h2]
          have h2 : y.toNat < x.toNat := UInt8.lt_iff_toNat_lt.1 h2
          symm
          rw [decide_eq_false_iff_not]
          have : (y.toNat - 48 + 1) * 10 ^ s.length ≤ (x.toNat - 48) * 10 ^ s.length :=
            Nat.mul_le_mul_right _ (by omega)
          rw [Nat.add_mul, Nat.one_mul] at this
          omega
        · rw [if_neg h2, ih hl ha.2 hb.2]
          have e : x.toNat = y.toNat := by
            rw [UInt8.lt_iff_toNat_lt] at h1 h2; omega
          rw [e, decide_eq_decide]
          omega

theorem decVal_inj {a b : Str} (hl : a.length = b.length) (ha : numeral a = true) (hb : numeral b = true)
    (h : decVal a = decVal b) : a = b := by
  induction a generalizing b with
  | nil =>
    cases b with
    | nil => rfl
    | cons _ _ => cases hl
  | cons x r ih =>
    cases b with
    | nil => cases hl
    | cons y s =>
      have hl : r.length = s.length := Nat.succ.inj hl
      rw [numeral, List.all_cons, Bool.and_eq_true] at ha hb
      have hx := digit_range x ha.1
      have hy := digit_range y hb.1
      have hr := decVal_lt ha.2
      have hs := decVal_lt hb.2
      rw [decVal_cons, decVal_cons, hl] at h
      rw [hl] at hr
      have e : x.toNat - 48 = y.toNat - 48 := by
        rcases Nat.lt_trichotomy (x.toNat - 48) (y.toNat - 48) with h1 | h1 | h1
        · have : (x.toNat - 48 + 1) * 10 ^ s.length ≤ (y.toNat - 48) * 10 ^ s.length := Nat.mul_le_mul_right _ h1
          rw [Nat.add_mul, Nat.one_mul] at this
          omega
        · exact h1
        · have : (y.toNat - 48 + 1) * 10 ^ s.length ≤ (x.toNat - 48) * 10 ^ s.length := Nat.mul_le_mul_right _ h1
          rw [Nat.add_mul, Nat.one_mul] at this
          omega
      rw [e] at h
      have exy : x = y := UInt8.toNat.inj (by omega)
      rw [exy, ih hl ha.2 hb.2 (by omega)]

/-- One more row. -/
theorem format_next {f : Str → Bool} (hf : IsNumber f) {c : Str → Option Str} {na v w : Str} {m : Mark}
    (hc : c na = some (v ++ m.text)) (hv : v ≠ [] ∧ numeral v = true) (hw : w ≠ [] ∧ numeral w = true)
    (hl : v.length = w.length) :
    (formatValue f c na w).1 = w ++ (if m = .none then change (decVal v) (decVal w) else .none).text ∧
    (formatValue f c na w).2 na = some (formatValue f c na w).1 := by
  unfold formatValue
  rw [if_pos (hf.numeral w hw.1 hw.2)]
  refine ⟨?_, by simp⟩
  simp only [hc]
  by_cases hm : m = .none
  · subst hm
    have hn : f (v ++ Mark.none.text) = true := by
      rw [show v ++ Mark.none.text = v from List.append_nil v]; exact hf.numeral v hv.1 hv.2
    rw [hn, show v ++ Mark.none.text = v from List.append_nil v, if_pos rfl]
    simp only [Bool.true_eq_false, false_or]
    rw [jsLess_num hl hv.2 hw.2, jsLess_num hl.symm hw.2 hv.2]
    unfold change
    by_cases e : v = w
    · subst e
      simp [Mark.text]
    · rw [if_neg e]
      rcases Nat.lt_trichotomy (decVal v) (decVal w) with h1 | h1 | h1
      · simp [h1, Mark.text]
      · exact absurd (decVal_inj hl hv.2 hw.2 h1) e
      · have : ¬ decVal v < decVal w := by omega
        simp [h1, this, Mark.text]
  · have ht : (60 : Byte) ∈ v ++ m.text := by
      refine List.mem_append_right _ ?_
      cases m with
      | none => exact absurd rfl hm
      | up => exact (by decide +kernel : (60 : Byte) ∈ arrowUp)
      | down => exact (by decide +kernel : (60 : Byte) ∈ arrowDown)
    rw [if_pos (.inl (hf.tag _ ht)), if_neg hm]
    exact (List.append_nil w).symm

theorem format_other (f : Str → Bool) (c : Str → Option Str) {na na' : Str} (v : Str) (h : na ≠ na') :
    (formatValue f c na' v).2 na = c na := by
  unfold formatValue
  split
  · simp [h]
  · rfl

/-- The values of a label, in order. -/
def valuesOf (na : Str) (rows : List (Str × Str)) : List Str :=
  rows.filterMap fun r => if r.1 = na then some r.2 else none

theorem rows_from {f : Str → Bool} (hf : IsNumber f) {na : Str} : ∀ (rows : List (Str × Str)) (c : Str → Option Str)
    (v : Str) (m : Mark), c na = some (v ++ m.text) → v ≠ [] ∧ numeral v = true →
    (∀ w ∈ valuesOf na rows, w.length = v.length ∧ numeral w = true) →
    valuesOf na (tableRows f c rows) = List.zipWith (fun w k => w ++ Mark.text k) (valuesOf na rows)
      (pageMarks m (decVal v) ((valuesOf na rows).map decVal)) := by
  intro rows
  induction rows with
  | nil => intros; rfl
  | cons r rows ih =>
    obtain ⟨n, w⟩ := r
    intro c v m hc hv hall
    by_cases hn : n = na
    · subst hn
      have e : valuesOf n ((n, w) :: rows) = w :: valuesOf n rows := by simp [valuesOf]
      rw [e] at hall ⊢
      obtain ⟨hw1, hw2⟩ := hall w (by simp)
      have hw : w ≠ [] ∧ numeral w = true :=
        ⟨fun h => hv.1 (List.length_eq_zero_iff.1 (by rw [← hw1, h]; rfl)), hw2⟩
      obtain ⟨h1, h2⟩ := format_next hf hc hv hw hw1.symm
      have := ih (formatValue f c n w).2 w _ (by rw [h2, h1]) hw
        (fun x hx => ⟨(hall x (by simp [hx])).1.trans hw1.symm, (hall x (by simp [hx])).2⟩)
      rw [tableRows, List.map_cons, pageMarks]
      simp only [List.zipWith_cons_cons]
      rw [← this, ← h1]
      simp [valuesOf]
    · have e : valuesOf na ((n, w) :: rows) = valuesOf na rows := by simp [valuesOf, hn]
      rw [e] at hall ⊢
      rw [tableRows, ← ih (formatValue f c n w).2 v m (by rw [format_other f c w (Ne.symm hn)]; exact hc) hv hall]
      simp [valuesOf, hn]

/-- **C82**, what the page does.  For every sequence of refreshes of the table and every label with counter values
of constant width: the first value is shown alone; every other one is shown with an arrow in the direction of its
change, unless the value before was shown with an arrow. -/
theorem c82_marks {f : Str → Bool} (hf : IsNumber f) (rows : List (Str × Str)) (na v : Str) (vs : List Str)
    (he : valuesOf na rows = v :: vs) (hv : v ≠ []) (hall : ∀ w ∈ v :: vs, w.length = v.length ∧ numeral w = true) :
    valuesOf na (tableRows f (fun _ => none) rows) =
      v :: List.zipWith (fun w k => w ++ Mark.text k) vs (pageMarks .none (decVal v) (vs.map decVal)) := by
  have gen : ∀ (rows : List (Str × Str)) (c : Str → Option Str), c na = none → valuesOf na rows = v :: vs →
      valuesOf na (tableRows f c rows) =
        v :: List.zipWith (fun w k => w ++ Mark.text k) vs (pageMarks .none (decVal v) (vs.map decVal)) := by
    intro rows
    induction rows with
    | nil => intro c _ h; cases h
    | cons r rows ih =>
      obtain ⟨n, w⟩ := r
      intro c hc he
      by_cases hn : n = na
      · subst hn
        have e : valuesOf n ((n, w) :: rows) = w :: valuesOf n rows := by simp [valuesOf]
        rw [e] at he
        obtain ⟨rfl, rfl⟩ := List.cons.inj he
        have hw : w ≠ [] ∧ numeral w = true := ⟨hv, (hall w (by simp)).2⟩
        have h1 : formatValue f c n w = (w, fun k => if k = n then some w else c k) := by
          unfold formatValue
          rw [if_pos (hf.numeral w hw.1 hw.2)]
          simp only [hc]
        have := rows_from hf (na := n) rows (formatValue f c n w).2 w .none (by rw [h1]; simp [Mark.text]) hw
          (fun x hx => hall x (by simp [hx]))
        rw [tableRows, ← this, h1]
        simp [valuesOf]
      · have e : valuesOf na ((n, w) :: rows) = valuesOf na rows := by simp [valuesOf, hn]
        rw [e] at he
        rw [tableRows, ← ih (formatValue f c n w).2 (by rw [format_other f c w (Ne.symm hn)]; exact hc) he]
        simp [valuesOf, hn]
  exact gen rows _ rfl he

/-- **C82 (partial).**  An arrow of the table is never wrong, and is there when the value has changed and the value
before was shown alone.  Missing with respect to the property as stated: after a value with an arrow a change is
not shown (`c82_refuted`). -/
theorem c82_arrow_partial (m : Mark) (before : Nat) (ns : List Nat) (i : Nat) (k : Mark)
    (h : (pageMarks m before ns)[i]? = some k) :
    ∃ a b, (before :: ns)[i]? = some a ∧ ns[i]? = some b ∧ (k ≠ .none → k = change a b) ∧
      ((m :: pageMarks m before ns)[i]? = some .none → k = change a b) := by
  induction ns generalizing m before i with
  | nil => cases h
  | cons n ns ih =>
    rw [pageMarks] at h ⊢
    cases i with
    | zero =>
      simp only [List.getElem?_cons_zero, Option.some.injEq] at h ⊢
      refine ⟨before, n, rfl, rfl, ?_, ?_⟩
      · intro hk
        by_cases hm : m = .none
        · rw [← h, if_pos hm]
        · rw [if_neg hm] at h; exact absurd h.symm hk
      · intro hm
        rw [← h, if_pos hm]
    | succ i =>
      simp only [List.getElem?_cons_succ] at h ⊢
      exact ih _ _ _ h

/-- A test of numbers for the examples. -/
def plainNumber (t : Str) : Bool := t ≠ [] && numeral t

theorem plainNumber_is : IsNumber plainNumber := by
  refine ⟨fun t h1 h2 => by simp [plainNumber, h1, h2], fun t h => ?_⟩
  have : numeral t = false := by
    cases hn : numeral t with
    | false => rfl
    | true =>
      have := List.all_eq_true.1 hn 60 h
      exact absurd this (by decide)
  simp [plainNumber, this]

/-- **C82** as stated is false: of three values that grow, the third is shown without an arrow. -/
theorem c82_refuted : tableRows plainNumber (fun _ => none)
    [(bs "PAPP", bs "00100"), (bs "PAPP", bs "00200"), (bs "PAPP", bs "00300")] =
    [(bs "PAPP", bs "00100"), (bs "PAPP", bs "00200" ++ arrowUp), (bs "PAPP", bs "00300")] := by decide +kernel

/-- Two refreshes of a table with two labels. -/
example : valuesOf (bs "HCHC") [(bs "HCHC", bs "09"), (bs "PAPP", bs "3"), (bs "HCHC", bs "10"), (bs "PAPP", bs "2")] =
    [bs "09", bs "10"] ∧ pageMarks .none 9 [10] = [.up] := by decide +kernel

/-! ## C83 -/

/-- The colour of a load. -/
inductive Coloured : Nat → Colour → Prop
  | success {p} : p ≤ 70 → Coloured p .success
  | info {p} : 70 < p → p ≤ 80 → Coloured p .info
  | warning {p} : 80 < p → p ≤ 90 → Coloured p .warning
  | danger {p} : 90 < p → Coloured p .danger

theorem parse_numeral {t : Str} (h1 : t ≠ []) (h2 : numeral t = true) : jsParseInt t = some (decVal t) := by
  have e : t.takeWhile digit = t := by
    have : ∀ l : Str, numeral l = true → l.takeWhile digit = l := by
      intro l
      induction l with
      | nil => intro _; rfl
      | cons b l ih =>
        intro h
        rw [numeral, List.all_cons, Bool.and_eq_true] at h
        rw [List.takeWhile_cons_of_pos h.1, ih h.2]
    exact this t h2
  unfold jsParseInt
  simp only [e, if_neg h1]

theorem load_skip {s : LoadBar} {rows : List (Str × Str)} (h : ∀ r ∈ rows, r.1 ≠ bs "ISOUSC" ∧ r.1 ≠ bs "IINST") :
    rows.foldl (fun s r => formatLoad s r.1 r.2) s = s := by
  induction rows with
  | nil => rfl
  | cons r rows ih =>
    have hr := h r (by simp)
    rw [List.foldl_cons, show formatLoad s r.1 r.2 = s by unfold formatLoad; rw [if_neg hr.1, if_neg hr.2]]
    exact ih fun x hx => h x (by simp [hx])

/-- **C83 (partial).**  After a refresh with the subscribed current and then the current, each once, the bar has the
width, the colour and the text of the load, and so has the badge of the tab if the load is not zero; otherwise it stays.
Missing with respect to the property as stated: the badge when the load is zero (`c83_refuted`). -/
theorem c83_load_partial (s : LoadBar) (r1 r2 r3 : List (Str × Str)) (vs vi : Str)
    (h1 : ∀ r ∈ r1 ++ r2 ++ r3, r.1 ≠ bs "ISOUSC" ∧ r.1 ≠ bs "IINST")
    (hs : vs ≠ [] ∧ numeral vs = true) (hi : vi ≠ [] ∧ numeral vi = true) (h0 : decVal vs ≠ 0) :
    ∃ s', (r1 ++ [(bs "ISOUSC", vs)] ++ r2 ++ [(bs "IINST", vi)] ++ r3).foldl (fun s r => formatLoad s r.1 r.2) s = s' ∧
      s'.width = decVal vi * 100 / decVal vs ∧ Coloured s'.width s'.colour ∧
      s'.text = decText (decVal vi) ++ bs "A / " ++ decText (decVal vs) ++ bs "A" ∧
      s'.badge = (if 0 < s'.width then decText s'.width ++ bs "%" else s.badge) := by
  refine ⟨_, rfl, ?_⟩
  have e : (r1 ++ [(bs "ISOUSC", vs)] ++ r2 ++ [(bs "IINST", vi)] ++ r3).foldl (fun s r => formatLoad s r.1 r.2) s =
      formatLoad (formatLoad s (bs "ISOUSC") vs) (bs "IINST") vi := by
    simp only [List.foldl_append, List.foldl_cons, List.foldl_nil]
    rw [load_skip (rows := r1) (fun r hr => h1 r (by simp [hr])), load_skip (rows := r2) (fun r hr => h1 r (by simp [hr])),
      load_skip (rows := r3) (fun r hr => h1 r (by simp [hr]))]
  rw [e]
  have e1 : formatLoad s (bs "ISOUSC") vs = { s with isousc := some (some (decVal vs)) } := by
    unfold formatLoad
    rw [if_pos rfl, parse_numeral hs.1 hs.2]
  rw [e1]
  unfold formatLoad
  rw [if_neg (by decide +kernel), if_pos rfl]
  simp only [parse_numeral hi.1 hi.2, if_neg h0]
  refine ⟨trivial, ?_, rfl, trivial⟩
  · generalize decVal vi * 100 / decVal vs = p
    by_cases a : p > 90
    · rw [if_pos a]; exact .danger a
    · rw [if_neg a]
      by_cases b : p > 80
      · rw [if_pos b]; exact .warning b (by omega)
      · rw [if_neg b]
        by_cases c : p > 70
        · rw [if_pos c]; exact .info c (by omega)
        · rw [if_neg c]; exact .success (by omega)

/-- **C83** as stated is false: when the current falls to zero the badge keeps the load of before. -/
theorem c83_refuted : ∃ s : LoadBar,
    s = [(bs "ISOUSC", bs "30"), (bs "IINST", bs "027"), (bs "ISOUSC", bs "30"), (bs "IINST", bs "000")].foldl
      (fun s r => formatLoad s r.1 r.2) ⟨none, [], bs "Attente", .success, 0⟩ ∧
    s.width = 0 ∧ s.badge = bs "90%" :=
  ⟨_, rfl, by decide +kernel, by decide +kernel⟩

/-- A load of 27 A for 30 A. -/
example : numeral (bs "30") = true ∧ numeral (bs "027") = true ∧ decVal (bs "30") ≠ 0 ∧
    decVal (bs "027") * 100 / decVal (bs "30") = 90 := by decide +kernel

/-- **C83.**  A current that does not begin with a digit empties the bar and is shown as `NaN`; the badge keeps the load
of before. -/
theorem c83_not_a_number (s : LoadBar) {n : Nat} (hs : s.isousc = some (some n)) {vi : Str}
    (hi : ∀ b, vi.head? = some b → digit b = false) :
    formatLoad s (bs "IINST") vi = { s with text := bs "NaNA / " ++ decText n ++ bs "A", colour := .success, width := 0 } := by
  have e : jsParseInt vi = none := by
    unfold jsParseInt
    cases vi with
    | nil => rfl
    | cons b t =>
      have hb := hi b rfl
      simp [List.takeWhile_cons, hb]
  unfold formatLoad
  rw [if_neg (by decide +kernel), if_pos rfl]
  simp only [e, hs]
  rfl

/-- Such a current. -/
example : ∀ b, (bs "---").head? = some b → digit b = false := by
  intro b h
  have : b = 45 := by simpa [bs] using h.symm
  rw [this]; decide +kernel

end Wifinfo
