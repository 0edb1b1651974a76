import Verif.Props.Size
import Verif.Props.SysJson

/-!
# C112: the sizes on the system page
-/

namespace Wifinfo
open Spec

variable {fl : Rat → Rat}

/-- The texts of the sizes come from these numbers of bytes. -/
structure Sized (fl : Rat → Rat) (e : SysEnv) (flash sketch free ram : Nat) : Prop where
  flashSize : e.flashSize = sysFormatSize fl flash
  sketchSize : e.sketchSize = sysFormatSize fl sketch
  flashFree : e.flashFree = sysFormatSize fl free
  ramFree : e.ramFree = sysFormatSize fl ram
  fsTotalText : e.fsTotalText = sysFormatSize fl e.fsTotal
  fsUsedText : e.fsUsedText = sysFormatSize fl e.fsUsed

/-- The other texts given by the SDK need no JSON escape. -/
structure PlainRest (e : SysEnv) : Prop where
  timestamp : Plain e.timestamp
  mac : Plain e.mac
  version : Plain e.version
  built : Plain e.built
  flags : Plain e.flags
  sdk : Plain e.sdk
  remote : ∀ c, Plain (e.remote c)

theorem digit_plain {s : Str} (h : numeral s = true) : Plain s := by
  intro b hb
  have hd : digit b = true := List.all_eq_true.1 (show s.all digit = true from h) b hb
  have := byte_all (P := fun b => (!digit b || plain b) = true) (by decide +kernel) b
  simpa [hd] using this

theorem size_plain {s : Str} {n : Nat} (h : ShowsSize s n) : Plain s := by
  have key : ∀ {name : Str} {u : Nat}, Plain (32 :: name) → ShownIn s name u n → Plain s := by
    rintro name u hn ⟨a, c, rfl, -, ha, -, -, hc, -⟩
    intro b hb
    simp only [List.mem_append, List.mem_cons, List.append_assoc, List.cons_append] at hb
    rcases hb with hb | rfl | hb | hb
    · exact digit_plain ha b hb
    · decide
    · exact digit_plain hc b hb
    · exact hn b (by simpa using hb)
  unfold ShowsSize at h
  split at h
  · obtain ⟨a, rfl, -, ha, -⟩ := h
    intro b hb
    rcases List.mem_append.1 hb with hb | hb
    · exact digit_plain ha b hb
    · exact (show ∀ b ∈ 32 :: bs "byte", plain b = true by decide +kernel) b hb
  · split at h
    · exact key (show ∀ b ∈ 32 :: bs "kB", plain b = true by decide +kernel) h
    · split at h
      · exact key (show ∀ b ∈ 32 :: bs "MB", plain b = true by decide +kernel) h
      · exact key (show ∀ b ∈ 32 :: bs "GB", plain b = true by decide +kernel) h

/-- The table has one row of this name, and it shows this size. -/
def SizeRow (rows : List (Str × JVal)) (name : Str) (n : Nat) : Prop :=
  ∃ s, rows.filter (fun r => r.1 = name) = [(name, .str s)] ∧ ShowsSize s n

/-- **C112**: what the page of the system says about sizes is true: free flash and memory, size and use of the file system (with
the percentage rounded down) for everybody, size of the flash and of the program with full access. -/
theorem c112_page (R : Rounding fl) {e : SysEnv} {flash sketch free ram : Nat} (hs : Sized fl e flash sketch free ram)
    (hp : PlainRest e) (h1 : flash < 4294967296) (h2 : sketch < 4294967296) (h3 : free < 4294967296) (h4 : ram < 4294967296)
    (h0 : e.fsTotal ≠ 0) (hu : e.fsUsed ≤ e.fsTotal) (ht : e.fsTotal ≤ 42949672) {c : Config} {ssid : Str}
    (hc : HasText c.ssid ssid) (hps : Plain ssid) (sse : Sse) (restricted : Bool) :
    ∃ j rows, sysInfoJson e c sse restricted = .ok j ∧ parseJson j = some (jsonTable rows) ∧
      SizeRow rows (bs "M" ++ eAcute ++ bs "moire Flash libre") free ∧ SizeRow rows (bs "M" ++ eAcute ++ bs "moire RAM libre") ram ∧
      SizeRow rows (bs "FS Total") e.fsTotal ∧ SizeRow rows (bs "FS Utilis" ++ eAcute ++ bs "s") e.fsUsed ∧
      (restricted = false → SizeRow rows (bs "Taille m" ++ eAcute ++ bs "moire Flash") flash ∧
        SizeRow rows (bs "Taille Firmware") sketch) ∧
      ∃ p, (bs "FS Occupation", JVal.str (decText p ++ bs " %")) ∈ rows ∧ p ≤ 100 ∧ p * e.fsTotal ≤ 100 * e.fsUsed ∧
        100 * e.fsUsed < (p + 1) * e.fsTotal := by
  have s1 := c112_size R h1
  have s2 := c112_size R h2
  have s3 := c112_size R h3
  have s4 := c112_size R h4
  have s5 := c112_size R (bytes := e.fsTotal) (by omega)
  have s6 := c112_size R (bytes := e.fsUsed) (by omega)
  rw [← hs.flashSize] at s1
  rw [← hs.sketchSize] at s2
  rw [← hs.flashFree] at s3
  rw [← hs.ramFree] at s4
  rw [← hs.fsTotalText] at s5
  rw [← hs.fsUsedText] at s6
  obtain ⟨j, rows, j1, j2, j3⟩ := c61_system_partial (e := e) ⟨hp.timestamp, hp.mac, hp.version, hp.built, hp.flags, hp.sdk,
    size_plain s1, size_plain s2, size_plain s3, size_plain s4, size_plain s5, size_plain s6, hp.remote⟩ h0 hc sse restricted
  have one : ∀ (name : Str) (v : JVal), (publicRows e sse ++ if restricted then [] else privateRows e ssid).filter
      (fun r => decide (r.1 = name)) = [(name, v)] → rows.filter (fun r => decide (r.1 = name)) = [(name, v)] := by
    intro name v h
    have := j2.filter (fun r => decide (r.1 = name))
    rw [h] at this
    exact this.eq_singleton
  refine ⟨j, rows, j1, j3.2 fun _ _ => hps, ⟨_, one _ _ ?_, s3⟩, ⟨_, one _ _ ?_, s4⟩, ⟨_, one _ _ ?_, s5⟩, ⟨_, one _ _ ?_, s6⟩,
    fun hr => ⟨⟨_, one _ _ ?_, s1⟩, ⟨_, one _ _ ?_, s2⟩⟩, 100 * e.fsUsed % 2 ^ 32 / e.fsTotal, ?_, ?_, ?_, ?_⟩
  · unfold publicRows privateRows
    cases e.cpu <;> cases restricted <;> cases e.connected <;> rfl
  · unfold publicRows privateRows
    cases e.cpu <;> cases restricted <;> cases e.connected <;> rfl
  · unfold publicRows privateRows
    cases e.cpu <;> cases restricted <;> cases e.connected <;> rfl
  · unfold publicRows privateRows
    cases e.cpu <;> cases restricted <;> cases e.connected <;> rfl
  · unfold publicRows privateRows
    subst hr
    cases e.cpu <;> cases e.connected <;> rfl
  · unfold publicRows privateRows
    subst hr
    cases e.cpu <;> cases e.connected <;> rfl
  · rw [j2.mem_iff]
    exact List.mem_append_left _ (by unfold publicRows; simp)
  all_goals rw [Nat.mod_eq_of_lt (by omega)]
  · exact Nat.le_trans (Nat.div_le_div_right (Nat.mul_le_mul_left 100 hu)) (by rw [Nat.mul_div_cancel _ (by omega)]; omega)
  · exact Nat.div_mul_le_self _ _
  · exact Nat.lt_mul_of_div_lt (Nat.lt_succ_self _) (by omega)

/-- The hypotheses hold of a usual device. -/
example : ∃ e : SysEnv, Sized id e 4194304 414177 2727936 34816 ∧ PlainRest e ∧ e.fsTotal = 1024000 ∧ e.fsUsed = 197537 ∧
    e.flashFree = bs "2.60 MB" ∧ e.ramFree = bs "34.00 kB" ∧ e.fsTotalText = bs "1000.00 kB" ∧ e.fsUsedText = bs "192.91 kB" := by
  refine ⟨⟨13, bs "2020-02-02T12:12:00+0100", true, -72, bs "cc:dd:ee:11:22:33", 1, bs "1.0", bs "Feb  6 2020 23:21:40", [], bs "2.2.2",
    0x123456, sysFormatSize id 4194304, sysFormatSize id 414177, sysFormatSize id 2727936, sysFormatSize id 34816, none, 1024000, 197537,
    sysFormatSize id 1024000, sysFormatSize id 197537, fun _ => bs "192.168.1.2"⟩, ⟨rfl, rfl, rfl, rfl, rfl, rfl⟩, ?_, rfl, rfl, ?_⟩
  · refine ⟨?_, ?_, ?_, ?_, ?_, ?_, fun _ => plain_all (s := bs "192.168.1.2") (by decide +kernel)⟩ <;>
      exact plain_all (by decide +kernel)
  · decide +kernel

end Wifinfo
