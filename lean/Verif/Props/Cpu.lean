import Verif.Model.Sys
import Verif.Proofs.Config

/-!
# C55: CPU load
-/

namespace Wifinfo

namespace Spec

/-- Turns of the main loop in each complete one-second period: a period ends with a turn where the timer
has fired; `n` turns have been seen before the list. -/
def turns : Nat → List Bool → List Nat
  | _, [] => []
  | n, false :: l => turns (n + 1) l
  | n, true :: l => (n + 1) :: turns 0 l

/-- Sum of the last ten counts. -/
def lastTen (l : List Nat) : Nat := (l.reverse.take 10).sum

end Spec
open Spec

/-- The main loop calls `cpuload_loop` once per turn (main.cpp:69-80). -/
def CpuLoad.run (c : CpuLoad) : List Bool → Res CpuLoad
  | [] => .ok c
  | b :: l => do (← c.loop b).run l

/-- The ring buffer holds the last ten counts; `h` are the counts, newest first. -/
structure CpuLoad.Inv (c : CpuLoad) (n : Nat) (h : List Nat) : Prop where
  counter : c.counter = UInt32.ofNat n
  index : c.index < 10
  slots : ∀ k, k < 10 → c.perfs.toList[(c.index + 9 - k) % 10]? = some (UInt32.ofNat (h.getD k 0))

theorem cpu_inv {c : CpuLoad} {n h} (i : c.Inv n h) (l : List Bool) :
    ∃ c' n', c.run l = .ok c' ∧ c'.Inv n' ((turns n l).reverse ++ h) := by
  induction l generalizing c n h with
  | nil => exact ⟨c, n, rfl, by simpa [turns] using i⟩
  | cons b l ih =>
    cases b with
    | false =>
      have i' : ({ c with counter := c.counter + 1 } : CpuLoad).Inv (n + 1) h :=
        ⟨by rw [i.counter]; simp, i.index, i.slots⟩
      obtain ⟨c', n', h1, h2⟩ := ih i'
      exact ⟨c', n', by simpa [CpuLoad.run, CpuLoad.loop, ok_bind] using h1, by simpa [turns] using h2⟩
    | true =>
      have hi := i.index
      have i' : (⟨0, c.perfs.set c.index (c.counter + 1), (c.index + 1) % 10⟩ : CpuLoad).Inv 0 ((n + 1) :: h) := by
        refine ⟨rfl, Nat.mod_lt _ (by decide), ?_⟩
        intro k hk
        dsimp only
        rw [Vector.toList_set]
        by_cases h0 : k = 0
        · subst h0
          have e : ((c.index + 1) % 10 + 9 - 0) % 10 = c.index := by omega
          rw [e, List.getElem?_set_self (by simpa using hi), i.counter]
          simp
        · have e : ((c.index + 1) % 10 + 9 - k) % 10 = (c.index + 9 - (k - 1)) % 10 := by omega
          rw [e, List.getElem?_set_ne (by omega), i.slots (k - 1) (by omega)]
          obtain ⟨k, rfl⟩ : ∃ j, k = j + 1 := ⟨k - 1, by omega⟩
          simp
      obtain ⟨c', n', h1, h2⟩ := ih i'
      refine ⟨c', n', ?_, by simpa [turns] using h2⟩
      simpa [CpuLoad.run, CpuLoad.loop, hi, ok_bind] using h1

theorem cpu_init : CpuLoad.init.Inv 0 [] := by
  refine ⟨rfl, by decide, ?_⟩
  intro k hk
  have : ∀ k : Fin 10, CpuLoad.init.perfs.toList[(CpuLoad.init.index + 9 - k.val) % 10]? = some 0 := by decide
  simpa using this ⟨k, hk⟩

theorem take_sum (h : List Nat) : (h.take 10).sum = h.getD 0 0 + h.getD 1 0 + h.getD 2 0 + h.getD 3 0 +
    h.getD 4 0 + h.getD 5 0 + h.getD 6 0 + h.getD 7 0 + h.getD 8 0 + h.getD 9 0 := by
  have key : ∀ (n : Nat) (h : List Nat), (h.take (n + 1)).sum = h.getD 0 0 + ((h.drop 1).take n).sum := by
    intro n h
    cases h <;> simp
  rw [key 9, key 8, key 7, key 6, key 5, key 4, key 3, key 2, key 1, key 0]
  simp [List.drop_drop, List.getD_eq_getElem?_getD, List.getElem?_drop]
  omega

theorem cpu_sum {c : CpuLoad} {n h} (i : c.Inv n h) :
    c.perfs.toList.foldl (· + ·) 0 = UInt32.ofNat (h.take 10).sum := by
  have hl : c.perfs.toList.length = 10 := by simp
  have hs := i.slots
  have hi := i.index
  generalize c.perfs.toList = l at *
  generalize c.index = x at *
  rw [take_sum]
  have h0 := hs 0 (by decide)
  have h1 := hs 1 (by decide)
  have h2 := hs 2 (by decide)
  have h3 := hs 3 (by decide)
  have h4 := hs 4 (by decide)
  have h5 := hs 5 (by decide)
  have h6 := hs 6 (by decide)
  have h7 := hs 7 (by decide)
  have h8 := hs 8 (by decide)
  have h9 := hs 9 (by decide)
  clear hs i
  generalize h.getD 0 0 = a0 at *
  generalize h.getD 1 0 = a1 at *
  generalize h.getD 2 0 = a2 at *
  generalize h.getD 3 0 = a3 at *
  generalize h.getD 4 0 = a4 at *
  generalize h.getD 5 0 = a5 at *
  generalize h.getD 6 0 = a6 at *
  generalize h.getD 7 0 = a7 at *
  generalize h.getD 8 0 = a8 at *
  generalize h.getD 9 0 = a9 at *
  match l, hl with
  | [p0, p1, p2, p3, p4, p5, p6, p7, p8, p9], _ =>
    have hx : x = 0 ∨ x = 1 ∨ x = 2 ∨ x = 3 ∨ x = 4 ∨ x = 5 ∨ x = 6 ∨ x = 7 ∨ x = 8 ∨ x = 9 := by omega
    rcases hx with rfl | rfl | rfl | rfl | rfl | rfl | rfl | rfl | rfl | rfl <;>
    · simp at h0 h1 h2 h3 h4 h5 h6 h7 h8 h9
      subst h0 h1 h2 h3 h4 h5 h6 h7 h8 h9
      simp only [List.foldl_cons, List.foldl_nil, UInt32.ofNat_add, UInt32.zero_add]
      ac_rfl

/-- The value displayed after any history: never an array overflow; `MAX_COUNTER` minus a tenth of the
last ten counts, in percent, all in unsigned 32 bits. -/
theorem cpu_value (l : List Bool) : ∃ c, CpuLoad.init.run l = .ok c ∧
    c.cpu = ((100 * (85000 - UInt32.ofNat (lastTen (turns 0 l)) / 10)) / 85000 : UInt32).toInt32.toInt := by
  obtain ⟨c, n, h1, h2⟩ := cpu_inv cpu_init l
  refine ⟨c, h1, ?_⟩
  unfold CpuLoad.cpu CpuLoad.average
  rw [cpu_sum h2]
  simp [lastTen, MAX_COUNTER]

theorem sum_le {l : List Nat} {m : Nat} (h : ∀ x ∈ l, x ≤ m) : l.sum ≤ l.length * m := by
  induction l with
  | nil => simp
  | cons x l ih =>
    have := ih (fun y hy => h y (by simp [hy]))
    have := h x (by simp)
    simp only [List.sum_cons, List.length_cons, Nat.add_mul, Nat.one_mul]
    omega

/-- **C55**, for the last ten periods: when they have at most 85000 turns of the main loop on average, the load is a
percentage: 100 minus the turns in percent of 85000. -/
theorem c55_average (l : List Bool) (hs : lastTen (turns 0 l) / 10 ≤ 85000) :
    ∃ c, CpuLoad.init.run l = .ok c ∧ 0 ≤ c.cpu ∧ c.cpu ≤ 100 ∧
      c.cpu = (100 * (85000 - lastTen (turns 0 l) / 10) / 85000 : Nat) := by
  obtain ⟨c, h1, h2⟩ := cpu_value l
  have key : ((100 * (85000 - UInt32.ofNat (lastTen (turns 0 l)) / 10)) / 85000 : UInt32).toInt32.toInt =
      (100 * (85000 - lastTen (turns 0 l) / 10) / 85000 : Nat) := by
    generalize lastTen (turns 0 l) = S at hs
    have e1 : (UInt32.ofNat S / 10).toNat = S / 10 := by
      rw [UInt32.toNat_div, UInt32.toNat_ofNat', Nat.mod_eq_of_lt (by omega)]; rfl
    have e2 : (85000 - UInt32.ofNat S / 10 : UInt32).toNat = 85000 - S / 10 := by
      rw [UInt32.toNat_sub_of_le _ _ (by rw [UInt32.le_iff_toNat_le, e1]; show _ ≤ 85000; omega), e1]; rfl
    have e3 : (100 * (85000 - UInt32.ofNat S / 10) : UInt32).toNat = 100 * (85000 - S / 10) := by
      rw [UInt32.toNat_mul, e2]
      show 100 * (85000 - S / 10) % 2 ^ 32 = _
      exact Nat.mod_eq_of_lt (by omega)
    have e4 : ((100 * (85000 - UInt32.ofNat S / 10)) / 85000 : UInt32).toNat = 100 * (85000 - S / 10) / 85000 := by
      rw [UInt32.toNat_div, e3]; rfl
    generalize ((100 * (85000 - UInt32.ofNat S / 10)) / 85000 : UInt32) = u at e4
    have hu : u.toNat < 2 ^ 31 := by omega
    have : u.toInt32.toInt = u.toNat := by
      show u.toBitVec.toInt = _
      rw [BitVec.toInt_eq_toNat_of_lt (by show 2 * u.toNat < _; omega)]
      rfl
    rw [this, e4]
  rw [key] at h2
  refine ⟨c, h1, by omega, ?_, h2⟩
  rw [h2]
  omega

/-- **C55, exactly**: up to 40 million turns per period on average, the load shown is a percentage if and only if the last
ten periods have at most 85000 turns on average. -/
theorem c55_exact (l : List Bool) (hmax : lastTen (turns 0 l) / 10 ≤ 40000000) :
    ∃ c, CpuLoad.init.run l = .ok c ∧ ((0 ≤ c.cpu ∧ c.cpu ≤ 100) ↔ lastTen (turns 0 l) / 10 ≤ 85000) := by
  by_cases hs : lastTen (turns 0 l) / 10 ≤ 85000
  · obtain ⟨c, h1, h2, h3, _⟩ := c55_average l hs
    exact ⟨c, h1, fun _ => hs, fun _ => ⟨h2, h3⟩⟩
  · obtain ⟨c, h1, h2⟩ := cpu_value l
    refine ⟨c, h1, fun h => absurd h.2 ?_, fun h => absurd h hs⟩
    have key : 100 < ((100 * (85000 - UInt32.ofNat (lastTen (turns 0 l)) / 10)) / 85000 : UInt32).toInt32.toInt := by
      generalize lastTen (turns 0 l) = S at hs hmax
      have e1 : (UInt32.ofNat S / 10).toNat = S / 10 := by
        rw [UInt32.toNat_div, UInt32.toNat_ofNat', Nat.mod_eq_of_lt (by omega)]; rfl
      have e2 : (85000 - UInt32.ofNat S / 10 : UInt32).toNat = 2 ^ 32 + 85000 - S / 10 := by
        rw [UInt32.toNat_sub, e1]
        show (2 ^ 32 - S / 10 + 85000) % 2 ^ 32 = _
        omega
      have e3 : (100 * (85000 - UInt32.ofNat S / 10) : UInt32).toNat = 2 ^ 32 + 8500000 - 100 * (S / 10) := by
        rw [UInt32.toNat_mul, e2]
        show 100 * (2 ^ 32 + 85000 - S / 10) % 2 ^ 32 = _
        omega
      have e4 : ((100 * (85000 - UInt32.ofNat S / 10)) / 85000 : UInt32).toNat =
          (2 ^ 32 + 8500000 - 100 * (S / 10)) / 85000 := by
        rw [UInt32.toNat_div, e3]; rfl
      generalize ((100 * (85000 - UInt32.ofNat S / 10)) / 85000 : UInt32) = u at e4
      have hu : u.toNat < 2 ^ 31 := by omega
      have : u.toInt32.toInt = u.toNat := by
        show u.toBitVec.toInt = _
        rw [BitVec.toInt_eq_toNat_of_lt (by show 2 * u.toNat < _; omega)]
        rfl
      rw [this, e4]
      omega
    rw [← h2] at key
    omega

/-- **C55 (partial).** When no one-second period has more than 85000 turns of the main loop, the load is
a percentage: 100 minus the turns of the last ten periods, in percent of 850000.  Missing with respect to
the property as stated: periods with more turns, for which it is false (`c55_refuted`). -/
theorem c55_percent_partial (l : List Bool) (h : ∀ n ∈ turns 0 l, n ≤ 85000) :
    ∃ c, CpuLoad.init.run l = .ok c ∧ 0 ≤ c.cpu ∧ c.cpu ≤ 100 ∧
      c.cpu = (100 * (85000 - lastTen (turns 0 l) / 10) / 85000 : Nat) := by
  have hs : lastTen (turns 0 l) ≤ 850000 := by
    unfold lastTen
    have := sum_le (l := (turns 0 l).reverse.take 10) (m := 85000)
      (fun x hx => h x (List.mem_reverse.1 (List.mem_of_mem_take hx)))
    have hl : ((turns 0 l).reverse.take 10).length ≤ 10 := by simp; omega
    have := Nat.mul_le_mul_right 85000 hl
    omega
  exact c55_average l (by omega)

theorem turns_run (n k : Nat) (l : List Bool) :
    turns n (List.replicate k false ++ true :: l) = (n + k + 1) :: turns 0 l := by
  induction k generalizing n with
  | zero => rfl
  | succ k ih =>
    rw [List.replicate_succ, List.cons_append, turns, ih]
    congr 1
    omega

/-- A history with a given list of counts, none of them null. -/
def history : List Nat → List Bool
  | [] => []
  | n :: l => List.replicate (n - 1) false ++ true :: history l

theorem turns_history {l : List Nat} (h : ∀ n ∈ l, n ≠ 0) : turns 0 (history l) = l := by
  induction l with
  | nil => rfl
  | cons n l ih =>
    rw [history, turns_run, ih (fun m hm => h m (by simp [hm]))]
    have := h n (by simp)
    congr 1
    omega

/-- Half of the time busy. -/
example : ∃ l c, (∀ n ∈ turns 0 l, n ≤ 85000) ∧ CpuLoad.init.run l = .ok c ∧ c.cpu = 50 := by
  have e : turns 0 (history (List.replicate 12 42500)) = List.replicate 12 42500 :=
    turns_history (fun n hn => by rw [List.eq_of_mem_replicate hn]; decide)
  have h : ∀ n ∈ turns 0 (history (List.replicate 12 42500)), n ≤ 85000 := by
    intro n hn
    rw [e] at hn
    rw [List.eq_of_mem_replicate hn]; decide
  obtain ⟨c, h1, _, _, h2⟩ := c55_percent_partial _ h
  rw [e] at h2
  exact ⟨_, c, h, h1, h2.trans (by decide)⟩

/-- **C55** as stated is false: with 85001 turns in each of the last ten periods the load shown is
50529 %. -/
theorem c55_refuted : ∃ l c, CpuLoad.init.run l = .ok c ∧ c.cpu = 50529 := by
  have e : turns 0 (history (List.replicate 10 85001)) = List.replicate 10 85001 :=
    turns_history (fun n hn => by rw [List.eq_of_mem_replicate hn]; decide)
  obtain ⟨c, h1, h2⟩ := cpu_value (history (List.replicate 10 85001))
  rw [e] at h2
  exact ⟨_, c, h1, h2.trans (by decide +kernel)⟩

end Wifinfo
