import Verif.Model.Base

/-!
# Helper lemmas about cell memory
-/

namespace Wifinfo

/-- `m` starts with the initialised bytes `xs`. -/
def Holds (m : Mem) (xs : Str) : Prop := ∃ rest, m = xs.map some ++ rest

theorem Holds.le {m : Mem} {xs : Str} (h : Holds m xs) : xs.length ≤ m.length := by
  obtain ⟨r, rfl⟩ := h; simp

theorem Holds.rd {m : Mem} {xs : Str} (h : Holds m xs) {i : Nat} (hi : i < xs.length) :
    m.rd i = .ok xs[i] := by
  obtain ⟨r, rfl⟩ := h
  simp [Mem.rd, List.getElem?_append, hi]

theorem Holds.rd_append {m : Mem} {a c : Str} {b : Byte} (h : Holds m (a ++ b :: c)) :
    m.rd a.length = .ok b := by
  rw [h.rd (by simp)]; simp

theorem Holds.wr {m : Mem} {a c : Str} {b : Byte} (h : Holds m (a ++ b :: c)) (b' : Byte) :
    ∃ m', m.wr a.length b' = .ok m' ∧ Holds m' (a ++ b' :: c) ∧ m'.length = m.length := by
  obtain ⟨r, rfl⟩ := h
  refine ⟨(a ++ b' :: c).map some ++ r, ?_, ⟨r, rfl⟩, by simp⟩
  simp [Mem.wr]

theorem Holds.snoc {m : Mem} {a : Str} (h : Holds m a) (hl : a.length < m.length) (b : Byte) :
    ∃ m', m.wr a.length b = .ok m' ∧ Holds m' (a ++ [b]) ∧ m'.length = m.length := by
  obtain ⟨r, rfl⟩ := h
  cases r with
  | nil => simp at hl
  | cons x r =>
    refine ⟨(a ++ [b]).map some ++ r, ?_, ⟨r, rfl⟩, by simp⟩
    simp [Mem.wr]

theorem Holds.prefix {m : Mem} {a b : Str} (h : Holds m (a ++ b)) : Holds m a := by
  obtain ⟨r, rfl⟩ := h
  exact ⟨b.map some ++ r, by simp⟩

theorem Holds.nil (m : Mem) : Holds m [] := ⟨m, rfl⟩

/-- Reading a C string found in initialised memory. -/
theorem Holds.cstrF {m : Mem} {s : Str} : ∀ {a c : Str} {f : Nat}, Holds m (a ++ s ++ 0 :: c) →
    (∀ b ∈ s, b ≠ 0) → s.length < f → m.cstrF f a.length = .ok s := by
  induction s with
  | nil =>
    intro a c f h _ hf
    cases f with
    | zero => simp at hf
    | succ f =>
      have := Holds.rd_append (a := a) (b := 0) (c := c) (by simpa using h)
      simp [Mem.cstrF, this, bind, Except.bind, pure, Except.pure]
  | cons b s ih =>
    intro a c f h hs hf
    cases f with
    | zero => simp at hf
    | succ f =>
      have h1 := Holds.rd_append (m := m) (a := a) (b := b) (c := s ++ 0 :: c) (by simpa using h)
      have h2 := ih (a := a ++ [b]) (c := c) (f := f) (by simpa using h)
        (fun x hx => hs x (by simp [hx])) (by simp at hf; omega)
      have hb : b ≠ 0 := hs b (by simp)
      simp at h2
      simp [Mem.cstrF, h1, hb, h2, bind, Except.bind, pure, Except.pure]

theorem Holds.cstr {m : Mem} {s a c : Str} (h : Holds m (a ++ s ++ 0 :: c))
    (hs : ∀ b ∈ s, b ≠ 0) : m.cstr a.length = .ok s := by
  have hl := h.le
  simp at hl
  exact h.cstrF hs (by omega)

end Wifinfo
