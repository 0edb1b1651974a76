import Verif.Model.Search
import Verif.Props.Script
import Verif.Props.Upload

/-!
# Searching and sorting the table of the meter

* C134: the rows that are shown are those looked for, in the order asked for.
-/

namespace Wifinfo
open Spec

/-! ## The specification -/

namespace Spec

/-- The rows of the last refresh. -/
def lastLoad (evs : List TableEvent) : List Cells := evs.foldl (fun l ev => match ev with | .load rows => rows | _ => l) []

/-- The text of the search field. -/
def lastText (evs : List TableEvent) : Str := evs.foldl (fun t ev => match ev with | .search x => x | _ => t) []

/-- The column whose title was clicked last. -/
def lastClick (evs : List TableEvent) : Option Bool := evs.foldl (fun v ev => match ev with | .click x => some x | _ => v) none

/-- How often the title of a column was clicked. -/
def clicks (value : Bool) (evs : List TableEvent) : Nat :=
  evs.foldl (fun n ev => match ev with | .click x => if x = value then n + 1 else n | _ => n) 0

/-- The row contains the text, upper and lower case alike. -/
def HasWord (lower : Str → Str) (t : Str) (r : Cells) : Prop := lower t <:+: lower r.1 ∨ lower t <:+: lower r.2

/-- What is known of `toLowerCase`: the marks of the page stay as they are. -/
structure Lowers (lower : Str → Str) : Prop where
  nil : lower [] = []
  up : ∀ v, lower (v ++ arrowUp) = lower v ++ arrowUp
  down : ∀ v, lower (v ++ arrowDown) = lower v ++ arrowDown

/-- A text that is not a part of the marks, and without a space. -/
def Unmarked (t : Str) : Prop := (32 : Byte) ∉ t ∧ ¬ t <:+: arrowUp ∧ ¬ t <:+: arrowDown

/-- What is known of `localeCompare`: an order. -/
structure Collates (f : Str → Str → Int) : Prop where
  irrefl : ∀ a, f a a ≠ -1
  trans : ∀ a b c, f a b = -1 → f b c = -1 → f a c = -1
  weak : ∀ a b c, f a c = -1 → f a b = -1 ∨ f b c = -1

/-- An order of rows, with ties. -/
structure Weak (lt : Cells → Cells → Prop) : Prop where
  irrefl : ∀ a, ¬ lt a a
  trans : ∀ a b c, lt a b → lt b c → lt a c
  weak : ∀ a b c, lt a c → lt a b ∨ lt b c

/-- What is known of `Array.sort`: no row is lost, and if the comparison tells an order, ties aside, the rows are in this order.  (The
standard says nothing of a comparison that gives other values than 0 for equal rows.) -/
structure Sorts (sort : (Cells → Cells → Int) → List Cells → List Cells) : Prop where
  perm : ∀ c l, (sort c l).Perm l
  sorted : ∀ c l (lt : Cells → Cells → Prop), Weak lt → (∀ a ∈ l, ∀ b ∈ l, lt a b → c a b < 0 ∧ 0 < c b a) →
    (sort c l).Pairwise fun a b => ¬ lt b a

/-- The order of two cells: the numbers by their value, then the other texts as in a dictionary. -/
def before (e : Engine) (a b : Str) : Prop :=
  match e.number a, e.number b with
  | some x, some y => x < y
  | some _, none => True
  | none, some _ => False
  | none, none => e.locale a b = -1

/-- The rows are in order by the column. -/
def InOrder (e : Engine) (value desc : Bool) (l : List Cells) : Prop :=
  l.Pairwise fun a b => ¬ if desc then before e (cell value a) (cell value b) else before e (cell value b) (cell value a)

/-- In the dictionary the numbers of the column come before its other texts. -/
def NumbersFirst (e : Engine) (value : Bool) (l : List Cells) : Prop :=
  ∀ a ∈ l, ∀ b ∈ l, e.number (cell value a) ≠ none → e.number (cell value b) = none → e.locale (cell value a) (cell value b) = -1

end Spec

/-! ## Marks -/

theorem jsLess_total : ∀ a b : Str, a ≠ b → jsLess a b = true ∨ jsLess b a = true
  | [], [], h => absurd rfl h
  | [], _ :: _, _ => .inl rfl
  | _ :: _, [], _ => .inr rfl
  | a :: r, b :: s, h => by
    unfold jsLess
    by_cases h1 : a < b
    · simp [h1]
    · by_cases h2 : b < a
      · simp [h2]
      · have : a = b := UInt8.toNat_inj.1 (by rw [UInt8.lt_iff_toNat_lt] at h1 h2; omega)
        subst this
        simpa [h1] using jsLess_total r s fun e => h (e ▸ rfl)

/-- What is shown of a value is the value with a mark. -/
theorem format_marked (f : Str → Bool) (k : Str → Option Str) (na va : Str) : ∃ m : Mark, (formatValue f k na va).1 = va ++ m.text := by
  unfold formatValue
  split
  · cases k na with
    | none => exact ⟨.none, (List.append_nil va).symm⟩
    | some ref =>
      simp only
      split
      · exact ⟨.none, (List.append_nil va).symm⟩
      · rename_i h
        split
        · exact ⟨.up, rfl⟩
        · split
          · exact ⟨.down, rfl⟩
          · rename_i h1 h2
            rcases jsLess_total ref va fun e => h (.inr e) with h' | h'
            · exact absurd h' h1
            · exact absurd h' h2
  · exact ⟨.none, (List.append_nil va).symm⟩

/-- Formatted again at once, the value is shown alone. -/
theorem format_twice {f : Str → Bool} (hf : ∀ t, (60 : Byte) ∈ t → f t = false) (k k' : Str → Option Str) (na va : Str)
    (h : k' na = (formatValue f k na va).2 na) : (formatValue f k' na va).1 = va := by
  obtain ⟨m, hm⟩ := format_marked f k na va
  by_cases hn : f va = true
  · have e : k' na = some (va ++ m.text) := by rw [h, ← hm]; simp [formatValue, hn]
    unfold formatValue
    rw [if_pos hn]
    simp only [e]
    rw [if_pos]
    cases m with
    | none => exact .inr (List.append_nil va)
    | up => exact .inl (hf _ (List.mem_append_right _ (by decide +kernel)))
    | down => exact .inl (hf _ (List.mem_append_right _ (by decide +kernel)))
  · simp [formatValue, hn]

theorem format_congr (f : Str → Bool) {k k' : Str → Option Str} {na : Str} (va : Str) (h : k na = k' na) :
    (formatValue f k na va).1 = (formatValue f k' na va).1 := by
  unfold formatValue
  rw [h]
  split <;> rfl

/-- A text without a space that is not in a mark is in the value or is not there. -/
theorem infix_marked {t v m : Str} (h : (32 : Byte) ∉ t) (hm : t <:+: v ++ 32 :: m) : t <:+: v ∨ t <:+: 32 :: m := by
  obtain ⟨a, b, e⟩ := hm
  rcases List.append_eq_append_iff.1 e with ⟨c, e1, e2⟩ | ⟨c, e1, e2⟩
  · exact .inl ⟨a, c, e1.symm⟩
  · cases c with
    | nil => exact .inl ⟨a, [], by simpa using e1⟩
    | cons x c =>
      obtain ⟨rfl, e2⟩ := List.cons.inj e2
      rcases List.append_eq_append_iff.1 e1 with ⟨d, e3, e4⟩ | ⟨d, e3, e4⟩
      · exact absurd (e4 ▸ List.mem_append_right d List.mem_cons_self) h
      · exact .inr ⟨d, b, by rw [e2, ← e4]⟩

theorem holds_marked {lower : Str → Str} (hl : Lowers lower) {t : Str} (ht : Unmarked t) (v : Str) (m : Mark) :
    t <:+: lower (v ++ m.text) ↔ t <:+: lower v := by
  cases m with
  | none => simp [Mark.text]
  | up =>
    simp only [Mark.text, hl.up]
    exact ⟨fun h => (infix_marked ht.1 h).resolve_right ht.2.1, fun h => List.infix_append_of_infix_left h⟩
  | down =>
    simp only [Mark.text, hl.down]
    exact ⟨fun h => (infix_marked ht.1 h).resolve_right ht.2.2, fun h => List.infix_append_of_infix_left h⟩

/-! ## The rows -/

theorem grep_count {e : Engine} (hl : Lowers e.lower) (t : Str) (r : Cells) : ∀ (rows : List Cells) (k : Str → Option Str),
    (grepRows e (e.lower t) k rows).1.count r ≤ rows.count r ∧
    (HasWord e.lower t r → (grepRows e (e.lower t) k rows).1.count r = rows.count r) ∧
    (Unmarked (e.lower t) → ¬ HasWord e.lower t r → (grepRows e (e.lower t) k rows).1.count r = 0)
  | [], _ => by simp [grepRows]
  | (na, va) :: rows, k => by
    unfold grepRows
    split
    · rename_i h
      have ih := grep_count hl t r rows k
      simp only [List.count_cons]
      refine ⟨by omega, fun h' => by rw [ih.2.1 h'], fun hu hn => ?_⟩
      rw [ih.2.2 hu hn, if_neg]
      intro e'
      exact hn ((beq_iff_eq.1 e') ▸ .inl ((isIn_iff _ _).1 h))
    · rename_i h
      obtain ⟨m, hm⟩ := format_marked e.isNumber k na va
      have ih := grep_count hl t r rows (formatValue e.isNumber k na va).2
      simp only [List.count_cons]
      split
      · rename_i h2
        simp only [List.count_cons]
        refine ⟨by omega, fun h' => by rw [ih.2.1 h'], fun hu hn => ?_⟩
        rw [ih.2.2 hu hn, if_neg]
        intro e'
        rw [isIn_iff, hm, holds_marked hl hu] at h2
        exact hn ((beq_iff_eq.1 e') ▸ .inr h2)
      · rename_i h2
        refine ⟨by omega, fun h' => ?_, fun hu hn => ih.2.2 hu hn⟩
        rw [ih.2.1 h', if_neg, Nat.add_zero]
        intro e'
        rw [← beq_iff_eq.1 e'] at h'
        rw [isIn_iff] at h h2
        refine (h'.resolve_left h) |> fun h3 => h2 ?_
        rw [hm]
        cases m with
        | none => simpa [Mark.text] using h3
        | up => simp only [Mark.text, hl.up]; exact List.infix_append_of_infix_left h3
        | down => simp only [Mark.text, hl.down]; exact List.infix_append_of_infix_left h3

/-- What holds of the table at every time. -/
structure Table.Good (e : Engine) (L : List Cells) (t : Str) (s : SearchTable) : Prop where
  all : s.all.Perm L
  text : s.text.getD [] = t
  none : t = [] → s.found = none
  found : t ≠ [] → ∃ l, s.found = some l ∧ ∀ r, l.count r ≤ L.count r ∧ (HasWord e.lower t r → l.count r = L.count r) ∧
    (Unmarked (e.lower t) → ¬ HasWord e.lower t r → l.count r = 0)

theorem good_searched {e : Engine} (hl : Lowers e.lower) {all : List Cells} {s : SearchTable} (h : s.all.Perm all) :
    Table.Good e all (s.text.getD []) (s.searched e) := by
  unfold SearchTable.searched
  cases ht : s.text with
  | none => exact ⟨h, by simp [ht], fun _ => rfl, fun h => by simp at h⟩
  | some t =>
    simp only [Option.getD_some]
    split
    · rename_i h0
      exact ⟨h, by simp [ht], fun _ => rfl, fun h => absurd h0 h⟩
    · rename_i h0
      refine ⟨h, by simp [ht], fun h => absurd h h0, fun _ => ⟨_, rfl, fun r => ?_⟩⟩
      rw [← h.count_eq]
      exact grep_count hl t r s.all s.counters

theorem good_sorted {e : Engine} (hs : Sorts e.sort) {all : List Cells} {t : Str} {s : SearchTable} (h : Table.Good e all t s) :
    Table.Good e all t (s.sorted e) := by
  unfold SearchTable.sorted
  split
  · exact h
  · split
    · rename_i h0
      exact ⟨(hs.perm _ _).trans h.all, h.text, fun _ => h0, h.found⟩
    · rename_i l h0
      refine ⟨h.all, h.text, fun ht => ?_, fun ht => ⟨_, rfl, fun r => ?_⟩⟩
      · rw [h.none ht] at h0; cases h0
      · obtain ⟨l', h1, h2⟩ := h.found ht
        rw [h0] at h1
        cases h1
        rw [(hs.perm _ _).count_eq]
        exact h2 r

theorem good_step {e : Engine} (hl : Lowers e.lower) (hs : Sorts e.sort) {all : List Cells} {t : Str} {s : SearchTable}
    (h : Table.Good e all t s) (ev : TableEvent) :
    Table.Good e (match ev with | .load rows => rows | _ => all) (match ev with | .search x => x | _ => t) (s.step e ev).1 := by
  cases ev with
  | load rows =>
    have : (({ s with all := rows, found := none } : SearchTable).sorted e).all.Perm rows := by
      unfold SearchTable.sorted
      split
      · exact .refl _
      · exact hs.perm _ _
    have ht : (({ s with all := rows, found := none } : SearchTable).sorted e).text = s.text := by
      unfold SearchTable.sorted
      split <;> rfl
    have := good_searched hl this
    rw [ht, h.text] at this
    exact ⟨this.all, this.text, this.none, this.found⟩
  | search x =>
    unfold SearchTable.step
    simp only
    split
    · rename_i h0
      have : x = t := by rw [← h.text, h0]; rfl
      subst this
      exact h
    · have := good_searched hl (s := { s with text := some x }) h.all
      exact ⟨this.all, this.text, this.none, this.found⟩
  | click v =>
    have := good_sorted hs (s := { s with order := some (v, s.nextOrder v), last := fun w => if w = v then s.nextOrder v else s.last w })
      ⟨h.all, h.text, h.none, h.found⟩
    exact ⟨this.all, this.text, this.none, this.found⟩

theorem good_run {e : Engine} (hl : Lowers e.lower) (hs : Sorts e.sort) (evs : List TableEvent) :
    Table.Good e (lastLoad evs) (lastText evs) (SearchTable.start.run e evs) := by
  induction evs using snoc_induction with
  | h0 => exact ⟨.refl _, rfl, fun _ => rfl, fun h => absurd rfl h⟩
  | h1 evs ev ih =>
    have := good_step hl hs ih ev
    simp only [lastLoad, lastText, SearchTable.run, List.foldl_append, List.foldl_cons, List.foldl_nil] at this ⊢
    exact this

/-- **C134, the rows.**  After every sequence of refreshes, searches and clicks: with no text to look for, the table has the rows of
the last refresh; with a text that is not a part of the marks of the page, exactly those of these rows whose label or value contains
it. -/
theorem c134_rows_partial {e : Engine} (hl : Lowers e.lower) (hs : Sorts e.sort) (evs : List TableEvent)
    (ht : lastText evs = [] ∨ Unmarked (e.lower (lastText evs))) {p : Cells → Bool}
    (hp : ∀ r, p r = true ↔ HasWord e.lower (lastText evs) r) :
    (SearchTable.start.run e evs).rows.Perm ((lastLoad evs).filter p) := by
  have g := good_run hl hs evs
  by_cases h0 : lastText evs = []
  · have : ∀ r, p r = true := fun r => (hp r).2 (.inl (by rw [h0, hl.nil]; exact List.nil_infix))
    rw [SearchTable.rows, g.none h0, List.filter_eq_self.2 fun r _ => this r]
    exact g.all
  · obtain ⟨l, h1, h2⟩ := g.found h0
    rw [SearchTable.rows, h1, List.perm_iff_count]
    intro r
    rw [Option.getD_some]
    by_cases hr : p r = true
    · rw [(h2 r).2.1 ((hp r).1 hr), List.count_filter hr]
    · rw [(h2 r).2.2 (ht.resolve_left h0) (fun h => hr ((hp r).2 h))]
      exact (List.count_eq_zero.2 fun h => hr (List.mem_filter.1 h).2).symm

/-- **C134, nothing is hidden.**  For every text: a row of the last refresh whose label or value contains it is shown, as many times as
it is there, and no other row than those of the last refresh is. -/
theorem c134_shown {e : Engine} (hl : Lowers e.lower) (hs : Sorts e.sort) (evs : List TableEvent) (r : Cells) :
    (SearchTable.start.run e evs).rows.count r ≤ (lastLoad evs).count r ∧
    (HasWord e.lower (lastText evs) r → (SearchTable.start.run e evs).rows.count r = (lastLoad evs).count r) := by
  have g := good_run hl hs evs
  by_cases h0 : lastText evs = []
  · rw [SearchTable.rows, g.none h0, Option.getD_none, g.all.count_eq]
    exact ⟨Nat.le_refl _, fun _ => rfl⟩
  · obtain ⟨l, h1, h2⟩ := g.found h0
    rw [SearchTable.rows, h1]
    exact ⟨(h2 r).1, (h2 r).2.1⟩

/-! ## The order -/

theorem sort_inOrder {e : Engine} (hs : Sorts e.sort) (hc : Collates e.locale) {value desc : Bool} {l : List Cells}
    (hn : NumbersFirst e value l) : InOrder e value desc (e.sort (compareRows e value desc) l) := by
  have asym : ∀ a b, e.locale a b = -1 → e.locale b a ≠ -1 := fun a b h h' => hc.irrefl _ (hc.trans _ _ _ h h')
  have wk : Weak fun a b => before e (cell value a) (cell value b) := by
    constructor
    · intro a
      unfold before
      cases e.number (cell value a) with
      | none => exact hc.irrefl _
      | some x => exact Int.lt_irrefl x
    · intro a b c
      unfold before
      rcases e.number (cell value a) with _ | x <;> rcases e.number (cell value b) with _ | y <;>
        rcases e.number (cell value c) with _ | z <;> simp only <;> intro h1 h2
      · exact hc.trans _ _ _ h1 h2
      · exact h2
      · exact absurd h1 id
      · exact h1
      · trivial
      · exact absurd h2 id
      · trivial
      · omega
    · intro a b c
      unfold before
      rcases e.number (cell value a) with _ | x <;> rcases e.number (cell value b) with _ | y <;>
        rcases e.number (cell value c) with _ | z <;> simp only <;> intro h1
      · exact hc.weak _ _ _ h1
      · exact absurd h1 id
      · exact .inr trivial
      · exact absurd h1 id
      · exact .inl trivial
      · exact .inl trivial
      · exact .inr trivial
      · omega
  have key : ∀ a ∈ l, ∀ b ∈ l, before e (cell value a) (cell value b) →
      compareRows e value false a b = -1 ∧ compareRows e value false b a = 1 ∧ compareRows e value true a b = 1 ∧
        compareRows e value true b a = -1 := by
    intro a ha b hb
    unfold before compareRows
    have n1 := hn a ha b hb
    have n2 := hn b hb a ha
    rcases hx : e.number (cell value a) with _ | x <;> rcases hy : e.number (cell value b) with _ | y <;> simp only <;> intro h
    · have h3 : cell value a ≠ cell value b := fun e' => hc.irrefl _ (e' ▸ h)
      simp [hx, hy, h3, Ne.symm h3, h, asym _ _ h]
    · exact absurd h id
    · have h3 : cell value a ≠ cell value b := fun e' => by rw [e', hy] at hx; cases hx
      have h4 := n1 (by rw [hx]; simp) hy
      simp [hx, hy, h3, Ne.symm h3, h4, asym _ _ h4]
    · have : ¬ x > y := by omega
      simp [hx, hy, h, this]
  unfold InOrder
  cases desc with
  | false =>
    refine hs.sorted _ _ (fun a b => before e (cell value a) (cell value b)) wk fun a ha b hb h => ?_
    obtain ⟨h1, h2, -, -⟩ := key a ha b hb h
    omega
  | true =>
    refine hs.sorted _ _ (fun a b => before e (cell value b) (cell value a))
      ⟨wk.irrefl, fun a b c h1 h2 => wk.trans _ _ _ h2 h1, fun a b c h => (wk.weak _ _ _ h).symm⟩ fun a ha b hb h => ?_
    obtain ⟨-, -, h1, h2⟩ := key b hb a ha h
    omega

theorem grep_sublist (e : Engine) (t : Str) : ∀ (rows : List Cells) (k : Str → Option Str),
    (grepRows e t k rows).1.Sublist rows
  | [], _ => .slnil
  | (na, va) :: rows, k => by
    unfold grepRows
    split
    · exact (grep_sublist e t rows k).cons_cons _
    · simp only
      split
      · exact (grep_sublist e t rows _).cons_cons _
      · exact (grep_sublist e t rows _).cons _

theorem sorted_order (e : Engine) (s : SearchTable) : (s.sorted e).order = s.order ∧ (s.sorted e).last = s.last := by
  unfold SearchTable.sorted
  split
  · exact ⟨rfl, rfl⟩
  · rename_i h
    split <;> exact ⟨by simp [h], rfl⟩

theorem searched_order (e : Engine) (s : SearchTable) : (s.searched e).order = s.order ∧ (s.searched e).last = s.last := by
  unfold SearchTable.searched
  split
  · exact ⟨rfl, rfl⟩
  · split <;> exact ⟨rfl, rfl⟩

theorem order_run (e : Engine) (evs : List TableEvent) : (SearchTable.start.run e evs).order =
      (lastClick evs).map (fun v => (v, decide (clicks v evs % 2 = 1))) ∧
    ∀ v, (SearchTable.start.run e evs).last v = decide (clicks v evs % 2 = 1) := by
  induction evs using snoc_induction with
  | h0 => exact ⟨rfl, fun _ => rfl⟩
  | h1 evs ev ih =>
    have e1 : SearchTable.start.run e (evs ++ [ev]) = ((SearchTable.start.run e evs).step e ev).1 := by
      simp [SearchTable.run, List.foldl_append]
    rw [e1]
    generalize SearchTable.start.run e evs = s at ih ⊢
    cases ev with
    | load rows =>
      have h := searched_order e (({ s with all := rows, found := none } : SearchTable).sorted e)
      have h' := sorted_order e { s with all := rows, found := none }
      simp only [lastClick, clicks, List.foldl_append, List.foldl_cons, List.foldl_nil, SearchTable.step, SearchTable.draw]
      rw [h.1, h.2, h'.1, h'.2]
      exact ih
    | search t =>
      simp only [lastClick, clicks, List.foldl_append, List.foldl_cons, List.foldl_nil, SearchTable.step]
      split
      · exact ih
      · have h := searched_order e { s with text := some t }
        simp only [SearchTable.draw]
        rw [h.1, h.2]
        exact ih
    | click v =>
      have hn : s.nextOrder v = decide ((clicks v evs + 1) % 2 = 1) := by
        have flip : (!decide (clicks v evs % 2 = 1)) = decide ((clicks v evs + 1) % 2 = 1) := by
          rw [Bool.eq_iff_iff]; simp; omega
        rw [← flip]
        unfold SearchTable.nextOrder
        rw [ih.1, ih.2]
        cases lastClick evs with
        | none => rfl
        | some w =>
          simp only [Option.map_some]
          split
          · rename_i h; rw [h]
          · rfl
      have h := sorted_order e { s with order := some (v, s.nextOrder v), last := fun w => if w = v then s.nextOrder v else s.last w }
      simp only [SearchTable.step, SearchTable.draw]
      rw [h.1, h.2, hn]
      have c : ∀ w, clicks w (evs ++ [.click v]) = if v = w then clicks w evs + 1 else clicks w evs := fun w => by
        simp [clicks, List.foldl_append]
      have lc : lastClick (evs ++ [.click v]) = some v := by simp [lastClick, List.foldl_append]
      simp only [c, lc, Option.map_some, if_true]
      refine ⟨trivial, fun w => ?_⟩
      by_cases h : w = v
      · subst h; simp
      · rw [if_neg h, if_neg (Ne.symm h)]
        exact ih.2 w

/-- **C134, the order (partial).**  After every sequence of refreshes, searches and clicks that ends with a click or a refresh: if a
column was clicked, the rows that are shown are in order by the one clicked last, the numbers before the other texts, descending if it
was clicked an odd number of times, ascending otherwise.  Missing with respect to the
property as stated: a search that follows loses the order (`c134_refuted_order`); a column where the numbers are not the first in the
dictionary has no order (`c134_refuted_mixed`). -/
theorem c134_order_partial {e : Engine} (hl : Lowers e.lower) (hs : Sorts e.sort) (hc : Collates e.locale) (evs : List TableEvent)
    {ev : TableEvent} (hev : ∀ t, ev ≠ .search t) {value : Bool} (hv : lastClick (evs ++ [ev]) = some value)
    (hn : NumbersFirst e value (lastLoad (evs ++ [ev]))) :
    InOrder e value (decide (clicks value (evs ++ [ev]) % 2 = 1)) (SearchTable.start.run e (evs ++ [ev])).rows := by
  have ho := (order_run e (evs ++ [ev])).1
  rw [hv, Option.map_some] at ho
  generalize decide (clicks value (evs ++ [ev]) % 2 = 1) = desc at ho ⊢
  have e1 : SearchTable.start.run e (evs ++ [ev]) = ((SearchTable.start.run e evs).step e ev).1 := by
    simp [SearchTable.run, List.foldl_append]
  have g := good_run hl hs evs
  generalize hS : SearchTable.start.run e evs = s at *
  rw [e1] at ho ⊢
  cases ev with
  | search t => exact absurd rfl (hev t)
  | load rows =>
    have e2 : lastLoad (evs ++ [.load rows]) = rows := by simp [lastLoad, List.foldl_append]
    rw [e2] at hn
    have ho : s.order = some (value, desc) := by
      have : (((({ s with all := rows, found := none } : SearchTable).sorted e).searched e)).order = some (value, desc) := ho
      rw [(searched_order e _).1, (sorted_order e _).1] at this
      exact this
    have a : (({ s with all := rows, found := none } : SearchTable).sorted e).all = e.sort (compareRows e value desc) rows := by
      unfold SearchTable.sorted
      simp only [ho]
    have io := sort_inOrder (desc := desc) hs hc hn
    rw [← a] at io
    show InOrder e value desc (SearchTable.rows (SearchTable.searched e _))
    generalize (({ s with all := rows, found := none } : SearchTable).sorted e) = s' at io ⊢
    unfold SearchTable.searched
    split
    · exact io
    · split
      · exact io
      · exact List.Pairwise.sublist (grep_sublist _ _ _ _) io
  | click v =>
    have e2 : lastLoad (evs ++ [.click v]) = lastLoad evs := by simp [lastLoad, List.foldl_append]
    rw [e2] at hn
    have ho : some (v, s.nextOrder v) = some (value, desc) := by
      rw [← ho]
      exact (sorted_order e { s with order := some (v, s.nextOrder v), last := fun w => if w = v then s.nextOrder v else s.last w }).1.symm
    obtain ⟨rfl, rfl⟩ := Prod.mk.inj (Option.some.inj ho)
    show InOrder e v (s.nextOrder v) (SearchTable.rows (SearchTable.sorted e _))
    unfold SearchTable.sorted
    simp only
    cases hf : s.found with
    | none =>
      simp only [SearchTable.rows]
      rw [Option.getD_none]
      refine sort_inOrder hs hc fun a ha b hb => hn a (g.all.mem_iff.1 ha) b (g.all.mem_iff.1 hb)
    | some l =>
      simp only [SearchTable.rows]
      rw [Option.getD_some]
      have hm : ∀ a ∈ l, a ∈ lastLoad evs := by
        intro a ha
        have h0 : lastText evs ≠ [] := fun h => by rw [g.none h] at hf; cases hf
        obtain ⟨l', h1, h2⟩ := g.found h0
        rw [hf] at h1
        cases h1
        have := (h2 a).1
        exact List.count_pos_iff.1 (Nat.lt_of_lt_of_le (List.count_pos_iff.2 ha) this)
      exact sort_inOrder hs hc fun a ha b hb => hn a (hm a ha) b (hm b hb)

/-! ## What is shown of the rows -/

theorem grep_other (e : Engine) (t : Str) {na : Str} : ∀ (rows : List Cells) (k : Str → Option Str), na ∉ rows.map (·.1) →
    (grepRows e t k rows).2 na = k na
  | [], _, _ => rfl
  | (n, v) :: rows, k, h => by
    simp only [List.map_cons, List.mem_cons, not_or] at h
    unfold grepRows
    split
    · exact grep_other e t rows k h.2
    · simp only
      rw [grep_other e t rows _ h.2, format_other _ _ _ h.1]

/-- What the search leaves for the label of a row. -/
theorem grep_counter (e : Engine) (t : Str) {na va : Str} : ∀ (rows : List Cells) (k : Str → Option Str), (rows.map (·.1)).Nodup →
    (na, va) ∈ rows →
    (grepRows e t k rows).2 na = if contains t (e.lower na) then k na else (formatValue e.isNumber k na va).2 na
  | (n, v) :: rows, k, hd, h => by
    simp only [List.map_cons, List.nodup_cons] at hd
    rcases List.mem_cons.1 h with h | h
    · cases h
      unfold grepRows
      split
      · exact grep_other e t rows k hd.1
      · exact grep_other e t rows _ hd.1
    · have hne : na ≠ n := fun h' => hd.1 (h' ▸ List.mem_map.2 ⟨_, h, rfl⟩)
      unfold grepRows
      split
      · exact grep_counter e t rows k hd.2 h
      · simp only
        rw [grep_counter e t rows _ hd.2 h, format_other _ _ _ hne]
        split
        · rfl
        · unfold formatValue
          rw [show (if e.isNumber v then _ else _ : Str × (Str → Option Str)) = formatValue e.isNumber k n v from rfl,
            format_other _ _ _ hne]
          split
          · simp
          · exact format_other _ _ _ hne

theorem draw_mem (f : Str → Bool) {na x : Str} : ∀ (rows : List Cells) (k : Str → Option Str), (rows.map (·.1)).Nodup →
    (na, x) ∈ (drawRows f k rows).1 → ∃ va, (na, va) ∈ rows ∧ x = (formatValue f k na va).1
  | (n, v) :: rows, k, hd, h => by
    simp only [List.map_cons, List.nodup_cons] at hd
    unfold drawRows at h
    rcases List.mem_cons.1 h with h | h
    · cases h
      exact ⟨v, List.mem_cons_self, rfl⟩
    · obtain ⟨va, h1, h2⟩ := draw_mem f rows _ hd.2 h
      refine ⟨va, List.mem_cons_of_mem _ h1, ?_⟩
      rw [h2]
      exact format_congr _ _ (format_other _ _ _ fun h' => hd.1 (h' ▸ List.mem_map.2 ⟨_, h1, rfl⟩))

/-- **C134, what is shown of a row (partial).**  When the table is refreshed with rows of distinct labels: with no text to look for, and
for a row whose label contains the text, the value is shown with the mark of its change (C82).  A row that is found by its value is shown
without a mark: this is what is missing (`c134_refuted_arrow`). -/
theorem c134_marks_partial {e : Engine} (hs : Sorts e.sort) (hf : ∀ t, (60 : Byte) ∈ t → e.isNumber t = false) (s : SearchTable)
    {rows out : List Cells} (hd : (rows.map (·.1)).Nodup) (ho : (s.step e (.load rows)).2 = some out) {na x : Str}
    (hx : (na, x) ∈ out) :
    ∃ va, (na, va) ∈ rows ∧
      (s.text.getD [] = [] ∨ e.lower (s.text.getD []) <:+: e.lower na → x = (formatValue e.isNumber s.counters na va).1) ∧
      (s.text.getD [] ≠ [] ∧ ¬ e.lower (s.text.getD []) <:+: e.lower na → x = va) := by
  have P : (({ s with all := rows, found := none } : SearchTable).sorted e).all.Perm rows := by
    unfold SearchTable.sorted
    split
    · exact .refl _
    · exact hs.perm _ _
  have ht : (({ s with all := rows, found := none } : SearchTable).sorted e).text = s.text := by
    unfold SearchTable.sorted; split <;> rfl
  have hk : (({ s with all := rows, found := none } : SearchTable).sorted e).counters = s.counters := by
    unfold SearchTable.sorted; split <;> rfl
  have ho : ((((({ s with all := rows, found := none } : SearchTable).sorted e).searched e)).draw e).2 = some out := ho
  generalize (({ s with all := rows, found := none } : SearchTable).sorted e) = s' at *
  have hd' : (s'.all.map (·.1)).Nodup := (P.map _).nodup_iff.2 hd
  unfold SearchTable.draw at ho
  have plain : (s'.searched e).rows = s'.all ∧ (s'.searched e).counters = s'.counters → ∃ va, (na, va) ∈ rows ∧
      x = (formatValue e.isNumber s.counters na va).1 := by
    rintro ⟨h1, h2⟩
    rw [h1, h2, hk] at ho
    cases ho
    obtain ⟨va, h1, h2⟩ := draw_mem _ _ _ hd' hx
    exact ⟨va, P.mem_iff.1 h1, h2⟩
  rw [← ht]
  by_cases h0 : s'.text.getD [] = []
  · obtain ⟨va, h1, h2⟩ := plain (by
      unfold SearchTable.searched
      cases h : s'.text with
      | none => exact ⟨rfl, rfl⟩
      | some t =>
        rw [h] at h0
        simp only
        rw [if_pos (show t = [] from h0)]
        exact ⟨rfl, rfl⟩)
    exact ⟨va, h1, fun _ => h2, fun h => absurd h0 h.1⟩
  · cases h : s'.text with
    | none => rw [h] at h0; exact absurd rfl h0
    | some t =>
      rw [h] at h0
      have h0 : t ≠ [] := h0
      simp only [Option.getD_some]
      unfold SearchTable.searched at ho
      simp only [h, if_neg h0, SearchTable.rows, Option.getD_some, hk, Option.some.injEq] at ho
      subst ho
      have sub := grep_sublist e (e.lower t) s'.all s.counters
      obtain ⟨va, h1, h2⟩ := draw_mem _ _ _ (List.Nodup.sublist (sub.map _) hd') hx
      refine ⟨va, P.mem_iff.1 (sub.subset h1), fun h3 => ?_, fun h3 => ?_⟩
      · rw [h2]
        refine format_congr _ _ ?_
        rw [grep_counter e _ _ _ hd' (sub.subset h1), if_pos ((isIn_iff _ _).2 (h3.resolve_left h0))]
      · rw [h2]
        refine format_twice hf s.counters _ _ _ ?_
        rw [grep_counter e _ _ _ hd' (sub.subset h1), if_neg fun h4 => h3.2 ((isIn_iff _ _).1 h4)]

/-! ## A browser -/

/-- Insertion in a sorted list. -/
def insertRow (c : Cells → Cells → Int) (a : Cells) : List Cells → List Cells
  | [] => [a]
  | b :: l => if c a b < 0 then a :: b :: l else b :: insertRow c a l

def insertionSort (c : Cells → Cells → Int) (l : List Cells) : List Cells := l.foldl (fun r a => insertRow c a r) []

theorem insert_perm (c : Cells → Cells → Int) (a : Cells) : ∀ l, (insertRow c a l).Perm (a :: l)
  | [] => .refl _
  | b :: l => by
    unfold insertRow
    split
    · exact .refl _
    · exact ((insert_perm c a l).cons b).trans (.swap a b l)

theorem insertionSort_perm (c : Cells → Cells → Int) (l : List Cells) : (insertionSort c l).Perm l := by
  unfold insertionSort
  induction l using snoc_induction with
  | h0 => exact .refl _
  | h1 l a ih =>
    rw [List.foldl_append]
    exact (insert_perm c a _).trans ((ih.cons a).trans (List.perm_append_singleton a l).symm)

theorem insert_sorted {c : Cells → Cells → Int} {lt : Cells → Cells → Prop} (hw : Weak lt) {a : Cells} : ∀ l : List Cells,
    (∀ b ∈ l, (lt a b → c a b < 0) ∧ (lt b a → 0 < c a b)) → (l.Pairwise fun a b => ¬ lt b a) →
    (insertRow c a l).Pairwise fun a b => ¬ lt b a
  | [], _, _ => by simp [insertRow]
  | b :: l, hc, hp => by
    obtain ⟨h1, h2⟩ := List.pairwise_cons.1 hp
    unfold insertRow
    split
    · rename_i h
      have hb : ¬ lt b a := fun h' => by have := (hc b List.mem_cons_self).2 h'; omega
      refine List.pairwise_cons.2 ⟨fun x hx => ?_, hp⟩
      rcases List.mem_cons.1 hx with rfl | hx
      · exact hb
      · exact fun h' => (hw.weak x b a h').elim (h1 x hx) hb
    · rename_i h
      refine List.pairwise_cons.2 ⟨fun x hx => ?_, insert_sorted hw l (fun x hx => hc x (List.mem_cons_of_mem _ hx)) h2⟩
      rcases List.mem_cons.1 ((insert_perm c a l).mem_iff.1 hx) with rfl | hx
      · exact fun h' => h ((hc b List.mem_cons_self).1 h')
      · exact h1 x hx

theorem insertionSort_sorts : Sorts insertionSort where
  perm := insertionSort_perm
  sorted c l lt hw := by
    induction l using snoc_induction with
    | h0 => intro _; exact .nil
    | h1 l a ih =>
      intro hc
      have e : insertionSort c (l ++ [a]) = insertRow c a (insertionSort c l) := by simp [insertionSort, List.foldl_append]
      rw [e]
      refine insert_sorted hw _ (fun b hb => ?_) (ih fun x hx y hy => hc x (List.mem_append_left _ hx) y (List.mem_append_left _ hy))
      have hb := List.mem_append_left [a] ((insertionSort_perm c l).mem_iff.1 hb)
      exact ⟨fun h => (hc a (by simp) b hb h).1, fun h => (hc b hb a (by simp) h).2⟩

theorem jsLess_irrefl : ∀ a : Str, jsLess a a = false
  | [] => rfl
  | a :: r => by unfold jsLess; simp [jsLess_irrefl r]

theorem jsLess_trans : ∀ a b c : Str, jsLess a b = true → jsLess b c = true → jsLess a c = true
  | [], [], _, h, _ => by cases h
  | _ :: _, [], _, h, _ => by cases h
  | _, _ :: _, [], _, h => by cases h
  | [], _ :: _, _ :: _, _, _ => rfl
  | a :: r, b :: s, c :: t, h1, h2 => by
    unfold jsLess at h1 h2 ⊢
    have ih := jsLess_trans r s t
    simp only [UInt8.lt_iff_toNat_lt] at *
    grind

/-- A browser: ASCII letters, numerals, the order of the bytes. -/
def sampleEngine : Engine where
  lower t := t.map fun b => if 65 ≤ b ∧ b ≤ 90 then b + 32 else b
  isNumber := plainNumber
  number t := if plainNumber t then some (decVal t) else none
  locale a b := if a = b then 0 else if jsLess a b then -1 else 1
  sort := insertionSort

theorem sample_lowers : Lowers sampleEngine.lower where
  nil := rfl
  up v := by
    show List.map _ _ = _
    rw [List.map_append, show arrowUp.map (fun b : Byte => if 65 ≤ b ∧ b ≤ 90 then b + 32 else b) = arrowUp by decide +kernel]; rfl
  down v := by
    show List.map _ _ = _
    rw [List.map_append, show arrowDown.map (fun b : Byte => if 65 ≤ b ∧ b ≤ 90 then b + 32 else b) = arrowDown by decide +kernel]; rfl

theorem sample_collates : Collates sampleEngine.locale := by
  have key : ∀ a b, sampleEngine.locale a b = -1 ↔ jsLess a b = true := by
    intro a b
    show (if a = b then (0 : Int) else if jsLess a b then -1 else 1) = -1 ↔ _
    split
    · rename_i h; subst h; simp [jsLess_irrefl]
    · split <;> simp_all
  constructor
  · intro a h; rw [key, jsLess_irrefl] at h; cases h
  · intro a b c; simp only [key]; exact jsLess_trans a b c
  · intro a b c
    simp only [key]
    intro h
    by_cases h1 : a = b
    · subst h1; exact .inr h
    · rcases jsLess_total a b h1 with h2 | h2
      · exact .inl h2
      · exact .inr (jsLess_trans _ _ _ h2 h)

/-- Three rows, and their next values. -/
def sampleRows : List Cells := [(bs "HCHC", bs "000900"), (bs "PAPP", bs "00100"), (bs "PTEC", bs "HP..")]
def laterRows : List Cells := [(bs "HCHC", bs "000901"), (bs "PAPP", bs "00090"), (bs "PTEC", bs "HP..")]

/-- The last thing shown. -/
def SearchTable.shows (e : Engine) (evs : List TableEvent) (ev : TableEvent) : Option (List Cells) :=
  ((SearchTable.start.run e evs).step e ev).2

/-- Two clicks on the title of the values, then a search. -/
example : (SearchTable.start.run sampleEngine [.load sampleRows, .click true]).rows =
      [(bs "PTEC", bs "HP.."), (bs "HCHC", bs "000900"), (bs "PAPP", bs "00100")] ∧
    (SearchTable.start.run sampleEngine [.load sampleRows, .click true, .click true]).rows =
      [(bs "PAPP", bs "00100"), (bs "HCHC", bs "000900"), (bs "PTEC", bs "HP..")] ∧
    (SearchTable.start.run sampleEngine [.load sampleRows, .click true, .click true, .search (bs "hP")]).rows =
      [(bs "PTEC", bs "HP..")] := by decide +kernel

example : Unmarked (sampleEngine.lower (bs "hP")) := ⟨by decide +kernel, by decide +kernel, by decide +kernel⟩

example : NumbersFirst sampleEngine true sampleRows := by unfold NumbersFirst; decide +kernel

/-- **C134** as stated is false: a click made while the table is searched sorts only what was found; when the field is cleared, the rows
come back in the order of the meter, though the title of the column shows the order chosen. -/
theorem c134_refuted_order :
    let s := SearchTable.start.run sampleEngine [.load sampleRows, .search (bs "p"), .click true, .search []]
    s.order = some (true, true) ∧ s.rows = sampleRows ∧ ¬ InOrder sampleEngine true true s.rows := by
  refine ⟨by decide +kernel, by decide +kernel, ?_⟩
  rw [show SearchTable.rows _ = sampleRows by decide +kernel]
  intro h
  have h := (List.pairwise_cons.1 h).1 (bs "PTEC", bs "HP..") (by decide +kernel)
  refine h ?_
  simp only [if_true]
  unfold before
  rw [show sampleEngine.number (cell true (bs "HCHC", bs "000900")) = some 900 by decide +kernel,
    show sampleEngine.number (cell true (bs "PTEC", bs "HP..")) = none by decide +kernel]
  trivial

/-- **C134** as stated is false: a search for `span` shows, after a refresh, the rows whose value has changed. -/
theorem c134_refuted_markup :
    (SearchTable.start.run sampleEngine [.load sampleRows, .search (bs "span")]).rows = [] ∧
    (SearchTable.start.run sampleEngine [.load sampleRows, .search (bs "span"), .load laterRows]).rows =
      [(bs "HCHC", bs "000901"), (bs "PAPP", bs "00090")] ∧
    ∀ r ∈ laterRows, ¬ HasWord sampleEngine.lower (bs "span") r := by
  refine ⟨by decide +kernel, by decide +kernel, ?_⟩
  unfold HasWord
  decide +kernel

/-- **C134** as stated is false: with a search the arrows of the rows found by their value are not shown. -/
theorem c134_refuted_arrow :
    SearchTable.shows sampleEngine [.load sampleRows] (.load laterRows) =
      some [(bs "HCHC", bs "000901" ++ arrowUp), (bs "PAPP", bs "00090" ++ arrowDown), (bs "PTEC", bs "HP..")] ∧
    SearchTable.shows sampleEngine [.load sampleRows, .search (bs "0")] (.load laterRows) =
      some [(bs "HCHC", bs "000901"), (bs "PAPP", bs "00090")] := by decide +kernel

/-- **C134** as stated is false: three values that the comparison turns round, `9` before `10` before `1a` before `9`: whatever the
browser does, the rows are not in the order of the comparison. -/
theorem c134_refuted_mixed : ∀ l : List Cells, l.Perm [(bs "A", bs "9"), (bs "B", bs "10"), (bs "C", bs "1a")] →
    ¬ l.Pairwise fun a b => compareRows sampleEngine true false a b < 0 := by
  intro l hl
  have h9 : compareRows sampleEngine true false (bs "B", bs "10") (bs "A", bs "9") > 0 ∧
      compareRows sampleEngine true false (bs "C", bs "1a") (bs "B", bs "10") > 0 ∧
      compareRows sampleEngine true false (bs "A", bs "9") (bs "C", bs "1a") > 0 := by decide +kernel
  have len := hl.length_eq
  obtain ⟨x, y, z, rfl⟩ : ∃ x y z, l = [x, y, z] := by
    match l, len with
    | [x, y, z], _ => exact ⟨x, y, z, rfl⟩
  intro h
  have nd : [x, y, z].Nodup := hl.nodup_iff.2 (by decide +kernel)
  have mx := hl.mem_iff (a := x)
  have my := hl.mem_iff (a := y)
  have mz := hl.mem_iff (a := z)
  simp only [List.mem_cons, List.not_mem_nil, or_false, true_or, or_true, true_iff, eq_self] at mx my mz
  simp only [List.pairwise_cons, List.mem_cons, List.not_mem_nil, or_false, forall_eq_or_imp, forall_eq] at h
  have h1 := h.1.1
  have h2 := h.1.2
  have h3 := h.2.1
  simp only [List.nodup_cons, List.mem_cons, List.not_mem_nil, or_false, not_or] at nd
  rcases mx with rfl | rfl | rfl <;> rcases my with rfl | rfl | rfl <;> rcases mz with rfl | rfl | rfl <;>
    first | exact absurd rfl nd.1.1 | exact absurd rfl nd.1.2 | exact absurd rfl nd.2.1 | omega

end Wifinfo
