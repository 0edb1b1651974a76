import Verif.Spec.Html
import Verif.Model.Table
import Verif.Props.Scan
import Verif.Props.TicJson

/-!
# C108: the tables of the page show texts as texts
-/

namespace Wifinfo
open Spec

namespace Spec

/-- A text that is no markup: no `<` directly followed by a letter, `/`, `!` or `?`, and no `&` directly followed by a letter, a
digit or `#`. -/
def Tame : Str → Prop
  | [] => True
  | b :: r => ¬ (b = 60 ∧ opensTag r.head? = true) ∧ ¬ (b = 38 ∧ startsRef r.head? = true) ∧ Tame r

end Spec

/-- `Tame` is decidable. -/
def tameDec : (t : Str) → Decidable (Tame t)
  | [] => inferInstanceAs (Decidable True)
  | b :: r =>
    have := tameDec r
    inferInstanceAs (Decidable (¬ (b = 60 ∧ opensTag r.head? = true) ∧ ¬ (b = 38 ∧ startsRef r.head? = true) ∧ Tame r))

instance (t : Str) : Decidable (Tame t) := tameDec t

/-! ## The tokens of the pieces -/

theorem text_step (b : Byte) (r : Str) : htmlTokens .text (b :: r) =
    if b = 60 && opensTag r.head? then htmlTokens (.tag [] none) r
    else if b = 38 && startsRef r.head? then .ref :: htmlTokens .text r
    else .char b :: htmlTokens .text r := by
  rw [htmlTokens]

theorem text_run {t : Str} (ht : Tame t) {r : Str} (hr : opensTag r.head? = false ∧ startsRef r.head? = false) :
    htmlTokens .text (t ++ r) = asText t ++ htmlTokens .text r := by
  induction t with
  | nil => rfl
  | cons b t ih =>
    obtain ⟨h1, h2, h3⟩ := ht
    have hh : (t ++ r).head? = t.head? ∨ t = [] := by cases t <;> simp
    have e1 : ¬ ((b = 60 && opensTag (t ++ r).head?) = true) := by
      rcases hh with hh | rfl
      · rw [hh]; simpa using h1
      · simp [hr.1]
    have e2 : ¬ ((b = 38 && startsRef (t ++ r).head?) = true) := by
      rcases hh with hh | rfl
      · rw [hh]; simpa using h2
      · simp [hr.2]
    show htmlTokens .text (b :: (t ++ r)) = _
    rw [text_step, if_neg e1, if_neg e2, ih h3]
    rfl

/-- The quotation mark that is open after a piece of a tag. -/
def quoteEnd : Str → Option Byte → Str → Option Byte
  | _, q, [] => q
  | acc, none, b :: s => quoteEnd (b :: acc) (quoteAfter acc b) s
  | acc, some q, b :: s => quoteEnd (b :: acc) (if b = q then none else some q) s

theorem quoteEnd_append (s1 s2 : Str) : ∀ acc q, quoteEnd acc q (s1 ++ s2) = quoteEnd (s1.reverse ++ acc) (quoteEnd acc q s1) s2 := by
  induction s1 with
  | nil => intro acc q; cases q <;> rfl
  | cons b s ih =>
    intro acc q
    rw [List.reverse_cons, List.append_assoc]
    cases q with
    | none => exact ih _ _
    | some q => exact ih _ _

theorem quoteEnd_inside {q : Byte} {s : Str} (h : q ∉ s) : ∀ acc, quoteEnd acc (some q) s = some q := by
  induction s with
  | nil => intro acc; rfl
  | cons b s ih =>
    intro acc
    show quoteEnd (b :: acc) (if b = q then none else some q) s = _
    rw [if_neg (fun e => h (by rw [e]; exact List.mem_cons_self)), ih (fun hm => h (List.mem_cons_of_mem _ hm))]

theorem tag_run {s : Str} (hs : (62 : Byte) ∉ s) (r : Str) : ∀ acc q,
    htmlTokens (.tag acc q) (s ++ r) = htmlTokens (.tag (s.reverse ++ acc) (quoteEnd acc q s)) r := by
  induction s with
  | nil => intro acc q; cases q <;> rfl
  | cons b s ih =>
    intro acc q
    have hb : b ≠ 62 := fun e => hs (by rw [e]; exact List.mem_cons_self)
    have ih := ih (fun hm => hs (List.mem_cons_of_mem _ hm))
    rw [List.reverse_cons, List.append_assoc, List.cons_append]
    cases q with
    | none =>
      rw [show htmlTokens (.tag acc none) (b :: (s ++ r)) = htmlTokens (.tag (b :: acc) (quoteAfter acc b)) (s ++ r) by
        rw [htmlTokens, if_neg hb], ih]
      rfl
    | some q => exact ih _ _

/-- A complete tag. -/
structure IsTag (page raw : Str) : Prop where
  eq : page = 60 :: raw ++ [62]
  opens : opensTag raw.head? = true
  inside : (62 : Byte) ∉ raw
  quotes : quoteEnd [] none raw = none

theorem IsTag.run {page raw : Str} (h : IsTag page raw) (r : Str) : htmlTokens .text (page ++ r) = .tag raw :: htmlTokens .text r := by
  rw [h.eq, List.append_assoc, List.cons_append]
  rw [text_step]
  have : (raw ++ ([62] ++ r)).head? = raw.head? := by
    have := h.opens
    cases raw with
    | nil => cases this
    | cons => rfl
  rw [if_pos (by rw [this, h.opens]; rfl), tag_run h.inside, h.quotes, List.append_nil]
  show htmlTokens (.tag raw.reverse none) (62 :: r) = _
  rw [htmlTokens, if_pos rfl, List.reverse_reverse]

/-- What is in a cell, for the browser. -/
structure InCell (content : Str) (toks : List HtmlTok) : Prop where
  run : ∀ r, r.head? = some 60 → htmlTokens .text (content ++ r) = toks ++ htmlTokens .text r
  inner : ∀ t ∈ toks, t.isTag (bs "/tr") = false ∧ t.isTag (bs "tr") = false ∧ t.isTag (bs "/td") = false ∧
    t.isTag (bs "td") = false

theorem inCell_text {t : Str} (ht : Tame t) : InCell t (asText t) := by
  refine ⟨fun r hr => text_run ht ?_, fun x hx => ?_⟩
  · rw [hr]; exact ⟨rfl, rfl⟩
  · obtain ⟨b, -, rfl⟩ := List.mem_map.1 hx
    exact ⟨rfl, rfl, rfl, rfl⟩

theorem cell_fold {toks : List HtmlTok} (h : ∀ t ∈ toks, t.isTag (bs "/tr") = false ∧ t.isTag (bs "tr") = false ∧
    t.isTag (bs "/td") = false ∧ t.isTag (bs "td") = false) (v : TableView) :
    toks.foldr tableStep v = { v with cell := toks ++ v.cell } := by
  induction toks with
  | nil => rfl
  | cons t l ih =>
    obtain ⟨h1, h2, h3, h4⟩ := h t List.mem_cons_self
    rw [List.foldr_cons, ih fun x hx => h x (List.mem_cons_of_mem _ hx)]
    unfold tableStep
    rw [h1, h2, h3, h4]
    rfl

/-- The opening tag of a cell of this column is one. -/
def GoodColumn (c : Column) : Prop := ∃ raw, IsTag (tdOpen c) raw ∧ tagName raw = bs "td"

theorem td_close : IsTag (bs "</td>") (bs "/td") := ⟨by decide +kernel, by decide +kernel, by decide +kernel, by decide +kernel⟩
theorem tr_close : IsTag (bs "</tr>") (bs "/tr") := ⟨by decide +kernel, by decide +kernel, by decide +kernel, by decide +kernel⟩

theorem digits_no {n : Nat} {b : Byte} (hb : digit b = false) : b ∉ decText n := by
  intro h
  have := (decText_spec n).2.1
  unfold numeral at this
  rw [List.all_eq_true.1 this b h] at hb
  cases hb

theorem tr_open (k : Nat) : ∃ raw, IsTag (bs "<tr  data-index=\"" ++ decText k ++ bs "\">") raw ∧ tagName raw = bs "tr" := by
  refine ⟨bs "tr  data-index=\"" ++ decText k ++ [34], ⟨?_, ?_, ?_, ?_⟩, ?_⟩
  · rw [show bs "<tr  data-index=\"" = 60 :: bs "tr  data-index=\"" by decide +kernel, show bs "\">" = [34, 62] by decide +kernel]
    simp
  · rw [show bs "tr  data-index=\"" = 116 :: bs "r  data-index=\"" by decide +kernel]
    rfl
  · simp only [List.mem_append, not_or]
    exact ⟨⟨by decide +kernel, digits_no (by decide)⟩, by decide⟩
  · rw [quoteEnd_append, quoteEnd_append, show quoteEnd [] none (bs "tr  data-index=\"") = some 34 by decide +kernel,
      quoteEnd_inside (digits_no (by decide))]
    rfl
  · rw [show bs "tr  data-index=\"" = 116 :: 114 :: 32 :: bs " data-index=\"" by decide +kernel]
    rw [show bs "tr" = [116, 114] by decide +kernel]
    rfl

theorem step_tag {raw : Str} (v : TableView) :
    (tagName raw = bs "/tr" → tableStep (.tag raw) v = { v with cells := [] }) ∧
    (tagName raw = bs "tr" → tableStep (.tag raw) v = { v with rows := v.cells :: v.rows }) ∧
    (tagName raw = bs "/td" → tableStep (.tag raw) v = { v with cell := [] }) ∧
    (tagName raw = bs "td" → tableStep (.tag raw) v = { v with cells := v.cell :: v.cells }) := by
  have e : ∀ n, (HtmlTok.tag raw).isTag n = decide (tagName raw = n) := fun _ => rfl
  unfold tableStep
  simp only [e]
  refine ⟨fun h => ?_, fun h => ?_, fun h => ?_, fun h => ?_⟩ <;> rw [h]
  · rw [if_pos (by simp)]
  · rw [if_neg (by decide +kernel), if_pos (by simp)]
  · rw [if_neg (by decide +kernel), if_neg (by decide +kernel), if_pos (by simp)]
  · rw [if_neg (by decide +kernel), if_neg (by decide +kernel), if_neg (by decide +kernel), if_pos (by simp)]

/-- The cells of a row. -/
theorem cells_run {cells : List (Column × Str)} {toks : List (List HtmlTok)} (hc : ∀ x ∈ cells, GoodColumn x.1)
    (ht : cells.length = toks.length) (hx : ∀ p ∈ cells.zip toks, InCell p.1.2 p.2) (r : Str) :
    ∃ l, htmlTokens .text (cells.flatMap tdHtml ++ r) = l ++ htmlTokens .text r ∧
      ∀ v : TableView, ∃ x, l.foldr tableStep v = { v with cells := toks ++ v.cells, cell := x } := by
  induction cells generalizing toks with
  | nil =>
    cases toks with
    | nil => exact ⟨[], rfl, fun v => ⟨v.cell, rfl⟩⟩
    | cons => cases ht
  | cons c cs ih =>
    cases toks with
    | nil => cases ht
    | cons t ts =>
      obtain ⟨l, h1, h2⟩ := ih (fun x hx' => hc x (List.mem_cons_of_mem _ hx')) (Nat.succ.inj ht)
        (fun p hp => hx p (List.mem_cons_of_mem _ hp))
      obtain ⟨raw, g1, g2⟩ := hc c List.mem_cons_self
      have hi := hx (c, t) List.mem_cons_self
      refine ⟨.tag raw :: (t ++ .tag (bs "/td") :: l), ?_, fun v => ?_⟩
      · rw [List.flatMap_cons]
        unfold tdHtml
        simp only [List.append_assoc]
        rw [g1.run, hi.run _ (by rw [show bs "</td>" = 60 :: bs "/td>" by decide +kernel]; rfl), td_close.run]
        have : htmlTokens .text (List.flatMap (fun x => tdOpen x.1 ++ (x.2 ++ bs "</td>")) cs ++ r) = l ++ htmlTokens .text r := by
          rw [← h1]
          congr 2
          unfold tdHtml
          simp
        rw [this]
        simp
      · obtain ⟨x, h3⟩ := h2 v
        refine ⟨t, ?_⟩
        rw [List.foldr_cons, List.foldr_append, List.foldr_cons, h3, (step_tag (raw := bs "/td") _).2.2.1 (by decide +kernel), cell_fold hi.inner,
          (step_tag _).2.2.2 g2]
        simp

theorem rows_run {rows : List (List (Column × Str))} {toks : List (List (List HtmlTok))} (hc : ∀ r ∈ rows, ∀ x ∈ r, GoodColumn x.1)
    (ht : rows.length = toks.length) (hx : ∀ q ∈ rows.zip toks, q.1.length = q.2.length ∧ ∀ p ∈ q.1.zip q.2, InCell p.1.2 p.2) :
    ∀ k, ∃ l, htmlTokens .text (trsHtml k rows) = l ∧ ∀ v : TableView, ∃ c x, l.foldr tableStep v = ⟨toks ++ v.rows, c, x⟩ := by
  induction rows generalizing toks with
  | nil =>
    intro k
    cases toks with
    | nil => exact ⟨[], rfl, fun v => ⟨v.cells, v.cell, rfl⟩⟩
    | cons => cases ht
  | cons row rs ih =>
    intro k
    cases toks with
    | nil => cases ht
    | cons t ts =>
      obtain ⟨l, h1, h2⟩ := ih (fun x hx' => hc x (List.mem_cons_of_mem _ hx')) (Nat.succ.inj ht)
        (fun p hp => hx p (List.mem_cons_of_mem _ hp)) (k + 1)
      obtain ⟨e1, e2⟩ := hx (row, t) List.mem_cons_self
      obtain ⟨raw, g1, g2⟩ := tr_open k
      obtain ⟨m, h3, h4⟩ := cells_run (hc row List.mem_cons_self) e1 e2 (bs "</tr>" ++ trsHtml (k + 1) rs)
      refine ⟨.tag raw :: (m ++ .tag (bs "/tr") :: l), ?_, fun v => ?_⟩
      · show htmlTokens .text (trHtml k row ++ trsHtml (k + 1) rs) = _
        unfold trHtml
        rw [List.append_assoc, List.append_assoc, g1.run, h3, tr_close.run, h1]
      · obtain ⟨c, x, h5⟩ := h2 v
        obtain ⟨y, h6⟩ := h4 ⟨ts ++ v.rows, [], x⟩
        refine ⟨t, y, ?_⟩
        rw [List.foldr_cons, List.foldr_append, List.foldr_cons, h5, (step_tag (raw := bs "/tr") _).1 (by decide +kernel), h6, (step_tag _).2.1 g2]
        simp

/-- **C108**, any table: if the browser sees `toks` in the cells, it sees them in the table. -/
theorem table_run {rows : List (List (Column × Str))} {toks : List (List (List HtmlTok))} (n : Nat) (h0 : rows ≠ [])
    (hc : ∀ r ∈ rows, ∀ x ∈ r, GoodColumn x.1) (ht : rows.length = toks.length)
    (hx : ∀ q ∈ rows.zip toks, q.1.length = q.2.length ∧ ∀ p ∈ q.1.zip q.2, InCell p.1.2 p.2) :
    tableRows (tableHtml n rows) = toks := by
  unfold tableHtml tableRows
  rw [if_neg h0]
  obtain ⟨l, h1, h2⟩ := rows_run hc ht hx 0
  obtain ⟨c, x, h3⟩ := h2 ⟨[], [], []⟩
  rw [h1, h3]
  simp

/-! ## The columns, the numbers, the bar -/

theorem good_columns : GoodColumn ⟨some (bs "col-sm-5"), none⟩ ∧ GoodColumn ⟨some (bs "col-sm-4"), some (bs "center")⟩ ∧
    GoodColumn ⟨some (bs "col-sm-3"), some (bs "center")⟩ ∧ GoodColumn leftColumn := by
  refine ⟨⟨bs "td  class=\"col-sm-5\" style=\"\"   ", ⟨?_, ?_, ?_, ?_⟩, ?_⟩,
    ⟨bs "td  class=\"col-sm-4\" style=\"text-align: center; \"   ", ⟨?_, ?_, ?_, ?_⟩, ?_⟩,
    ⟨bs "td  class=\"col-sm-3\" style=\"text-align: center; \"   ", ⟨?_, ?_, ?_, ?_⟩, ?_⟩,
    ⟨bs "td  style=\"text-align: left; \"   ", ⟨?_, ?_, ?_, ?_⟩, ?_⟩⟩ <;> decide +kernel

theorem tame_of {t : Str} (h : ∀ b ∈ t, b ≠ 60 ∧ b ≠ 38) : Tame t := by
  induction t with
  | nil => trivial
  | cons b r ih =>
    obtain ⟨h1, h2⟩ := h b List.mem_cons_self
    exact ⟨fun e => h1 e.1, fun e => h2 e.1, ih fun x hx => h x (List.mem_cons_of_mem _ hx)⟩

theorem decText_bytes (n : Nat) : ∀ b ∈ decText n, digit b = true := by
  have := (decText_spec n).2.1
  unfold numeral at this
  exact List.all_eq_true.1 this

theorem decInt_bytes (n : Int) : ∀ b ∈ decInt n, b = 45 ∨ digit b = true := by
  intro b hb
  unfold decInt at hb
  split at hb
  · rcases List.mem_cons.1 hb with h | h
    · exact .inl h
    · exact .inr (decText_bytes _ b h)
  · exact .inr (decText_bytes _ b hb)

theorem decInt_no {n : Int} {b : Byte} (h1 : b ≠ 45) (h2 : digit b = false) : b ∉ decInt n := by
  intro h
  rcases decInt_bytes n b h with h | h
  · exact h1 h
  · rw [h] at h2; cases h2

theorem tame_decInt (n : Int) : Tame (decInt n) := by
  apply tame_of
  intro b hb
  constructor <;> rintro rfl
  · exact decInt_no (by decide) (by decide) hb
  · exact decInt_no (by decide) (by decide) hb

theorem colour_cases (s : Int) : rssiColour s = bs "success" ∨ rssiColour s = bs "info" ∨ rssiColour s = bs "warning" ∨
    rssiColour s = bs "danger" := by
  unfold rssiColour
  dsimp only
  split
  · exact .inr (.inr (.inr rfl))
  · split
    · exact .inr (.inr (.inl rfl))
    · split
      · exact .inr (.inl rfl)
      · exact .inl rfl

/-- The second tag of the bar. -/
def barTag (s : Int) : Str :=
  bs "div class='progress-bar progress-bar-" ++ rssiColour s ++
    bs "' role='progressbar' aria-valuemin='0' aria-valuemax='100' aria-valuenow='" ++ decInt s ++ bs "' style='width:" ++
    decInt s ++ bs "%'"

theorem bar_tag (s : Int) : IsTag (60 :: barTag s ++ [62]) (barTag s) := by
  have hs : ∀ c, c = bs "success" ∨ c = bs "info" ∨ c = bs "warning" ∨ c = bs "danger" →
      (62 : Byte) ∉ c ∧ (39 : Byte) ∉ c := by
    rintro c (rfl | rfl | rfl | rfl) <;> decide +kernel
  obtain ⟨c1, c2⟩ := hs _ (colour_cases s)
  refine ⟨rfl, ?_, ?_, ?_⟩
  · unfold barTag
    rw [show bs "div class='progress-bar progress-bar-" = 100 :: bs "iv class='progress-bar progress-bar-" by decide +kernel]
    rfl
  · unfold barTag
    simp only [List.mem_append, not_or]
    exact ⟨⟨⟨⟨⟨⟨by decide +kernel, c1⟩, by decide +kernel⟩, decInt_no (by decide) (by decide)⟩, by decide +kernel⟩,
      decInt_no (by decide) (by decide)⟩, by decide +kernel⟩
  · unfold barTag
    rw [show bs "' role='progressbar' aria-valuemin='0' aria-valuemax='100' aria-valuenow='" = [39, 32, 114, 111, 108, 101, 61, 39, 112, 114, 111, 103, 114, 101, 115, 115, 98, 97, 114, 39, 32, 97, 114, 105, 97, 45, 118, 97, 108, 117, 101, 109, 105, 110, 61, 39, 48, 39, 32, 97, 114, 105, 97, 45, 118, 97, 108, 117, 101, 109, 97, 120, 61, 39, 49, 48, 48, 39, 32, 97, 114, 105, 97, 45, 118, 97, 108, 117, 101, 110, 111, 119, 61, 39] by decide +kernel,
      show bs "' style='width:" = [39, 32, 115, 116, 121, 108, 101, 61, 39, 119, 105, 100, 116, 104, 58] by decide +kernel,
      show bs "%'" = [37, 39] by decide +kernel]
    have k1 : ∀ acc, quoteEnd acc (some 39) [39, 32, 114, 111, 108, 101, 61, 39, 112, 114, 111, 103, 114, 101, 115, 115, 98, 97, 114, 39, 32, 97, 114, 105, 97, 45, 118, 97, 108, 117, 101, 109, 105, 110, 61, 39, 48, 39, 32, 97, 114, 105, 97, 45, 118, 97, 108, 117, 101, 109, 97, 120, 61, 39, 49, 48, 48, 39, 32, 97, 114, 105, 97, 45, 118, 97, 108, 117, 101, 110, 111, 119, 61, 39] = some 39 := fun acc => rfl
    have k2 : ∀ acc, quoteEnd acc (some 39) [39, 32, 115, 116, 121, 108, 101, 61, 39, 119, 105, 100, 116, 104, 58] = some 39 := fun acc => rfl
    have k3 : ∀ acc, quoteEnd acc (some 39) [37, 39] = none := fun acc => rfl
    have k4 : ∀ acc, quoteEnd acc (some 39) (decInt s) = some 39 := quoteEnd_inside (decInt_no (by decide) (by decide))
    simp only [quoteEnd_append]
    rw [show quoteEnd [] none (bs "div class='progress-bar progress-bar-") = some 39 by decide +kernel, quoteEnd_inside c2,
      k1, k4, k2, k4, k3]

theorem shown_append (a b : List HtmlTok) : visibleText (a ++ b) = visibleText a ++ visibleText b := List.filterMap_append

theorem shown_asText (t : Str) : visibleText (asText t) = t := by
  induction t with
  | nil => rfl
  | cons b t ih =>
    show b :: visibleText (asText t) = _
    rw [ih]

/-- The length of a bar for a strength in dBm: empty up to -100, full from -50 on, 2 % for each dBm between. -/
def BarLength (n : Int) (pct : Nat) : Prop :=
  n ≤ -100 ∧ pct = 0 ∨ -100 ≤ n ∧ n ≤ -50 ∧ (pct : Int) = 2 * (n + 100) ∨ -50 ≤ n ∧ pct = 100

/-- Its colour: green from -65 on, blue from -75, orange from -85, red below (classes of Bootstrap). -/
def BarColour (n : Int) (col : Str) : Prop :=
  -65 ≤ n ∧ col = bs "success" ∨ -75 ≤ n ∧ n < -65 ∧ col = bs "info" ∨ -85 ≤ n ∧ n < -75 ∧ col = bs "warning" ∨
    n < -85 ∧ col = bs "danger"

/-- The bar of the strength `n`. -/
def IsBar (n : Int) (toks : List HtmlTok) : Prop :=
  ∃ pct col, BarLength n pct ∧ BarColour n col ∧
    HtmlTok.tag (bs "div class='progress-bar progress-bar-" ++ col ++
      bs "' role='progressbar' aria-valuemin='0' aria-valuemax='100' aria-valuenow='" ++ decText pct ++ bs "' style='width:" ++
      decText pct ++ bs "%'") ∈ toks

theorem bar_length (n : Int) : ∃ pct : Nat, rssiSignal n = pct ∧ BarLength n pct := by
  unfold rssiSignal BarLength
  refine ⟨(min (max (2 * (n + 100)) 0) 100).toNat, ?_, ?_⟩ <;> omega

theorem bar_colour (n : Int) : BarColour n (rssiColour (rssiSignal n)) := by
  unfold BarColour rssiColour rssiSignal
  dsimp only
  by_cases h1 : n < -85
  · rw [if_pos (by omega)]; simp [h1]
  · rw [if_neg (by omega)]
    by_cases h2 : n < -75
    · rw [if_pos (by omega)]; simp [h2]; omega
    · rw [if_neg (by omega)]
      by_cases h3 : n < -65
      · rw [if_pos (by omega)]; simp [h3]; omega
      · rw [if_neg (by omega)]; simp; omega

/-- The cell of the quality shows the strength. -/
theorem inCell_bar (n : Int) : ∃ toks, InCell (rssiHtml n) toks ∧ visibleText toks = decInt n ++ bs "dB" ∧ IsBar n toks := by
  have t1 : IsTag (bs "<div class='progress progress-tbl'>") (bs "div class='progress progress-tbl'") :=
    ⟨by decide +kernel, by decide +kernel, by decide +kernel, by decide +kernel⟩
  have t3 : IsTag (bs "</div>") (bs "/div") := ⟨by decide +kernel, by decide +kernel, by decide +kernel, by decide +kernel⟩
  have tame : Tame (decInt n ++ bs "dB") := by
    apply tame_of
    intro b hb
    rcases List.mem_append.1 hb with hb | hb
    · constructor <;> rintro rfl
      · exact decInt_no (by decide) (by decide) hb
      · exact decInt_no (by decide) (by decide) hb
    · have : ∀ b ∈ bs "dB", b ≠ 60 ∧ b ≠ 38 := by decide +kernel
      exact this b hb
  refine ⟨.tag (bs "div class='progress progress-tbl'") :: .tag (barTag (rssiSignal n)) :: (asText (decInt n ++ bs "dB") ++
    [.tag (bs "/div"), .tag (bs "/div")]), ⟨fun r _ => ?_, ?_⟩, ?_, ?_⟩
  · have e : rssiHtml n = bs "<div class='progress progress-tbl'>" ++ ((60 :: barTag (rssiSignal n) ++ [62]) ++
        ((decInt n ++ bs "dB") ++ (bs "</div>" ++ bs "</div>"))) := by
      unfold rssiHtml barTag
      dsimp only
      rw [show bs "<div class='progress-bar " = 60 :: bs "div class='progress-bar " by decide +kernel,
        show bs "div class='progress-bar progress-bar-" = bs "div class='progress-bar " ++ bs "progress-bar-" by decide +kernel,
        show bs "' role='progressbar' aria-valuemin='0' aria-valuemax='100' aria-valuenow='" =
          bs "' role='progressbar' aria-valuemin='0' aria-valuemax='100' " ++ bs "aria-valuenow='" by decide +kernel,
        show bs "%'>" = bs "%'" ++ [62] by decide +kernel,
        show bs "dB</div></div>" = bs "dB" ++ (bs "</div>" ++ bs "</div>") by decide +kernel]
      simp only [List.append_assoc, List.cons_append]
    rw [e]
    simp only [List.append_assoc]
    rw [t1.run]
    have := (bar_tag (rssiSignal n)).run
    simp only [List.append_assoc] at this
    rw [this, ← List.append_assoc (decInt n),
      text_run tame (by rw [show bs "</div>" = 60 :: bs "/div>" by decide +kernel]; exact ⟨rfl, rfl⟩), t3.run, t3.run]
    simp
  · intro t ht
    simp only [List.mem_cons, List.mem_append, List.not_mem_nil, or_false] at ht
    have hn : tagName (barTag (rssiSignal n)) = bs "div" := by
      unfold barTag
      rw [show bs "div class='progress-bar progress-bar-" = 100 :: 105 :: 118 :: 32 :: bs "class='progress-bar progress-bar-"
        by decide +kernel, show bs "div" = [100, 105, 118] by decide +kernel]
      rfl
    have e : ∀ m, (HtmlTok.tag (barTag (rssiSignal n))).isTag m = decide (tagName (barTag (rssiSignal n)) = m) := fun _ => rfl
    rcases ht with rfl | rfl | ht | rfl | rfl
    · decide +kernel
    · simp only [e, hn]; decide +kernel
    · obtain ⟨b, -, rfl⟩ := List.mem_map.1 ht
      exact ⟨rfl, rfl, rfl, rfl⟩
    · decide +kernel
    · decide +kernel
  · show visibleText (asText (decInt n ++ bs "dB") ++ _) = _
    rw [shown_append, shown_asText]
    show _ ++ [] = _
    rw [List.append_nil]
  · obtain ⟨pct, e, hl⟩ := bar_length n
    refine ⟨pct, _, hl, bar_colour n, List.mem_cons_of_mem _ ?_⟩
    have : decInt (rssiSignal n) = decText pct := by
      rw [e]; unfold decInt; rw [if_neg (by omega)]; rfl
    unfold barTag
    rw [this]
    exact List.mem_cons_self

/-! ## The fields of the rows -/

theorem text_int (w : Browser) (n : Int) : w.text (.int n) = decInt n := by
  cases n with
  | ofNat n =>
    show decText n = decInt (Int.ofNat n)
    unfold decInt
    rw [if_neg (by simp)]
    rfl
  | negSucc n =>
    show 45 :: decText (n + 1) = decInt (Int.negSucc n)
    unfold decInt
    rw [if_pos (Int.negSucc_lt_zero n)]
    rfl

theorem value_naVa (w : Browser) (n : Str) (v : JVal) (hv : v ≠ .null) :
    w.value (.obj [(bs "na", .str n), (bs "va", v)]) (bs "na") = w.recode n ∧
    w.value (.obj [(bs "na", .str n), (bs "va", v)]) (bs "va") = w.text v := by
  have d : decide (bs "va" = bs "na") = false := by decide +kernel
  constructor
  · unfold Browser.value
    simp only [List.reverse_cons, List.reverse_nil, List.nil_append, List.cons_append]
    rw [List.find?_cons_of_neg (by rw [d]; decide), List.find?_cons_of_pos (by simp)]
    rfl
  · unfold Browser.value
    simp only [List.reverse_cons, List.reverse_nil, List.nil_append, List.cons_append]
    rw [List.find?_cons_of_pos (by simp)]
    cases v <;> first | rfl | exact absurd rfl hv

/-- A row of the answer to `GET /wifiscan.json`. -/
def apRow (a : Ap) : JVal :=
  .obj [(bs "ssid", .str a.ssid), (bs "rssi", .int a.rssi), (bs "bssi", .str a.bssid), (bs "channel", .int a.channel),
    (bs "encryptionType", .int a.encryption)]

theorem value_ap (w : Browser) (a : Ap) : w.value (apRow a) (bs "ssid") = w.recode a.ssid ∧
    w.value (apRow a) (bs "rssi") = decInt a.rssi ∧ rowRssi (apRow a) = a.rssi := by
  have n1 : decide (bs "encryptionType" = bs "ssid") = false := by decide +kernel
  have n2 : decide (bs "channel" = bs "ssid") = false := by decide +kernel
  have n3 : decide (bs "bssi" = bs "ssid") = false := by decide +kernel
  have n4 : decide (bs "rssi" = bs "ssid") = false := by decide +kernel
  have m1 : decide (bs "encryptionType" = bs "rssi") = false := by decide +kernel
  have m2 : decide (bs "channel" = bs "rssi") = false := by decide +kernel
  have m3 : decide (bs "bssi" = bs "rssi") = false := by decide +kernel
  unfold Browser.value rowRssi apRow
  simp only [List.reverse_cons, List.reverse_nil, List.nil_append, List.cons_append]
  refine ⟨?_, ?_, ?_⟩
  · rw [List.find?_cons_of_neg (by rw [n1]; decide), List.find?_cons_of_neg (by rw [n2]; decide),
      List.find?_cons_of_neg (by rw [n3]; decide), List.find?_cons_of_neg (by rw [n4]; decide),
      List.find?_cons_of_pos (by simp)]
    rfl
  · rw [List.find?_cons_of_neg (by rw [m1]; decide), List.find?_cons_of_neg (by rw [m2]; decide),
      List.find?_cons_of_neg (by rw [m3]; decide), List.find?_cons_of_pos (by simp)]
    exact text_int w _
  · rw [List.find?_cons_of_neg (by rw [m1]; decide), List.find?_cons_of_neg (by rw [m2]; decide),
      List.find?_cons_of_neg (by rw [m3]; decide), List.find?_cons_of_pos (by simp)]

/-! ## The three tables -/

/-- The table of the networks, when the browser sees `toks a` in the cell of the name of `a`. -/
theorem scan_table (w : Browser) (bar : Int → List HtmlTok) (hb : ∀ n, InCell (rssiHtml n) (bar n)) (aps : List Ap) (h0 : aps ≠ [])
    (toks : Ap → List HtmlTok) (ht : ∀ a ∈ aps, InCell (w.recode a.ssid) (toks a)) :
    tableRows (w.scanTable (aps.map apRow)) = aps.map fun a => [toks a, bar a.rssi, asText (decInt a.rssi)] := by
  obtain ⟨g1, g2, g3, -⟩ := good_columns
  unfold Browser.scanTable
  rw [List.map_map]
  apply table_run
  · simpa using h0
  · intro r hr x hx
    obtain ⟨a, -, rfl⟩ := List.mem_map.1 hr
    simp only [Function.comp, List.mem_cons, List.not_mem_nil, or_false] at hx
    rcases hx with rfl | rfl | rfl
    · exact g1
    · exact g2
    · exact g3
  · simp
  · intro q hq
    rw [List.zip_map', List.mem_map] at hq
    obtain ⟨a, ha, rfl⟩ := hq
    obtain ⟨v1, v2, v3⟩ := value_ap w a
    refine ⟨rfl, fun p hp => ?_⟩
    simp only [Function.comp, List.zip_cons_cons, List.zip_nil_right, List.mem_cons, List.not_mem_nil, or_false] at hp
    rcases hp with rfl | rfl | rfl
    · show InCell (w.value (apRow a) (bs "ssid")) _
      rw [v1]; exact ht a ha
    · show InCell (rssiHtml (rowRssi (apRow a))) _
      rw [v3]; exact hb _
    · show InCell (w.value (apRow a) (bs "rssi")) _
      rw [v2]; exact inCell_text (tame_decInt _)

/-- **C108 (partial), the networks.** The list has one row for each network, whatever the order in which it is sorted, and the row
shows the name of the network as it is, its strength on a bar of the length and the colour of this strength, and its strength.

Partial: the names need no JSON escape, are UTF-8 and hold no markup (`c108_refuted_markup`, `c108_refuted_reference`,
`c102_refuted_quote`, `c102_refuted_latin`). -/
theorem c108_scan_partial (w : Browser) (aps : List Ap) (h0 : aps ≠ []) (hp : ∀ a ∈ aps, Plain a.ssid ∧ Plain a.bssid)
    (hu : ∀ a ∈ aps, IsUtf8 a.ssid ∧ Tame a.ssid) :
    ∃ (row : Ap → JVal) (bar : Int → List HtmlTok), parseJson (wifiScanJson (some aps) false) = some (.arr (aps.map row)) ∧
      (∀ n, visibleText (bar n) = decInt n ++ bs "dB" ∧ IsBar n (bar n)) ∧
      ∀ sorted : List Ap, sorted.Perm aps → tableRows (w.scanTable (sorted.map row)) =
        sorted.map fun a => [asText a.ssid, bar a.rssi, asText (decInt a.rssi)] := by
  refine ⟨apRow, fun n => (inCell_bar n).choose, (c61_scan_partial aps).2 hp, fun n => (inCell_bar n).choose_spec.2,
    fun sorted hs => ?_⟩
  refine scan_table w _ (fun n => (inCell_bar n).choose_spec.1) sorted (fun e => h0 ?_) (fun a => asText a.ssid) fun a ha => ?_
  · rw [e] at hs; exact hs.symm.eq_nil
  · obtain ⟨h1, h2⟩ := hu a (hs.mem_iff.1 ha)
    rw [w.same _ h1]
    exact inCell_text h2

/-- No network. -/
theorem c108_scan_none (w : Browser) : tableRows (w.scanTable []) = [[asText (bs "No matching records found")]] := by
  show tableRows (tableHtml 3 []) = _
  decide +kernel

/-- **C108** as stated is false: whoever opens a network called `<…>` in the neighbourhood puts this tag into the page. -/
theorem c108_refuted_markup (w : Browser) (aps : List Ap) (hp : ∀ a ∈ aps, Plain a.ssid ∧ Plain a.bssid) {a : Ap} (ha : a ∈ aps)
    {raw : Str} (hs : a.ssid = 60 :: raw ++ [62]) (hr : opensTag raw.head? = true) (hq : ∀ b ∈ raw, b ≠ 62 ∧ b ≠ 34 ∧ b ≠ 39)
    (hn : tagName raw ≠ bs "/tr" ∧ tagName raw ≠ bs "tr" ∧ tagName raw ≠ bs "/td" ∧ tagName raw ≠ bs "td")
    (hu : IsUtf8 a.ssid) (ho : ∀ x ∈ aps, x ≠ a → IsUtf8 x.ssid ∧ Tame x.ssid) :
    ∃ row : Ap → JVal, parseJson (wifiScanJson (some aps) false) = some (.arr (aps.map row)) ∧
      ∀ sorted : List Ap, sorted.Perm aps → ∃ cells ∈ tableRows (w.scanTable (sorted.map row)), cells.head? = some [.tag raw] := by
  refine ⟨apRow, (c61_scan_partial aps).2 hp, fun sorted hsort => ?_⟩
  have hm : a ∈ sorted := hsort.mem_iff.2 ha
  have hquote : ∀ (l : Str), (∀ b ∈ l, b ≠ 62 ∧ b ≠ 34 ∧ b ≠ 39) → ∀ acc, quoteEnd acc none l = none := by
    intro l
    induction l with
    | nil => intro _ acc; rfl
    | cons b l ih =>
      intro h acc
      obtain ⟨-, h1, h2⟩ := h b List.mem_cons_self
      have : quoteAfter acc b = none := by
        unfold quoteAfter
        rw [if_neg (by simp [h1, h2])]
      show quoteEnd (b :: acc) (quoteAfter acc b) l = none
      rw [this]
      exact ih (fun x hx => h x (List.mem_cons_of_mem _ hx)) _
  have htag : IsTag a.ssid raw := ⟨hs, hr, fun h => (hq _ h).1 rfl, hquote raw hq []⟩
  have hin : InCell a.ssid [.tag raw] := by
    refine ⟨fun r _ => htag.run r, fun t ht => ?_⟩
    rw [List.mem_singleton.1 ht]
    exact ⟨decide_eq_false hn.1, decide_eq_false hn.2.1, decide_eq_false hn.2.2.1, decide_eq_false hn.2.2.2⟩
  have := scan_table w (fun n => (inCell_bar n).choose) (fun n => (inCell_bar n).choose_spec.1) sorted
    (fun e => by rw [e] at hm; cases hm) (fun x => if x = a then [.tag raw] else asText x.ssid) fun x hx => by
      by_cases e : x = a
      · rw [if_pos e, e, w.same _ hu]; exact hin
      · obtain ⟨h1, h2⟩ := ho x (hsort.mem_iff.1 hx) e
        rw [if_neg e, w.same _ h1]
        exact inCell_text h2
  rw [this]
  refine ⟨_, List.mem_map_of_mem hm, ?_⟩
  simp

/-- A network called `R&amp;D`. -/
def ampAp : Ap := { ssid := bs "R&amp;D", rssi := -70, bssid := bs "00:11:22:33:44:55", channel := 6, encryption := 4 }

/-- **C108** as stated is false: the name `R&amp;D` is not shown as it is, the browser sees a reference. -/
theorem c108_refuted_reference (w : Browser) : ∃ row : Ap → JVal,
    parseJson (wifiScanJson (some [ampAp]) false) = some (.arr ([ampAp].map row)) ∧
    ∃ cells ∈ tableRows (w.scanTable ([ampAp].map row)), cells.head? = some (.char 82 :: .ref :: asText (bs "amp;D")) := by
  have hu : IsUtf8 (bs "R&amp;D") := by rw [← pyDecode_isSome]; decide +kernel
  refine ⟨apRow, (c61_scan_partial [ampAp]).2 fun a ha => ?_, ?_⟩
  · rw [List.mem_singleton.1 ha]
    exact ⟨plain_all (by decide +kernel), plain_all (by decide +kernel)⟩
  have := scan_table w (fun n => (inCell_bar n).choose) (fun n => (inCell_bar n).choose_spec.1) [ampAp] (by simp)
    (fun _ => .char 82 :: .ref :: asText (bs "amp;D")) fun a ha => by
      rw [List.mem_singleton.1 ha]
      show InCell (w.recode (bs "R&amp;D")) _
      rw [w.same _ hu]
      refine ⟨fun r hr => ?_, by decide +kernel⟩
      have ht : Tame (bs "amp;D") := by decide +kernel
      have h := text_run ht (r := r) (by rw [hr]; exact ⟨rfl, rfl⟩)
      rw [show bs "amp;D" = 97 :: bs "mp;D" by decide +kernel] at h ⊢
      rw [show bs "R&amp;D" = 82 :: 38 :: 97 :: bs "mp;D" by decide +kernel]
      simp only [List.cons_append] at h ⊢
      rw [text_step, if_neg (by simp), if_neg (by simp), text_step, if_neg (by simp), if_pos (by simp [startsRef, isLetter]), h]
  rw [this]
  exact ⟨_, List.mem_singleton.2 rfl, rfl⟩

/-- A table of labels and values, when the browser sees `toks r` in the cell of the value of `r`. -/
theorem left_table {α : Type} (rows : List α) (h0 : rows ≠ []) (html : α → Str × Str) (toks : α → List HtmlTok × List HtmlTok)
    (ht : ∀ r ∈ rows, InCell (html r).1 (toks r).1 ∧ InCell (html r).2 (toks r).2) :
    tableRows (tableHtml 2 (rows.map fun r => [(leftColumn, (html r).1), (leftColumn, (html r).2)])) =
      rows.map fun r => [(toks r).1, (toks r).2] := by
  obtain ⟨-, -, -, g⟩ := good_columns
  apply table_run
  · simpa using h0
  · intro r hr x hx
    obtain ⟨a, -, rfl⟩ := List.mem_map.1 hr
    simp only [List.mem_cons, List.not_mem_nil, or_false] at hx
    rcases hx with rfl | rfl <;> exact g
  · simp
  · intro q hq
    rw [List.zip_map', List.mem_map] at hq
    obtain ⟨a, ha, rfl⟩ := hq
    refine ⟨rfl, fun p hp => ?_⟩
    simp only [List.zip_cons_cons, List.zip_nil_right, List.mem_cons, List.not_mem_nil, or_false] at hp
    rcases hp with rfl | rfl
    · exact (ht a ha).1
    · exact (ht a ha).2

namespace Spec

/-- The text of a value. -/
def valueText : JVal → Str
  | .str t => t
  | .int n => decInt n
  | _ => []

/-- The value is a number, or a text of UTF-8 without markup. -/
def Showable : JVal → Prop
  | .str t => IsUtf8 t ∧ Tame t
  | .int _ => True
  | _ => False

end Spec

theorem showable_cell (w : Browser) {v : JVal} (h : Showable v) : v ≠ .null ∧ w.text v = valueText v ∧ Tame (valueText v) := by
  cases v with
  | str t => exact ⟨by simp, w.same _ h.1, h.2⟩
  | int n => exact ⟨by simp, text_int w n, tame_decInt n⟩
  | null => exact h.elim
  | bool => exact h.elim
  | dec => exact h.elim
  | arr => exact h.elim
  | obj => exact h.elim

/-- A text that is UTF-8 without markup. -/
theorem tame_utf8 {t : Str} (h : ((pyDecode t).isSome && decide (Tame t)) = true) : IsUtf8 t ∧ Tame t := by
  rw [Bool.and_eq_true] at h
  exact ⟨pyDecode_isSome.1 h.1, of_decide_eq_true h.2⟩

/-- A table of the system: its rows, in order. -/
theorem sys_rows (w : Browser) (rows : List (Str × JVal)) (hne : rows ≠ []) (hg : ∀ r ∈ rows, (IsUtf8 r.1 ∧ Tame r.1) ∧ Showable r.2) :
    tableRows (w.sysTable (rows.map fun r => JVal.obj [(bs "na", .str r.1), (bs "va", r.2)])) =
      rows.map fun r => [asText r.1, asText (valueText r.2)] := by
  show tableRows (tableHtml 2 ((rows.map fun r => JVal.obj [(bs "na", .str r.1), (bs "va", r.2)]).map fun r =>
    [(leftColumn, w.value r (bs "na")), (leftColumn, w.value r (bs "va"))])) = _
  rw [List.map_map]
  refine left_table rows hne (fun r => (w.value (JVal.obj [(bs "na", .str r.1), (bs "va", r.2)]) (bs "na"),
    w.value (JVal.obj [(bs "na", .str r.1), (bs "va", r.2)]) (bs "va"))) (fun r => (asText r.1, asText (valueText r.2)))
    fun r hr => ?_
  obtain ⟨n1, n2⟩ := (hg r hr).1
  obtain ⟨v1, v2, v3⟩ := showable_cell w (hg r hr).2
  obtain ⟨k1, k2⟩ := value_naVa w r.1 r.2 v1
  dsimp only
  rw [k1, k2, v2, w.same _ n1]
  exact ⟨inCell_text n2, inCell_text v3⟩

/-- **C108 (partial), the system.** The table of the system has one row for each item, with its name and its value.

Partial: the texts need no JSON escape, are UTF-8 and hold no markup. -/
theorem c108_system_partial (w : Browser) {e : SysEnv} (he : PlainEnv e) (h0 : e.fsTotal ≠ 0) {c : Config} {ssid : Str}
    (hs : HasText c.ssid ssid) (sse : Sse) (restricted : Bool) (hp : restricted = false → e.connected = true → Plain ssid)
    (hv : ∀ r ∈ publicRows e sse ++ (if restricted then [] else privateRows e ssid), Showable r.2) :
    ∃ j l, ∃ rows : List (Str × JVal), sysInfoJson e c sse restricted = .ok j ∧ parseJson j = some (.arr l) ∧
      rows.Perm (publicRows e sse ++ if restricted then [] else privateRows e ssid) ∧
      tableRows (w.sysTable l) = rows.map fun r => [asText r.1, asText (valueText r.2)] := by
  obtain ⟨j, rows, h1, h2, h3⟩ := c61_system_partial he h0 hs sse restricted
  refine ⟨j, _, rows, h1, h3.2 hp, h2, ?_⟩
  have hne : rows ≠ [] := by
    rintro rfl
    have := h2.symm.eq_nil
    simp [publicRows] at this
  have hnames : ∀ r ∈ publicRows e sse ++ (if restricted then [] else privateRows e ssid), IsUtf8 r.1 ∧ Tame r.1 := by
    have g1 : ∀ t ∈ (publicRows e sse).map Prod.fst, ((pyDecode t).isSome && decide (Tame t)) = true := by
      unfold publicRows
      cases e.cpu <;> simp only [List.map_append, List.map_cons, List.map_nil] <;> decide +kernel
    have g2 : ∀ t ∈ (privateRows e ssid).map Prod.fst, ((pyDecode t).isSome && decide (Tame t)) = true := by
      unfold privateRows
      cases e.connected <;> simp only [List.map_append, List.map_cons, List.map_nil, if_true, if_false, Bool.false_eq_true] <;>
        decide +kernel
    intro r hr
    apply tame_utf8
    rcases List.mem_append.1 hr with hr | hr
    · exact g1 _ (List.mem_map_of_mem hr)
    · cases restricted with
      | true => cases hr
      | false => exact g2 _ (List.mem_map_of_mem hr)
  exact sys_rows w rows hne fun r hr => ⟨hnames r (h2.mem_iff.1 hr), hv r (h2.mem_iff.1 hr)⟩

/-- What is added to a value is shown after it. -/
theorem inCell_deco {t : Str} (ht : Tame t) (d : Deco) : ∃ toks, InCell (t ++ d.html) (asText t ++ toks) ∧
    (visibleText toks = [] ∨ visibleText toks = bs " " ∨ visibleText toks = bs " ??") := by
  have text : ∀ x ∈ asText t, x.isTag (bs "/tr") = false ∧ x.isTag (bs "tr") = false ∧ x.isTag (bs "/td") = false ∧
      x.isTag (bs "td") = false := (inCell_text ht).inner
  have arrow : ∀ (s : Str) (raw : Str), s = 32 :: (60 :: raw ++ [62]) ++ bs "</span>" → IsTag (60 :: raw ++ [62]) raw →
      (∀ x ∈ [HtmlTok.char 32, .tag raw, .tag (bs "/span")], x.isTag (bs "/tr") = false ∧ x.isTag (bs "tr") = false ∧
        x.isTag (bs "/td") = false ∧ x.isTag (bs "td") = false) →
      InCell (t ++ s) (asText t ++ [.char 32, .tag raw, .tag (bs "/span")]) := by
    intro s raw e hr hi
    have hc : IsTag (bs "</span>") (bs "/span") := ⟨by decide +kernel, by decide +kernel, by decide +kernel, by decide +kernel⟩
    refine ⟨fun r _ => ?_, fun x hx => ?_⟩
    · rw [e, List.append_assoc, text_run ht ⟨rfl, rfl⟩, List.cons_append, List.cons_append, text_step, if_neg (by simp),
        if_neg (by simp), List.append_assoc, hr.run, hc.run]
      simp
    · rcases List.mem_append.1 hx with hx | hx
      · exact text x hx
      · exact hi x hx
  cases d with
  | none => exact ⟨[], by rw [show Deco.none.html = [] from rfl, List.append_nil, List.append_nil]; exact inCell_text ht, .inl rfl⟩
  | up =>
    refine ⟨_, arrow _ (bs "span class=\"glyphicon glyphicon-triangle-top\"") (by decide +kernel)
      ⟨rfl, by decide +kernel, by decide +kernel, by decide +kernel⟩ (by decide +kernel), .inr (.inl (by decide +kernel))⟩
  | down =>
    refine ⟨_, arrow _ (bs "span class=\"glyphicon glyphicon-triangle-bottom\"") (by decide +kernel)
      ⟨rfl, by decide +kernel, by decide +kernel, by decide +kernel⟩ (by decide +kernel), .inr (.inl (by decide +kernel))⟩
  | unknown =>
    refine ⟨asText (bs " ??"), ⟨fun r hr => ?_, fun x hx => ?_⟩, .inr (.inr (by decide +kernel))⟩
    · show htmlTokens .text (t ++ bs " ??" ++ r) = _
      rw [List.append_assoc, text_run ht ⟨rfl, rfl⟩, text_run (by decide +kernel) (by rw [hr]; exact ⟨rfl, rfl⟩),
        List.append_assoc]
    · rcases List.mem_append.1 hx with hx | hx
      · exact text x hx
      · obtain ⟨b, -, rfl⟩ := List.mem_map.1 hx
        exact ⟨rfl, rfl, rfl, rfl⟩

/-- The arrow that `valueFormatter` adds is one of those. -/
theorem formatValue_deco (isNumber : Str → Bool) (counters : Str → Option Str) (na value : Str) :
    ∃ d : Deco, (formatValue isNumber counters na value).1 = value ++ d.html := by
  unfold formatValue
  split
  · dsimp only
    split
    · exact ⟨.none, (List.append_nil _).symm⟩
    · split
      · exact ⟨.none, (List.append_nil _).symm⟩
      · split
        · exact ⟨.up, rfl⟩
        · split
          · exact ⟨.down, rfl⟩
          · exact ⟨.unknown, rfl⟩
  · exact ⟨.none, (List.append_nil _).symm⟩

/-- A table of the meter: its rows, in order, each with its label and its value, and what is added to the value. -/
theorem tic_rows (b : Browser) (es : List (Str × JVal)) (h0 : es ≠ []) (hgood : ∀ e ∈ es, (IsUtf8 e.1 ∧ Tame e.1) ∧ Showable e.2)
    (decos : List Deco) (hd : decos.length = es.length) : ∃ extra : List (List HtmlTok), extra.length = es.length ∧
      (∀ x ∈ extra, visibleText x = [] ∨ visibleText x = bs " " ∨ visibleText x = bs " ??") ∧
      tableRows (b.ticTable ((es.map fun e => JVal.obj [(bs "na", .str e.1), (bs "va", e.2)]).zip decos)) =
        (es.map fun e => (e.1, valueText e.2)).zipWith (fun e x => [asText e.1, asText e.2 ++ x]) extra := by
  let extra : (Str × JVal) × Deco → List HtmlTok := fun r =>
    if ht : Tame (valueText r.1.2) then (inCell_deco ht r.2).choose else []
  refine ⟨(es.zip decos).map extra, by simp [List.length_zip, hd], fun x hx => ?_, ?_⟩
  · obtain ⟨r, hr, rfl⟩ := List.mem_map.1 hx
    simp only [extra]
    split
    · rename_i ht
      exact (inCell_deco ht r.2).choose_spec.2
    · exact .inl rfl
  · have hz : (es.map fun e => JVal.obj [(bs "na", .str e.1), (bs "va", e.2)]).zip decos =
        (es.zip decos).map fun r => (JVal.obj [(bs "na", .str r.1.1), (bs "va", r.1.2)], r.2) := by
      rw [List.zip_map_left]
      rfl
    have hne : es.zip decos ≠ [] := by
      intro e
      have := congrArg List.length e
      rw [List.length_zip, hd] at this
      exact h0 (List.length_eq_zero_iff.1 (by simpa using this))
    unfold Browser.ticTable
    rw [hz, List.map_map]
    refine (left_table (es.zip decos) hne
      (fun r => (b.value (JVal.obj [(bs "na", .str r.1.1), (bs "va", r.1.2)]) (bs "na"),
        b.value (JVal.obj [(bs "na", .str r.1.1), (bs "va", r.1.2)]) (bs "va") ++ r.2.html))
      (fun r => (asText r.1.1, asText (valueText r.1.2) ++ extra r)) fun r hr => ?_).trans ?_
    · obtain ⟨⟨n1, n2⟩, n3⟩ := hgood r.1 (List.of_mem_zip hr).1
      obtain ⟨v1, v2, v3⟩ := showable_cell b n3
      obtain ⟨k1, k2⟩ := value_naVa b r.1.1 r.1.2 v1
      dsimp only
      rw [k1, k2, v2, b.same _ n1]
      refine ⟨inCell_text n2, ?_⟩
      simp only [extra, dif_pos v3]
      exact (inCell_deco v3 r.2).choose_spec.1
    · clear_value extra
      clear hz hne hgood h0
      induction es generalizing decos with
      | nil => simp
      | cons e es ih =>
        cases decos with
        | nil => cases hd
        | cons d ds =>
          simp only [List.zip_cons_cons, List.map_cons, List.zipWith_cons_cons]
          rw [ih ds (by simpa using hd)]

/-- **C108 (partial), the meter.** The table of the meter has one row for the date, one for the power and one for each group of
the last frame, in order, with the label and the value; a value may be followed by an arrow or by `??`.

Partial: the texts need no JSON escape, are UTF-8 and hold no markup. -/
theorem c108_meter_partial (b : Browser) (w : World) {t : Teleinfo} {ts gs l} (h : TinfoReach t ((ts, gs) :: l))
    (hi : Plain (w.iso ts.sec)) (hi' : IsUtf8 (w.iso ts.sec) ∧ Tame (w.iso ts.sec))
    (hp : ∀ p ∈ pairs (storedAll gs), Plain p.1 ∧ Plain p.2)
    (hu : ∀ p ∈ pairs (storedAll gs), (IsUtf8 p.1 ∧ Tame p.1) ∧ IsUtf8 p.2 ∧ Tame p.2) :
    ∃ j m watt, ticJsonArray w t = .ok j ∧ parseJson j = some (.arr m) ∧ t.watt = .ok watt ∧
      m.length = 2 + (pairs (storedAll gs)).length ∧
      ∀ decos : List Deco, decos.length = m.length → ∃ extra : List (List HtmlTok), extra.length = m.length ∧
        (∀ x ∈ extra, visibleText x = [] ∨ visibleText x = bs " " ∨ visibleText x = bs " ??") ∧
        tableRows (b.ticTable (m.zip decos)) =
          ((bs "timestamp", w.iso ts.sec) :: (bs "watt", decText watt.toNat) :: pairs (storedAll gs)).zipWith
            (fun e x => [asText e.1, asText e.2 ++ x]) extra := by
  obtain ⟨j, watt, h1, h2, h3⟩ := c28_array_partial w h hi
  let es : List (Str × JVal) := (bs "timestamp", .str (w.iso ts.sec)) :: (bs "watt", .int watt.toNat) ::
    (pairs (storedAll gs)).map fun p => (p.1, .str p.2)
  have hes : ((bs "timestamp", w.iso ts.sec) :: (bs "watt", decText watt.toNat) :: pairs (storedAll gs)) =
      es.map fun e => (e.1, valueText e.2) := by
    simp only [es, List.map_cons, List.map_map]
    congr 1
    congr 1
    exact (List.map_id _).symm
  have hm : frameArray (w.iso ts.sec) watt.toNat (pairs (storedAll gs)) =
      .arr (es.map fun e => JVal.obj [(bs "na", .str e.1), (bs "va", e.2)]) := by
    simp only [es, List.map_cons, List.map_map]
    rfl
  have hgood : ∀ e ∈ es, (IsUtf8 e.1 ∧ Tame e.1) ∧ Showable e.2 := by
    intro e he
    simp only [es, List.mem_cons, List.mem_map] at he
    rcases he with rfl | rfl | ⟨p, hp', rfl⟩
    · exact ⟨tame_utf8 (t := bs "timestamp") (by decide +kernel), hi'⟩
    · exact ⟨tame_utf8 (t := bs "watt") (by decide +kernel), trivial⟩
    · exact ⟨(hu p hp').1, (hu p hp').2⟩
  refine ⟨j, _, watt, h1, (h3.2 hp).trans (congrArg some hm), h2, by simp [es]; omega, fun decos hd => ?_⟩
  obtain ⟨extra, k1, k2, k3⟩ := tic_rows b es (by simp [es]) hgood decos (by simpa using hd)
  exact ⟨extra, by simpa using k1, k2, by rw [hes]; exact k3⟩

/-! ## Examples -/

/-- The hypotheses of `c108_scan_partial` hold for `Café` and its neighbour; also for a name with `<` and `&`. -/
example : cafe ≠ [] ∧ (∀ a ∈ cafe, Plain a.ssid ∧ Plain a.bssid) ∧ (∀ a ∈ cafe, IsUtf8 a.ssid ∧ Tame a.ssid) ∧
    Tame (bs "Tom & Lea <3") := by
  refine ⟨by decide, ?_, ?_, by decide +kernel⟩
  · have : ∀ a ∈ cafe, (a.ssid.all plain && a.bssid.all plain) = true := by decide +kernel
    intro a ha
    have := this a ha
    rw [Bool.and_eq_true] at this
    exact ⟨plain_all this.1, plain_all this.2⟩
  · have : ∀ a ∈ cafe, ((pyDecode a.ssid).isSome && decide (Tame a.ssid)) = true := by decide +kernel
    exact fun a ha => tame_utf8 (this a ha)

/-- A network whose name is a script, in 24 bytes. -/
def scriptAp : Ap :=
  { ssid := bs "<script src=//evil.test>", rssi := -70, bssid := bs "00:11:22:33:44:57", channel := 6, encryption := 4 }

/-- The page of whoever configures a device near it has this script. -/
example (w : Browser) : scriptAp.ssid.length ≤ 32 ∧
    ∃ row : Ap → JVal, parseJson (wifiScanJson (some (scriptAp :: cafe)) false) = some (.arr ((scriptAp :: cafe).map row)) ∧
      ∀ sorted : List Ap, sorted.Perm (scriptAp :: cafe) →
        ∃ cells ∈ tableRows (w.scanTable (sorted.map row)), cells.head? = some [.tag (bs "script src=//evil.test")] := by
  refine ⟨by decide +kernel, c108_refuted_markup w _ ?_ List.mem_cons_self (raw := bs "script src=//evil.test") (by decide +kernel)
    (by decide +kernel) (by decide +kernel) (by decide +kernel) (by rw [← pyDecode_isSome]; decide +kernel) ?_⟩
  · have : ∀ a ∈ scriptAp :: cafe, (a.ssid.all plain && a.bssid.all plain) = true := by decide +kernel
    intro a ha
    have := this a ha
    rw [Bool.and_eq_true] at this
    exact ⟨plain_all this.1, plain_all this.2⟩
  · intro a ha hne
    have : ∀ a ∈ cafe, ((pyDecode a.ssid).isSome && decide (Tame a.ssid)) = true := by decide +kernel
    rcases List.mem_cons.1 ha with h | h
    · exact absurd h hne
    · exact tame_utf8 (this a h)

/-- The hypotheses of `c108_system_partial` hold for a usual device. -/
example : PlainEnv sampleEnv ∧ sampleEnv.fsTotal ≠ 0 ∧ (∃ s : Nv, NvReach s ∧ HasText s.config.ssid []) ∧
    ∀ r ∈ publicRows sampleEnv Sse.init ++ (if false then [] else privateRows sampleEnv []), Showable r.2 := by
  refine ⟨sampleEnv_plain, by decide, factory_no_ssid 7, ?_⟩
  have : ∀ r ∈ publicRows sampleEnv Sse.init ++ privateRows sampleEnv [], (match r.2 with
    | .str t => (pyDecode t).isSome && decide (Tame t)
    | .int _ => true
    | _ => false) = true := by decide +kernel
  intro r hr
  have := this r hr
  generalize r.2 = v at this
  cases v <;> first | exact tame_utf8 this | exact trivial | cases this

/-- The hypotheses of `c108_meter_partial` hold for a frame. -/
example : (∃ t, TinfoReach t [(⟨7, 5⟩, (oneFrame "PTEC" "HP..").map MeterGroup.raw)]) ∧
    Plain (sampleWorld.iso 7) ∧ (IsUtf8 (sampleWorld.iso 7) ∧ Tame (sampleWorld.iso 7)) ∧
    (∀ p ∈ pairs (storedAll ((oneFrame "PTEC" "HP..").map MeterGroup.raw)), Plain p.1 ∧ Plain p.2) ∧
    ∀ p ∈ pairs (storedAll ((oneFrame "PTEC" "HP..").map MeterGroup.raw)), (IsUtf8 p.1 ∧ Tame p.1) ∧ IsUtf8 p.2 ∧ Tame p.2 := by
  refine ⟨reach_next .init _ (oneFrame_valid _ _ (by decide) (by decide) (by decide) (by decide)), plain_all (by decide +kernel),
    tame_utf8 (by decide +kernel), ?_⟩
  rw [meter_pairs (oneFrame_legal "PTEC" "HP.." (by decide) (by decide) (by decide)),
    show meterPairs (oneFrame "PTEC" "HP..") = [(bs "PTEC", bs "HP")] by decide +kernel]
  constructor <;> intro p hp <;> rw [List.mem_singleton.1 hp]
  · exact ⟨plain_all (by decide +kernel), plain_all (by decide +kernel)⟩
  · exact ⟨tame_utf8 (by decide +kernel), tame_utf8 (by decide +kernel)⟩

end Wifinfo
