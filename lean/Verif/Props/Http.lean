import Verif.Spec.Http
import Verif.Model.Http
import Verif.Props.Push
import Verif.Props.Template
import Verif.Props.TicJson
import Verif.Props.Table

/-!
# C109: the services receive what the device means to tell them
-/

namespace Wifinfo
open Spec

/-! ## Lines, parts -/

theorem headLines_step {b : Byte} (h : b ≠ 13) (cur r : Str) : headLines cur (b :: r) = headLines (cur ++ [b]) r := by
  rw [headLines]
  intro x hx
  exact absurd hx h

theorem headLines_line : ∀ (line cur r : Str), (13 : Byte) ∉ line → cur ++ line ≠ [] →
    headLines cur (line ++ 13 :: 10 :: r) = (headLines [] r).map fun p => ((cur ++ line) :: p.1, p.2)
  | [], cur, r, _, h => by
    rw [List.nil_append, headLines, if_neg (by simpa using h), List.append_nil]
  | b :: line, cur, r, h, _ => by
    rw [List.cons_append, headLines_step (by rintro rfl; exact h (by simp)),
      headLines_line line (cur ++ [b]) r (by intro hx; exact h (by simp [hx])) (by simp)]
    simp

theorem headLines_lines : ∀ (ls : List Str) (r : Str), (∀ l ∈ ls, l ≠ [] ∧ (13 : Byte) ∉ l) →
    headLines [] (ls.flatMap (· ++ [13, 10]) ++ 13 :: 10 :: r) = some (ls, r)
  | [], r, _ => by simp [headLines]
  | l :: ls, r, h => by
    obtain ⟨h1, h2⟩ := h l (by simp)
    rw [List.flatMap_cons, List.append_assoc, List.append_assoc,
      show ∀ x : Str, [13, 10] ++ x = 13 :: 10 :: x from fun _ => rfl, headLines_line l [] _ h2 (by simpa using h1),
      headLines_lines ls r (fun x hx => h x (by simp [hx]))]
    simp

theorem parts_nil {b : Byte} : ∀ {s : Str}, b ∉ s → parts b s = [s]
  | [], _ => rfl
  | x :: s, h => by
    have hx : x ≠ b := by rintro rfl; exact h (by simp)
    rw [parts, if_neg hx, parts_nil (by intro h'; exact h (by simp [h']))]

theorem parts_cons {b : Byte} : ∀ {s : Str} (r : Str), b ∉ s → parts b (s ++ b :: r) = s :: parts b r
  | [], r, _ => by rw [List.nil_append, parts, if_pos rfl]
  | x :: s, r, h => by
    have hx : x ≠ b := by rintro rfl; exact h (by simp)
    rw [List.cons_append, parts, if_neg hx, parts_cons r (by intro h'; exact h (by simp [h']))]

theorem cutAt_nil {b : Byte} : ∀ {s : Str}, b ∉ s → cutAt b s = (s, none)
  | [], _ => rfl
  | x :: s, h => by
    have hx : x ≠ b := by rintro rfl; exact h (by simp)
    rw [cutAt, if_neg hx, cutAt_nil (by intro h'; exact h (by simp [h']))]

theorem cutAt_cons {b : Byte} : ∀ {s : Str} (r : Str), b ∉ s → cutAt b (s ++ b :: r) = (s, some r)
  | [], r, _ => by rw [List.nil_append, cutAt, if_pos rfl]
  | x :: s, r, h => by
    have hx : x ≠ b := by rintro rfl; exact h (by simp)
    rw [List.cons_append, cutAt, if_neg hx, cutAt_cons r (by intro h'; exact h (by simp [h']))]

theorem formText_self : ∀ {s : Str}, (43 : Byte) ∉ s → (37 : Byte) ∉ s → formText s = s
  | [], _, _ => rfl
  | b :: s, h1, h2 => by
    have e1 : b ≠ 43 := by rintro rfl; exact h1 (by simp)
    have e2 : b ≠ 37 := by rintro rfl; exact h2 (by simp)
    show formFrom 0 (b :: s) = _
    rw [formFrom, if_neg e1, if_neg e2]
    simp only
    rw [show formFrom 0 s = s from
      formText_self (by intro h'; exact h1 (by simp [h'])) (by intro h'; exact h2 (by simp [h']))]

/-! ## A request reaches the server -/

/-- The headers of the library: names that are names, values on one line without blanks around, no length of a body. -/
structure LibHeader (h : Str × Str) : Prop where
  name : h.1 ≠ [] ∧ ∀ b ∈ h.1, b ≠ 58 ∧ b ≠ 32 ∧ b ≠ 9 ∧ b ≠ 13
  value : (13 : Byte) ∉ h.2 ∧ trimmed h.2 = h.2
  length : h.1 ≠ bs "Content-Length"

/-- No blank, no end of line. -/
def OneWord (s : Str) : Prop := ∀ b ∈ s, b ≠ 32 ∧ b ≠ 9 ∧ b ≠ 13 ∧ b ≠ 10

theorem OneWord.trimmed {s : Str} (h : OneWord s) : trimmed s = s := by
  have key : ∀ t : Str, OneWord t → t.dropWhile (fun b => decide (b = 32 ∨ b = 9)) = t := by
    intro t ht
    cases t with
    | nil => rfl
    | cons b t =>
      rw [List.dropWhile_cons_of_neg]
      have := ht b (by simp)
      simp [this.1, this.2.1]
  unfold Spec.trimmed
  rw [key s h, key _ (by intro b hb; exact h b (by simpa using hb)), List.reverse_reverse]

theorem trimmed_space (v : Str) : trimmed (32 :: v) = trimmed v := by
  unfold Spec.trimmed
  rw [List.dropWhile_cons_of_pos (by decide)]

theorem header_read {h : Str × Str} (hn : h.1 ≠ [] ∧ ∀ b ∈ h.1, b ≠ 58 ∧ b ≠ 32 ∧ b ≠ 9 ∧ b ≠ 13) (ht : trimmed h.2 = h.2) :
    headerOf (h.1 ++ bs ": " ++ h.2) = some h := by
  have e : h.1 ++ bs ": " ++ h.2 = h.1 ++ 58 :: 32 :: h.2 := by
    rw [List.append_assoc, show bs ": " = [58, 32] by decide]; rfl
  unfold headerOf
  rw [e, cutAt_cons _ (fun hb => (hn.2 _ hb).1 rfl)]
  simp only
  rw [if_neg (by
    rintro (h1 | h1 | h1)
    · exact hn.1 h1
    · exact (hn.2 _ h1).2.1 rfl
    · exact (hn.2 _ h1).2.2.1 rfl), trimmed_space, ht]

theorem headers_read : ∀ {hs : List (Str × Str)},
    (∀ h ∈ hs, (h.1 ≠ [] ∧ ∀ b ∈ h.1, b ≠ 58 ∧ b ≠ 32 ∧ b ≠ 9 ∧ b ≠ 13) ∧ trimmed h.2 = h.2) →
    (hs.map fun h => h.1 ++ bs ": " ++ h.2).mapM headerOf = some hs
  | [], _ => rfl
  | h :: hs, hh => by
    rw [List.map_cons, List.mapM_cons, header_read (hh h (by simp)).1 (hh h (by simp)).2,
      headers_read (fun x hx => hh x (by simp [hx]))]
    rfl

/-- What the server gets for a request of the device. -/
def sentRequest (lib : List (Str × Str)) (r : Request) : HttpSeen where
  method := if r.data.isSome then bs "POST" else bs "GET"
  target := if r.url = [] then bs "/" else r.url
  headers := (bs "Host", hostField r.host r.port.toNat) :: lib ++
    (match r.data with
      | some d => [(bs "Content-Type", bs "application/json"), (bs "Content-Length", decText d.length)]
      | none => [])
  body := r.data.getD []

theorem hostField_word {host : Str} (h : OneWord host) (port : Nat) : OneWord (hostField host port) := by
  unfold hostField
  split
  · exact h
  · intro b hb
    simp only [List.mem_append] at hb
    rcases hb with (hb | hb) | hb
    · exact h b hb
    · rw [show bs ":" = [58] by decide] at hb
      simp only [List.mem_singleton] at hb
      subst hb; decide
    · have := decText_bytes _ b hb
      refine ⟨?_, ?_, ?_, ?_⟩ <;> (rintro rfl; revert this; decide)

/-- The field `Host` of the device names the host and the port. -/
theorem names_host (host : Str) (port : Nat) : NamesHost (hostField host port) host port := by
  intro h
  unfold hostField authority
  by_cases h1 : port = 443
  · rw [if_pos h1, if_pos (.inr h1)]
  · rw [if_neg h1]
    by_cases h2 : port = 80
    · rw [if_pos (.inl h2), cutAt_nil h, h2]
    · rw [if_neg (by simp [h1, h2]), List.append_assoc, show bs ":" = [58] by decide, List.singleton_append, cutAt_cons _ h]
      simp only
      rw [if_pos ⟨(decText_spec port).1, (decText_spec port).2.1⟩, (decText_spec port).2.2.1]

theorem headerLine_eq (h : Str × Str) : headerLine h = (h.1 ++ bs ": " ++ h.2) ++ [13, 10] := by
  unfold headerLine
  rw [show bs "\r\n" = [13, 10] by decide]

theorem sent_bytes (lib : List (Str × Str)) (r : Request) :
    httpBytes lib r = (((sentRequest lib r).method ++ 32 :: ((sentRequest lib r).target ++ 32 :: bs "HTTP/1.1")) ::
      (sentRequest lib r).headers.map fun h => h.1 ++ bs ": " ++ h.2).flatMap (· ++ [13, 10]) ++ 13 :: 10 ::
        (sentRequest lib r).body := by
  have e1 : bs " HTTP/1.1\r\n" = 32 :: (bs "HTTP/1.1" ++ [13, 10]) := by decide
  have e2 : bs " " = [32] := by decide
  have e3 : bs "\r\n" = [13, 10] := by decide
  have e4 : ∀ hs : List (Str × Str), (hs.map fun h => h.1 ++ bs ": " ++ h.2).flatMap (· ++ [13, 10]) =
      hs.flatMap headerLine := by
    intro hs
    rw [List.flatMap_map]
    exact congrArg (List.flatMap · hs) (funext fun h => (headerLine_eq h).symm)
  rw [List.flatMap_cons, e4]
  cases hd : r.data with
  | none => simp [httpBytes, sentRequest, hd, e1, e2, e3]
  | some d => simp [httpBytes, sentRequest, hd, e1, e2, e3]

theorem decVal_decText (n : Nat) : decVal (decText n) = n := (decText_spec n).2.2.1

theorem sent_length {lib : List (Str × Str)} (hl : ∀ h ∈ lib, LibHeader h) (r : Request) :
    bodyLength (sentRequest lib r).headers = (sentRequest lib r).body.length := by
  have hn : lib.find? (fun p => decide (p.1 = bs "Content-Length")) = none := by
    rw [List.find?_eq_none]
    intro h hh
    simpa using (hl h hh).length
  unfold bodyLength
  cases hd : r.data with
  | none => 
    simp only [sentRequest, hd, List.append_nil]
    rw [List.find?_cons_of_neg (by rw [decide_eq_true_eq]; exact show bs _ ≠ bs _ by decide), hn]
    rfl
  | some d =>
    simp only [sentRequest, hd]
    rw [List.cons_append, List.find?_cons_of_neg (by rw [decide_eq_true_eq]; exact show bs _ ≠ bs _ by decide), List.find?_append, hn, Option.none_or,
      List.find?_cons_of_neg (by rw [decide_eq_true_eq]; exact show bs _ ≠ bs _ by decide), List.find?_cons_of_pos (by simp)]
    exact decVal_decText _

theorem http_delivered {lib : List (Str × Str)} (hl : ∀ h ∈ lib, LibHeader h) {r : Request} (hu : OneWord r.url)
    (hh : OneWord r.host) : readRequest (httpBytes lib r) = some (sentRequest lib r, []) := by
  have ht : OneWord (sentRequest lib r).target := by
    show OneWord (if r.url = [] then bs "/" else r.url)
    split
    · intro b hb
      rw [show bs "/" = [47] by decide, List.mem_singleton] at hb
      subst hb; decide
    · exact hu
  have hm : OneWord (sentRequest lib r).method ∧ (sentRequest lib r).method ≠ [] := by
    show OneWord (if r.data.isSome then bs "POST" else bs "GET") ∧ (if r.data.isSome then bs "POST" else bs "GET") ≠ []
    have hp : (∀ b ∈ bs "POST", b ≠ 32 ∧ b ≠ 9 ∧ b ≠ 13 ∧ b ≠ 10) ∧ bs "POST" ≠ [] := by decide
    have hg : (∀ b ∈ bs "GET", b ≠ 32 ∧ b ≠ 9 ∧ b ≠ 13 ∧ b ≠ 10) ∧ bs "GET" ≠ [] := by decide
    split
    · exact hp
    · exact hg
  have hne : (sentRequest lib r).target ≠ [] := by
    show (if r.url = [] then bs "/" else r.url) ≠ []
    split
    · decide
    · assumption
  have hv : ∀ b ∈ bs "HTTP/1.1", b ≠ 32 ∧ b ≠ 9 ∧ b ≠ 13 ∧ b ≠ 10 := by decide
  have hhs : ∀ h ∈ (sentRequest lib r).headers,
      (h.1 ≠ [] ∧ ∀ b ∈ h.1, b ≠ 58 ∧ b ≠ 32 ∧ b ≠ 9 ∧ b ≠ 13) ∧ trimmed h.2 = h.2 ∧ (13 : Byte) ∉ h.2 := by
    intro h hx
    have n1 : (bs "Host" ≠ [] ∧ ∀ b ∈ bs "Host", b ≠ 58 ∧ b ≠ 32 ∧ b ≠ 9 ∧ b ≠ 13) := by decide
    have n2 : (bs "Content-Type" ≠ [] ∧ ∀ b ∈ bs "Content-Type", b ≠ 58 ∧ b ≠ 32 ∧ b ≠ 9 ∧ b ≠ 13) := by decide
    have n3 : (bs "Content-Length" ≠ [] ∧ ∀ b ∈ bs "Content-Length", b ≠ 58 ∧ b ≠ 32 ∧ b ≠ 9 ∧ b ≠ 13) := by decide
    have n4 : ∀ b ∈ bs "application/json", b ≠ 32 ∧ b ≠ 9 ∧ b ≠ 13 ∧ b ≠ 10 := by decide
    have n5 : ∀ n, OneWord (decText n) := by
      intro n b hb
      have := decText_bytes _ b hb
      refine ⟨?_, ?_, ?_, ?_⟩ <;> (rintro rfl; revert this; decide)
    have w : ∀ s : Str, OneWord s → trimmed s = s ∧ (13 : Byte) ∉ s :=
      fun s hs => ⟨hs.trimmed, fun hb => (hs _ hb).2.2.1 rfl⟩
    simp only [sentRequest, List.cons_append, List.mem_cons, List.mem_append] at hx
    rcases hx with rfl | hx | hx
    · exact ⟨n1, w _ (hostField_word hh _)⟩
    · exact ⟨(hl h hx).name, (hl h hx).value.2, (hl h hx).value.1⟩
    · cases hd : r.data with
      | none => rw [hd] at hx; simp at hx
      | some d =>
        rw [hd] at hx
        simp only [List.mem_cons, List.not_mem_nil, or_false] at hx
        rcases hx with rfl | rfl
        · exact ⟨n2, w _ n4⟩
        · exact ⟨n3, w _ (n5 _)⟩
  unfold readRequest
  rw [sent_bytes, headLines_lines]
  · simp only
    rw [parts_cons _ (fun hb => (hm.1 _ hb).1 rfl), parts_cons _ (fun hb => (ht _ hb).1 rfl),
      parts_nil (fun hb => (hv _ hb).1 rfl), headers_read (fun h hx => ⟨(hhs h hx).1, (hhs h hx).2.1⟩)]
    simp only
    rw [sent_length hl, if_pos ⟨hm.2, hne, trivial, Nat.le_refl _⟩]
    simp
  · intro l hx
    rcases List.mem_cons.1 hx with rfl | hx
    · refine ⟨by simp, ?_⟩
      intro hb
      simp only [List.mem_append, List.mem_cons] at hb
      rcases hb with hb | hb | hb | hb | hb
      · exact (hm.1 _ hb).2.2.1 rfl
      · exact absurd hb (by decide)
      · exact (ht _ hb).2.2.1 rfl
      · exact absurd hb (by decide)
      · exact (hv _ hb).2.2.1 rfl
    · obtain ⟨h, hh', rfl⟩ := List.mem_map.1 hx
      obtain ⟨⟨a1, a2⟩, a3, a4⟩ := hhs h hh'
      refine ⟨by simp [a1], ?_⟩
      intro hb
      simp only [List.mem_append] at hb
      rcases hb with (hb | hb) | hb
      · exact (a2 _ hb).2.2.2 rfl
      · revert hb; decide
      · exact a4 hb

/-! ## The arguments -/

/-- A path: one word without the characters that end it. -/
def PathText (s : Str) : Prop := ∀ b ∈ s, b ≠ 32 ∧ b ≠ 9 ∧ b ≠ 13 ∧ b ≠ 10 ∧ b ≠ 35 ∧ b ≠ 63

/-- No character with a meaning in a query: blanks, ends of line, `#`, `%`, `&`, `+`. -/
def argByte (b : Byte) : Bool := b != 32 && b != 9 && b != 13 && b != 10 && b != 35 && b != 37 && b != 38 && b != 43

def ArgText (s : Str) : Prop := ∀ b ∈ s, argByte b = true

theorem argByte_ne {b : Byte} (h : argByte b = true) :
    b ≠ 32 ∧ b ≠ 9 ∧ b ≠ 13 ∧ b ≠ 10 ∧ b ≠ 35 ∧ b ≠ 37 ∧ b ≠ 38 ∧ b ≠ 43 := by
  simpa [argByte, and_assoc] using h

theorem ArgText.append {a b : Str} (ha : ArgText a) (hb : ArgText b) : ArgText (a ++ b) := by
  intro x hx
  rcases List.mem_append.1 hx with h | h
  · exact ha x h
  · exact hb x h

/-- `name=value` -/
def argLine (p : Str × Str) : Str := p.1 ++ 61 :: p.2

theorem parts_lines {b : Byte} : ∀ (l : Str) (ls : List Str), (∀ x ∈ l :: ls, b ∉ x) →
    parts b (List.intercalate [b] (l :: ls)) = l :: ls
  | l, [], h => by
    rw [show List.intercalate [b] [l] = l by simp [List.intercalate], parts_nil (h l (by simp))]
  | l, m :: ls, h => by
    have e : List.intercalate [b] (l :: m :: ls) = l ++ b :: List.intercalate [b] (m :: ls) := by
      simp [List.intercalate]
    rw [e, parts_cons _ (h l (by simp)), parts_lines m ls (fun x hx => h x (by simp [List.mem_cons.1 hx]))]

/-- The arguments are those of the query. -/
theorem query_read {ps : List (Str × Str)} (hp : ∀ p ∈ ps, ArgText p.1 ∧ (61 : Byte) ∉ p.1 ∧ ArgText p.2) :
    queryArgs (List.intercalate [38] (ps.map argLine)) = ps := by
  have h38 : ∀ p ∈ ps, (38 : Byte) ∉ argLine p := by
    intro p hx hb
    obtain ⟨h1, _, h3⟩ := hp p hx
    simp only [argLine, List.mem_append, List.mem_cons] at hb
    rcases hb with hb | hb | hb
    · exact (argByte_ne (h1 _ hb)).2.2.2.2.2.2.1 rfl
    · exact absurd hb (by decide)
    · exact (argByte_ne (h3 _ hb)).2.2.2.2.2.2.1 rfl
  have hpieces : (parts 38 (List.intercalate [38] (ps.map argLine))).filter (fun p => decide (p ≠ [])) =
      ps.map argLine := by
    cases ps with
    | nil => rfl
    | cons p ps =>
      rw [List.map_cons, parts_lines _ _ (by
        intro x hx
        rw [← List.map_cons (f := argLine)] at hx
        obtain ⟨q, hq, rfl⟩ := List.mem_map.1 hx
        exact h38 q hq)]
      rw [List.filter_eq_self]
      intro x hx
      rw [← List.map_cons (f := argLine)] at hx
      obtain ⟨q, hq, rfl⟩ := List.mem_map.1 hx
      simp [argLine]
  unfold queryArgs
  rw [hpieces, List.map_map]
  conv => rhs; rw [← List.map_id ps]
  apply List.map_congr_left
  intro p hx
  obtain ⟨h1, h2, h3⟩ := hp p hx
  simp only [Function.comp_apply, argLine, cutAt_cons _ h2, Option.getD_some, id]
  rw [formText_self (fun hb => (argByte_ne (h1 _ hb)).2.2.2.2.2.2.2 rfl) (fun hb => (argByte_ne (h1 _ hb)).2.2.2.2.2.1 rfl),
    formText_self (fun hb => (argByte_ne (h3 _ hb)).2.2.2.2.2.2.2 rfl) (fun hb => (argByte_ne (h3 _ hb)).2.2.2.2.2.1 rfl)]

theorem mem_intercalate {b s : Byte} : ∀ {ls : List Str}, b ∈ List.intercalate [s] ls → b = s ∨ ∃ l ∈ ls, b ∈ l
  | [], h => by simp [List.intercalate] at h
  | [l], h => by right; exact ⟨l, by simp, by simpa [List.intercalate] using h⟩
  | l :: m :: ls, h => by
    have e : List.intercalate [s] (l :: m :: ls) = l ++ s :: List.intercalate [s] (m :: ls) := by
      simp [List.intercalate]
    rw [e] at h
    simp only [List.mem_append, List.mem_cons] at h
    rcases h with h | h | h
    · exact .inr ⟨l, by simp, h⟩
    · exact .inl h
    · rcases mem_intercalate h with h | ⟨x, hx, hb⟩
      · exact .inl h
      · exact .inr ⟨x, by simp [List.mem_cons.1 hx], hb⟩

/-- A request with arguments that need no encoding is received as it is meant. -/
theorem request_gets {lib : List (Str × Str)} (hl : ∀ h ∈ lib, LibHeader h) {r : Request} {path : Str}
    {ps : List (Str × Str)} (hr : r.url = path ++ 63 :: List.intercalate [38] (ps.map argLine)) (hh : OneWord r.host)
    (hpath : PathText path) (hp : ∀ p ∈ ps, ArgText p.1 ∧ (61 : Byte) ∉ p.1 ∧ ArgText p.2) :
    Gets (httpBytes lib r) (if r.data.isSome then bs "POST" else bs "GET") (hostField r.host r.port.toNat) path ps
      (r.data.getD []) := by
  have hq : ∀ b ∈ List.intercalate [38] (ps.map argLine), b ≠ 32 ∧ b ≠ 9 ∧ b ≠ 13 ∧ b ≠ 10 ∧ b ≠ 35 := by
    intro b hb
    rcases mem_intercalate hb with rfl | ⟨l, hl', hb⟩
    · decide
    · obtain ⟨p, hx, rfl⟩ := List.mem_map.1 hl'
      obtain ⟨h1, _, h3⟩ := hp p hx
      simp only [argLine, List.mem_append, List.mem_cons] at hb
      rcases hb with hb | rfl | hb
      · have := argByte_ne (h1 _ hb); exact ⟨this.1, this.2.1, this.2.2.1, this.2.2.2.1, this.2.2.2.2.1⟩
      · decide
      · have := argByte_ne (h3 _ hb); exact ⟨this.1, this.2.1, this.2.2.1, this.2.2.2.1, this.2.2.2.2.1⟩
  have hu : OneWord r.url := by
    intro b hb
    rw [hr] at hb
    simp only [List.mem_append, List.mem_cons] at hb
    rcases hb with hb | rfl | hb
    · have := hpath b hb; exact ⟨this.1, this.2.1, this.2.2.1, this.2.2.2.1⟩
    · decide
    · have := hq b hb; exact ⟨this.1, this.2.1, this.2.2.1, this.2.2.2.1⟩
  have ht : (sentRequest lib r).target = r.url := by
    show (if r.url = [] then bs "/" else r.url) = r.url
    rw [if_neg (by rw [hr]; simp)]
  have h35 : (35 : Byte) ∉ r.url := by
    intro hb
    rw [hr] at hb
    simp only [List.mem_append, List.mem_cons] at hb
    rcases hb with hb | hb | hb
    · exact (hpath _ hb).2.2.2.2.1 rfl
    · exact absurd hb (by decide)
    · exact (hq _ hb).2.2.2.2 rfl
  have hcut : cutAt 63 (cutAt 35 (sentRequest lib r).target).1 =
      (path, some (List.intercalate [38] (ps.map argLine))) := by
    rw [ht, cutAt_nil h35]
    simp only
    rw [hr, cutAt_cons _ (fun hb => (hpath _ hb).2.2.2.2.2 rfl)]
  refine ⟨sentRequest lib r, http_delivered hl hu hh, rfl, ?_, ?_, ?_, rfl⟩
  · show ((_ :: _ : List (Str × Str)).find? _).map _ = _
    rw [List.find?_cons_of_pos (by simp)]
    rfl
  · unfold HttpSeen.path; rw [hcut]
  · unfold HttpSeen.args; rw [hcut]; exact query_read hp

/-! ## C109 -/

/-- A frame whose labels and values have no character with a meaning in a query. -/
def UrlFrame (gs : List MeterGroup) : Prop := ∀ g ∈ gs, ArgText g.label ∧ (61 : Byte) ∉ g.label ∧ ArgText g.value

theorem UrlFrame.pairs {gs : List MeterGroup} (h : UrlFrame gs) :
    ∀ p ∈ meterPairs gs, ArgText p.1 ∧ (61 : Byte) ∉ p.1 ∧ ArgText p.2 := by
  intro p hp
  obtain ⟨g, hg, rfl⟩ := List.mem_map.1 hp
  obtain ⟨h1, h2, h3⟩ := h g hg
  exact ⟨h1, h2, fun b hb => h3 b (dropDots_mem hb)⟩

theorem args_amp : ∀ (f : Str × Str → Str) (x : Str) (ps : List (Str × Str)),
    x ++ ps.flatMap (fun p => bs "&" ++ p.1 ++ bs "=" ++ f p) =
      List.intercalate [38] (x :: (ps.map fun p => (p.1, f p)).map argLine)
  | f, x, [] => by simp [List.intercalate]
  | f, x, p :: ps => by
    have e : List.intercalate [38] (x :: argLine (p.1, f p) :: (ps.map fun p => (p.1, f p)).map argLine) =
        x ++ 38 :: List.intercalate [38] (argLine (p.1, f p) :: (ps.map fun p => (p.1, f p)).map argLine) := by
      simp [List.intercalate]
    rw [List.map_cons, List.map_cons, e, ← args_amp f, List.flatMap_cons, show bs "&" = [38] by decide,
      show bs "=" = [61] by decide]
    simp [argLine]

/-- The path of a setting: `/` if it is empty. -/
def pathOf (path : Str) : Str := if path = [] then bs "/" else path

theorem pathOf_text {path : Str} (h : PathText path) : PathText (pathOf path) := by
  unfold pathOf
  split
  · have : ∀ b ∈ bs "/", b ≠ 32 ∧ b ≠ 9 ∧ b ≠ 13 ∧ b ≠ 10 ∧ b ≠ 35 ∧ b ≠ 63 := by decide
    exact this
  · exact h

/-- **C109, partial** (Jeedom): when the settings and the frame have no character with a meaning in a query, Jeedom gets one
request, with the key and then each group of the frame, in order, with the label and the value of the meter (the meter number
replaced by the configured one).  Missing with respect to the statement: other characters, see below. -/
theorem c109_jeedom_partial {lib : List (Str × Str)} (hlib : ∀ h ∈ lib, LibHeader h) (c : Config) {t : Teleinfo} {ts l}
    {gs : List MeterGroup} (h : TinfoReach t ((ts, gs.map MeterGroup.raw) :: l)) (hl : ∀ g ∈ gs, g.Legal)
    {host path key adco : Str} (hh : HasText c.jeedom.host host) (hu : HasText c.jeedom.url path)
    (hk : HasText c.jeedom.apikey key) (ha : HasText c.jeedom.adco adco) (hne : host ≠ [])
    (th : OneWord host) (tu : PathText path) (tk : ArgText key) (ta : ArgText adco) (tf : UrlFrame gs) :
    ∃ r field, jeedomNotif c t = .ok [.jeedom r] ∧ NamesHost field host c.jeedom.port.toNat ∧
      Gets (httpBytes lib r) (bs "GET") field (pathOf path)
        ((bs "api", key) :: (meterPairs gs).map fun p =>
          (p.1, if p.1 = bs "ADCO" ∧ adco ≠ [] then adco else p.2)) [] := by
  refine ⟨_, _, c25_jeedom c h hh hu hk ha hne, names_host _ _, ?_⟩
  rw [meter_pairs hl]
  refine request_gets hlib (r := ⟨_, _, _, none⟩) ?_ th (pathOf_text tu) ?_
  · show jeedomUrl path key adco (meterPairs gs) = _
    unfold jeedomUrl
    rw [List.map_cons, ← args_amp]
    show pathOf path ++ bs "?api=" ++ key ++ _ = _
    rw [show bs "?api=" = 63 :: (bs "api" ++ [61]) by decide]
    simp [argLine]
  · intro p hp
    have hapi : ArgText (bs "api") ∧ (61 : Byte) ∉ bs "api" := ⟨show ∀ b ∈ bs "api", argByte b = true by decide, by decide⟩
    rcases List.mem_cons.1 hp with rfl | hp
    · exact ⟨hapi.1, hapi.2, tk⟩
    · obtain ⟨q, hq, rfl⟩ := List.mem_map.1 hp
      obtain ⟨h1, h2, h3⟩ := tf.pairs q hq
      refine ⟨h1, h2, ?_⟩
      show ArgText (if _ then _ else _)
      split
      · exact ta
      · exact h3

theorem digits_arg {s : Str} (h : numeral s = true) : ArgText s := by
  intro b hb
  have hd : digit b = true := by
    unfold numeral at h
    exact List.all_eq_true.1 h b hb
  have := byte_all (P := fun b => (!digit b || argByte b) = true) (by decide +kernel) b
  simpa [hd] using this

theorem normNum_mem {b : Byte} {s : Str} (h : b ∈ normNum s) : b ∈ s := by
  obtain ⟨pre, e⟩ := normNum_suffix s
  rw [e]; exact List.mem_append_right _ h

theorem emonValue_mem {b : Byte} {l v : Str} (h : b ∈ emonValue l v) : digit b = true ∨ b ∈ v := by
  unfold emonValue at h
  split at h
  · exact .inl (decText_bytes _ b h)
  · split at h
    · exact .inl (decText_bytes _ b h)
    · split at h
      · exact .inl (decText_bytes _ b h)
      · exact .inr (normNum_mem h)

/-- A frame whose labels and values have, moreover, no character with a meaning for emoncms: comma, braces and, in labels,
colon. -/
def EmonFrame (gs : List MeterGroup) : Prop :=
  ∀ g ∈ gs, (∀ b ∈ g.label, b ≠ 44 ∧ b ≠ 58 ∧ b ≠ 123 ∧ b ≠ 125) ∧ ∀ b ∈ g.value, b ≠ 44 ∧ b ≠ 123 ∧ b ≠ 125

theorem emon_read {gs : List MeterGroup} (h : EmonFrame gs) :
    emonRead (emonData (meterPairs gs)) = (meterPairs gs).map fun p => (p.1, emonValue p.1 p.2) := by
  have hd : ∀ b : Byte, digit b = true → b ≠ 44 ∧ b ≠ 123 ∧ b ≠ 125 := by
    intro b hb
    have := byte_all (P := fun b => (!digit b || (b != 44 && b != 123 && b != 125)) = true) (by decide +kernel) b
    simpa [hb, and_assoc] using this
  have hline : ∀ p ∈ meterPairs gs, ∀ b ∈ p.1 ++ bs ":" ++ emonValue p.1 p.2, b ≠ 44 ∧ b ≠ 123 ∧ b ≠ 125 := by
    intro p hp b hb
    obtain ⟨g, hg, rfl⟩ := List.mem_map.1 hp
    obtain ⟨h1, h2⟩ := h g hg
    simp only [List.mem_append] at hb
    rcases hb with (hb | hb) | hb
    · exact ⟨(h1 b hb).1, (h1 b hb).2.2.1, (h1 b hb).2.2.2⟩
    · rw [show bs ":" = [58] by decide, List.mem_singleton] at hb
      subst hb; decide
    · rcases emonValue_mem hb with hb | hb
      · exact hd b hb
      · exact h2 b (dropDots_mem hb)
  have hfil : (emonData (meterPairs gs)).filter (fun b => decide (b ≠ 123 ∧ b ≠ 125)) =
      List.intercalate [44] ((meterPairs gs).map fun p => p.1 ++ bs ":" ++ emonValue p.1 p.2) := by
    unfold emonData
    rw [List.filter_append, List.filter_append, show (bs "{").filter _ = [] by decide,
      show (bs "}").filter (fun b => decide (b ≠ 123 ∧ b ≠ 125)) = [] by decide, List.nil_append, List.append_nil,
      show bs "," = [44] by decide, List.filter_eq_self]
    intro b hb
    rcases mem_intercalate hb with rfl | ⟨l, hl, hb⟩
    · decide
    · obtain ⟨p, hp, rfl⟩ := List.mem_map.1 hl
      simpa using (hline p hp b hb).2
  unfold emonRead
  rw [hfil]
  have hpieces : (parts 44 (List.intercalate [44] ((meterPairs gs).map fun p => p.1 ++ bs ":" ++ emonValue p.1 p.2))).filter
      (fun p => decide (p ≠ [])) = (meterPairs gs).map fun p => p.1 ++ bs ":" ++ emonValue p.1 p.2 := by
    have hall : ∀ x ∈ (meterPairs gs).map (fun p => p.1 ++ bs ":" ++ emonValue p.1 p.2), (44 : Byte) ∉ x ∧ x ≠ [] := by
      intro x hx
      obtain ⟨p, hp, rfl⟩ := List.mem_map.1 hx
      exact ⟨fun hb => (hline p hp _ hb).1 rfl, by rw [show bs ":" = [58] by decide]; simp⟩
    generalize (meterPairs gs).map (fun p => p.1 ++ bs ":" ++ emonValue p.1 p.2) = ls at hall
    cases ls with
    | nil => rfl
    | cons l ls =>
      rw [parts_lines l ls (fun x hx => (hall x hx).1), List.filter_eq_self]
      intro x hx
      simpa using (hall x hx).2
  rw [hpieces, List.map_map]
  apply List.map_congr_left
  intro p hp
  obtain ⟨g, hg, rfl⟩ := List.mem_map.1 hp
  have h58 : (58 : Byte) ∉ g.label := fun hb => ((h g hg).1 _ hb).2.1 rfl
  simp only [Function.comp_apply, List.append_assoc]
  rw [show bs ":" = [58] by decide, List.cons_append, List.nil_append, cutAt_cons _ h58]
  rfl

/-- **C109, partial** (emoncms): when the settings and the frame have no character with a meaning in a query or for emoncms,
emoncms gets one request, with the node (unless it is 0), the key and each group of the frame, in order, with its numeric code.
Missing with respect to the statement: other characters, see below. -/
theorem c109_emoncms_partial {lib : List (Str × Str)} (hlib : ∀ h ∈ lib, LibHeader h) (c : Config) {t : Teleinfo} {ts l}
    {gs : List MeterGroup} (h : TinfoReach t ((ts, gs.map MeterGroup.raw) :: l)) (hl : ∀ g ∈ gs, g.Legal)
    {host path key : Str} (hh : HasText c.emoncms.host host) (hu : HasText c.emoncms.url path)
    (hk : HasText c.emoncms.apikey key) (hne : host ≠ [])
    (th : OneWord host) (tu : PathText path) (tk : ArgText key) (tf : UrlFrame gs) (te : EmonFrame gs) :
    ∃ r field data, emoncmsNotif c t = .ok [.emoncms r] ∧ NamesHost field host c.emoncms.port.toNat ∧
      Gets (httpBytes lib r) (bs "GET") field (pathOf path)
        ((if c.emoncms.node = 0 then [] else [(bs "node", decText c.emoncms.node.toNat)]) ++
          [(bs "apikey", key), (bs "json", data)]) [] ∧
      emonRead data = (meterPairs gs).map fun p => (p.1, emonValue p.1 p.2) := by
  refine ⟨_, _, emonData (meterPairs gs), c26_emoncms c h hh hu hk hne, names_host _ _, ?_, emon_read te⟩
  rw [meter_pairs hl]
  have hnode : c.emoncms.node.toNat = 0 ↔ c.emoncms.node = 0 := by
    constructor
    · intro e; exact UInt8.toNat.inj e
    · rintro e; rw [e]; rfl
  refine request_gets hlib (r := ⟨_, _, _, none⟩) ?_ th (pathOf_text tu) ?_
  · show emonUrl path key c.emoncms.node.toNat (meterPairs gs) = _
    unfold emonUrl
    show pathOf path ++ bs "?" ++ _ ++ _ ++ _ ++ _ ++ _ = _
    rw [show bs "?" = [63] by decide, show bs "node=" = bs "node" ++ [61] by decide,
      show bs "apikey=" = bs "apikey" ++ [61] by decide, show bs "&json=" = 38 :: (bs "json" ++ [61]) by decide,
      show bs "&" = [38] by decide]
    by_cases h0 : c.emoncms.node = 0
    · rw [if_pos h0, if_pos (hnode.2 h0)]
      simp [List.intercalate, argLine]
    · rw [if_neg h0, if_neg (fun e => h0 (hnode.1 e))]
      simp [List.intercalate, argLine]
  · have n1 : ∀ s ∈ [bs "node", bs "apikey", bs "json"], (∀ b ∈ s, argByte b = true) ∧ (61 : Byte) ∉ s := by decide
    have hdata : ArgText (emonData (meterPairs gs)) := by
      unfold emonData
      have hb1 : ∀ b ∈ bs "{", argByte b = true := by decide
      have hb2 : ∀ b ∈ bs "}", argByte b = true := by decide
      refine ArgText.append (ArgText.append hb1 ?_) hb2
      rw [show bs "," = [44] by decide]
      intro b hb
      rcases mem_intercalate hb with rfl | ⟨x, hx, hb⟩
      · decide
      · obtain ⟨p, hp, rfl⟩ := List.mem_map.1 hx
        obtain ⟨h1, h2, h3⟩ := tf.pairs p hp
        simp only [List.mem_append] at hb
        rcases hb with (hb | hb) | hb
        · exact h1 b hb
        · have : ∀ b ∈ bs ":", argByte b = true := by decide
          exact this b hb
        · rcases emonValue_mem hb with hb | hb
          · exact digits_arg (s := [b]) (by simp [numeral, hb]) b (by simp)
          · exact h3 b hb
    intro p hp
    simp only [List.mem_append, List.mem_cons, List.not_mem_nil, or_false] at hp
    rcases hp with hp | rfl | rfl
    · split at hp
      · simp at hp
      · rw [List.mem_singleton] at hp
        subst hp
        exact ⟨(n1 _ (by simp)).1, (n1 _ (by simp)).2, digits_arg (decText_spec _).2.1⟩
    · exact ⟨(n1 _ (by simp)).1, (n1 _ (by simp)).2, tk⟩
    · exact ⟨(n1 _ (by simp)).1, (n1 _ (by simp)).2, hdata⟩

/-- A URL setting with arguments: `path?name=value&…`, the values being templates. -/
def argTmpl (path : Str) (args : List (Str × List Tok)) : List Tok :=
  path.map .lit ++ .lit 63 :: List.intercalate [.lit 38] (args.map fun a => a.1.map .lit ++ .lit 61 :: a.2)

theorem tmplValue_append (e : TmplEnv) (a b : List Tok) : tmplValue e (a ++ b) = tmplValue e a ++ tmplValue e b := by
  simp [tmplValue]

theorem tmplValue_lits (e : TmplEnv) (s : Str) : tmplValue e (s.map .lit) = s := by
  induction s with
  | nil => rfl
  | cons b s ih => 
    show Tok.value e (.lit b) ++ tmplValue e (s.map .lit) = _
    rw [ih]; rfl

theorem tmplValue_lit (e : TmplEnv) (b : Byte) (l : List Tok) : tmplValue e (.lit b :: l) = b :: tmplValue e l := rfl

theorem tmplValue_name (e : TmplEnv) (n : Str) (l : List Tok) :
    tmplValue e (.name n :: l) = nameValue e n ++ tmplValue e l := by
  simp [tmplValue, Tok.value]

theorem tmplValue_args (e : TmplEnv) : ∀ args : List (Str × List Tok),
    tmplValue e (List.intercalate [.lit 38] (args.map fun a => a.1.map .lit ++ .lit 61 :: a.2)) =
      List.intercalate [38] ((args.map fun a => (a.1, tmplValue e a.2)).map argLine)
  | [] => rfl
  | [a] => by simp [List.intercalate, tmplValue_append, tmplValue_lits, tmplValue_lit, argLine]
  | a :: b :: l => by
    have ih := tmplValue_args e (b :: l)
    have e1 : ∀ (x y : List Tok) (z), List.intercalate [Tok.lit 38] (x :: y :: z) =
        x ++ .lit 38 :: List.intercalate [Tok.lit 38] (y :: z) := by intros; simp [List.intercalate]
    have e2 : ∀ (x y : Str) (z), List.intercalate [38] (x :: y :: z) = x ++ 38 :: List.intercalate [38] (y :: z) := by
      intros; simp [List.intercalate]
    simp only [List.map_cons] at ih ⊢
    rw [e1, e2, tmplValue_append, tmplValue_lit, ih, tmplValue_append, tmplValue_lits, tmplValue_lit]
    simp [argLine]

/-- The value of an argument: characters that need no encoding, and names other than `date`. -/
def ArgToks (l : List Tok) : Prop := ∀ x ∈ l, match x with
  | .lit b => argByte b = true
  | .dollar => True
  | .tilde => True
  | .name n => n.map lower ≠ bs "date"
  | .quoted n => n.map lower ≠ bs "date"

theorem lookup_mem {n v : Str} : ∀ {ps : List (Str × Str)}, lookup n ps = some v → (n, v) ∈ ps
  | [], h => by simp [lookup] at h
  | (l, x) :: ps, h => by
    unfold lookup at h
    split at h
    · next e => cases h; simp [e]
    · exact List.mem_cons_of_mem _ (lookup_mem h)

theorem nameValue_arg {e : TmplEnv} (hn : ArgText e.notif) (hs : ArgText e.seconds) (hc : ArgText e.chipId)
    (hg : ∀ p ∈ e.groups, ArgText p.2) {n : Str} (h : n.map lower ≠ bs "date") : ArgText (nameValue e n) := by
  simp only [nameValue]
  split
  · exact hn
  · split
    · exact digits_arg (decText_spec _).2.1
    · split
      · exact hs
      · split
        · exact hc
        · split
          · next v hv => exact fun b hb => hg _ (lookup_mem hv) b (normNum_mem hb)
          · intro b hb; simp at hb

theorem toks_arg {e : TmplEnv} (hn : ArgText e.notif) (hs : ArgText e.seconds) (hc : ArgText e.chipId)
    (hg : ∀ p ∈ e.groups, ArgText p.2) {l : List Tok} (h : ArgToks l) : ArgText (tmplValue e l) := by
  intro b hb
  obtain ⟨x, hx, hb⟩ := List.mem_flatMap.1 hb
  have := h x hx
  cases x with
  | lit c => simp only [Tok.value, List.mem_singleton] at hb; subst hb; exact this
  | dollar => simp only [Tok.value, List.mem_singleton] at hb; subst hb; decide
  | tilde => simp only [Tok.value, List.mem_singleton] at hb; subst hb; decide
  | name n => exact nameValue_arg hn hs hc hg this b hb
  | quoted n => exact nameValue_arg hn hs hc hg this b hb

theorem notif_arg (n : Notif) : ArgText n.text := by
  cases n <;> exact show ∀ b ∈ bs _, argByte b = true by decide

theorem seconds_arg {s : Str} {a b : Nat} (h : IsSeconds s a b) : ArgText s := by
  obtain ⟨x, y, rfl, _, h1, _, _, h2, _⟩ := h
  refine (digits_arg h1).append ?_
  intro c hc
  rcases List.mem_cons.1 hc with rfl | hc
  · decide
  · exact digits_arg h2 c hc

theorem hex_arg {s : Str} {n : Nat} (h : IsHex6 s n) : ArgText s := by
  obtain ⟨d, rfl, _, h1, _⟩ := h
  refine ArgText.append (show ∀ b ∈ bs "0x", argByte b = true by decide) ?_
  intro b hb
  have := byte_all (P := fun b => (!(decide ((48 ≤ b.toNat ∧ b.toNat ≤ 57) ∨ (65 ≤ b.toNat ∧ b.toNat ≤ 70))) || argByte b) = true)
    (by decide +kernel) b
  rw [decide_eq_true (h1 b hb)] at this
  simpa using this

/-- **C109, partial** (HTTP notifications): when the URL setting is a path and arguments whose values use characters without a
meaning in a query and any labels but the date, and the frame has no such character either, the server gets one request, whose
arguments are those of the setting, in order, with the values of the labels; with the option POST, the body is the JSON of the
frame.  Missing with respect to the statement: other characters, see below. -/
theorem c109_http_partial {lib : List (Str × Str)} (hlib : ∀ h ∈ lib, LibHeader h) (w : World) (c : Config) {t : Teleinfo}
    {ts l} {gs : List MeterGroup} (h : TinfoReach t ((ts, gs.map MeterGroup.raw) :: l)) (hl : ∀ g ∈ gs, g.Legal)
    (hu : ts.usec < 1000000) (hi : Plain (w.iso ts.sec)) (n : Notif) {host path : Str} {args : List (Str × List Tok)}
    (hh : HasText c.httpreq.host host) (hg : GoodTmpl (argTmpl path args))
    (ht : HasText c.httpreq.url (tmplText (argTmpl path args))) (th : OneWord host) (tp : PathText path)
    (ta : ∀ a ∈ args, ArgText a.1 ∧ (61 : Byte) ∉ a.1 ∧ ArgToks a.2) (tf : UrlFrame gs) :
    ∃ r field e body, httpNotif w c t n = .ok (.http n r) ∧ NamesHost field host c.httpreq.port.toNat ∧
      e.notif = n.text ∧ e.sec = ts.sec ∧ IsSeconds e.seconds ts.sec ts.usec ∧ IsHex6 e.chipId w.chipId.toNat ∧
      e.groups = meterPairs gs ∧
      Gets (httpBytes lib r) (if c.httpreq.usePost then bs "POST" else bs "GET")
        field path (args.map fun a => (a.1, tmplValue e a.2)) body ∧
      if c.httpreq.usePost then
        ((∀ g ∈ gs, (34 : Byte) ∉ g.label ++ g.value ∧ (92 : Byte) ∉ g.label ++ g.value ∧ ∃ b ∈ g.value, b ≠ 46) →
          ∃ sec, IsSeconds sec ts.sec ts.usec ∧
            parseJson body = some (frameDict (w.iso ts.sec) sec (some n.text) (meterPairs gs)))
      else body = [] := by
  obtain ⟨e, h1, h2, h3, h4, h5, h6, h7⟩ := c23_expand_meter w c h hl hu n hg ht
  obtain ⟨j, sec, j1, j2, j3⟩ := c27_meter_partial w h hu hi (some n) hl
  have hval : tmplValue e (argTmpl path args) =
      path ++ 63 :: List.intercalate [38] ((args.map fun a => (a.1, tmplValue e a.2)).map argLine) := by
    unfold argTmpl
    rw [tmplValue_append, tmplValue_lits, tmplValue_lit, tmplValue_args]
  have hps : ∀ p ∈ args.map (fun a => (a.1, tmplValue e a.2)), ArgText p.1 ∧ (61 : Byte) ∉ p.1 ∧ ArgText p.2 := by
    intro p hp
    obtain ⟨a, ha, rfl⟩ := List.mem_map.1 hp
    obtain ⟨a1, a2, a3⟩ := ta a ha
    exact ⟨a1, a2, toks_arg (by rw [h2]; exact notif_arg n) (seconds_arg h5) (hex_arg h6)
      (by rw [h7]; exact fun p hp => (tf.pairs p hp).2.2) a3⟩
  cases hp : c.httpreq.usePost with
  | false =>
    refine ⟨⟨host, c.httpreq.port, tmplValue e (argTmpl path args), none⟩, _, e, [], ?_, names_host _ _, h2, h4, h5, h6, h7, ?_, by simp⟩
    · unfold httpNotif
      rw [h1, ok_bind, hh.cstr, ok_bind, hp]
      rfl
    · exact request_gets hlib (r := ⟨host, c.httpreq.port, _, none⟩) hval th tp hps
  | true =>
    refine ⟨⟨host, c.httpreq.port, tmplValue e (argTmpl path args), some j⟩, _, e, j, ?_, names_host _ _, h2, h4, h5, h6, h7, ?_, ?_⟩
    · unfold httpNotif
      rw [h1, ok_bind, hh.cstr, ok_bind, hp]
      simp only [if_true]
      show (ticJsonDict w t (some n.text) >>= _) = _
      rw [show ticJsonDict w t (some n.text) = .ok j from j1]
      rfl
    · exact request_gets hlib (r := ⟨host, c.httpreq.port, _, some j⟩) hval th tp hps
    · rw [if_pos rfl]
      exact fun hx => ⟨sec, j2, j3.2 hx⟩

/-- The hypotheses of the theorems hold of ordinary settings and of an ordinary frame. -/
example : HasText pushConfig.jeedom.host (bs "jee") ∧ HasText pushConfig.jeedom.url (bs "/j.php") ∧
    HasText pushConfig.jeedom.apikey (bs "K") ∧ HasText pushConfig.jeedom.adco (bs "42") ∧ OneWord (bs "jee") ∧
    PathText (bs "/j.php") ∧ ArgText (bs "K") ∧ ArgText (bs "42") ∧ UrlFrame sampleMeter ∧ EmonFrame sampleMeter ∧
    (∀ g ∈ sampleMeter, g.Legal) ∧ (∃ t, TinfoReach t [(⟨7, 5⟩, sampleMeter.map MeterGroup.raw)]) ∧
    (meterPairs sampleMeter).map (fun p => (p.1, if p.1 = bs "ADCO" ∧ bs "42" ≠ [] then bs "42" else p.2)) =
      [(bs "ADCO", bs "42"), (bs "OPTARIF", bs "HC"), (bs "HCHC", bs "052890470"), (bs "PTEC", bs "HP")] := by
  unfold HasText OneWord PathText ArgText UrlFrame EmonFrame ArgText
  refine ⟨?_, ?_, ?_, ?_, ?_, ?_, ?_, ?_, ?_, ?_, sampleMeter_legal, reach_next .init ⟨7, 5⟩ (meter_valid (by decide) sampleMeter_legal sampleMeter_fits), ?_⟩ <;> decide +kernel

/-- A URL of the documentation without the `+`. -/
def sampleArgs : List (Str × List Tok) :=
  [(bs "ptec", [.name (bs "PTEC")]), (bs "conso", [.quoted (bs "HCHC")]), (bs "id", [.name (bs "chipid")])]

example : tmplText (argTmpl (bs "/update.php") sampleArgs) = bs "/update.php?ptec=$PTEC&conso=~HCHC~&id=$chipid" ∧
    GoodTmpl (argTmpl (bs "/update.php") sampleArgs) ∧ PathText (bs "/update.php") ∧
    (∀ a ∈ sampleArgs, ArgText a.1 ∧ (61 : Byte) ∉ a.1) ∧ (∀ a ∈ sampleArgs, ArgToks a.2) ∧
    sampleArgs.map (fun a => (a.1, tmplValue ⟨bs "MAJ", [], 7, bs "7.000", bs "0xABCDEF", meterPairs sampleMeter⟩ a.2)) =
      [(bs "ptec", bs "HP"), (bs "conso", bs "52890470"), (bs "id", bs "0xABCDEF")] := by
  refine ⟨by decide +kernel, ?_, ?_, ?_, ?_, by decide +kernel⟩
  · simp only [argTmpl, sampleArgs, bs]
    simp [GoodTmpl, tmplText, Tok.text, List.intercalate]
    decide
  · unfold PathText; decide +kernel
  · unfold ArgText; decide +kernel
  · intro a ha x hx
    simp only [sampleArgs, List.mem_cons, List.not_mem_nil, or_false] at ha
    rcases ha with rfl | rfl | rfl <;> simp only [List.mem_singleton] at hx <;> subst hx <;> exact show _ ≠ _ by decide +kernel

/-- How a server reads a query. -/
example : queryArgs (bs "a=1&&b=x+y%26z%zz&c&=d=e") =
    [(bs "a", bs "1"), (bs "b", bs "x y&z%zz"), (bs "c", []), ([], bs "d=e")] := by decide +kernel

/-! ## Where it fails -/

/-- Any server, any library: the headers that the library adds. -/
def libHeaders : List (Str × Str) :=
  [(bs "User-Agent", bs "ESP8266HTTPClient"), (bs "Accept-Encoding", bs "identity;q=1,chunked;q=0.1,*;q=0"),
   (bs "Connection", bs "keep-alive")]

example : ∀ h ∈ libHeaders, LibHeader h := by
  intro h hh
  have h1 : ∀ h ∈ libHeaders, (h.1 ≠ [] ∧ ∀ b ∈ h.1, b ≠ 58 ∧ b ≠ 32 ∧ b ≠ 9 ∧ b ≠ 13) ∧
      ((13 : Byte) ∉ h.2 ∧ trimmed h.2 = h.2) ∧ h.1 ≠ bs "Content-Length" := by decide +kernel
  exact ⟨(h1 h hh).1, (h1 h hh).2.1, (h1 h hh).2.2⟩

/-- **C109** as stated is false: `$date` in an argument; the `+` of the time zone is not encoded, and the server reads a
space. -/
theorem c109_refuted_date : ∃ (c : Config) (t : Teleinfo) (r : Request),
    TinfoReach t [(⟨7, 5⟩, (oneFrame "PAPP" "00100").map MeterGroup.raw)] ∧
    HasText c.httpreq.url (bs "/x?d=$date&p=$PAPP") ∧ httpNotif sampleWorld c t .maj = .ok (.http .maj r) ∧
    sampleWorld.iso 7 = bs "2026-01-02T03:04:05+0100" ∧
    Gets (httpBytes libHeaders r) (bs "GET") (bs "h") (bs "/x")
      [(bs "d", bs "2026-01-02T03:04:05 0100"), (bs "p", bs "100")] [] := by
  obtain ⟨t, ht⟩ := reach_next .init ⟨7, 5⟩ (oneFrame_valid "PAPP" "00100" (by decide) (by decide) (by decide) (by decide))
  let tmpl : List Tok := (bs "/x?d=").map .lit ++ .name (bs "date") :: ((bs "&p=").map .lit ++ [.name (bs "PAPP")])
  let c : Config := { Config.zero with httpreq := { Config.zero.httpreq with
    host := padArr 33 (bs "h"), url := padArr 151 (bs "/x?d=$date&p=$PAPP"), port := 80 } }
  have hg : GoodTmpl tmpl := by
    simp only [tmpl, bs]
    simp [GoodTmpl, tmplText, Tok.text]
    decide
  have hu : HasText c.httpreq.url (bs "/x?d=$date&p=$PAPP") := by unfold HasText; decide +kernel
  have hh : HasText c.httpreq.host (bs "h") := by unfold HasText; decide +kernel
  have htm : bs "/x?d=$date&p=$PAPP" = tmplText tmpl := by decide +kernel
  obtain ⟨e, e1, e2, e3, e4, _, _, e7⟩ := c23_expand_meter sampleWorld c ht
    (oneFrame_legal _ _ (by decide) (by decide) (by decide)) (by decide) .maj hg (by rw [← htm]; exact hu)
  have hv : tmplValue e tmpl = bs "/x?d=2026-01-02T03:04:05+0100&p=100" := by
    have v1 : nameValue e (bs "date") = e.iso := by
      simp only [nameValue]
      rw [if_neg (by decide +kernel), if_pos (by decide +kernel)]
    have v2 : nameValue e (bs "PAPP") = bs "100" := by
      simp only [nameValue]
      rw [if_neg (by decide +kernel), if_neg (by decide +kernel), if_neg (by decide +kernel), if_neg (by decide +kernel),
        if_neg (by decide +kernel), e7]
      decide +kernel
    show tmplValue e ((bs "/x?d=").map .lit ++ .name (bs "date") :: ((bs "&p=").map .lit ++ [.name (bs "PAPP")])) = _
    rw [tmplValue_append, tmplValue_lits, tmplValue_name, tmplValue_append, tmplValue_lits, tmplValue_name, v1, v2, e3]
    show bs "/x?d=" ++ (sampleWorld.iso 7 ++ (bs "&p=" ++ (bs "100" ++ []))) = bs "/x?d=2026-01-02T03:04:05+0100&p=100"
    decide +kernel
  refine ⟨c, t, ⟨bs "h", 80, bs "/x?d=2026-01-02T03:04:05+0100&p=100", none⟩, ht, hu, ?_, rfl, ?_⟩
  · unfold httpNotif
    rw [e1, ok_bind, hh.cstr, ok_bind, hv, show c.httpreq.usePost = false by decide +kernel]
    rfl
  · refine ⟨⟨bs "GET", bs "/x?d=2026-01-02T03:04:05+0100&p=100", (bs "Host", bs "h") :: libHeaders, []⟩, ?_, ?_⟩ <;>
      decide +kernel

/-- **C109** as stated is false: a `&` in a value of the meter, which may send any printable character, makes another
argument. -/
theorem c109_refuted_value : (∀ g ∈ oneFrame "X" "A&B=1", g.Legal) ∧ ∃ (t : Teleinfo) (r : Request),
    TinfoReach t [(⟨7, 5⟩, (oneFrame "X" "A&B=1").map MeterGroup.raw)] ∧
    jeedomNotif pushConfig t = .ok [.jeedom r] ∧
    ∃ host, Gets (httpBytes libHeaders r) (bs "GET") host (bs "/j.php") [(bs "api", bs "K"), (bs "X", bs "A"), (bs "B", bs "1")] [] := by
  refine ⟨oneFrame_legal _ _ (by decide) (by decide) (by decide), ?_⟩
  obtain ⟨t, ht⟩ := reach_next .init ⟨7, 5⟩ (oneFrame_valid "X" "A&B=1" (by decide) (by decide) (by decide) (by decide))
  have hc : HasText pushConfig.jeedom.host (bs "jee") ∧ HasText pushConfig.jeedom.url (bs "/j.php") ∧
      HasText pushConfig.jeedom.apikey (bs "K") ∧ HasText pushConfig.jeedom.adco (bs "42") := by
    unfold HasText; decide +kernel
  refine ⟨t, _, ht, c25_jeedom pushConfig ht hc.1 hc.2.1 hc.2.2.1 hc.2.2.2 (by decide), ?_⟩
  rw [meter_pairs (oneFrame_legal _ _ (by decide) (by decide) (by decide))]
  refine ⟨bs "jee:0", ⟨bs "GET", bs "/j.php?api=K&X=A&B=1", (bs "Host", bs "jee:0") :: libHeaders, []⟩, ?_, ?_⟩ <;>
    decide +kernel

/-- A device with these settings for Jeedom. -/
def jeedomConfig (path key : Str) : Config :=
  { Config.zero with
    jeedom := { Config.zero.jeedom with host := padArr 33 (bs "jee"), url := padArr 65 path, apikey := padArr 49 key,
                                        port := 80 } }

/-- **C109** as stated is false: with a space in the key, the server understands no request at all. -/
theorem c109_refuted_space : ∃ (t : Teleinfo) (r : Request),
    TinfoReach t [(⟨7, 5⟩, (oneFrame "PAPP" "00100").map MeterGroup.raw)] ∧
    jeedomNotif (jeedomConfig (bs "/j.php") (bs "a b")) t = .ok [.jeedom r] ∧ readRequest (httpBytes libHeaders r) = none := by
  obtain ⟨t, ht⟩ := reach_next .init ⟨7, 5⟩ (oneFrame_valid "PAPP" "00100" (by decide) (by decide) (by decide) (by decide))
  have hc : HasText (jeedomConfig (bs "/j.php") (bs "a b")).jeedom.host (bs "jee") ∧
      HasText (jeedomConfig (bs "/j.php") (bs "a b")).jeedom.url (bs "/j.php") ∧
      HasText (jeedomConfig (bs "/j.php") (bs "a b")).jeedom.apikey (bs "a b") ∧
      HasText (jeedomConfig (bs "/j.php") (bs "a b")).jeedom.adco [] := by
    unfold HasText; decide +kernel
  refine ⟨t, _, ht, c25_jeedom _ ht hc.1 hc.2.1 hc.2.2.1 hc.2.2.2 (by decide), ?_⟩
  rw [meter_pairs (oneFrame_legal _ _ (by decide) (by decide) (by decide))]
  decide +kernel

/-- **C109** as stated is false: an end of line in the path, which the form accepts, adds headers to the request: the server takes
the first host for the one that is asked. -/
theorem c109_refuted_header : ∃ (t : Teleinfo) (r : Request) (q : HttpSeen),
    TinfoReach t [(⟨7, 5⟩, (oneFrame "PAPP" "00100").map MeterGroup.raw)] ∧
    jeedomNotif (jeedomConfig (bs "/ HTTP/1.1\r\nHost: other\r\nX:") (bs "k")) t = .ok [.jeedom r] ∧
    readRequest (httpBytes libHeaders r) = some (q, []) ∧ q.path = bs "/" ∧ q.args = [] ∧
    q.header (bs "Host") = some (bs "other") := by
  obtain ⟨t, ht⟩ := reach_next .init ⟨7, 5⟩ (oneFrame_valid "PAPP" "00100" (by decide) (by decide) (by decide) (by decide))
  let c := jeedomConfig (bs "/ HTTP/1.1\r\nHost: other\r\nX:") (bs "k")
  have hc : HasText c.jeedom.host (bs "jee") ∧ HasText c.jeedom.url (bs "/ HTTP/1.1\r\nHost: other\r\nX:") ∧
      HasText c.jeedom.apikey (bs "k") ∧ HasText c.jeedom.adco [] := by
    unfold HasText; decide +kernel
  refine ⟨t, _, (⟨bs "GET", bs "/", (bs "Host", bs "other") :: (bs "X", bs "?api=k&PAPP=00100 HTTP/1.1") ::
      (bs "Host", bs "jee") :: libHeaders, []⟩ : HttpSeen), ht,
    c25_jeedom _ ht hc.1 hc.2.1 hc.2.2.1 hc.2.2.2 (by decide), ?_, ?_⟩
  · rw [meter_pairs (oneFrame_legal _ _ (by decide) (by decide) (by decide))]
    decide +kernel
  · decide +kernel

/-- **C109** as stated is false for a service that wants encryption: with the port 443, for which httpreq.cpp:19 asks `https`, the
connection is still that of a `WiFiClient`.  Whatever the request, with its key, it goes in clear: its first byte is that of `GET` or
`POST`, not the 22 with which TLS begins, and such a server does not understand it. -/
theorem c109_refuted_tls (lib : List (Str × Str)) (r : Request) :
    r.url <:+: httpBytes lib r ∧ (httpBytes lib r).head? ≠ some 22 := by
  have hin : ∀ m : Str, ∀ tail : Str, r.url <:+: m ++ bs " " ++ (if r.url = [] then bs "/" else r.url) ++ tail := by
    intro m tail
    by_cases h : r.url = []
    · rw [h]; exact List.nil_infix
    · rw [if_neg h]
      exact ⟨m ++ bs " ", tail, rfl⟩
  unfold httpBytes
  cases hd : r.data with
  | none =>
    refine ⟨?_, ?_⟩
    · have := hin (bs "GET") (bs " HTTP/1.1\r\n" ++ headerLine (bs "Host", hostField r.host r.port.toNat) ++ lib.flatMap headerLine ++
        bs "\r\n")
      simpa only [List.append_assoc] using this
    · rw [show bs "GET" = 71 :: bs "ET" by decide]
      simp
  | some data =>
    refine ⟨?_, ?_⟩
    · have := hin (bs "POST") (bs " HTTP/1.1\r\n" ++ headerLine (bs "Host", hostField r.host r.port.toNat) ++ lib.flatMap headerLine ++
        headerLine (bs "Content-Type", bs "application/json") ++ headerLine (bs "Content-Length", decText data.length) ++ bs "\r\n" ++
          data)
      simpa only [List.append_assoc] using this
    · rw [show bs "POST" = 80 :: bs "OST" by decide]
      simp

end Wifinfo
