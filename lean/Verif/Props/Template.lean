import Verif.Spec.Template
import Verif.Props.Push

/-!
# C23, C24: expansion of the URL template
-/

namespace Wifinfo
open Spec

theorem bind_ok {α β} {a : Res α} {f : α → Res β} {y : β} (h : a >>= f = .ok y) :
    ∃ x, a = .ok x ∧ f x = .ok y := by
  cases a with
  | error e => cases h
  | ok x => exact ⟨x, rfl, h⟩

theorem cstrOf_self {v : Str} (h : NulFree v) : cstrOf v = v := by
  induction v with
  | nil => rfl
  | cons b v ih =>
    have hb : (b != 0) = true := by simpa using h b (by simp)
    have := ih (fun x hx => h x (by simp [hx]))
    unfold cstrOf at this ⊢
    rw [List.takeWhile_cons, if_pos hb, this]

theorem rd_drop {k} {url : Arr k} {p : Nat} {b : Byte} {r : Str} (h : url.toList.drop p = b :: r) :
    url.rd p = .ok b ∧ url.toList.drop (p + 1) = r ∧ p < k := by
  have hlt : p < url.toList.length := by
    have := congrArg List.length h
    simp at this
    simp; omega
  have hk : p < k := by simpa using hlt
  rw [List.drop_eq_getElem_cons hlt] at h
  have h := List.cons.inj h
  refine ⟨?_, h.2, hk⟩
  rw [Arr.rd, dif_pos hk]
  congr 1
  have := h.1
  simpa using this

theorem readTilde_spec {k} {url : Arr k} : ∀ (n : Nat) {p : Nat} {name : Str} {x : Byte} {r : Str},
    url.toList.drop p = name ++ x :: r → (∀ b ∈ name, b ≠ 0 ∧ b ≠ 126) → name.length ≤ n →
    (name.length = n ∨ x = 0 ∨ x = 126) → readTilde url n p = .ok (p + name.length, name) := by
  intro n
  induction n with
  | zero =>
    intro p name x r h _ hl _
    have : name = [] := by simpa using hl
    subst this
    simp only [readTilde, (rd_drop h).1, ok_bind]
    rfl
  | succ n ih =>
    intro p name x r h hn hl hx
    cases name with
    | nil =>
      have hx : x = 0 ∨ x = 126 := by simpa using hx
      simp only [readTilde, (rd_drop h).1, ok_bind]
      rw [if_pos hx]
      rfl
    | cons b name =>
      obtain ⟨h1, h2, _⟩ := rd_drop (r := name ++ x :: r) h
      have hb := hn b (by simp)
      simp only [readTilde, h1, ok_bind]
      rw [if_neg (by rintro (e | e); exact hb.1 e; exact hb.2 e),
        ih h2 (fun y hy => hn y (by simp [hy])) (by simpa using hl) (by simpa using hx)]
      simp only [ok_bind, pure_ok, List.length_cons]
      congr 2
      omega

theorem isAlpha_spec : ∀ b : Byte, (isAlpha b ∨ b = 0x5F) ↔ nameChar b = true :=
  byte_all (by decide +kernel)

theorem readDollar_spec {k} {url : Arr k} : ∀ (n : Nat) {p : Nat} {name : Str} {x : Byte} {r : Str},
    url.toList.drop p = name ++ x :: r → (∀ b ∈ name, nameChar b = true) → name.length ≤ n →
    (name.length = n ∨ nameChar x = false) → readDollar url n p = .ok (p + name.length, name) := by
  intro n
  induction n with
  | zero =>
    intro p name x r h _ hl _
    have : name = [] := by simpa using hl
    subst this
    simp only [readDollar, (rd_drop h).1, ok_bind]
    rfl
  | succ n ih =>
    intro p name x r h hn hl hx
    cases name with
    | nil =>
      have hx : nameChar x = false := by simpa using hx
      simp only [readDollar, (rd_drop h).1, ok_bind]
      rw [if_neg (by rw [isAlpha_spec, hx]; simp)]
      rfl
    | cons b name =>
      obtain ⟨h1, h2, _⟩ := rd_drop (r := name ++ x :: r) h
      simp only [readDollar, h1, ok_bind]
      rw [if_pos (by rw [isAlpha_spec]; exact hn b (by simp)),
        ih h2 (fun y hy => hn y (by simp [hy])) (by simpa using hl) (by simpa using hx)]
      simp only [ok_bind, pure_ok, List.length_cons]
      congr 2
      omega

theorem drop_add {α} {l : List α} {p : Nat} {a b : List α} (h : l.drop p = a ++ b) :
    l.drop (p + a.length) = b := by
  rw [← List.drop_drop, h]; simp

/-- Expansion of a well-formed template found in the array. -/
theorem expandF_spec {k} {url : Arr k} {val : Str → Res Str} {e : TmplEnv}
    (hv : ∀ n : Str, n ≠ [] → val n = .ok (nameValue e n)) : ∀ (l : List Tok) {f p : Nat} {uri c : Str},
    GoodTmpl l → url.toList.drop p = tmplText l ++ 0 :: c → l.length < f →
    expandF url val f p uri = .ok (uri ++ tmplValue e l) := by
  intro l
  induction l with
  | nil =>
    intro f p uri c _ h hf
    cases f with
    | zero => simp at hf
    | succ f =>
      simp only [expandF, (rd_drop (b := 0) (r := c) h).1, ok_bind]
      simp [tmplValue, pure_ok]
  | cons t l ih =>
    intro f p uri c hg h hf
    cases f with
    | zero => simp at hf
    | succ f =>
      have hf' : l.length < f := by simpa using hf
      have hval : ∀ s : Str, uri ++ s ++ tmplValue e l = uri ++ (s ++ tmplValue e l) := by simp
      cases t with
      | lit b =>
        obtain ⟨g0, g1, g2, g3⟩ := hg
        obtain ⟨h1, h2, _⟩ := rd_drop (b := b) (r := tmplText l ++ 0 :: c) h
        simp only [expandF, h1, ok_bind]
        rw [if_neg g0, if_neg g2, if_neg g1, ih g3 h2 hf', hval]
        rfl
      | dollar =>
        have g3 : GoodTmpl l := hg
        obtain ⟨h1, h2, _⟩ := rd_drop (b := 36) (r := 36 :: (tmplText l ++ 0 :: c)) h
        obtain ⟨h3, h4, _⟩ := rd_drop h2
        simp only [expandF, h1, ok_bind]
        rw [if_neg (by decide), if_neg (by decide), if_pos (by decide), h3, ok_bind, if_pos (by decide),
          ih g3 h4 hf', hval]
        rfl
      | tilde =>
        have g3 : GoodTmpl l := hg
        obtain ⟨h1, h2, _⟩ := rd_drop (b := 126) (r := 126 :: (tmplText l ++ 0 :: c)) h
        obtain ⟨h3, h4, _⟩ := rd_drop h2
        simp only [expandF, h1, ok_bind]
        rw [if_neg (by decide), if_pos (by decide), readTilde_spec 15 (name := []) h2 (by simp) (by simp)
          (by simp)]
        simp only [ok_bind, if_true, List.length_nil, Nat.add_zero]
        rw [ih g3 h4 hf', hval]
        rfl
      | name n =>
        obtain ⟨g0, g1, g2, g3, g4⟩ := hg
        obtain ⟨h1, h2, _⟩ := rd_drop (b := 36) (r := n ++ (tmplText l ++ 0 :: c))
          (by rw [h]; simp [tmplText, Tok.text])
        have hx : ∃ x r, tmplText l ++ 0 :: c = x :: r ∧ (n.length = 15 ∨ nameChar x = false) := by
          cases ht : tmplText l with
          | nil => exact ⟨0, c, rfl, Or.inr (by decide)⟩
          | cons x r =>
            rw [ht] at g3
            exact ⟨x, r ++ 0 :: c, rfl, by simpa using g3⟩
        obtain ⟨x, r, hx1, hx2⟩ := hx
        have hd := readDollar_spec 15 (by rw [hx1] at h2; exact h2) g2 g1 hx2
        have h3 := drop_add h2
        cases n with
        | nil => exact absurd rfl g0
        | cons b n =>
          obtain ⟨h4, _, _⟩ := rd_drop (b := b) (r := n ++ (tmplText l ++ 0 :: c)) h2
          have hb : b ≠ 36 := by
            intro e
            have := g2 b (by simp)
            rw [e] at this
            exact absurd this (by decide)
          simp only [expandF, h1, ok_bind]
          rw [if_neg (by decide), if_neg (by decide), if_pos (by decide), h4, ok_bind, if_neg hb, hd]
          simp only [ok_bind]
          rw [hv _ g0, ok_bind, ih g4 h3 hf', hval]
          rfl
      | quoted n =>
        obtain ⟨g0, g1, g2, g4⟩ := hg
        obtain ⟨h1, h2, _⟩ := rd_drop (b := 126) (r := n ++ 126 :: (tmplText l ++ 0 :: c))
          (by rw [h]; simp [tmplText, Tok.text])
        have hd := readTilde_spec 15 h2 g2 g1 (Or.inr (Or.inr rfl))
        have h3 := drop_add h2
        obtain ⟨_, h4, _⟩ := rd_drop h3
        simp only [expandF, h1, ok_bind]
        rw [if_neg (by decide), if_pos (by decide), hd]
        simp only [ok_bind]
        rw [if_neg g0, hv _ g0, ok_bind, ih g4 h4 hf', hval]
        rfl

/-! ## The names -/

theorem toLower_spec : ∀ b : Byte, toLower b = lower b := byte_all (by decide +kernel)

theorem caseEq_iff (a : Str) (b : String) (hb : (bs b).map lower = bs b) :
    caseEq a (bs b) = true ↔ a.map lower = bs b := by
  have : a.map toLower = a.map lower := List.map_congr_left fun x _ => toLower_spec x
  have h2 : (bs b).map toLower = (bs b).map lower := List.map_congr_left fun x _ => toLower_spec x
  unfold caseEq
  rw [this, h2, hb, beq_iff_eq]

/-- What the expansion knows about a frame. -/
def envOf (w : World) (t : Teleinfo) (notif : Str) (gs : List RawGroup) : TmplEnv :=
  { notif := notif, iso := w.iso t.fr.ts.sec, sec := t.fr.ts.sec, seconds := t.fr.seconds,
    chipId := bs "0x" ++ hex06 w.chipId, groups := pairs (storedAll gs) }

theorem addValue_spec (w : World) {t : Teleinfo} {ts gs l} (h : TinfoReach t ((ts, gs) :: l))
    (notif n : Str) : httpAddValueEx w t n notif = .ok (nameValue (envOf w t notif gs) n) := by
  have hg := c09_lookup (.copied h) n true
  unfold httpAddValueEx nameValue envOf
  simp only [caseEq_iff _ "type" (by decide), caseEq_iff _ "notif" (by decide), caseEq_iff _ "date" (by decide),
    caseEq_iff _ "timestamp" (by decide), caseEq_iff _ "seconds" (by decide), caseEq_iff _ "chipid" (by decide)]
  by_cases h1 : n.map lower = bs "type"
  · rw [if_pos h1, if_pos (Or.inl h1)]; rfl
  rw [if_neg h1]
  by_cases h2 : n.map lower = bs "notif"
  · rw [if_pos h2, if_pos (Or.inr h2)]; rfl
  have h12 : ¬ (n.map lower = bs "type" ∨ n.map lower = bs "notif") := by
    rintro (e | e)
    · exact h1 e
    · exact h2 e
  rw [if_neg h2, if_neg h12]
  by_cases h3 : n.map lower = bs "date"
  · rw [if_pos h3, if_pos h3]; rfl
  rw [if_neg h3, if_neg h3]
  by_cases h4 : n.map lower = bs "timestamp"
  · rw [if_pos h4, if_pos h4]; rfl
  rw [if_neg h4, if_neg h4]
  by_cases h5 : n.map lower = bs "seconds"
  · rw [if_pos h5, if_pos h5]; rfl
  rw [if_neg h5, if_neg h5]
  by_cases h6 : n.map lower = bs "chipid"
  · rw [if_pos h6, if_pos h6]; rfl
  rw [if_neg h6, if_neg h6, hg, ok_bind]
  cases lookup n (pairs (storedAll gs)) <;> rfl

theorem hexDigit_val : ∀ n : Fin 16, (((48 ≤ (hexDigit n.val).toNat ∧ (hexDigit n.val).toNat ≤ 57) ∨
    (65 ≤ (hexDigit n.val).toNat ∧ (hexDigit n.val).toNat ≤ 70))) ∧
    (if (hexDigit n.val).toNat ≤ 57 then (hexDigit n.val).toNat - 48 else (hexDigit n.val).toNat - 55) = n.val := by
  decide

theorem hex06_spec (v : UInt32) : IsHex6 (bs "0x" ++ hex06 v) v.toNat := by
  have hd : ∀ k, (((48 ≤ (hexDigit (k % 16)).toNat ∧ (hexDigit (k % 16)).toNat ≤ 57) ∨
      (65 ≤ (hexDigit (k % 16)).toNat ∧ (hexDigit (k % 16)).toNat ≤ 70))) ∧
      (if (hexDigit (k % 16)).toNat ≤ 57 then (hexDigit (k % 16)).toNat - 48 else (hexDigit (k % 16)).toNat - 55) = k % 16 :=
    fun k => hexDigit_val ⟨k % 16, Nat.mod_lt _ (by decide)⟩
  have hv := v.toNat_lt
  refine ⟨hex06 v, rfl, ?_, ?_, ?_⟩
  · unfold hex06; simp only; split
    · simp
    · split <;> simp
  · intro b hb
    unfold hex06 at hb
    simp only at hb
    split at hb
    · simp only [List.mem_cons, List.not_mem_nil, or_false] at hb
      rcases hb with rfl | rfl | rfl | rfl | rfl | rfl <;> exact (hd _).1
    · split at hb
      · simp only [List.mem_cons, List.not_mem_nil, or_false] at hb
        rcases hb with rfl | rfl | rfl | rfl | rfl | rfl | rfl <;> exact (hd _).1
      · simp only [List.mem_cons, List.not_mem_nil, or_false] at hb
        rcases hb with rfl | rfl | rfl | rfl | rfl | rfl | rfl | rfl <;> exact (hd _).1
  · unfold hex06
    simp only
    split
    · simp only [List.foldl, (hd _).2]; omega
    · split
      · simp only [List.foldl, (hd _).2]; omega
      · simp only [List.foldl, (hd _).2]; omega

/-! ## C23 -/

theorem textOf_split {n} {a : Arr n} {s : Str} (h : HasText a s) : ∃ c, a.toList = s ++ 0 :: c := by
  unfold HasText textOf at h
  split at h
  · rename_i h0
    have e := Option.some.inj h
    subst e
    generalize a.toList = l at h0
    clear h
    induction l with
    | nil => simp at h0
    | cons b l ih =>
      by_cases hb : b = 0
      · exact ⟨l, by simp [hb]⟩
      · obtain ⟨c, hc⟩ := ih (by simpa [Ne.symm hb] using h0)
        refine ⟨c, ?_⟩
        rw [List.takeWhile_cons, if_pos (by simpa using hb)]
        show b :: l = b :: (_ ++ 0 :: c)
        rw [← hc]
  · cases h

theorem tmpl_length (l : List Tok) (h : GoodTmpl l) : l.length ≤ (tmplText l).length := by
  induction l with
  | nil => simp
  | cons t l ih =>
    have : 1 ≤ t.text.length := by cases t <;> simp [Tok.text]
    have hl : GoodTmpl l := by
      cases t
      · exact h.2.2.2
      · exact h
      · exact h
      · exact h.2.2.2.2
      · exact h.2.2.2
    have := ih hl
    simp [tmplText] at this ⊢
    omega

/-- **C23.** Every well-formed template expands to the concatenation of its literal parts and of the
values of its names, for every frame, whatever is stored after the text in the setting. -/
theorem c23_expand (w : World) (c : Config) {t : Teleinfo} {ts gs l} (h : TinfoReach t ((ts, gs) :: l))
    (hu : ts.usec < 1000000) (n : Notif) {tmpl : List Tok} (hg : GoodTmpl tmpl)
    (ht : HasText c.httpreq.url (tmplText tmpl)) :
    ∃ e : TmplEnv, expandUrl w c t n.text = .ok (tmplValue e tmpl) ∧ e.notif = n.text ∧
      e.iso = w.iso ts.sec ∧ e.sec = ts.sec ∧ IsSeconds e.seconds ts.sec ts.usec ∧
      IsHex6 e.chipId w.chipId.toNat ∧ e.groups = pairs (storedAll gs) := by
  obtain ⟨r, hr⟩ := textOf_split ht
  have hts := (reach_inv h).2.2.2.2.2
  refine ⟨envOf w t n.text gs, ?_, rfl, by simp [envOf, hts], by simp [envOf, hts], ?_, hex06_spec _, rfl⟩
  · unfold expandUrl
    have hlen : (tmplText tmpl).length < 151 := by
      have := congrArg List.length hr
      simp at this; omega
    rw [expandF_spec (fun m _ => addValue_spec w h n.text m) tmpl hg (by simpa using hr)
      (by have := tmpl_length tmpl hg; omega)]
    rfl
  · show IsSeconds t.fr.seconds _ _
    rw [← hts]; exact seconds_spec _ (by rw [hts]; exact hu)

/-- The same on the labels and values sent by the meter. -/
theorem c23_expand_meter (w : World) (c : Config) {t : Teleinfo} {ts l} {gs : List MeterGroup}
    (h : TinfoReach t ((ts, gs.map MeterGroup.raw) :: l)) (hl : ∀ g ∈ gs, g.Legal)
    (hu : ts.usec < 1000000) (n : Notif) {tmpl : List Tok} (hg : GoodTmpl tmpl)
    (ht : HasText c.httpreq.url (tmplText tmpl)) :
    ∃ e : TmplEnv, expandUrl w c t n.text = .ok (tmplValue e tmpl) ∧ e.notif = n.text ∧
      e.iso = w.iso ts.sec ∧ e.sec = ts.sec ∧ IsSeconds e.seconds ts.sec ts.usec ∧
      IsHex6 e.chipId w.chipId.toNat ∧ e.groups = meterPairs gs := by
  rw [← meter_pairs hl]
  exact c23_expand w c h hu n hg ht

/-- README.md:64, what is told of each kind of notification: `MAJ`: périodique, `PTEC`: changement tarif, `HAUT`: seuil haut, `BAS`:
retour seuil bas, `ADPS`: dépassement, `NORM`: fin dépassement. -/
def documentedType : Notif → Str
  | .maj => bs "MAJ"
  | .ptec => bs "PTEC"
  | .haut => bs "HAUT"
  | .bas => bs "BAS"
  | .adps => bs "ADPS"
  | .norm => bs "NORM"

/-- **C23**: `$type` and `$notif`, in any case, give the documented word for the kind of the notification. -/
theorem c23_types (w : World) (t : Teleinfo) (n : Notif) (name : Str)
    (hn : name.map lower = bs "type" ∨ name.map lower = bs "notif") :
    httpAddValueEx w t name n.text = .ok (documentedType n) := by
  have e : n.text = documentedType n := by cases n <;> decide
  unfold httpAddValueEx
  simp only [caseEq_iff _ "type" (by decide), caseEq_iff _ "notif" (by decide)]
  rcases hn with h | h
  · rw [if_pos h, e]
    rfl
  · by_cases h1 : name.map lower = bs "type"
    · rw [if_pos h1, e]
      rfl
    · rw [if_neg h1, if_pos h, e]
      rfl

/-- A template of the documentation. -/
def sampleTmpl : List Tok :=
  (bs "/x?hc=").map .lit ++ [.name (bs "HCHC")] ++ (bs "&t=").map .lit ++ [.quoted (bs "TYPE"), .dollar, .tilde,
    .name (bs "NONE")]

example : GoodTmpl sampleTmpl ∧ tmplText sampleTmpl = bs "/x?hc=$HCHC&t=~TYPE~$$~~$NONE" ∧
    tmplValue ⟨bs "MAJ", [], 7, bs "7.000", bs "0xABCDEF", meterPairs sampleMeter⟩ sampleTmpl =
      bs "/x?hc=52890470&t=MAJ$~" := by
  refine ⟨?_, by decide +kernel, by decide +kernel⟩
  simp only [sampleTmpl, bs]
  simp [GoodTmpl, tmplText, Tok.text]
  decide

/-! ## C24 -/

theorem rd_end {k} {url : Arr k} {p : Nat} (h : url.toList.drop p = []) : url.rd p = .error .outOfBounds := by
  have : url.toList.length ≤ p := List.drop_eq_nil_iff.1 h
  rw [Arr.rd, dif_neg (by simpa using this)]

theorem readTilde_exact {k} {url : Arr k} : ∀ (n m : Nat) {p : Nat} {s : Str}, n + m = 15 →
    url.toList.drop p = s →
    (readTilde url n p = .error .outOfBounds ∧ runsOff (some m) s = true) ∨
    ∃ q name s', readTilde url n p = .ok (q, name) ∧ url.toList.drop (q + 1) = s' ∧ s'.length < s.length ∧
      runsOff (some m) s = runsOff none s' := by
  intro n
  induction n with
  | zero =>
    intro m p s hm h
    obtain rfl : m = 15 := by omega
    cases s with
    | nil => exact Or.inl ⟨by simp only [readTilde, rd_end h, err_bind], rfl⟩
    | cons b s =>
      obtain ⟨h1, h2, _⟩ := rd_drop h
      exact Or.inr ⟨p, [], s, by simp only [readTilde, h1, ok_bind, pure_ok], h2, by simp, by simp [runsOff]⟩
  | succ n ih =>
    intro m p s hm h
    cases s with
    | nil => exact Or.inl ⟨by simp only [readTilde, rd_end h, err_bind], rfl⟩
    | cons b s =>
      obtain ⟨h1, h2, _⟩ := rd_drop h
      have hm15 : ¬ m = 15 := by omega
      by_cases hb : b = 0 ∨ b = 0x7E
      · refine Or.inr ⟨p, [], s, ?_, h2, by simp, ?_⟩
        · simp only [readTilde, h1, ok_bind]; rw [if_pos hb]; rfl
        · simp only [runsOff]
          rw [if_pos (by rcases hb with hb | hb <;> simp [hb])]
      · have hr : runsOff (some m) (b :: s) = runsOff (some (m + 1)) s := by
          simp only [runsOff]
          rw [if_neg (by
            intro hx
            rcases hx with hx | hx | hx
            · exact hb (Or.inl hx)
            · exact hb (Or.inr hx)
            · exact hm15 hx)]
        rw [hr]
        rcases ih (m + 1) (by omega) h2 with ⟨e1, e2⟩ | ⟨q, name, s', e1, e2, e3, e4⟩
        · refine Or.inl ⟨?_, e2⟩
          simp only [readTilde, h1, ok_bind]; rw [if_neg hb, e1, err_bind]
        · refine Or.inr ⟨q, b :: name, s', ?_, e2, by simp; omega, e4⟩
          simp only [readTilde, h1, ok_bind]; rw [if_neg hb, e1]; rfl

theorem alpha_plain {b : Byte} (h : isAlpha b ∨ b = 0x5F) : b ≠ 0 ∧ b ≠ 126 := by
  constructor <;> intro e <;> subst e <;> revert h <;> decide

theorem readDollar_exact {k} {url : Arr k} : ∀ (n : Nat) {p : Nat} {s : Str}, url.toList.drop p = s →
    (readDollar url n p = .error .outOfBounds ∧ runsOff none s = true) ∨
    ∃ q name s', readDollar url n p = .ok (q, name) ∧ url.toList.drop q = s' ∧ s'.length ≤ s.length ∧
      runsOff none s = runsOff none s' := by
  intro n
  induction n with
  | zero =>
    intro p s h
    cases s with
    | nil => exact Or.inl ⟨by simp only [readDollar, rd_end h, err_bind], rfl⟩
    | cons b s =>
      obtain ⟨h1, h2, _⟩ := rd_drop h
      exact Or.inr ⟨p, [], b :: s, by simp only [readDollar, h1, ok_bind, pure_ok], h, Nat.le_refl _, rfl⟩
  | succ n ih =>
    intro p s h
    cases s with
    | nil => exact Or.inl ⟨by simp only [readDollar, rd_end h, err_bind], rfl⟩
    | cons b s =>
      obtain ⟨h1, h2, _⟩ := rd_drop h
      by_cases hb : isAlpha b ∨ b = 0x5F
      · obtain ⟨n0, n126⟩ := alpha_plain hb
        have hr : runsOff none (b :: s) = runsOff none s := by
          simp only [runsOff]; rw [if_neg n0, if_neg n126]
        rw [hr]
        rcases ih h2 with ⟨e1, e2⟩ | ⟨q, name, s', e1, e2, e3, e4⟩
        · refine Or.inl ⟨?_, e2⟩
          simp only [readDollar, h1, ok_bind]; rw [if_pos hb, e1, err_bind]
        · refine Or.inr ⟨q, b :: name, s', ?_, e2, by simp; omega, e4⟩
          simp only [readDollar, h1, ok_bind]; rw [if_pos hb, e1]; rfl
      · refine Or.inr ⟨p, [], b :: s, ?_, h, Nat.le_refl _, rfl⟩
        simp only [readDollar, h1, ok_bind]; rw [if_neg hb]; rfl

theorem expandF_exact {k} {url : Arr k} {val : Str → Res Str} (hv : ∀ n, ∃ v, val n = .ok v) :
    ∀ (f : Nat) {p : Nat} {s uri : Str}, url.toList.drop p = s → s.length < f →
    if runsOff none s then expandF url val f p uri = .error .outOfBounds
    else ∃ u, expandF url val f p uri = .ok u := by
  intro f
  induction f with
  | zero => intro p s uri h hf; omega
  | succ f ih =>
    intro p s uri h hf
    cases s with
    | nil => simp only [runsOff, if_true, expandF, rd_end h, err_bind]
    | cons b s =>
      obtain ⟨h1, h2, _⟩ := rd_drop h
      have hf : s.length < f := by simpa using hf
      simp only [expandF, h1, ok_bind]
      by_cases b0 : b = 0
      · rw [if_pos b0, show runsOff none (b :: s) = false by simp [runsOff, b0]]
        simp only [Bool.false_eq_true, if_false]
        exact ⟨uri, rfl⟩
      rw [if_neg b0]
      by_cases bt : b = 0x7E
      · rw [if_pos bt, show runsOff none (b :: s) = runsOff (some 0) s by
          simp only [runsOff]; rw [if_neg b0, if_pos bt]]
        rcases readTilde_exact 15 0 rfl h2 with ⟨e1, e2⟩ | ⟨q, name, s', e1, e2, e3, e4⟩
        · rw [e1, e2, err_bind]; simp
        · rw [e1, e4, ok_bind]
          by_cases hn : name = []
          · simp only [hn, if_true]; exact ih e2 (by omega)
          · obtain ⟨v, hv⟩ := hv name
            simp only [hn, if_false, hv, ok_bind]; exact ih e2 (by omega)
      rw [if_neg bt]
      have hr : runsOff none (b :: s) = runsOff none s := by
        simp only [runsOff]; rw [if_neg b0, if_neg bt]
      rw [hr]
      by_cases bd : b = 0x24
      · rw [if_pos bd]
        cases s with
        | nil => simp only [runsOff, if_true, rd_end h2, err_bind]
        | cons c s =>
          obtain ⟨g1, g2, _⟩ := rd_drop h2
          rw [g1, ok_bind]
          by_cases c36 : c = 0x24
          · rw [if_pos c36, show runsOff none (c :: s) = runsOff none s by
              simp only [runsOff]; rw [if_neg (by rw [c36]; decide), if_neg (by rw [c36]; decide)]]
            exact ih g2 (by simp at hf; omega)
          · rw [if_neg c36]
            rcases readDollar_exact 15 h2 with ⟨e1, e2⟩ | ⟨q, name, s', e1, e2, e3, e4⟩
            · rw [e1, e2, err_bind]; simp
            · obtain ⟨v, hv⟩ := hv name
              rw [e1, e4, ok_bind]
              simp only [hv, ok_bind]
              exact ih e2 (by omega)
      · rw [if_neg bd]
        exact ih h2 hf

/-- **C24 (exact).** For every content of the URL setting, reachable or not, and every frame: the
expansion reads outside of the setting exactly when the bytes of the setting are exhausted before a NUL
between the names; otherwise it ends normally. -/
theorem c24_exact (w : World) (c : Config) {t : Teleinfo} {ts gs l} (h : TinfoReach t ((ts, gs) :: l))
    (notif : Str) :
    if runsOff none c.httpreq.url.toList then expandUrl w c t notif = .error .outOfBounds
    else ∃ u, expandUrl w c t notif = .ok u :=
  expandF_exact (fun n => ⟨_, addValue_spec w h notif n⟩) 152 (List.drop_zero ..) (by simp)

/-- What the setting must look like: a NUL between the names. -/
def UrlSafe (c : Config) : Prop := runsOff none c.httpreq.url.toList = false

theorem runsOff_plain : ∀ (u r : Str), (126 : Byte) ∉ u → runsOff none (u ++ 0 :: r) = false := by
  intro u
  induction u with
  | nil => intro r _; simp [runsOff]
  | cons b u ih =>
    intro r h
    simp only [List.mem_cons, not_or] at h
    simp only [List.cons_append, runsOff]
    rw [if_neg (c := b = 126) (fun e => h.1 e.symm)]
    split
    · rfl
    · exact ih r h.2

theorem runsOff_twice : ∀ (u : Str) (st : Option Nat) (r : Str), runsOff st (u ++ 0 :: 0 :: r) = false := by
  intro u
  induction u with
  | nil => intro st r; cases st <;> simp [runsOff]
  | cons b u ih =>
    intro st r
    cases st with
    | none => simp only [List.cons_append, runsOff]; split; rfl; exact ih _ _
    | some n => simp only [List.cons_append, runsOff]; exact ih _ _

/-- No `~`, or two NULs after the text. -/
theorem urlSafe_of {c : Config} (h : ∃ u r, c.httpreq.url.toList = u ++ 0 :: r ∧
    ((126 : Byte) ∉ u ∨ r.head? = some 0)) : UrlSafe c := by
  obtain ⟨u, r, h1, h2⟩ := h
  unfold UrlSafe
  rw [h1]
  rcases h2 with h2 | h2
  · exact runsOff_plain u r h2
  · cases r with
    | nil => cases h2
    | cons x r =>
      obtain rfl : x = 0 := by simpa using h2
      exact runsOff_twice u none r

/-- **C24 (partial).** The expansion ends normally, without reading outside the setting, when the setting has
a NUL between the names (which is the case after a post unless the text has 150 bytes and ends inside a name,
`c24_form_partial`).  Missing with respect to the property as stated: other contents, for which it is false
(`c24_exact`, `c24_refuted`). -/
theorem c24_safe_partial (w : World) (c : Config) {t : Teleinfo} {ts gs l}
    (h : TinfoReach t ((ts, gs) :: l)) (notif : Str) (hs : UrlSafe c) :
    ∃ u, expandUrl w c t notif = .ok u := by
  have := c24_exact w c h notif
  rw [show runsOff none c.httpreq.url.toList = false from hs] at this
  simpa using this

/-- What a form post leaves in the URL setting. -/
theorem form_url {s s' : Nv} {a : Args} {restricted : Bool} {k : Commit}
    (h : s.handleForm a restricted k = .ok (s', 200)) :
    s'.config.httpreq.url.toList = (cstrOf (posted a "httpreq_url")).take 150 ++
      (0 :: List.replicate (150 - (cstrOf (posted a "httpreq_url")).length) 0) := by
  unfold Nv.handleForm at h
  split at h
  · obtain ⟨c, _, h⟩ := bind_ok h
    obtain ⟨e, _, h⟩ := bind_ok h
    obtain ⟨j, _, h⟩ := bind_ok h
    obtain ⟨q, hq, h⟩ := bind_ok h
    rw [Nv.configSave_eq] at h
    have h := congrArg (fun s => s.config.httpreq.url) (Prod.mk.inj (Except.ok.inj h)).1
    rw [← h]
    show (q.url.setNul 150).toList = _
    unfold HttpreqConfig.form at hq
    obtain ⟨x1, _, hq⟩ := bind_ok hq
    obtain ⟨x2, hu, hq⟩ := bind_ok hq
    rw [← Except.ok.inj hq]
    show (x2.setNul 150).toList = _
    obtain ⟨b, g1, g2⟩ := strncpyS_toList c.httpreq.url (getArg a "httpreq_url") 150 (by decide)
    rw [hu] at g1
    rw [← Except.ok.inj g1] at g2
    rw [setNul_toList, g2, getArg_eq]
    generalize cstrOf (posted a "httpreq_url") = y
    rw [List.drop_of_length_le (by simp), List.append_nil]
    apply List.ext_getElem?
    intro i
    rw [List.getElem?_set]
    have hlen : (List.take 150 y ++ 0 :: List.replicate (150 - y.length) 0).length = 151 := by
      simp; omega
    by_cases hi : 150 = i
    · subst hi
      rw [if_pos rfl, if_pos (by rw [hlen]; decide)]
      rw [List.getElem?_append]
      by_cases hy : y.length < 150
      · rw [if_neg (by simp; omega)]
        rw [show 150 - (List.take 150 y).length = (149 - y.length) + 1 by simp; omega,
          List.getElem?_cons_succ, List.getElem?_replicate, if_pos (by omega)]
      · rw [if_neg (by simp; omega)]
        rw [show 150 - (List.take 150 y).length = 0 by simp; omega]
        rfl
    · rw [if_neg hi]
  · have := (Prod.mk.inj (Except.ok.inj h)).2
    simp at this

theorem runsOff_zeros (n : Nat) (st : Option Nat) :
    runsOff st (List.replicate n 0) = (decide (n = 0) || (st.isSome && decide (n = 1))) := by
  cases n with
  | zero => cases st <;> rfl
  | succ n =>
    cases st with
    | none => simp [List.replicate_succ, runsOff]
    | some m =>
      cases n with
      | zero => simp [runsOff]
      | succ n => simp [List.replicate_succ, runsOff]

theorem runsOff_text : ∀ (u : Str) (st : Option Nat) (n : Nat), NulFree u →
    runsOff st (u ++ 0 :: List.replicate n 0) = (dangling st u && decide (n = 0)) := by
  intro u
  induction u with
  | nil =>
    intro st n _
    have := runsOff_zeros (n + 1) st
    rw [List.replicate_succ] at this
    rw [List.nil_append, this]
    cases st <;> simp [dangling]
  | cons b u ih =>
    intro st n hu
    have hb : b ≠ 0 := hu b (by simp)
    have hu : NulFree u := fun x hx => hu x (by simp [hx])
    cases st with
    | none =>
      simp only [List.cons_append, runsOff, dangling]
      rw [if_neg hb]; exact ih _ _ hu
    | some m =>
      simp only [List.cons_append, runsOff, dangling, hb, false_or]
      exact ih _ _ hu

/-- The text that is stored makes the setting unsafe exactly when it has 150 bytes and ends inside a name. -/
theorem form_runsOff {s s' : Nv} {a : Args} {restricted : Bool} {k : Commit}
    (h : s.handleForm a restricted k = .ok (s', 200)) :
    runsOff none s'.config.httpreq.url.toList =
      decide (((cstrOf (posted a "httpreq_url")).take 150).length = 150 ∧
        dangling none ((cstrOf (posted a "httpreq_url")).take 150) = true) := by
  have hn : NulFree ((cstrOf (posted a "httpreq_url")).take 150) := by
    intro x hx
    exact cstrOf_nulFree _ x (List.mem_of_mem_take hx)
  rw [form_url h, runsOff_text _ _ _ hn]
  have hl : ((cstrOf (posted a "httpreq_url")).take 150).length =
    min 150 (cstrOf (posted a "httpreq_url")).length := List.length_take ..
  generalize dangling none _ = x
  by_cases h1 : ((cstrOf (posted a "httpreq_url")).take 150).length = 150
  · have h0 : 150 - (cstrOf (posted a "httpreq_url")).length = 0 := by omega
    rw [h0]; cases x <;> simp [h1]
  · have h0 : ¬ 150 - (cstrOf (posted a "httpreq_url")).length = 0 := by omega
    simp only [h0, decide_false, Bool.and_false, h1, false_and]

/-- **C24 (partial), form.** A posted URL is safe unless the stored text has 150 bytes and ends inside a name
opened by a `~`.  Missing with respect to the property as stated: these, for which it is false
(`c24_form_exact`). -/
theorem c24_form_partial {s s' : Nv} {a : Args} {restricted : Bool} {k : Commit}
    (h : s.handleForm a restricted k = .ok (s', 200))
    (hu : ((cstrOf (posted a "httpreq_url")).take 150).length < 150 ∨
      dangling none ((cstrOf (posted a "httpreq_url")).take 150) = false) : UrlSafe s'.config := by
  unfold UrlSafe
  rw [form_runsOff h, decide_eq_false_iff_not]
  rintro ⟨h1, h2⟩
  rcases hu with hu | hu
  · omega
  · rw [hu] at h2; cases h2

/-- **C24 (exact, form).** After a URL has been posted, the expansion reads outside of the setting exactly
when the stored text has the 150 bytes the setting can hold and ends inside a name opened by a `~`. -/
theorem c24_form_exact {s s' : Nv} {a : Args} {restricted : Bool} {k : Commit}
    (h : s.handleForm a restricted k = .ok (s', 200)) (w : World) {t : Teleinfo} {ts gs l}
    (ht : TinfoReach t ((ts, gs) :: l)) (notif : Str) :
    let text := (cstrOf (posted a "httpreq_url")).take 150
    if text.length = 150 ∧ dangling none text = true then
      expandUrl w s'.config t notif = .error .outOfBounds
    else ∃ u, expandUrl w s'.config t notif = .ok u := by
  intro text
  have hx := c24_exact w s'.config ht notif
  rw [form_runsOff h] at hx
  simpa only [decide_eq_true_eq] using hx

-- Both cases are met: a text of 150 bytes whose last name is closed, and one whose last name is not.
example : (List.replicate 144 97 ++ bs "~PAPP~" : Str).length = 150 ∧
    dangling none (List.replicate 144 97 ++ bs "~PAPP~") = false ∧
    dangling none (List.replicate 145 97 ++ bs "~PAPP") = true := by decide +kernel

/-- A form with a URL of 150 bytes, the last one `~`. -/
def longForm : Args := [(bs "save", bs "1"), (bs "httpreq_host", bs "h"),
  (bs "httpreq_url", List.replicate 149 97 ++ [126])]

theorem expandF_lits {k} {url : Arr k} {val : Str → Res Str} : ∀ (n : Nat) {f p : Nat} {uri r : Str},
    url.toList.drop p = List.replicate n 97 ++ r →
    expandF url val (n + f) p uri = expandF url val f (p + n) (uri ++ List.replicate n 97) := by
  intro n
  induction n with
  | zero => intro f p uri r h; simp
  | succ n ih =>
    intro f p uri r h
    obtain ⟨h1, h2, _⟩ := rd_drop (b := 97) (r := List.replicate n 97 ++ r) h
    rw [show n + 1 + f = (n + f) + 1 by omega]
    rw [expandF]
    simp only [h1, ok_bind]
    rw [if_neg (by decide), if_neg (by decide), if_neg (by decide), ih h2]
    congr 1
    · omega
    · simp [List.replicate_succ]

theorem longForm_save : isPosted longForm "save" = true := by decide +kernel

theorem longForm_url : posted longForm "httpreq_url" = List.replicate 149 97 ++ [126] := by
  decide +kernel

theorem long_text : cstrOf (List.replicate 149 97 ++ [126] : Str) = List.replicate 149 97 ++ [126] := by
  apply cstrOf_self
  intro b hb
  rcases List.mem_append.1 hb with hb | hb
  · rw [List.eq_of_mem_replicate hb]; decide
  · simp at hb; rw [hb]; decide

theorem expandF_long {url : Arr 151} {val : Str → Res Str} {n : Nat} (hn : n + 2 = 151)
    (hu : url.toList = List.replicate n 97 ++ [126, 0]) {f} :
    expandF url val (n + (f + 2)) 0 [] = .error .outOfBounds := by
  rw [expandF_lits n (r := [126, 0]) (by rw [List.drop_zero]; exact hu)]
  have hd : url.toList.drop n = [126, 0] := by
    rw [hu, List.drop_append_of_le_length (by simp)]
    simp
  obtain ⟨g1, g2, _⟩ := rd_drop hd
  rw [Nat.zero_add, expandF]
  simp only [g1, ok_bind]
  rw [if_neg (by decide), if_pos (by decide), readTilde_spec 15 (name := []) g2 (by simp) (by simp) (by simp)]
  simp only [ok_bind, List.length_nil, Nat.add_zero, if_true]
  rw [expandF]
  have : url.rd (n + 1 + 1) = .error .outOfBounds := by
    rw [Arr.rd, dif_neg (by omega)]
  rw [this, err_bind]

theorem long_bytes {l : Str} (h : l.length = 150) :
    l.take 150 ++ (0 :: List.replicate (150 - l.length) 0) = l ++ [0] := by
  rw [List.take_of_length_le (by omega), h]
  rfl

/-- **C24** as stated is false: a URL of 150 bytes ending with `~`, accepted by the form, makes the
expansion read past the end of the setting, for every frame and notification. -/
theorem c24_refuted : ∃ s : Nv, NvReach s ∧ ∀ (w : World) (t : Teleinfo) (notif : Str),
    expandUrl w s.config t notif = .error .outOfBounds := by
  obtain ⟨s0, h0⟩ := boot_ok blankFlash 1 .ok .ok
  obtain ⟨c, h1, h2, h3⟩ := handleForm_ok s0 longForm false .ok longForm_save
  refine ⟨_, NvReach.step (NvReach.boot h0) (step_form h1), ?_⟩
  have hu := form_url h1
  generalize (Nv.configSave { s0 with config := c } Commit.ok).1.config = cfg at hu
  intro w t notif
  rw [longForm_url, long_text, long_bytes (by simp), List.append_assoc] at hu
  exact expandF_long (f := 1) rfl hu

example : ∃ s s' : Nv, ∃ a, s.handleForm a false .ok = .ok (s', 200) ∧
    (cstrOf (posted a "httpreq_url")).length < 150 ∧ (126 : Byte) ∈ posted a "httpreq_url" := by
  obtain ⟨s0, h0⟩ := boot_ok blankFlash 1 .ok .ok
  obtain ⟨c, h1, h2, h3⟩ := handleForm_ok s0 plainForm false .ok (by decide +kernel)
  exact ⟨_, _, _, h1, by decide +kernel, by decide +kernel⟩

end Wifinfo
