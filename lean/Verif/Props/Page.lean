import Verif.Model.Page
import Verif.Props.ConfigJson

/-!
# C75, C76: the configuration page
-/

namespace Wifinfo
open Spec

namespace Spec

/-- Every text is UTF-8 without control characters, `"` and `\`. -/
def SimpleTexts (l : List (String × Setting)) : Prop :=
  ∀ p ∈ l, ∀ t, p.2 = .text (some t) → IsUtf8 t ∧ ∀ b ∈ t, 32 ≤ b ∧ b ≠ 34 ∧ b ≠ 92

/-- Every number is in its documented range. -/
def NumbersInRange (l : List (String × Setting)) : Prop := ∀ p ∈ l, ∀ n, p.2 = .num n → n ≤ maxOf p.1

/-- Periods are among those that the page proposes. -/
def PeriodsOffered (l : List (String × Setting)) : Prop :=
  ∀ p ∈ l, ∀ n, p.2 = .num n → p.1 = "emon_freq" ∨ p.1 = "jdom_freq" ∨ p.1 = "httpreq_freq" →
    n ∈ [0, 15, 30, 60, 300, 900, 1800, 3600, 21600, 42300, 86400]

end Spec

example : Nonempty Browser :=
  ⟨⟨fun s => open Classical in if IsUtf8 s then s else [], fun s h => if_pos h, fun s => by
    split
    · assumption
    · exact ⟨[], by simp, rfl⟩⟩⟩

/-- The characters of an ASCII text. -/
theorem ascii_chars {t : Str} (h : ∀ b ∈ t, b < 128) : t = (t.map (·.toNat)).flatMap utf8 ∧
    utf16Length (t.map (·.toNat)) = t.length ∧ ∀ n ∈ t.map (·.toNat), Scalar n := by
  refine ⟨?_, ?_, fun n hn => ?_⟩
  rotate_left
  · clear h
    induction t with
    | nil => rfl
    | cons b t ih =>
      have := b.toNat_lt
      simp only [utf16Length, List.map_cons, List.sum_cons] at ih ⊢
      rw [ih, if_pos (by omega), List.length_cons, Nat.add_comm]
  · obtain ⟨b, -, rfl⟩ := List.mem_map.1 hn
    have := b.toNat_lt
    exact .inl (by omega)
  · induction t with
    | nil => rfl
    | cons b t ih =>
      have hb : b.toNat < 128 := UInt8.lt_iff_toNat_lt.1 (h b (List.mem_cons_self ..))
      rw [List.map_cons, List.flatMap_cons, ← ih fun x hx => h x (List.mem_cons_of_mem _ hx), utf8, if_pos hb]
      simp

theorem ascii_utf8 {t : Str} (h : ∀ b ∈ t, b < 128) : IsUtf8 t :=
  ⟨_, (ascii_chars h).2.2, (ascii_chars h).1⟩

/-! ## The posted values -/

theorem control_name (w : Browser) (o : List (Str × JVal)) (g : Str × Control) (x) (hx : w.control o g = some x) :
    x.1 = g.1 := by
  unfold Browser.control at hx
  split at hx
  · cases hx; rfl
  · cases hx; rfl
  · cases hx; rfl
  · rename_i l _ _
    cases l with
    | nil => cases hx
    | cons v l => cases hx; rfl
  · split at hx
    · cases hx; rfl
    · cases hx
  · split at hx
    · cases hx; rfl
    · cases hx

theorem filter_fields {q : Str × Control → Option (Str × Str)} (name : ∀ g x, q g = some x → x.1 = g.1)
    (fs : List (Str × Control)) (h : (fs.map Prod.fst).Nodup) (f : Str × Control) (hf : f ∈ fs) :
    (fs.filterMap q).filter (fun p => p.1 = f.1) = (q f).toList := by
  have away : ∀ l : List (Str × Control), f.1 ∉ l.map Prod.fst →
      (l.filterMap q).filter (fun p => p.1 = f.1) = [] := by
    intro l hl
    rw [List.filter_eq_nil_iff]
    intro p hp hpn
    obtain ⟨g, hg, hx⟩ := List.mem_filterMap.1 hp
    exact hl (List.mem_map.2 ⟨g, hg, ((name g p hx).symm.trans (by simpa using hpn))⟩)
  induction fs with
  | nil => cases hf
  | cons g fs ih =>
    rw [List.map_cons, List.nodup_cons] at h
    rcases List.mem_cons.1 hf with rfl | hf'
    · cases hx : q f with
      | none => rw [List.filterMap_cons_none hx]; exact away _ h.1
      | some x =>
        rw [List.filterMap_cons_some hx, List.filter_cons_of_pos (by simpa using name f x hx), away _ h.1]
        rfl
    · have hne : g.1 ≠ f.1 := fun e => h.1 (e ▸ List.mem_map.2 ⟨f, hf', rfl⟩)
      cases hx : q g with
      | none => rw [List.filterMap_cons_none hx]; exact ih h.2 hf'
      | some x =>
        rw [List.filterMap_cons_some hx,
          List.filter_cons_of_neg (by rw [name g x hx]; simpa using hne)]
        exact ih h.2 hf'

theorem filled_member (w : Browser) (o : List (Str × JVal)) (h : (o.map Prod.fst).Nodup) (p : Str × JVal)
    (hp : p ∈ o) : w.filled o p.1 = some (w.text p.2) := by
  have : ∀ l : List (Str × JVal), (l.map Prod.fst).Nodup → p ∈ l → l.find? (fun q => q.1 = p.1) = some p := by
    intro l
    induction l with
    | nil => intro _ h; cases h
    | cons q l ih =>
      intro hn hm
      rw [List.map_cons, List.nodup_cons] at hn
      rcases List.mem_cons.1 hm with rfl | hm'
      · simp
      · have : q.1 ≠ p.1 := fun e => hn.1 (e ▸ List.mem_map.2 ⟨p, hm', rfl⟩)
        rw [List.find?_cons_of_neg (by simpa using this)]
        exact ih hn.2 hm'
  unfold Browser.filled
  rw [this o.reverse (by rw [List.map_reverse]; exact List.pairwise_reverse.2 (h.imp fun h => h.symm)) (by simpa using hp)]
  rfl

theorem fields_nodup (r : Bool) : ((formFields r).map Prod.fst).Nodup := by
  cases r <;> decide +kernel

theorem posted_of {q : Str × Control → Option (Str × Str)} (nm : ∀ g x, q g = some x → x.1 = g.1) (r : Bool)
    (name : String) (ctl : Control) (hf : (bs name, ctl) ∈ formFields r) :
    posted ((formFields r).filterMap q) name = ((q (bs name, ctl)).map Prod.snd).getD [] ∧
      isPosted ((formFields r).filterMap q) name = (q (bs name, ctl)).isSome := by
  have h := filter_fields nm _ (fields_nodup r) _ hf
  constructor
  · unfold posted
    rw [h]
    cases q (bs name, ctl) <;> rfl
  · unfold isPosted
    cases hx : q (bs name, ctl) with
    | none =>
      rw [hx] at h
      simp only [Option.isSome_none, decide_eq_false_iff_not]
      rintro ⟨p, hp, hpn⟩
      have := (List.filter_eq_nil_iff.1 h) p hp
      exact this (by simpa using hpn)
    | some x =>
      rw [hx] at h
      have hm : x ∈ ((formFields r).filterMap q).filter fun p => p.1 = bs name := by rw [h]; simp
      rw [List.mem_filter] at hm
      simp only [Option.isSome_some, decide_eq_true_eq]
      exact ⟨x, hm.1, by simpa using hm.2⟩

theorem posted_field (w : Browser) (o : List (Str × JVal)) (r : Bool) (name : String) (ctl : Control)
    (hf : (bs name, ctl) ∈ formFields r) :
    posted ((formFields r).filterMap (w.control o)) name = ((w.control o (bs name, ctl)).map Prod.snd).getD [] ∧
      isPosted ((formFields r).filterMap (w.control o)) name = (w.control o (bs name, ctl)).isSome :=
  posted_of (control_name w o) r name ctl hf

/-! ## Texts and numbers -/

theorem takeWhile_lt {l : Str} (h : (0 : Byte) ∈ l) : (l.takeWhile (· != 0)).length < l.length := by
  induction l with
  | nil => cases h
  | cons x l ih =>
    by_cases hx : x = 0
    · subst hx; simp
    · rw [List.takeWhile_cons_of_pos (by simpa using hx)]
      exact Nat.succ_lt_succ (ih ((List.mem_cons.1 h).resolve_left fun e => hx e.symm))

theorem textOf_len {n} {a : Arr (n + 1)} {t : Str} (h : textOf a.toList = some t) :
    t.length ≤ n ∧ ∀ b ∈ t, b ≠ 0 := by
  unfold textOf at h
  split at h
  · rename_i hm
    have h1 := takeWhile_lt hm
    rw [Option.some.inj h, a.length_toList] at h1
    refine ⟨by omega, ?_⟩
    rw [← Option.some.inj h]
    intro b hb
    have := List.all_takeWhile (p := fun b : Byte => b != 0) (l := a.toList)
    rw [List.all_eq_true] at this
    simpa using this b hb
  · cases h

theorem takeWhile_all {p : Byte → Bool} {l : Str} (h : ∀ b ∈ l, p b = true) : l.takeWhile p = l := by
  induction l with
  | nil => rfl
  | cons x l ih =>
    rw [List.takeWhile_cons_of_pos (h x (by simp)), ih fun b hb => h b (by simp [hb])]

theorem cutText_id {t : Str} {n : Nat} (h1 : t.length ≤ n) (h2 : ∀ b ∈ t, b ≠ 0) :
    cutText t n = .text (some t) := by
  unfold cutText
  have : t.takeWhile (· != 0) = t := takeWhile_all (by simpa using h2)
  rw [this, List.take_of_length_le h1]

theorem leadingInt_numeral {s : Str} (h0 : s ≠ []) (h : numeral s = true) : leadingInt s = decVal s := by
  obtain ⟨x, r, rfl⟩ := List.exists_cons_of_ne_nil h0
  have hx : digit x = true := by
    unfold numeral at h; rw [List.all_cons, Bool.and_eq_true] at h; exact h.1
  have hd : 48 ≤ x.toNat ∧ x.toNat ≤ 57 := by simpa [digit] using hx
  have hb : blank x = false := by
    simp only [blank, Bool.or_eq_false_iff, Bool.and_eq_false_iff, decide_eq_false_iff_not]; omega
  have h45 : x ≠ 45 := by intro e; subst e; exact absurd hd (by decide)
  have h43 : x ≠ 43 := by intro e; subst e; exact absurd hd (by decide)
  have ht : (x :: r).takeWhile digit = x :: r := takeWhile_all (List.all_eq_true.1 h)
  unfold leadingInt
  simp only [List.dropWhile_cons_of_neg (p := blank) (a := x) (l := r) (by rw [hb]; decide), List.head?_cons,
    Option.some.injEq, h45, h43, or_self, if_false]
  rw [ht]

theorem inRange_numeral {s : Str} (h0 : s ≠ []) (h : numeral s = true) {hi d : Nat} (hv : decVal s ≤ hi) :
    inRange s hi d = decVal s := by
  unfold inRange
  rw [leadingInt_numeral h0 h, if_pos ⟨by omega, by exact_mod_cast hv⟩]
  rfl

theorem inRange_decText {n hi d : Nat} (h : n ≤ hi) : inRange (decText n) hi d = n := by
  obtain ⟨h1, h2, h3, _⟩ := decText_spec n
  rw [inRange_numeral h1 h2 (by rw [h3]; exact h), h3]

/-! ## C75 -/

theorem simple_plain {l : List (String × Setting)} (h : SimpleTexts l) : PlainTexts l := by
  intro p hp t ht b hb
  obtain ⟨h1, h2, h3⟩ := (h p hp t ht).2 b hb
  simp only [plain, Bool.and_eq_true, decide_eq_true_eq, bne_iff_ne]
  exact ⟨⟨h1, h2⟩, h3⟩

/-- The settings sent to the page, and the form it posts. -/
structure Filled (w : Browser) (r : Bool) (l : List (String × Setting)) (a : Args) : Prop where
  nodup : ((l.map fun p => (bs p.1, p.2.json)).map Prod.fst).Nodup
  args : a = (formFields r).filterMap (w.control (l.map fun p => (bs p.1, p.2.json)))
  texts : SimpleTexts l
  numbers : NumbersInRange l
  periods : PeriodsOffered l

variable {w : Browser} {r : Bool} {l : List (String × Setting)} {a : Args}

theorem Filled.value (h : Filled w r l a) {name : String} {v : Setting} (hm : (name, v) ∈ l) :
    w.filled (l.map fun p => (bs p.1, p.2.json)) (bs name) = some (w.text v.json) :=
  filled_member w _ h.nodup (bs name, v.json) (List.mem_map.2 ⟨_, hm, rfl⟩)

theorem Filled.text (h : Filled w r l a) {name : String} {n : Nat} {x : Arr (n + 1)} {m : Option Nat}
    (hz : Setting.text (textOf x.toList) ≠ .text none)
    (hm : (name, Setting.text (textOf x.toList)) ∈ l) (hf : (bs name, Control.text m) ∈ formFields r) :
    cutText (posted a name) n = .text (textOf x.toList) := by
  cases ht : textOf x.toList with
  | none => exact absurd (by rw [ht]) hz
  | some t =>
    obtain ⟨h1, h2⟩ := textOf_len ht
    have hv := h.value hm
    rw [ht] at hv hm
    have ha := w.same t (h.texts _ hm t rfl).1
    rw [h.args, (posted_field w _ r name _ hf).1]
    simp only [Browser.control, hv]
    show cutText (w.recode t) n = _
    rw [ha, cutText_id h1 h2]

theorem Filled.num (h : Filled w r l a) {name : String} {n hi d : Nat} {ctl : Control}
    (hm : (name, Setting.num n) ∈ l) (hf : (bs name, ctl) ∈ formFields r) (hhi : maxOf name = hi)
    (hc : (∃ m, ctl = .text m) ∨ (∃ x y, ctl = .number x y)) :
    inRange (posted a name) hi d = n := by
  have hv := h.value hm
  have hb := h.numbers _ hm n rfl
  rw [h.args, (posted_field w _ r name _ hf).1]
  have : w.text (Setting.num n).json = decText n := rfl
  rcases hc with ⟨m, rfl⟩ | ⟨x, y, rfl⟩ <;>
  · simp only [Browser.control, hv, this]
    exact inRange_decText (hhi ▸ hb)

theorem Filled.period (h : Filled w r l a) {name : String} {n : Nat}
    (hp : name = "emon_freq" ∨ name = "jdom_freq" ∨ name = "httpreq_freq")
    (hm : (name, Setting.num n) ∈ l) (hf : (bs name, Control.select periodOptions) ∈ formFields r) :
    inRange (posted a name) 86400 0 = n := by
  have hv := h.value hm
  have hb := h.numbers _ hm n rfl
  have ho := h.periods _ hm n rfl hp
  have hin : decText n ∈ periodOptions := by
    have : ∀ n ∈ [0, 15, 30, 60, 300, 900, 1800, 3600, 21600, 42300, 86400], decText n ∈ periodOptions := by
      decide +kernel
    exact this n ho
  rw [h.args, (posted_field w _ r name _ hf).1]
  have : w.text (Setting.num n).json = decText n := rfl
  simp only [Browser.control, hv, this, hin, if_true]
  refine inRange_decText ?_
  rcases hp with rfl | rfl | rfl <;> exact hb

theorem Filled.flag (h : Filled w r l a) {name : String} {n : Nat} (hn : n < 2)
    (hm : (name, Setting.num n) ∈ l) (hf : (bs name, Control.checkbox (bs "1")) ∈ formFields r) :
    flag (isPosted a name) = .num n := by
  have hv := h.value hm
  rw [h.args, (posted_field w _ r name _ hf).2]
  have : w.text (Setting.num n).json = decText n := rfl
  simp only [Browser.control, hv, this]
  have : n = 0 ∨ n = 1 := by omega
  rcases this with rfl | rfl
  · rw [if_neg (by decide +kernel)]; rfl
  · rw [if_pos (by decide +kernel)]; rfl

theorem filled_public {c : Config} (ht : Terminated c) (h : Filled w r l a) (hl : ∀ p ∈ publicSettings c, p ∈ l) :
    postedPublic a = publicSettings c := by
  have hz : ∀ p ∈ publicSettings c, p.2 ≠ .text none := fun p hp => ht p (List.mem_append_right _ hp)
  simp only [publicSettings, List.forall_mem_cons, List.not_mem_nil, false_implies, implies_true, and_true] at hl hz
  obtain ⟨l1, l2, l3, l4, l5, l6, l7, l8, l9, l10, l11, l12, l13, l14, l15, l16, l17, l18, l19, l20, l21, l22,
    l23, l24⟩ := hl
  obtain ⟨-, -, z3, -, z5, z6, -, -, z9, -, z11, z12, z13, -, z15, -, z17, -⟩ := hz
  unfold postedPublic publicSettings
  have hf : ∀ f, f ∈ publicFields1 ∨ f ∈ publicFields2 → f ∈ formFields r := by
    intro f hf
    unfold formFields
    simp only [List.mem_cons, List.mem_append]
    rcases hf with hf | hf
    · exact .inr (.inl (.inl (.inr hf)))
    · exact .inr (.inr hf)
  rw [h.num (hi := 360) l1 (hf _ (.inr (List.mem_of_getElem? (i := 0) rfl))) rfl (.inr ⟨_, _, rfl⟩),
    h.flag (by omega) l2 (hf _ (.inr (List.mem_of_getElem? (i := 1) rfl))),
    h.text z3 l3 (hf _ (.inl (List.mem_of_getElem? (i := 0) rfl))),
    h.num (hi := 65535) l4 (hf _ (.inl (List.mem_of_getElem? (i := 1) rfl))) rfl (.inl ⟨_, rfl⟩),
    h.text z5 l5 (hf _ (.inl (List.mem_of_getElem? (i := 2) rfl))),
    h.text z6 l6 (hf _ (.inl (List.mem_of_getElem? (i := 3) rfl))),
    h.num (hi := 255) l7 (hf _ (.inl (List.mem_of_getElem? (i := 5) rfl))) rfl (.inr ⟨_, _, rfl⟩),
    h.period (by simp) l8 (hf _ (.inl (List.mem_of_getElem? (i := 4) rfl))),
    h.text z9 l9 (hf _ (.inl (List.mem_of_getElem? (i := 6) rfl))),
    h.num (hi := 65535) l10 (hf _ (.inl (List.mem_of_getElem? (i := 7) rfl))) rfl (.inl ⟨_, rfl⟩),
    h.text z11 l11 (hf _ (.inl (List.mem_of_getElem? (i := 8) rfl))),
    h.text z12 l12 (hf _ (.inl (List.mem_of_getElem? (i := 9) rfl))),
    h.text z13 l13 (hf _ (.inl (List.mem_of_getElem? (i := 11) rfl))),
    h.period (by simp) l14 (hf _ (.inl (List.mem_of_getElem? (i := 10) rfl))),
    h.text z15 l15 (hf _ (.inl (List.mem_of_getElem? (i := 12) rfl))),
    h.num (hi := 65535) l16 (hf _ (.inl (List.mem_of_getElem? (i := 13) rfl))) rfl (.inl ⟨_, rfl⟩),
    h.text z17 l17 (hf _ (.inl (List.mem_of_getElem? (i := 14) rfl))),
    h.flag (by omega) l18 (hf _ (.inl (List.mem_of_getElem? (i := 15) rfl))),
    h.period (by simp) l19 (hf _ (.inl (List.mem_of_getElem? (i := 16) rfl))),
    h.flag (by omega) l20 (hf _ (.inl (List.mem_of_getElem? (i := 17) rfl))),
    h.flag (by omega) l21 (hf _ (.inl (List.mem_of_getElem? (i := 18) rfl))),
    h.flag (by omega) l22 (hf _ (.inl (List.mem_of_getElem? (i := 19) rfl))),
    h.num (hi := 20000) l23 (hf _ (.inl (List.mem_of_getElem? (i := 20) rfl))) rfl (.inl ⟨_, rfl⟩),
    h.num (hi := 20000) l24 (hf _ (.inl (List.mem_of_getElem? (i := 21) rfl))) rfl (.inl ⟨_, rfl⟩)]

theorem filled_private {c : Config} (ht : Terminated c) (h : Filled w false l a) (hl : ∀ p ∈ privateSettings c, p ∈ l) :
    postedPrivate a = privateSettings c := by
  have hz : ∀ p ∈ privateSettings c, p.2 ≠ .text none := fun p hp => ht p (List.mem_append_left _ hp)
  simp only [privateSettings, List.forall_mem_cons, List.not_mem_nil, false_implies, implies_true, and_true] at hl hz
  obtain ⟨l1, l2, l3, l4, l5, l6, l7, l8⟩ := hl
  obtain ⟨z1, z2, z3, z4, z5, -, z7, z8⟩ := hz
  unfold postedPrivate privateSettings
  have hf : ∀ f, f ∈ privateFields1 ∨ f ∈ privateFields2 → f ∈ formFields false := by
    intro f hf
    unfold formFields
    simp only [List.mem_cons, List.mem_append, Bool.false_eq_true, if_false]
    rcases hf with hf | hf
    · exact .inr (.inl (.inl (.inl hf)))
    · exact .inr (.inl (.inr hf))
  rw [h.text z1 l1 (hf _ (.inl (List.mem_of_getElem? (i := 0) rfl))),
    h.text z2 l2 (hf _ (.inl (List.mem_of_getElem? (i := 1) rfl))),
    h.text z3 l3 (hf _ (.inl (List.mem_of_getElem? (i := 2) rfl))),
    h.text z4 l4 (hf _ (.inr (List.mem_of_getElem? (i := 0) rfl))),
    h.text z5 l5 (hf _ (.inr (List.mem_of_getElem? (i := 1) rfl))),
    h.num (hi := 65535) l6 (hf _ (.inr (List.mem_of_getElem? (i := 2) rfl))) rfl (.inr ⟨_, _, rfl⟩),
    h.text z7 l7 (hf _ (.inl (List.mem_of_getElem? (i := 3) rfl))),
    h.text z8 l8 (hf _ (.inl (List.mem_of_getElem? (i := 4) rfl)))]

theorem save_posted (w : Browser) (r : Bool) (j : Str) : isPosted (w.save r j) "save" = true := by
  unfold Browser.save
  rw [(posted_field w _ r "save" (.hidden (bs "1")) (by simp [formFields])).2]
  rfl

theorem settings_names (c : Config) (r : Bool) :
    (((if r then publicSettings c else settings c).map fun p => (bs p.1, p.2.json)).map Prod.fst).Nodup := by
  rw [List.map_map]
  have h : ∀ l : List (String × Setting),
      l.map (Prod.fst ∘ fun p => (bs p.1, p.2.json)) = (l.map Prod.fst).map bs := by
    intro l; rw [List.map_map]; rfl
  rw [h]
  have e : (if r then publicSettings c else settings c).map Prod.fst =
      (if r then ["sse_freq", "cfg_led_tinfo", "emon_host", "emon_port", "emon_url", "emon_apikey", "emon_node",
        "emon_freq", "jdom_host", "jdom_port", "jdom_url", "jdom_apikey", "jdom_adco", "jdom_freq", "httpreq_host",
        "httpreq_port", "httpreq_url", "httpreq_use_post", "httpreq_freq", "httpreq_trigger_ptec",
        "httpreq_trigger_adps", "httpreq_trigger_seuils", "httpreq_seuil_bas", "httpreq_seuil_haut"] else
       ["ssid", "psk", "host", "ap_psk", "ota_auth", "ota_port", "username", "password",
        "sse_freq", "cfg_led_tinfo", "emon_host", "emon_port", "emon_url", "emon_apikey", "emon_node",
        "emon_freq", "jdom_host", "jdom_port", "jdom_url", "jdom_apikey", "jdom_adco", "jdom_freq", "httpreq_host",
        "httpreq_port", "httpreq_url", "httpreq_use_post", "httpreq_freq", "httpreq_trigger_ptec",
        "httpreq_trigger_adps", "httpreq_trigger_seuils", "httpreq_seuil_bas", "httpreq_seuil_haut"]) := by
    cases r <;> rfl
  rw [e]
  cases r <;> decide +kernel

/-- **C75 (partial).**  The configuration page, opened and saved without a change, changes no setting, whatever the
browser and the state of the flash, when the texts are UTF-8 without control characters, `"` and `\`, the numbers in their
documented range and the periods among those that the page proposes.

Missing with respect to the property as stated: other periods and texts, for which it is false
(`c75_refuted_period`, `c75_refuted_text`), and numbers out of range, which only the external tool can store. -/
theorem c75_untouched_partial (w : Browser) {s : Nv} (hs : NvReach s) (h1 : SimpleTexts (settings s.config))
    (h2 : NumbersInRange (settings s.config)) (h3 : PeriodsOffered (settings s.config)) (k : Commit) :
    ∃ j s', s.config.getJson false = .ok j ∧ s.handleForm (w.save false j) false k = .ok (s', 200) ∧
      settings s'.config = settings s.config := by
  obtain ⟨j, hj, hp⟩ := c36_parses_partial hs
  replace hp := hp.2 (simple_plain h1)
  obtain ⟨s', g1, g2⟩ := c33_form s (w.save false j) k (save_posted _ _ _)
  refine ⟨j, s', hj, g1, ?_⟩
  have hF : Filled w false (settings s.config) (w.save false j) :=
    ⟨settings_names _ false, by unfold Browser.save; rw [hp], h1, h2, h3⟩
  rw [g2, filled_private (c32_terminated hs) hF fun p hp => List.mem_append_left _ hp,
    filled_public (c32_terminated hs) hF fun p hp => List.mem_append_right _ hp]
  rfl

/-- **C75 (partial).**  The same for the page of restricted clients. -/
theorem c75_untouched_restricted_partial (w : Browser) {s : Nv} (hs : NvReach s)
    (h1 : SimpleTexts (publicSettings s.config)) (h2 : NumbersInRange (publicSettings s.config))
    (h3 : PeriodsOffered (publicSettings s.config)) (k : Commit) :
    ∃ j s', s.config.getJson true = .ok j ∧ s.handleForm (w.save true j) true k = .ok (s', 200) ∧
      settings s'.config = settings s.config := by
  obtain ⟨j, hj, hp⟩ := c36_parses_restricted_partial hs
  replace hp := hp.2 (simple_plain h1)
  obtain ⟨c, g1, g2, g3⟩ := handleForm_ok s (w.save true j) true k (save_posted _ _ _)
  have hF : Filled w true (publicSettings s.config) (w.save true j) :=
    ⟨settings_names _ true, by unfold Browser.save; rw [hp], h1, h2, h3⟩
  have e := filled_public (c32_terminated hs) hF fun p hp => hp
  refine ⟨j, _, hj, g1, ?_⟩
  have hc : settings c = settings s.config := by
    unfold settings; rw [g2, g3, e]; rfl
  have ht : Terminated c := by unfold Terminated; rw [hc]; exact c32_terminated hs
  rw [Nv.configSave_eq]
  show settings c.stamp.securize = _
  rw [Config.securize_settings (Config.stamp_terminated ht), Config.stamp_settings, hc]

theorem simple_posted {f : Args} (h : ((postedPrivate f ++ postedPublic f).all fun p =>
    match p.2 with | .text (some t) => t.all (fun b => 32 ≤ b && b < 128 && b != 34 && b != 92) | _ => true) = true) :
    SimpleTexts (postedPrivate f ++ postedPublic f) := by
  intro p hp t ht
  have h1 := List.all_eq_true.1 h p hp
  rw [ht] at h1
  have h2 : ∀ b ∈ t, ((32 ≤ b ∧ b < 128) ∧ b ≠ 34) ∧ b ≠ 92 := fun b hb => by
    simpa only [Bool.and_eq_true, decide_eq_true_eq, bne_iff_ne] using List.all_eq_true.1 h1 b hb
  exact ⟨ascii_utf8 fun b hb => (h2 b hb).1.1.2, fun b hb => ⟨(h2 b hb).1.1.1, (h2 b hb).1.2, (h2 b hb).2⟩⟩

theorem offered_posted {f : Args} (h : ((postedPrivate f ++ postedPublic f).all fun p =>
    match p.2 with
    | .num n => p.1 != "emon_freq" && p.1 != "jdom_freq" && p.1 != "httpreq_freq" ||
        n ∈ [0, 15, 30, 60, 300, 900, 1800, 3600, 21600, 42300, 86400]
    | _ => true) = true) :
    PeriodsOffered (postedPrivate f ++ postedPublic f) := by
  intro p hp n hn ho
  have h1 := List.all_eq_true.1 h p hp
  rw [hn] at h1
  simp only [Bool.or_eq_true, Bool.and_eq_true, bne_iff_ne, decide_eq_true_eq] at h1
  rcases h1 with ⟨⟨h1, h2⟩, h3⟩ | h1
  · rcases ho with ho | ho | ho
    · exact absurd ho h1
    · exact absurd ho h2
    · exact absurd ho h3
  · exact h1

/-- A form with every kind of control. -/
def someForm : Args := [(bs "save", bs "1"), (bs "ssid", bs "Maison 2.4"), (bs "psk", bs "p@ss{w}ord,"),
  (bs "host", bs "wifinfo"), (bs "ota_port", bs "8266"), (bs "httpreq_url", bs "/x?v=~PAPP~&t=$type"),
  (bs "emon_node", bs "12"), (bs "jdom_freq", bs "900"), (bs "httpreq_trigger_ptec", bs "1"),
  (bs "cfg_led_tinfo", bs "1"), (bs "httpreq_seuil_haut", bs "5700"), (bs "sse_freq", bs "30")]

example : ∃ s : Nv, NvReach s ∧ SimpleTexts (settings s.config) ∧ NumbersInRange (settings s.config) ∧
    PeriodsOffered (settings s.config) ∧ ("jdom_freq", .num 900) ∈ settings s.config ∧
    ("httpreq_trigger_ptec", .num 1) ∈ settings s.config ∧ ("ssid", .text (some (bs "Maison 2.4"))) ∈ settings s.config := by
  obtain ⟨s, h1, h2⟩ := reach_form blankFlash 1 someForm (by decide +kernel)
  exact ⟨s, h1, by rw [h2]; exact simple_posted (by decide +kernel), by rw [h2]; exact fun p hp n hn => c33_ranges someForm p.1 n (hn ▸ hp),
    by rw [h2]; exact offered_posted (by decide +kernel), by rw [h2]; decide +kernel, by rw [h2]; decide +kernel, by rw [h2]; decide +kernel⟩

theorem posted_no_period {a : Args} (h : posted a "jdom_freq" = []) : ("jdom_freq", .num 0) ∈ postedPublic a := by
  unfold postedPublic
  rw [h]
  exact List.mem_of_getElem? (i := 13) rfl

theorem posted_no_ssid {a : Args} (h : posted a "ssid" = []) : ("ssid", .text (some [])) ∈ postedPrivate a := by
  unfold postedPrivate
  rw [h]
  exact List.mem_of_getElem? (i := 0) rfl

/-- A form with a period of twelve hours. -/
def halfDayForm : Args := [(bs "save", bs "1"), (bs "jdom_host", bs "jeedom.local"), (bs "jdom_freq", bs "43200")]

/-- **C79, the form.** Whatever the device answered, the page of restricted clients posts no setting about
the network or the access to the device; the page for everybody posts all of them. -/
theorem c79_form (w : Browser) (j : Str) (c : Config) (q : String × Setting) (hq : q ∈ privateSettings c) :
    (∀ p ∈ w.save true j, p.1 ≠ bs q.1) ∧ ∃ p ∈ w.save false j, p.1 = bs q.1 := by
  have hn : ∀ (n : String), n ∈ (privateSettings c).map Prod.fst →
      (∀ f ∈ formFields true, f.1 ≠ bs n) ∧
      ∃ f ∈ formFields false, f.1 = bs n ∧ ∀ o, (w.control o f).isSome = true := by
    intro n hn
    have hn : n ∈ ["ssid", "psk", "host", "ap_psk", "ota_auth", "ota_port", "username", "password"] := hn
    constructor
    · have : (["ssid", "psk", "host", "ap_psk", "ota_auth", "ota_port", "username", "password"].all fun n =>
          (formFields true).all fun f => f.1 ≠ bs n) = true := by decide +kernel
      intro f hf
      simpa using List.all_eq_true.1 (List.all_eq_true.1 this n hn) f hf
    · have : (["ssid", "psk", "host", "ap_psk", "ota_auth", "ota_port", "username", "password"].all fun n =>
          (formFields false).any fun f => f.1 = bs n ∧
            (match f.2 with | .text _ => true | .number _ _ => true | _ => false) = true) = true := by
        decide +kernel
      obtain ⟨f, hf, h⟩ := List.any_eq_true.1 (List.all_eq_true.1 this n hn)
      obtain ⟨h1, h2⟩ : f.1 = bs n ∧
        (match f.2 with | .text _ => true | .number _ _ => true | _ => false) = true := by simpa using h
      refine ⟨f, hf, h1, fun o => ?_⟩
      unfold Browser.control
      split at h2
      · rename_i e; rw [e]; rfl
      · rename_i e; rw [e]; rfl
      · cases h2
  obtain ⟨h1, f, hf, h2, h3⟩ := hn q.1 (List.mem_map.2 ⟨q, hq, rfl⟩)
  constructor
  · intro p hp
    obtain ⟨g, hg, e⟩ := List.mem_filterMap.1 hp
    rw [control_name w _ g p e]
    exact h1 g hg
  · obtain ⟨x, hx⟩ := Option.isSome_iff_exists.1
      (h3 (match parseJson j with | some (.obj o) => o | _ => []))
    exact ⟨x, List.mem_filterMap.2 ⟨f, hf, hx⟩, (control_name w _ f x hx).trans h2⟩

-- There are private settings, and each page posts something.
example (w : Browser) (c : Config) : privateSettings c ≠ [] ∧ w.save true [] ≠ [] := by
  refine ⟨nofun, ?_⟩
  intro h
  have : (bs "save", bs "1") ∈ w.save true [] := by
    unfold Browser.save formFields
    exact List.mem_filterMap.2 ⟨(bs "save", .hidden (bs "1")), by simp, rfl⟩
  rw [h] at this
  cases this

/-- **C75** as stated is false: a period that the page does not propose, twelve hours, is stored by a form post;
the page opened and saved without a change then stops the notifications. -/
theorem c75_refuted_period : ∃ s : Nv, NvReach s ∧ ("jdom_freq", .num 43200) ∈ settings s.config ∧
    ∀ w : Browser, ∃ j s', s.config.getJson false = .ok j ∧ s.handleForm (w.save false j) false .ok = .ok (s', 200) ∧
      ("jdom_freq", .num 0) ∈ settings s'.config := by
  obtain ⟨s, h1, h2⟩ := reach_form blankFlash 1 halfDayForm (by decide +kernel)
  have hj : ("jdom_freq", .num 43200) ∈ settings s.config := by rw [h2]; decide +kernel
  refine ⟨s, h1, hj, fun w => ?_⟩
  have hp : SimpleTexts (settings s.config) := by rw [h2]; exact simple_posted (by decide +kernel)
  obtain ⟨j, g1, g2⟩ := c36_parses_partial h1
  replace g2 := g2.2 (simple_plain hp)
  obtain ⟨s', g3, g4⟩ := c33_form s (w.save false j) .ok (save_posted _ _ _)
  refine ⟨j, s', g1, g3, ?_⟩
  have hv : posted (w.save false j) "jdom_freq" = [] := by
    unfold Browser.save
    rw [g2, (posted_field w _ false "jdom_freq" (.select periodOptions)
      (List.mem_cons_of_mem _ (List.mem_append_left _ (List.mem_append_left _ (List.mem_append_right _
        (List.mem_of_getElem? (i := 10) rfl)))))).1]
    have hf := filled_member w _ (settings_names s.config false) (bs "jdom_freq", (Setting.num 43200).json)
      (List.mem_map.2 ⟨_, hj, rfl⟩)
    simp only [Bool.false_eq_true, if_false] at hf
    simp only [Browser.control, hf]
    rw [if_neg (show w.text (Setting.num 43200).json ∉ periodOptions from by
      show decText 43200 ∉ periodOptions
      decide +kernel)]
    rfl
  rw [g4]
  exact List.mem_append_right _ (posted_no_period hv)

/-- A form with a quote in the key. -/
def wipedForm : Args := [(bs "save", bs "1"), (bs "ssid", bs "Maison"), (bs "psk", bs "a\"b")]

/-- **C75** as stated is false: with a quote in the Wi-Fi key the page cannot read the settings; saved as it is, it
erases them, the name of the network included. -/
theorem c75_refuted_text : ∃ s : Nv, NvReach s ∧ ("ssid", .text (some (bs "Maison"))) ∈ settings s.config ∧
    ∀ w : Browser, ∃ j s', s.config.getJson false = .ok j ∧ s.handleForm (w.save false j) false .ok = .ok (s', 200) ∧
      ("ssid", .text (some [])) ∈ settings s'.config := by
  obtain ⟨s, h1, h2⟩ := reach_form blankFlash 1 wipedForm (by decide +kernel)
  refine ⟨s, h1, by rw [h2]; decide +kernel, fun w => ?_⟩
  have g1 := getJson_eq (c32_terminated h1) false
  simp only [Bool.false_eq_true, if_false] at g1
  rw [h2] at g1
  have g2 : (parseJson (123 :: memsText ((postedPrivate wipedForm ++ postedPublic wipedForm).map mSetting))).isNone =
      true := by decide +kernel
  obtain ⟨s', g3, g4⟩ := c33_form s (w.save false _) .ok (save_posted _ _ _)
  refine ⟨_, s', g1, g3, ?_⟩
  rw [g4]
  refine List.mem_append_left _ ?_
  have hv : posted (w.save false (123 :: memsText ((postedPrivate wipedForm ++ postedPublic wipedForm).map mSetting)))
      "ssid" = [] := by
    unfold Browser.save
    rw [Option.isNone_iff_eq_none.1 g2, (posted_field w _ false "ssid" (.text (some 32))
      (List.mem_cons_of_mem _ (List.mem_append_left _ (List.mem_append_left _ (List.mem_append_left _
        (List.mem_of_getElem? (i := 0) rfl)))))).1]
    rfl
  exact posted_no_ssid hv

/-! ## C76 -/

namespace Spec

/-- What a control lets the user enter: `none` for a checkbox that is not checked.  A text is made of characters that are
not control characters; `maxlength` counts them as the browser does. -/
def Allowed : Control → Option Str → Prop
  | .hidden v, x => x = some v
  | .text m, x => ∃ l : List Nat, x = some (l.flatMap utf8) ∧ (∀ n ∈ l, Scalar n ∧ 32 ≤ n) ∧
      ∀ n, m = some n → utf16Length l ≤ n
  | .number lo hi, x => ∃ t, x = some t ∧ t ≠ [] ∧ numeral t = true ∧ lo ≤ decVal t ∧ decVal t ≤ hi
  | .select l, x => ∃ t, x = some t ∧ t ∈ l
  | .checkbox v, x => x = none ∨ x = some v

/-- A setting is what was entered. -/
def AsTyped (x : Option Str) : Setting → Prop
  | .text t => t = x
  | .num n => x = none ∧ n = 0 ∨ ∃ t, x = some t ∧ t ≠ [] ∧ numeral t = true ∧ decVal t = n

/-- How many bytes the device keeps of a text. -/
def keptBytes : String → Nat
  | "host" => 16
  | "psk" | "ap_psk" | "ota_auth" | "jdom_url" => 64
  | "username" | "password" => 31
  | "jdom_apikey" => 48
  | "jdom_adco" => 12
  | "httpreq_url" => 150
  | _ => 32

/-- The texts fit in the device: the page limits the number of characters, not of bytes, and has other limits for the
name of the device and the key of the updates.  A port and a threshold are numbers in their range, what the page does not
verify. -/
def DeviceLimits (v : String → Option Str) : Prop :=
  (∀ name ∈ ["ssid", "psk", "host", "ap_psk", "ota_auth", "username", "password", "emon_host", "emon_url", "emon_apikey",
      "jdom_host", "jdom_url", "jdom_apikey", "jdom_adco", "httpreq_host", "httpreq_url"],
    ∀ t, v name = some t → t.length ≤ keptBytes name) ∧
  ∀ name ∈ ["emon_port", "jdom_port", "httpreq_port", "httpreq_seuil_bas", "httpreq_seuil_haut"],
    ∀ t, v name = some t → t ≠ [] ∧ numeral t = true ∧ decVal t ≤ maxOf name

end Spec

/-- The post of a form where `v` was entered. -/
def typedForm (v : Str → Option Str) : Args := (formFields false).filterMap fun f => (v f.1).map fun x => (f.1, x)

theorem posted_typed (v : Str → Option Str) (name : String) (ctl : Control) (hf : (bs name, ctl) ∈ formFields false) :
    posted (typedForm v) name = (v (bs name)).getD [] ∧ isPosted (typedForm v) name = (v (bs name)).isSome := by
  have h := posted_of (q := fun f => (v f.1).map fun x => (f.1, x)) (by
    intro g x hx
    cases hv : v g.1 with
    | none => rw [hv] at hx; cases hx
    | some y => rw [hv] at hx; cases hx; rfl) false name ctl hf
  unfold typedForm
  rw [h.1, h.2]
  cases v (bs name) <;> exact ⟨rfl, rfl⟩

theorem utf8_nulFree {l : List Nat} (h : ∀ n ∈ l, Scalar n ∧ 32 ≤ n) : NulFree (l.flatMap utf8) := by
  intro b hb
  obtain ⟨n, hn, hb⟩ := List.mem_flatMap.1 hb
  obtain ⟨h1, h2⟩ := h n hn
  have key : ∀ x, 0 < x → x < 256 → UInt8.ofNat x ≠ 0 := by
    intro x h1 h2 e
    have := congrArg UInt8.toNat e
    rw [UInt8.toNat_ofNat', Nat.mod_eq_of_lt h2] at this
    exact absurd this (by show ¬ x = 0; omega)
  unfold Scalar at h1
  unfold utf8 at hb
  split at hb
  · obtain rfl := List.mem_singleton.1 hb; exact key _ (by omega) (by omega)
  split at hb
  · simp only [List.mem_cons, List.not_mem_nil, or_false] at hb
    rcases hb with rfl | rfl <;> exact key _ (by omega) (by omega)
  split at hb
  · simp only [List.mem_cons, List.not_mem_nil, or_false] at hb
    rcases hb with rfl | rfl | rfl <;> exact key _ (by omega) (by omega)
  · simp only [List.mem_cons, List.not_mem_nil, or_false] at hb
    rcases hb with rfl | rfl | rfl | rfl <;> exact key _ (by omega) (by omega)

theorem typed_text {v : Str → Option Str} {name : String} {m : Option Nat} {n : Nat}
    (hf : (bs name, Control.text m) ∈ formFields false) (ha : Allowed (.text m) (v (bs name)))
    (hn : ∀ t, v (bs name) = some t → t.length ≤ n) :
    AsTyped (v (bs name)) (cutText (posted (typedForm v) name) n) := by
  obtain ⟨l, h1, h2, -⟩ := ha
  rw [(posted_typed v name _ hf).1, h1, Option.getD_some, cutText_id (hn _ h1) (utf8_nulFree h2)]
  rfl

theorem typed_num {v : Str → Option Str} {name : String} {ctl : Control} {hi d : Nat}
    (hf : (bs name, ctl) ∈ formFields false)
    (hn : ∃ t, v (bs name) = some t ∧ t ≠ [] ∧ numeral t = true ∧ decVal t ≤ hi) :
    AsTyped (v (bs name)) (.num (inRange (posted (typedForm v) name) hi d)) := by
  obtain ⟨t, h1, h2, h3, h4⟩ := hn
  rw [(posted_typed v name _ hf).1, h1, Option.getD_some, inRange_numeral h2 h3 h4]
  exact .inr ⟨t, rfl, h2, h3, rfl⟩

theorem typed_flag {v : Str → Option Str} {name : String} (hf : (bs name, Control.checkbox (bs "1")) ∈ formFields false)
    (ha : Allowed (.checkbox (bs "1")) (v (bs name))) :
    AsTyped (v (bs name)) (flag (isPosted (typedForm v) name)) := by
  rw [(posted_typed v name _ hf).2]
  rcases ha with h | h <;> rw [h]
  · exact .inl ⟨rfl, rfl⟩
  · exact .inr ⟨_, rfl, by decide +kernel, by decide +kernel, by decide +kernel⟩

/-- **C76 (partial).**  What is entered in the configuration page within the limits of its controls is stored as it
was entered, whatever the device held, when the texts fit in the device; ASCII texts do, save the name of the device and
the key of the updates (`c76_ascii`).

Missing with respect to the property as stated: the other texts, for which it is false (`c76_refuted_host`,
`c76_refuted_accent`, `c76_refuted_number`). -/
theorem c76_stored_partial (s : Nv) (v : Str → Option Str) (k : Commit)
    (h : ∀ f ∈ formFields false, Allowed f.2 (v f.1)) (hd : DeviceLimits fun name => v (bs name)) :
    ∃ s', s.handleForm (typedForm v) false k = .ok (s', 200) ∧
      ∀ p ∈ settings s'.config, AsTyped (v (bs p.1)) p.2 := by
  have hs : isPosted (typedForm v) "save" = true := by
    rw [(posted_typed v "save" (.hidden (bs "1")) (by simp [formFields])).2,
      show v (bs "save") = some (bs "1") from h (bs "save", .hidden (bs "1")) (by simp [formFields])]
    rfl
  obtain ⟨s', g1, g2⟩ := c33_form s (typedForm v) k hs
  refine ⟨s', g1, ?_⟩
  rw [g2]
  obtain ⟨d1, d3⟩ := hd
  have mem : ∀ f, f ∈ privateFields1 ∨ f ∈ publicFields1 ∨ f ∈ privateFields2 ∨ f ∈ publicFields2 →
      f ∈ formFields false := by
    intro f hf
    unfold formFields
    simp only [List.mem_cons, List.mem_append, Bool.false_eq_true, if_false]
    rcases hf with hf | hf | hf | hf
    · exact .inr (.inl (.inl (.inl hf)))
    · exact .inr (.inl (.inl (.inr hf)))
    · exact .inr (.inl (.inr hf))
    · exact .inr (.inr hf)
  have tx : ∀ {name : String} {n : Nat} (m : Option Nat), (bs name, Control.text m) ∈ formFields false →
      keptBytes name = n → name ∈ ["ssid", "psk", "host", "ap_psk", "ota_auth", "username", "password", "emon_host",
        "emon_url", "emon_apikey", "jdom_host", "jdom_url", "jdom_apikey", "jdom_adco", "httpreq_host", "httpreq_url"] →
      AsTyped (v (bs name)) (cutText (posted (typedForm v) name) n) := by
    intro name n m hf hn hl
    exact typed_text hf (h _ hf) fun t ht => hn ▸ d1 name hl t ht
  have tn : ∀ {name : String} {n d : Nat}, (bs name, Control.text (some 5)) ∈ formFields false → maxOf name = n →
      name ∈ ["emon_port", "jdom_port", "httpreq_port", "httpreq_seuil_bas", "httpreq_seuil_haut"] →
      AsTyped (v (bs name)) (.num (inRange (posted (typedForm v) name) n d)) := by
    intro name n d hf hm hl
    obtain ⟨l, h1, -⟩ := h _ hf
    obtain ⟨e1, e2, e3⟩ := d3 name hl _ h1
    exact typed_num hf ⟨_, h1, e1, e2, hm ▸ e3⟩
  have nb : ∀ {name : String} {n d lo hi : Nat}, (bs name, Control.number lo hi) ∈ formFields false → hi ≤ n →
      AsTyped (v (bs name)) (.num (inRange (posted (typedForm v) name) n d)) := by
    intro name n d lo hi hf hle
    obtain ⟨t, h1, h2, h3, -, h4⟩ := h _ hf
    exact typed_num hf ⟨t, h1, h2, h3, Nat.le_trans h4 hle⟩
  have sl : ∀ {name : String}, (bs name, Control.select periodOptions) ∈ formFields false →
      AsTyped (v (bs name)) (.num (inRange (posted (typedForm v) name) 86400 0)) := by
    intro name hf
    obtain ⟨t, h1, h2⟩ := h _ hf
    have : ∀ t ∈ periodOptions, t ≠ [] ∧ numeral t = true ∧ decVal t ≤ 86400 := by decide +kernel
    exact typed_num hf ⟨t, h1, this t h2⟩
  have fl : ∀ {name : String}, (bs name, Control.checkbox (bs "1")) ∈ formFields false →
      AsTyped (v (bs name)) (flag (isPosted (typedForm v) name)) := fun hf => typed_flag hf (h _ hf)
  simp only [postedPrivate, postedPublic, List.cons_append, List.nil_append, List.forall_mem_cons, List.not_mem_nil,
    false_implies, implies_true, and_true]
  exact ⟨tx _ (mem _ (.inl (List.mem_of_getElem? (i := 0) rfl))) rfl (by simp),
    tx _ (mem _ (.inl (List.mem_of_getElem? (i := 1) rfl))) rfl (by simp),
    tx _ (mem _ (.inl (List.mem_of_getElem? (i := 2) rfl))) rfl (by simp),
    tx _ (mem _ (.inr (.inr (.inl (List.mem_of_getElem? (i := 0) rfl))))) rfl (by simp),
    tx _ (mem _ (.inr (.inr (.inl (List.mem_of_getElem? (i := 1) rfl))))) rfl (by simp),
    nb (mem _ (.inr (.inr (.inl (List.mem_of_getElem? (i := 2) rfl))))) (by decide),
    tx _ (mem _ (.inl (List.mem_of_getElem? (i := 3) rfl))) rfl (by simp),
    tx _ (mem _ (.inl (List.mem_of_getElem? (i := 4) rfl))) rfl (by simp),
    nb (mem _ (.inr (.inr (.inr (List.mem_of_getElem? (i := 0) rfl))))) (by decide),
    fl (mem _ (.inr (.inr (.inr (List.mem_of_getElem? (i := 1) rfl))))),
    tx _ (mem _ (.inr (.inl (List.mem_of_getElem? (i := 0) rfl)))) rfl (by simp),
    tn (mem _ (.inr (.inl (List.mem_of_getElem? (i := 1) rfl)))) rfl (by simp),
    tx _ (mem _ (.inr (.inl (List.mem_of_getElem? (i := 2) rfl)))) rfl (by simp),
    tx _ (mem _ (.inr (.inl (List.mem_of_getElem? (i := 3) rfl)))) rfl (by simp),
    nb (mem _ (.inr (.inl (List.mem_of_getElem? (i := 5) rfl)))) (by decide),
    sl (mem _ (.inr (.inl (List.mem_of_getElem? (i := 4) rfl)))),
    tx _ (mem _ (.inr (.inl (List.mem_of_getElem? (i := 6) rfl)))) rfl (by simp),
    tn (mem _ (.inr (.inl (List.mem_of_getElem? (i := 7) rfl)))) rfl (by simp),
    tx _ (mem _ (.inr (.inl (List.mem_of_getElem? (i := 8) rfl)))) rfl (by simp),
    tx _ (mem _ (.inr (.inl (List.mem_of_getElem? (i := 9) rfl)))) rfl (by simp),
    tx _ (mem _ (.inr (.inl (List.mem_of_getElem? (i := 11) rfl)))) rfl (by simp),
    sl (mem _ (.inr (.inl (List.mem_of_getElem? (i := 10) rfl)))),
    tx _ (mem _ (.inr (.inl (List.mem_of_getElem? (i := 12) rfl)))) rfl (by simp),
    tn (mem _ (.inr (.inl (List.mem_of_getElem? (i := 13) rfl)))) rfl (by simp),
    tx _ (mem _ (.inr (.inl (List.mem_of_getElem? (i := 14) rfl)))) rfl (by simp),
    fl (mem _ (.inr (.inl (List.mem_of_getElem? (i := 15) rfl)))),
    sl (mem _ (.inr (.inl (List.mem_of_getElem? (i := 16) rfl)))),
    fl (mem _ (.inr (.inl (List.mem_of_getElem? (i := 17) rfl)))),
    fl (mem _ (.inr (.inl (List.mem_of_getElem? (i := 18) rfl)))),
    fl (mem _ (.inr (.inl (List.mem_of_getElem? (i := 19) rfl)))),
    tn (mem _ (.inr (.inl (List.mem_of_getElem? (i := 20) rfl)))) rfl (by simp),
    tn (mem _ (.inr (.inl (List.mem_of_getElem? (i := 21) rfl)))) rfl (by simp)⟩

/-- `Allowed` as a test. -/
def allowed : Control → Option Str → Bool
  | .hidden v, x => x = some v
  | .text m, some t => t.all (fun b => 32 ≤ b && b < 127) && (match m with | some n => decide (t.length ≤ n) | none => true)
  | .number lo hi, some t => t ≠ [] && numeral t && decide (lo ≤ decVal t) && decide (decVal t ≤ hi)
  | .select l, some t => t ∈ l
  | .checkbox v, x => x = none || x = some v
  | _, none => false

theorem allowed_iff {c : Control} {x : Option Str} (h : allowed c x = true) : Allowed c x := by
  unfold allowed at h
  split at h
  · have h := of_decide_eq_true h; exact h
  · rename_i m t
    rw [Bool.and_eq_true, List.all_eq_true] at h
    have h1 : ∀ b ∈ t, 32 ≤ b ∧ b < 127 := fun b hb => by simpa using h.1 b hb
    obtain ⟨e1, e2, e3⟩ := ascii_chars fun b hb => UInt8.lt_trans (h1 b hb).2 (by decide)
    refine ⟨_, congrArg some e1, fun n hn => ⟨e3 n hn, ?_⟩, ?_⟩
    · obtain ⟨b, hb, rfl⟩ := List.mem_map.1 hn
      exact UInt8.le_iff_toNat_le.1 (h1 b hb).1
    · rintro n rfl
      rw [e2]
      simpa using h.2
  · rename_i lo hi t
    simp only [Bool.and_eq_true, decide_eq_true_eq] at h
    exact ⟨t, rfl, h.1.1.1, h.1.1.2, h.1.2, h.2⟩
  · rename_i l t
    exact ⟨t, rfl, by simpa using h⟩
  · exact (Bool.or_eq_true _ _ ▸ h).imp of_decide_eq_true of_decide_eq_true
  · cases h

/-- Entries of the form by name, with the defaults of the device for those not given. -/
def entered (l : List (Str × Str)) (n : Str) : Option Str :=
  match l.find? fun p => p.1 = n with
  | some p => some p.2
  | none =>
    match (formFields false).find? fun f => f.1 = n with
    | some (_, .hidden v) => some v
    | some (_, .text (some 5)) => some (bs "80")
    | some (_, .text _) => some []
    | some (_, .number lo _) => some (decText lo)
    | some (_, .select _) => some (bs "0")
    | _ => none

/-- A form where the user enters most kinds of values. -/
def goodEntries : List (Str × Str) := [(bs "ssid", bs "Maison 2.4"), (bs "psk", bs "a\"b\\c"), (bs "host", bs "compteur"),
  (bs "emon_freq", bs "3600"), (bs "emon_node", bs "17"), (bs "httpreq_use_post", bs "1"),
  (bs "httpreq_seuil_haut", bs "05700"), (bs "jdom_port", bs "8080")]

example : (∀ f ∈ formFields false, Allowed f.2 (entered goodEntries f.1)) ∧
    DeviceLimits fun name => entered goodEntries (bs name) := by
  refine ⟨fun f hf => allowed_iff ?_, ?_, ?_⟩
  · have : ((formFields false).all fun f => allowed f.2 (entered goodEntries f.1)) = true := by decide +kernel
    exact List.all_eq_true.1 this f hf
  · intro name hn t ht
    have : ∀ name ∈ ["ssid", "psk", "host", "ap_psk", "ota_auth", "username", "password", "emon_host", "emon_url",
        "emon_apikey", "jdom_host", "jdom_url", "jdom_apikey", "jdom_adco", "httpreq_host", "httpreq_url"],
        (match entered goodEntries (bs name) with
        | some t => decide (t.length ≤ keptBytes name)
        | none => true) = true := by decide +kernel
    have h := this name hn
    rw [show entered goodEntries (bs name) = some t from ht] at h
    simpa using h
  · intro name hn t ht
    have : ∀ name ∈ ["emon_port", "jdom_port", "httpreq_port", "httpreq_seuil_bas", "httpreq_seuil_haut"],
        (match entered goodEntries (bs name) with
        | some t => decide (t ≠ [] ∧ numeral t = true ∧ decVal t ≤ maxOf name)
        | none => true) = true := by decide +kernel
    have h := this name hn
    rw [show entered goodEntries (bs name) = some t from ht] at h
    simpa using h

/-- A name of the device that the page accepts. -/
def longHost : List (Str × Str) := [(bs "host", bs "compteur-du-rez-de-chaussee")]

/-- **C76** as stated is false: the page accepts names of 32 characters for the device, which are stored cut. -/
theorem c76_refuted_host : (∀ f ∈ formFields false, Allowed f.2 (entered longHost f.1)) ∧ ∀ (s : Nv) (k : Commit),
    ∃ s', s.handleForm (typedForm (entered longHost)) false k = .ok (s', 200) ∧
      ("host", .text (some (bs "compteur-du-rez-"))) ∈ settings s'.config := by
  refine ⟨fun f hf => allowed_iff ?_, fun s k => ?_⟩
  · have : ((formFields false).all fun f => allowed f.2 (entered longHost f.1)) = true := by decide +kernel
    exact List.all_eq_true.1 this f hf
  · obtain ⟨s', g1, g2⟩ := c33_form s (typedForm (entered longHost)) k (by decide +kernel)
    exact ⟨s', g1, by rw [g2]; decide +kernel⟩

/-- **C76**, ASCII texts: the limits of the page are enough, save for the name of the device and the key of the updates. -/
theorem c76_ascii (v : Str → Option Str) (h : ∀ f ∈ formFields false, Allowed f.2 (v f.1))
    (ha : ∀ n t, v n = some t → ∀ b ∈ t, b < 128) (h1 : ∀ t, v (bs "host") = some t → t.length ≤ 16)
    (h2 : ∀ t, v (bs "ota_auth") = some t → t.length ≤ 64)
    (h3 : ∀ name ∈ ["emon_port", "jdom_port", "httpreq_port", "httpreq_seuil_bas", "httpreq_seuil_haut"],
      ∀ t, v (bs name) = some t → t ≠ [] ∧ numeral t = true ∧ decVal t ≤ maxOf name) :
    DeviceLimits fun name => v (bs name) := by
  refine ⟨fun name hn t ht => ?_, h3⟩
  have key : ∀ n, (bs name, Control.text (some n)) ∈ formFields false → t.length ≤ n := by
    intro n hf
    obtain ⟨l, e, hl, hm⟩ := h _ hf
    obtain rfl : t = l.flatMap utf8 := Option.some.inj (ht.symm.trans e)
    refine Nat.le_trans ?_ (hm n rfl)
    have h4 := ha _ _ ht
    clear hm e ht hf ha
    induction l with
    | nil => exact Nat.le_refl _
    | cons x l ih =>
      rw [List.flatMap_cons] at h4 ⊢
      have h5 := ih (fun n hn => hl n (List.mem_cons_of_mem _ hn)) fun b hb => h4 b (List.mem_append_right _ hb)
      simp only [utf16Length, List.map_cons, List.sum_cons, List.length_append] at h5 ⊢
      have h6 : (utf8 x).length = 1 := by
        have h7 : ∀ b ∈ utf8 x, b < 128 := fun b hb => h4 b (List.mem_append_left _ hb)
        have hx := (hl x (List.mem_cons_self ..)).1
        have big : ∀ y, 128 ≤ y → y < 256 → ¬ UInt8.ofNat y < 128 := by
          intro y y1 y2 e
          have := UInt8.lt_iff_toNat_lt.1 e
          rw [UInt8.toNat_ofNat', Nat.mod_eq_of_lt y2] at this
          exact absurd this (by show ¬ y < 128; omega)
        unfold Scalar at hx
        unfold utf8 at h7 ⊢
        split at h7
        · rw [if_pos (by assumption)]; rfl
        split at h7
        · exact absurd (h7 _ (List.mem_cons_self ..)) (big _ (by omega) (by omega))
        split at h7
        · exact absurd (h7 _ (List.mem_cons_self ..)) (big _ (by omega) (by omega))
        · exact absurd (h7 _ (List.mem_cons_self ..)) (big _ (by omega) (by omega))
      split <;> omega
  simp only [List.mem_cons, List.not_mem_nil, or_false] at hn
  have mem : ∀ f, f ∈ privateFields1 ∨ f ∈ publicFields1 ∨ f ∈ privateFields2 → f ∈ formFields false := by
    intro f hf
    unfold formFields
    simp only [List.mem_cons, List.mem_append, Bool.false_eq_true, if_false]
    rcases hf with hf | hf | hf
    · exact .inr (.inl (.inl (.inl hf)))
    · exact .inr (.inl (.inl (.inr hf)))
    · exact .inr (.inl (.inr hf))
  rcases hn with rfl | rfl | rfl | rfl | rfl | rfl | rfl | rfl | rfl | rfl | rfl | rfl | rfl | rfl | rfl | rfl
  · exact key 32 (mem _ (.inl (List.mem_of_getElem? (i := 0) rfl)))
  · exact key 64 (mem _ (.inl (List.mem_of_getElem? (i := 1) rfl)))
  · exact h1 t ht
  · exact key 64 (mem _ (.inr (.inr (List.mem_of_getElem? (i := 0) rfl))))
  · exact h2 t ht
  · exact key 31 (mem _ (.inl (List.mem_of_getElem? (i := 3) rfl)))
  · exact key 31 (mem _ (.inl (List.mem_of_getElem? (i := 4) rfl)))
  · exact key 32 (mem _ (.inr (.inl (List.mem_of_getElem? (i := 0) rfl))))
  · exact key 32 (mem _ (.inr (.inl (List.mem_of_getElem? (i := 2) rfl))))
  · exact key 32 (mem _ (.inr (.inl (List.mem_of_getElem? (i := 3) rfl))))
  · exact key 32 (mem _ (.inr (.inl (List.mem_of_getElem? (i := 6) rfl))))
  · exact key 64 (mem _ (.inr (.inl (List.mem_of_getElem? (i := 8) rfl))))
  · exact key 48 (mem _ (.inr (.inl (List.mem_of_getElem? (i := 9) rfl))))
  · exact key 12 (mem _ (.inr (.inl (List.mem_of_getElem? (i := 11) rfl))))
  · exact key 32 (mem _ (.inr (.inl (List.mem_of_getElem? (i := 12) rfl))))
  · exact key 150 (mem _ (.inr (.inl (List.mem_of_getElem? (i := 14) rfl))))

/-- The network `Très` followed by fifteen `é`: 19 characters. -/
def accentChars : List Nat := [84, 114, 0xE8, 115] ++ List.replicate 15 0xE9

/-- **C76** as stated is false: a name of 19 characters with accents, which the page accepts, is stored cut, in the middle
of a character. -/
theorem c76_refuted_accent : Allowed (.text (some 32)) (some (accentChars.flatMap utf8)) ∧
    ∀ (s : Nv) (k : Commit) (v : Str → Option Str), v (bs "save") = some (bs "1") →
      v (bs "ssid") = some (accentChars.flatMap utf8) →
      ∃ s' t, s.handleForm (typedForm v) false k = .ok (s', 200) ∧ ("ssid", .text (some t)) ∈ settings s'.config ∧
        t.length = 32 ∧ t ≠ accentChars.flatMap utf8 ∧ t.getLast? = some 0xC3 := by
  refine ⟨⟨_, rfl, ?_, ?_⟩, fun s k v hv h => ?_⟩
  · intro n hn
    have : ∀ n ∈ accentChars, (n < 0xD800 ∨ (0xE000 ≤ n ∧ n < 0x110000)) ∧ 32 ≤ n := by decide
    exact this n hn
  · rintro n ⟨⟩; decide
  · have hs : isPosted (typedForm v) "save" = true := by
      rw [(posted_typed v "save" (.hidden (bs "1")) (by simp [formFields])).2, hv]
      rfl
    obtain ⟨s', g1, g2⟩ := c33_form s (typedForm v) k hs
    refine ⟨s', (accentChars.flatMap utf8).take 32, g1, ?_, by decide +kernel, by decide +kernel, by decide +kernel⟩
    rw [g2]
    refine List.mem_append_left _ (List.mem_of_getElem? (i := 0) ?_)
    show some ("ssid", cutText (posted (typedForm v) "ssid") 32) = _
    rw [(posted_typed v "ssid" (.text (some 32)) (List.mem_cons_of_mem _ (List.mem_append_left _ (List.mem_append_left _
      (List.mem_append_left _ (List.mem_of_getElem? (i := 0) rfl)))))).1, h]
    decide +kernel

/-- A threshold and a port that the page accepts. -/
def bigNumbers : List (Str × Str) := [(bs "httpreq_seuil_haut", bs "24000"), (bs "jdom_port", bs "80a"),
  (bs "emon_port", bs "99999")]

/-- **C76** as stated is false: the page accepts a threshold of 24000 VA, which is stored as 0, and ports that are
not ports. -/
theorem c76_refuted_number : (∀ f ∈ formFields false, Allowed f.2 (entered bigNumbers f.1)) ∧ ∀ (s : Nv) (k : Commit),
    ∃ s', s.handleForm (typedForm (entered bigNumbers)) false k = .ok (s', 200) ∧
      ("httpreq_seuil_haut", .num 0) ∈ settings s'.config ∧ ("emon_port", .num 80) ∈ settings s'.config ∧
      ("jdom_port", .num 80) ∈ settings s'.config := by
  refine ⟨fun f hf => allowed_iff ?_, fun s k => ?_⟩
  · have : ((formFields false).all fun f => allowed f.2 (entered bigNumbers f.1)) = true := by decide +kernel
    exact List.all_eq_true.1 this f hf
  · obtain ⟨s', g1, g2⟩ := c33_form s (typedForm (entered bigNumbers)) k (by decide +kernel)
    exact ⟨s', g1, by rw [g2]; decide +kernel, by rw [g2]; decide +kernel, by rw [g2]; decide +kernel⟩

/-- **C76**, the other way: the numbers that the device would store and that the page lets nobody enter are the update
ports below 1024, the update port 65535 and the node 255; there are none for the event stream. -/
theorem c76_numbers {name : String} {ctl : Control} (hf : (bs name, ctl) ∈ formFields false)
    (hn : name ∈ ["ota_port", "emon_node", "sse_freq"]) {t : Str} (h0 : t ≠ []) (ht : numeral t = true)
    (hm : decVal t ≤ maxOf name) :
    ¬ Allowed ctl (some t) ↔ (name = "ota_port" ∧ (decVal t < 1024 ∨ decVal t = 65535)) ∨
      (name = "emon_node" ∧ decVal t = 255) := by
  have key : ∀ lo hi, Allowed (.number lo hi) (some t) ↔ lo ≤ decVal t ∧ decVal t ≤ hi := by
    intro lo hi
    constructor
    · rintro ⟨t', e, -, -, h⟩
      cases e; exact h
    · intro h
      exact ⟨t, rfl, h0, ht, h⟩
  have uniq : ∀ (n : Str) (c c' : Control), (n, c) ∈ formFields false →
      ((formFields false).filter fun f => f.1 == n) = [(n, c')] → c = c' := by
    intro n c c' h1 h2
    have : (n, c) ∈ (formFields false).filter fun f => f.1 == n := List.mem_filter.2 ⟨h1, by simp⟩
    rw [h2] at this
    exact (Prod.mk.inj (List.mem_singleton.1 this)).2
  simp only [List.mem_cons, List.not_mem_nil, or_false] at hn
  rcases hn with rfl | rfl | rfl
  · rw [uniq _ _ (.number 1024 65534) hf (by rfl), key]
    have hm : decVal t ≤ 65535 := hm
    simp only [true_and, String.reduceEq, false_and, or_false]
    omega
  · rw [uniq _ _ (.number 0 254) hf (by rfl), key]
    have hm : decVal t ≤ 255 := hm
    simp only [true_and, String.reduceEq, false_and, false_or]
    omega
  · rw [uniq _ _ (.number 0 360) hf (by rfl), key]
    have hm : 0 ≤ decVal t ∧ decVal t ≤ 360 := ⟨Nat.zero_le _, hm⟩
    simp [hm.2]

/-- The three are fields of the page. -/
example : ∀ name ∈ ["ota_port", "emon_node", "sse_freq"], ((formFields false).any fun f => f.1 == bs name) = true := by
  decide +kernel

end Wifinfo
