import Verif.Model.Bar
import Verif.Props.Script
import Verif.Props.Size

/-!
# C117: the bar of an upload tells the upload
-/

namespace Wifinfo
open Spec

namespace Spec

/-- The text is a number of units, and this number is one of those that are nearest to `bytes / unit`. -/
def RoundIn (s name : Str) (unit bytes : Nat) : Prop :=
  ∃ a : Str, s = a ++ 32 :: name ∧ a ≠ [] ∧ numeral a = true ∧ Canonical a ∧
    2 * unit * decVal a ≤ 2 * bytes + unit ∧ 2 * bytes ≤ 2 * unit * decVal a + unit

/-- The text of an amount: exact below 1024 bytes, else in the largest unit that is not above it. -/
def ShowsAmount (s : Str) (bytes : Nat) : Prop :=
  if bytes < 1024 then ∃ a : Str, s = a ++ 32 :: bs "Bytes" ∧ a ≠ [] ∧ numeral a = true ∧ Canonical a ∧ decVal a = bytes
  else if bytes < 1024 * 1024 then RoundIn s (bs "KB") 1024 bytes
  else if bytes < 1024 * 1024 * 1024 then RoundIn s (bs "MB") (1024 * 1024) bytes
  else RoundIn s (bs "GB") (1024 * 1024 * 1024) bytes

/-- The width of the bar is a percentage, and it is `n` %. -/
def WidthIs (s : Str) (n : Nat) : Prop := ∃ a : Str, s = a ++ [37] ∧ a ≠ [] ∧ numeral a = true ∧ Canonical a ∧ decVal a = n

/-- What the browser told last since the button was pressed: the bytes that were sent, and how many there are. -/
def sentOf : List BarEvent → Option (Nat × Nat) :=
  List.foldl (fun r e => match e with | .press => none | .progress true l t => some (l, t) | _ => r) none

/-- The last file that was chosen, and whether its type is the one of binary files. -/
def chosenOf : List BarEvent → Option (Bool × Str) :=
  List.foldl (fun r e => match e with | .choose ty f => some (ty, f) | _ => r) none

/-- How the last upload ended: `some true` when it failed. -/
def endOf : List BarEvent → Option Bool :=
  List.foldl (fun r e => match e with | .press => none | .success => some false | .error => some true | _ => r) none

end Spec

variable {fl : Rat → Rat}

theorem barRun_snoc (evs : List BarEvent) (e : BarEvent) : UploadBar.run fl (evs ++ [e]) = (UploadBar.run fl evs).step fl e := by
  simp [UploadBar.run]

/-! ## The numbers -/

/-- The nearest integer. -/
theorem toFixed0_near {x : Rat} (h : 0 ≤ x) :
    ∃ n : Nat, toFixed0 x = decText n ∧ (n : Rat) ≤ x + 1 / 2 ∧ x < (n : Rat) + 1 / 2 := by
  have f1 := Rat.floor_le (x + 1 / 2)
  have f2 := Rat.lt_floor (x := x + 1 / 2)
  have fp : 0 ≤ (x + 1 / 2).floor := Rat.le_floor_iff.2 (by
    have : ((0 : Int) : Rat) = 0 := rfl
    grind)
  obtain ⟨k, hk⟩ := Int.eq_ofNat_of_zero_le fp
  have ek : ((Int.ofNat k : Int) : Rat) = (k : Rat) := rfl
  rw [hk] at f1 f2
  have f1' : (k : Rat) ≤ x + 1 / 2 := by rw [← ek]; exact f1
  have f2' : x + 1 / 2 - 1 < (k : Rat) := by rw [← ek]; exact f2
  refine ⟨k, ?_, f1', by grind⟩
  unfold toFixed0
  rw [hk]
  rfl

theorem roundIn_of {x : Rat} {unit bytes : Nat} {name : Str} (hu : 0 < unit) (hx : x * unit = bytes) :
    RoundIn (toFixed0 x ++ 32 :: name) name unit bytes := by
  have hu' : (0 : Rat) < unit := by exact_mod_cast hu
  have h0 : 0 ≤ x := by
    apply Rat.not_lt.1
    intro hn
    have h1 : x * unit < 0 * unit := Rat.mul_lt_mul_of_pos_right hn hu'
    have h2 : (0 : Rat) ≤ bytes := by exact_mod_cast Nat.zero_le bytes
    grind
  obtain ⟨n, h1, h2, h3⟩ := toFixed0_near h0
  obtain ⟨d1, d2, d3, d4⟩ := decText_spec n
  refine ⟨decText n, by rw [h1], d1, d2, d4, ?_, ?_⟩
  · have := Rat.mul_le_mul_of_nonneg_right h2 (Rat.le_of_lt hu')
    rw [d3]
    have : 2 * (unit : Rat) * n ≤ 2 * bytes + unit := by grind
    exact_mod_cast this
  · have := Rat.mul_le_mul_of_nonneg_right (Rat.le_of_lt h3) (Rat.le_of_lt hu')
    rw [d3]
    have : 2 * (bytes : Rat) ≤ 2 * unit * n + unit := by grind
    exact_mod_cast this

theorem amount_shown (n : Nat) : ShowsAmount (jsFormatSize n) n := by
  unfold ShowsAmount jsFormatSize
  split
  · obtain ⟨d1, d2, d3, d4⟩ := decText_spec n
    exact ⟨decText n, rfl, d1, d2, d4, d3⟩
  split
  · exact roundIn_of (by decide) (by norm_cast; grind)
  split
  · exact roundIn_of (by decide) (by norm_cast; grind)
  · exact roundIn_of (by decide) (by norm_cast; grind)

/-- The percentage that is shown. -/
theorem percent_near (R : Rounding fl) {l t : Nat} (ht : 0 < t) (hl : l ≤ t) (hb : t < 1099511627776) :
    ∃ n : Nat, WidthIs (toFixed0 (fl (fl (l / t) * 100)) ++ bs "%") n ∧ 2 * t * n ≤ 200 * l + t ∧ 200 * l ≤ 2 * t * n + t := by
  have ht' : (0 : Rat) < t := by exact_mod_cast ht
  have hb' : (t : Rat) < 1099511627776 := by exact_mod_cast hb
  have hl' : (l : Rat) ≤ t := by exact_mod_cast hl
  have hl0 : (0 : Rat) ≤ l := by exact_mod_cast Nat.zero_le l
  have hx : (l / t : Rat) * t = l := Rat.div_mul_cancel (by grind)
  generalize (l / t : Rat) = x at hx ⊢
  have hx0 : 0 ≤ x := by
    apply Rat.not_lt.1
    intro hn
    have h1 : x * t < 0 * t := Rat.mul_lt_mul_of_pos_right hn ht'
    grind
  have hx1 : x ≤ 1 := by
    apply Rat.not_lt.1
    intro hn
    have h1 : 1 * (t : Rat) < x * t := Rat.mul_lt_mul_of_pos_right hn ht'
    grind
  have a1 := R.up x hx0
  have a2 := R.down x hx0
  have q0 := fl_pos R hx0
  generalize fl x = q at *
  have hq : 0 ≤ q * 100 := by grind
  have b1 := R.up _ hq
  have b2 := R.down _ hq
  have p0 := fl_pos R hq
  generalize fl (q * 100) = p at *
  obtain ⟨n, h1, h2, h3⟩ := toFixed0_near p0
  obtain ⟨d1, d2, d3, d4⟩ := decText_spec n
  refine ⟨n, ⟨decText n, by rw [h1]; rfl, d1, d2, d4, d3⟩, ?_, ?_⟩
  · have e1 : (n : Rat) ≤ 100 * x + 1 / 2 + 400 / 9007199254740992 := by grind
    have := Rat.mul_le_mul_of_nonneg_right e1 (Rat.le_of_lt ht')
    have : 2 * (t : Rat) * n < 200 * l + t + 1 := by grind
    have : 2 * t * n < 200 * l + t + 1 := by exact_mod_cast this
    omega
  · have e1 : 100 * x ≤ (n : Rat) + 1 / 2 + 400 / 9007199254740992 := by grind
    have := Rat.mul_le_mul_of_nonneg_right e1 (Rat.le_of_lt ht')
    have : 200 * (l : Rat) < 2 * t * n + t + 1 := by grind
    have : 200 * l < 2 * t * n + t + 1 := by exact_mod_cast this
    omega

/-- The percentage does not go back. -/
theorem percent_mono (R : Rounding fl) {l l' t : Nat} (h : l ≤ l') (ht : 0 < t) :
    ∃ n n' : Nat, toFixed0 (fl (fl (l / t) * 100)) = decText n ∧ toFixed0 (fl (fl (l' / t) * 100)) = decText n' ∧ n ≤ n' := by
  have ht' : (0 : Rat) < t := by exact_mod_cast ht
  have hl : (l : Rat) ≤ l' := by exact_mod_cast h
  have hq : (l / t : Rat) ≤ l' / t := by
    rw [Rat.div_def, Rat.div_def]
    exact Rat.mul_le_mul_of_nonneg_right hl (Rat.le_of_lt (Rat.inv_pos.2 ht'))
  have h1 := R.mono _ _ hq
  have h2 : fl (fl (l / t) * 100) ≤ fl (fl (l' / t) * 100) := R.mono _ _ (Rat.mul_le_mul_of_nonneg_right h1 (by decide))
  refine ⟨_, _, rfl, rfl, ?_⟩
  apply Int.toNat_le_toNat
  have h3 := Rat.floor_le (fl (fl (l / t) * 100) + 1 / 2)
  exact Rat.le_floor_iff.2 (by grind)

theorem width_unique {n m : Nat} {s : Str} (h : s = decText n ++ bs "%") (hm : WidthIs s m) : m = n := by
  obtain ⟨a, e, _, _, _, hv⟩ := hm
  rw [h] at e
  have := List.append_inj_left' e rfl
  rw [← this, (decText_spec n).2.2.1] at hv
  exact hv.symm

/-! ## The bar -/

theorem bar_sent (evs : List BarEvent) : ∀ l t, sentOf evs = some (l, t) →
    (UploadBar.run fl evs).width = toFixed0 (fl (fl (l / t) * 100)) ++ bs "%" ∧
      (UploadBar.run fl evs).text = jsFormatSize l ++ bs " / " ++ jsFormatSize t := by
  induction evs using snoc_induction with
  | h0 => intro l t h; cases h
  | h1 evs e ih =>
    intro l t h
    rw [barRun_snoc]
    unfold sentOf at h ih
    rw [List.foldl_append] at h
    cases e with
    | choose ty f => exact ih l t h
    | press => cases h
    | progress c l' t' =>
      cases c with
      | true => cases h; exact ⟨rfl, rfl⟩
      | false => exact ih l t h
    | success => exact ih l t h
    | error => exact ih l t h

/-- **C117**: once the browser has told how much of the upload was sent, the bar has the nearest percentage, and the text tells both
amounts. -/
theorem c117_sent (R : Rounding fl) (evs : List BarEvent) (l t : Nat) (h : sentOf evs = some (l, t))
    (ht : 0 < t) (hl : l ≤ t) (hb : t < 1099511627776) :
    (∃ n, WidthIs (UploadBar.run fl evs).width n ∧ 2 * t * n ≤ 200 * l + t ∧ 200 * l ≤ 2 * t * n + t) ∧
      ∃ a b, (UploadBar.run fl evs).text = a ++ bs " / " ++ b ∧ ShowsAmount a l ∧ ShowsAmount b t := by
  obtain ⟨h1, h2⟩ := bar_sent (fl := fl) evs l t h
  rw [h1, h2]
  exact ⟨percent_near R ht hl hb, _, _, rfl, amount_shown l, amount_shown t⟩

/-- **C117**: the bar is full when everything was sent. -/
theorem c117_full (R : Rounding fl) (evs : List BarEvent) (t : Nat) (h : sentOf evs = some (t, t))
    (ht : 0 < t) (hb : t < 1099511627776) : WidthIs (UploadBar.run fl evs).width 100 := by
  obtain ⟨⟨n, hn, h1, h2⟩, _⟩ := c117_sent R evs t t h ht (Nat.le_refl t) hb
  have : n = 100 := by
    have e : 2 * t * n = t * (2 * n) := by rw [Nat.mul_comm 2 t, Nat.mul_assoc]
    rw [e] at h1 h2
    rcases Nat.lt_trichotomy n 100 with h | h | h
    · have := Nat.mul_le_mul_left t (show 2 * n ≤ 198 by omega)
      omega
    · exact h
    · have := Nat.mul_le_mul_left t (show 202 ≤ 2 * n by omega)
      omega
  rw [← this]
  exact hn

/-- **C117**: the bar does not go back while more and more is sent. -/
theorem c117_forward (R : Rounding fl) (evs more : List BarEvent) (l l' t n n' : Nat) (h : sentOf evs = some (l, t))
    (h' : sentOf (evs ++ more) = some (l', t)) (hl : l ≤ l') (ht : 0 < t)
    (hn : WidthIs (UploadBar.run fl evs).width n) (hn' : WidthIs (UploadBar.run fl (evs ++ more)).width n') : n ≤ n' := by
  obtain ⟨a, b, e1, e2, hab⟩ := percent_mono R hl ht
  rw [width_unique (by rw [(bar_sent (fl := fl) evs l t h).1, e1]) hn,
    width_unique (by rw [(bar_sent (fl := fl) _ l' t h').1, e2]) hn']
  exact hab

theorem bar_chosen (evs : List BarEvent) :
    ((UploadBar.run fl evs).button = match chosenOf evs with | some (ty, f) => (chooseFile ty f).isSome | none => false) ∧
      (UploadBar.run fl evs).name = match chosenOf evs with | some (_, f) => f.map Spec.lower ++ bs " : " | none => [] := by
  induction evs using snoc_induction with
  | h0 => exact ⟨rfl, rfl⟩
  | h1 evs e ih =>
    rw [barRun_snoc]
    unfold chosenOf at *
    rw [List.foldl_append]
    cases e with
    | choose ty f => exact ⟨rfl, by rw [← jsLower_eq]; rfl⟩
    | press => unfold UploadBar.step; dsimp only; split <;> exact ih
    | progress c l' t' => unfold UploadBar.step progressUpload; dsimp only; split <;> exact ih
    | success => exact ih
    | error => exact ih

/-- **C117**: the button is there exactly when the last file that was chosen is of the right type and has a right name. -/
theorem c117_button (evs : List BarEvent) : (UploadBar.run fl evs).button = true ↔
    ∃ f stem c, chosenOf evs = some (true, f) ∧ f.map Spec.lower = stem ++ c :: bs "bin" ∧ c ≠ 10 ∧ c ≠ 13 := by
  rw [(bar_chosen evs).1]
  constructor
  · intro h
    cases hc : chosenOf evs with
    | none => rw [hc] at h; cases h
    | some p =>
      obtain ⟨ty, f⟩ := p
      rw [hc] at h
      obtain ⟨k, hk⟩ := Option.isSome_iff_exists.1 h
      obtain ⟨rfl, stem, c, h1, h2, h3, _⟩ := (c81_chosen ty f k).1 hk
      exact ⟨f, stem, c, rfl, h1, h2, h3⟩
  · rintro ⟨f, stem, c, hc, h1, h2, h3⟩
    rw [hc]
    have hk : ∃ k : UpdateKind, (k = .web ↔ bs "fs" <:+ stem) := by
      by_cases h : bs "fs" <:+ stem
      · exact ⟨.web, by simp [h]⟩
      · exact ⟨.firmware, by simp [h]⟩
    obtain ⟨k, hk⟩ := hk
    have := (c81_chosen true f k).2 ⟨rfl, stem, c, h1, h2, h3, hk⟩
    simp [this]

/-- **C117**: from the press of the button until another file is chosen, the bar is seen, with the name of the file. -/
theorem c117_seen (evs more : List BarEvent) (f : Str) (hf : chosenOf evs = some (true, f))
    (hb : (UploadBar.run fl evs).button = true) (hm : ∀ e ∈ more, ∀ ty g, e ≠ .choose ty g) :
    (UploadBar.run fl (evs ++ .press :: more)).hidden = false ∧
      (UploadBar.run fl (evs ++ .press :: more)).name = f.map Spec.lower ++ bs " : " := by
  have hn : (UploadBar.run fl evs).name = f.map Spec.lower ++ bs " : " := by rw [(bar_chosen evs).2, hf]
  induction more using snoc_induction with
  | h0 =>
    rw [barRun_snoc]
    simp [UploadBar.step, hb, hn]
  | h1 more e ih =>
    have e1 : evs ++ BarEvent.press :: (more ++ [e]) = (evs ++ .press :: more) ++ [e] := by simp
    rw [e1, barRun_snoc]
    have ih := ih (fun x hx => hm x (List.mem_append_left _ hx))
    cases e with
    | choose ty g => exact absurd rfl (hm _ (by simp) ty g)
    | press => unfold UploadBar.step; dsimp only; split <;> exact ⟨by first | rfl | exact ih.1, ih.2⟩
    | progress c l' t' => unfold UploadBar.step progressUpload; dsimp only; split <;> exact ih
    | success => exact ih
    | error => exact ih

/-- **C117**: the bar is not seen before the button is pressed: neither on a page that was just loaded nor after another file is
chosen. -/
theorem c117_hidden (evs more : List BarEvent) (hm : .press ∉ more) (h : evs = [] ∨ ∃ pre ty f, evs = pre ++ [.choose ty f]) :
    (UploadBar.run fl (evs ++ more)).hidden = true := by
  induction more using snoc_induction with
  | h0 =>
    rw [List.append_nil]
    rcases h with rfl | ⟨pre, ty, f, rfl⟩
    · rfl
    · rw [barRun_snoc]; rfl
  | h1 more e ih =>
    have ih := ih (fun h => hm (List.mem_append_left _ h))
    rw [← List.append_assoc, barRun_snoc]
    cases e with
    | choose ty g => rfl
    | press => exact absurd (by simp) hm
    | progress c l' t' => unfold UploadBar.step progressUpload; dsimp only; split <;> exact ih
    | success => exact ih
    | error => exact ih

/-- The bar is red exactly when an upload has failed since the page was loaded. -/
theorem c117_colour_exact (evs : List BarEvent) : (UploadBar.run fl evs).danger = true ↔ .error ∈ evs := by
  induction evs using snoc_induction with
  | h0 => exact ⟨nofun, nofun⟩
  | h1 evs e ih =>
    rw [barRun_snoc]
    cases e with
    | choose ty f => simpa [UploadBar.step] using ih
    | press => unfold UploadBar.step; dsimp only; split <;> simpa using ih
    | progress c l' t' => unfold UploadBar.step progressUpload; dsimp only; split <;> simpa using ih
    | success => simpa [UploadBar.step] using ih
    | error => simp [UploadBar.step]

/-- **C117**, the colour, in part: the bar is red exactly when the last upload has failed, if all the uploads before it have
succeeded.  Missing: an upload after a failure (`c117_refuted_colour`). -/
theorem c117_colour_partial (evs more : List BarEvent) (h : .error ∉ evs) (hm : .press ∉ more) (hs : .error ∈ more → .success ∉ more) :
    (UploadBar.run fl (evs ++ .press :: more)).danger = true ↔ endOf (evs ++ .press :: more) = some true := by
  rw [c117_colour_exact]
  have e0 : endOf (evs ++ .press :: more) = endOf more := by
    unfold endOf
    rw [List.foldl_append]
    rfl
  rw [e0]
  have e1 : BarEvent.error ∈ evs ++ .press :: more ↔ .error ∈ more := by simp [h]
  rw [e1]
  clear e0 e1 h
  have key : ∀ l : List BarEvent, .press ∉ l → (endOf l = some true → .error ∈ l) ∧
      (.error ∈ l → .success ∉ l → endOf l = some true) := by
    intro l
    induction l using snoc_induction with
    | h0 => intro _; exact ⟨nofun, nofun⟩
    | h1 l e ih =>
      intro hp
      have ih := ih (fun h => hp (List.mem_append_left _ h))
      unfold endOf at *
      rw [List.foldl_append]
      cases e with
      | choose ty f => simpa using ih
      | press => exact absurd (by simp) hp
      | progress c l' t' => simpa using ih
      | success => simp
      | error => simp
  exact ⟨fun h => (key more hm).2 h (hs h), (key more hm).1⟩

/-- **C117** as stated is false: after a failure, the bar of an upload that succeeds is red. -/
theorem c117_refuted_colour : ∃ evs, endOf evs = some false ∧ (UploadBar.run fl evs).danger = true :=
  ⟨[.choose true (bs "firmware.bin"), .press, .error, .press, .progress true 400000 400000, .success], rfl, rfl⟩

/-- **C117** as stated is false: when the button is pressed again, the bar has the figures of the upload before, until the browser
tells something: it begins full and goes back. -/
theorem c117_refuted_start (R : Rounding fl) : ∃ evs, sentOf evs = none ∧ (UploadBar.run fl evs).hidden = false ∧
    WidthIs (UploadBar.run fl evs).width 100 ∧ WidthIs (UploadBar.run fl (evs ++ [.progress true 0 400000])).width 0 := by
  refine ⟨[.choose true (bs "firmware.bin"), .press, .progress true 400000 400000, .error] ++ [.press], rfl, ?_, ?_, ?_⟩
  · rfl
  · have h := c117_full R [.choose true (bs "firmware.bin"), .press, .progress true 400000 400000, .error] 400000 rfl (by decide) (by decide)
    rw [barRun_snoc]
    exact h
  · obtain ⟨⟨n, hn, h1, _⟩, _⟩ := c117_sent R ([.choose true (bs "firmware.bin"), .press, .progress true 400000 400000, .error] ++ [.press]
      ++ [.progress true 0 400000]) 0 400000 rfl (by decide) (by decide) (by decide)
    have : n = 0 := by omega
    exact this ▸ hn

/-! ## Cases -/

/-- The roundings are those of an exact arithmetic, for instance. -/
theorem exact_rounding : Rounding id where
  up x h := by simp only [id]; grind
  down x h := by simp only [id]; grind
  mono x y h := h
  exact n _ := rfl

example : sentOf [.choose true (bs "erfs.bin"), .press, .progress true 65536 196900, .progress false 0 0] = some (65536, 196900) ∧
    (UploadBar.run id [.choose true (bs "erfs.bin"), .press, .progress true 65536 196900]).width = bs "33%" ∧
    (UploadBar.run id [.choose true (bs "erfs.bin"), .press, .progress true 65536 196900]).text = bs "64 KB / 192 KB" ∧
    (UploadBar.run id [.choose true (bs "ERFS.bin"), .press]).name = bs "erfs.bin : " ∧
    (UploadBar.run id [.choose true (bs "erfs.bin")]).button = true ∧
    (UploadBar.run id [.choose true (bs "erfs.bin"), .choose true (bs "erfs.txt")]).button = false := by decide +kernel

end Wifinfo
