import Verif.Model.Scan
import Verif.Props.Page
import Verif.Props.Sys
import Verif.Props.SysJson
import Verif.Proofs.Backup

/-!
# C102: the network that is chosen is the one that is joined
-/

namespace Wifinfo
open Spec

namespace Spec

/-- The settings `l` with the text `v` under the name `n`. -/
def withText (l : List (String × Setting)) (n : String) (v : Str) : List (String × Setting) :=
  l.map fun p => if p.1 = n then (n, .text (some v)) else p

/-- A text without NUL. -/
def Typable (t : Str) (n : Nat) : Prop := t.length ≤ n ∧ ∀ b ∈ t, b ≠ 0

end Spec

theorem networks_eq (w : Browser) (aps : List Ap) (h : ∀ a ∈ aps, Plain a.ssid ∧ Plain a.bssid) :
    w.networks (wifiScanJson (some aps) false) = aps.map fun a => w.recode a.ssid := by
  unfold Browser.networks
  rw [(c61_scan_partial aps).2 h]
  simp only [List.map_map]
  apply List.map_congr_left
  intro a _
  have n1 : decide (bs "encryptionType" = bs "ssid") = false := by decide +kernel
  have n2 : decide (bs "channel" = bs "ssid") = false := by decide +kernel
  have n3 : decide (bs "bssi" = bs "ssid") = false := by decide +kernel
  have n4 : decide (bs "rssi" = bs "ssid") = false := by decide +kernel
  simp only [Function.comp, Browser.filled]
  rw [show ([(bs "ssid", JVal.str a.ssid), (bs "rssi", .int a.rssi), (bs "bssi", .str a.bssid),
       (bs "channel", .int a.channel), (bs "encryptionType", .int a.encryption)].reverse.find?
        fun p => p.1 = bs "ssid") = some (bs "ssid", JVal.str a.ssid) from by
      simp only [List.reverse_cons, List.reverse_nil, List.nil_append, List.cons_append]
      rw [List.find?_cons_of_neg (by rw [n1]; decide), List.find?_cons_of_neg (by rw [n2]; decide),
        List.find?_cons_of_neg (by rw [n3]; decide), List.find?_cons_of_neg (by rw [n4]; decide),
        List.find?_cons_of_pos (by simp)]]
  rfl

theorem posted_cons' (p : Str × Str) (a : Args) (m : String) :
    posted (p :: a) m = if p.1 = bs m then p.2 else posted a m := by
  unfold posted
  rw [List.filter_cons]
  by_cases h : p.1 = bs m
  · rw [if_pos h, if_pos (by simpa using h)]; rfl
  · rw [if_neg h, if_neg (by simpa using h)]

theorem isPosted_cons' (p : Str × Str) (a : Args) (m : String) :
    isPosted (p :: a) m = (decide (p.1 = bs m) || isPosted a m) := by
  unfold isPosted
  by_cases h : p.1 = bs m <;> simp [h]

theorem setText_posted (a : Args) (n m : String) (v : Str) :
    posted (setText a (bs n) v) m = (if bs m = bs n ∧ isPosted a n = true then v else posted a m) ∧
    isPosted (setText a (bs n) v) m = isPosted a m := by
  induction a with
  | nil => simp [posted, setText, isPosted]
  | cons p a ih =>
    have e : setText (p :: a) (bs n) v = (if p.1 = bs n then (p.1, v) else p) :: setText a (bs n) v := rfl
    have e1 : (if p.1 = bs n then (p.1, v) else p).1 = p.1 := by split <;> rfl
    rw [e, posted_cons', isPosted_cons', posted_cons', isPosted_cons', isPosted_cons', ih.1, ih.2, e1]
    refine ⟨?_, rfl⟩
    by_cases h1 : p.1 = bs n
    · by_cases h2 : bs m = bs n
      · simp [h1, h2]
      · have : ¬ bs n = bs m := fun e => h2 e.symm
        simp [h1, h2, this]
    · by_cases h3 : p.1 = bs m
      · have : ¬ bs m = bs n := fun e => h1 (h3.trans e)
        simp [h1, h3, this]
      · simp [h1, h3]

/-- The settings of a post where two texts were set. -/
theorem settings_set (a : Args) (v : Str) (x : Str) (h1 : isPosted a "ssid" = true) (h2 : isPosted a "psk" = true)
    (hv : Typable v 32) (hx : Typable x 64) :
    postedPrivate (setText (setText a (bs "ssid") v) (bs "psk") x) ++
      postedPublic (setText (setText a (bs "ssid") v) (bs "psk") x) =
    withText (withText (postedPrivate a ++ postedPublic a) "ssid" v) "psk" x := by
  have key : ∀ m : String, bs m ≠ bs "ssid" → bs m ≠ bs "psk" →
      posted (setText (setText a (bs "ssid") v) (bs "psk") x) m = posted a m := by
    intro m e1 e2
    rw [(setText_posted _ "psk" m x).1, if_neg (fun h => e2 h.1), (setText_posted _ "ssid" m v).1, if_neg (fun h => e1 h.1)]
  have k1 : posted (setText (setText a (bs "ssid") v) (bs "psk") x) "ssid" = v := by
    rw [(setText_posted _ "psk" "ssid" x).1, if_neg (fun h => absurd h.1 (by decide +kernel)),
      (setText_posted _ "ssid" "ssid" v).1, if_pos ⟨rfl, h1⟩]
  have k2 : posted (setText (setText a (bs "ssid") v) (bs "psk") x) "psk" = x := by
    rw [(setText_posted _ "psk" "psk" x).1, if_pos ⟨rfl, by rw [(setText_posted _ "ssid" "psk" v).2]; exact h2⟩]
  have k3 : ∀ m : String, isPosted (setText (setText a (bs "ssid") v) (bs "psk") x) m = isPosted a m := by
    intro m
    rw [(setText_posted _ "psk" m x).2, (setText_posted _ "ssid" m v).2]
  simp only [postedPrivate, postedPublic, k1, k2, k3, cutText_id hv.1 hv.2, cutText_id hx.1 hx.2]
  repeat rw [key _ (by decide +kernel) (by decide +kernel)]
  rfl

theorem save_has (w : Browser) (j : Str) : isPosted (w.save false j) "ssid" = true ∧ isPosted (w.save false j) "psk" = true := by
  unfold Browser.save
  constructor
  · rw [(posted_field w _ false "ssid" (.text (some 32)) (List.mem_cons_of_mem _ (List.mem_append_left _
      (List.mem_append_left _ (List.mem_append_left _ (List.mem_of_getElem? (i := 0) rfl)))))).2]
    rfl
  · rw [(posted_field w _ false "psk" (.text (some 64)) (List.mem_cons_of_mem _ (List.mem_append_left _
      (List.mem_append_left _ (List.mem_append_left _ (List.mem_of_getElem? (i := 1) rfl)))))).2]
    rfl

/-- **C102**, with whatever other settings: the network of the row that was chosen and the key that was entered are stored, and
at the next start the device joins this network with this key.  When the conditions of C75 hold, nothing else changes.

Partial: every name of the list must be UTF-8 without `"`, `\` and control characters
(`c102_refuted_quote`, `c102_refuted_latin`). -/
theorem c102_chosen_partial (w : Browser) {s : Nv} (hs : NvReach s) (aps : List Ap)
    (hp : ∀ a ∈ aps, Plain a.ssid ∧ Plain a.bssid) {i : Nat} {a : Ap} (hi : aps[i]? = some a) (h0 : a.ssid ≠ [])
    (hu : IsUtf8 a.ssid) (hl : a.ssid.length ≤ 32) (key : Str) (hk : Typable key 64) :
    (w.networks (wifiScanJson (some aps) false))[i]? = some a.ssid ∧
    ∃ j s', s.config.getJson false = .ok j ∧
      s.handleForm (w.choose j (wifiScanJson (some aps) false) i key) false .ok = .ok (s', 200) ∧
      (∀ id k1 k2, ∃ s'', Nv.configSetup s'.ee.flash id k1 k2 = .ok s'' ∧ ∀ status, ∃ ok polls e,
        wifiConnect s''.config status = .ok (ok, polls, .begin a.ssid (if key = [] then none else some key) :: e)) ∧
      (SimpleTexts (settings s.config) → NumbersInRange (settings s.config) → PeriodsOffered (settings s.config) →
        settings s'.config = withText (withText (settings s.config) "ssid" a.ssid) "psk" key) := by
  have hn : (w.networks (wifiScanJson (some aps) false))[i]? = some a.ssid := by
    rw [networks_eq w aps hp, List.getElem?_map, hi, Option.map_some, w.same _ hu]
  refine ⟨hn, ?_⟩
  have ha : Typable a.ssid 32 := by
    refine ⟨hl, fun b hb e => ?_⟩
    have := (hp a (List.mem_of_getElem? hi)).1 b hb
    rw [e] at this
    exact absurd this (by decide)
  obtain ⟨j, hj, -⟩ := c36_parses_partial hs
  have hc : w.choose j (wifiScanJson (some aps) false) i key =
      setText (setText (w.save false j) (bs "ssid") a.ssid) (bs "psk") key := by
    unfold Browser.choose; rw [hn]
  have hsave : isPosted (setText (setText (w.save false j) (bs "ssid") a.ssid) (bs "psk") key) "save" = true := by
    rw [(setText_posted _ "psk" "save" key).2, (setText_posted _ "ssid" "save" a.ssid).2]
    exact save_posted w false j
  obtain ⟨s', g1, g2⟩ := c33_form s _ .ok hsave
  obtain ⟨s1, g3, g4⟩ := c56_survives_reboot s _ false hsave
  obtain rfl : s' = s1 := by rw [g1] at g3; exact (Prod.mk.inj (Except.ok.inj g3)).1
  rw [settings_set _ _ _ (save_has w j).1 (save_has w j).2 ha hk] at g2
  refine ⟨j, s', hj, by rw [hc]; exact g1, fun id k1 k2 => ?_, fun t1 t2 t3 => ?_⟩
  · obtain ⟨s'', g5, g6⟩ := g4 id k1 k2
    refine ⟨s'', g5, fun status => ?_⟩
    have hr : NvReach s' := NvReach.step hs (step_form g1)
    obtain ⟨q1, q2, q3, q4, _⟩ := (terminated_iff _).1 (c32_terminated hr)
    have e1 : HasText s'.config.ssid a.ssid := by
      have := congrArg (·[0]?) g2
      have e : some ("ssid", Setting.text (textOf s'.config.ssid.toList)) = some ("ssid", .text (some a.ssid)) := this
      simpa [HasText] using e
    have e2 : HasText s'.config.psk key := by
      have := congrArg (·[1]?) g2
      have e : some ("psk", Setting.text (textOf s'.config.psk.toList)) = some ("psk", .text (some key)) := this
      simpa [HasText] using e
    obtain ⟨ok, polls, waits, pre, c1, c2, _⟩ := c53_bounded e1 e2 (textOf_mem q3) (textOf_mem q4) status
    rw [if_neg h0] at c2
    rw [g6, c1, c2]
    exact ⟨ok, polls, _, rfl⟩
  · obtain ⟨j', s2, f1, f2, f3⟩ := c75_untouched_partial w hs t1 t2 t3 .ok
    obtain rfl : j' = j := Except.ok.inj (f1.symm.trans hj)
    obtain ⟨s3, f4, f5⟩ := c33_form s (w.save false j') .ok (save_posted _ _ _)
    obtain rfl : s2 = s3 := by rw [f4] at f2; exact (Prod.mk.inj (Except.ok.inj f2)).1.symm
    rw [g2, ← f5, f3]

/-- The network `Café` among others. -/
def cafe : List Ap :=
  [{ ssid := bs "Maison", rssi := -61, bssid := bs "00:11:22:33:44:55", channel := 6, encryption := 4 },
   { ssid := bs "Caf" ++ [0xC3, 0xA9], rssi := -70, bssid := bs "00:11:22:33:44:56", channel := 1, encryption := 4 }]

example : (∀ a ∈ cafe, Plain a.ssid ∧ Plain a.bssid) ∧ ∃ a, cafe[1]? = some a ∧ a.ssid ≠ [] ∧ IsUtf8 a.ssid ∧ a.ssid.length ≤ 32 ∧
    Typable (bs "expresso") 64 := by
  refine ⟨?_, _, rfl, by decide +kernel, ⟨[67, 97, 102, 0xE9], ?_, by decide +kernel⟩, by decide +kernel,
    by unfold Typable; decide +kernel⟩
  · have : ∀ a ∈ cafe, (a.ssid.all plain && a.bssid.all plain) = true := by decide +kernel
    intro a ha
    have := this a ha
    rw [Bool.and_eq_true] at this
    exact ⟨plain_all this.1, plain_all this.2⟩
  intro n hn
  have : ∀ n ∈ [67, 97, 102, 0xE9], n < 0xD800 := by decide
  exact .inl (this n hn)

/-- A neighbour whose network has a quotation mark. -/
def neighbour : List Ap :=
  [{ ssid := bs "Maison", rssi := -61, bssid := bs "00:11:22:33:44:55", channel := 6, encryption := 4 },
   { ssid := bs "Chez \"Leo\"", rssi := -90, bssid := bs "00:11:22:33:44:56", channel := 1, encryption := 4 }]

/-- **C102** as stated is false: one network in the neighbourhood with a quotation mark in its name, and the list is empty. -/
theorem c102_refuted_quote (w : Browser) : w.networks (wifiScanJson (some neighbour) false) = [] := by
  have : (parseJson (wifiScanJson (some neighbour) false)).isNone = true := by decide +kernel
  unfold Browser.networks
  rw [Option.isNone_iff_eq_none.1 this]

/-- The network `Café` with a name in Latin-1. -/
def latin : List Ap :=
  [{ ssid := bs "Caf" ++ [0xE9], rssi := -61, bssid := bs "00:11:22:33:44:55", channel := 6, encryption := 4 }]

theorem latin_not_utf8 : ¬ IsUtf8 (bs "Caf" ++ [0xE9]) := by
  rw [← pyDecode_isSome]
  decide +kernel

/-- **C102** as stated is false: a network whose name is not UTF-8 is stored under another name, by every browser. -/
theorem c102_refuted_latin (w : Browser) {s : Nv} (hs : NvReach s) (key : Str) : ∃ j s',
    s.config.getJson false = .ok j ∧
    s.handleForm (w.choose j (wifiScanJson (some latin) false) 0 key) false .ok = .ok (s', 200) ∧
    ("ssid", .text (some (bs "Caf" ++ [0xE9]))) ∉ settings s'.config := by
  obtain ⟨j, hj, -⟩ := c36_parses_partial hs
  have hn : (w.networks (wifiScanJson (some latin) false))[0]? = some (w.recode (bs "Caf" ++ [0xE9])) := by
    rw [networks_eq w latin fun a ha => by
      rw [List.mem_singleton.1 ha]; exact ⟨plain_all (by decide +kernel), plain_all (by decide +kernel)⟩]
    rfl
  have hc : w.choose j (wifiScanJson (some latin) false) 0 key =
      setText (setText (w.save false j) (bs "ssid") (w.recode (bs "Caf" ++ [0xE9]))) (bs "psk") key := by
    unfold Browser.choose; rw [hn]
  have hsave : isPosted (setText (setText (w.save false j) (bs "ssid") (w.recode (bs "Caf" ++ [0xE9]))) (bs "psk") key)
      "save" = true := by
    rw [(setText_posted _ "psk" "save" key).2, (setText_posted _ "ssid" "save" _).2]
    exact save_posted w false j
  obtain ⟨s', g1, g2⟩ := c33_form s _ .ok hsave
  refine ⟨j, s', hj, by rw [hc]; exact g1, ?_⟩
  rw [g2]
  have k1 : posted (setText (setText (w.save false j) (bs "ssid") (w.recode (bs "Caf" ++ [0xE9]))) (bs "psk") key) "ssid" =
      w.recode (bs "Caf" ++ [0xE9]) := by
    rw [(setText_posted _ "psk" "ssid" key).1, if_neg (fun h => absurd h.1 (by decide +kernel)),
      (setText_posted _ "ssid" "ssid" _).1, if_pos ⟨rfl, (save_has w j).1⟩]
  intro hm
  have hm2 : Setting.text (some (bs "Caf" ++ [0xE9])) = cutText (w.recode (bs "Caf" ++ [0xE9])) 32 := by
    rw [← k1]
    simpa [postedPrivate, postedPublic] using hm
  have hv := w.valid (bs "Caf" ++ [0xE9])
  generalize w.recode (bs "Caf" ++ [0xE9]) = t at hm2 hv
  have e := Option.some.inj (Setting.text.inj hm2)
  rw [show bs "Caf" ++ [0xE9] = [67, 97, 102, 0xE9] by decide +kernel] at e
  have e4 : t.takeWhile (· != 0) = [67, 97, 102, 0xE9] := by
    have hlen := congrArg List.length e
    rw [List.length_take] at hlen
    rw [e, List.take_of_length_le]
    simp only [List.length_cons, List.length_nil] at hlen
    omega
  obtain ⟨r, rfl, hr⟩ : ∃ r, t = 67 :: 97 :: 102 :: 0xE9 :: r ∧ ∀ x ∈ r.head?, x = 0 := by
    have := List.takeWhile_append_dropWhile (p := (· != (0 : Byte))) (l := t)
    rw [e4] at this
    refine ⟨t.dropWhile (· != 0), this.symm, fun x hx => ?_⟩
    have := List.head?_dropWhile_not (· != (0 : Byte)) t
    rw [Option.mem_def.1 hx] at this
    simpa using this
  rw [← pyDecode_isSome] at hv
  cases r with
  | nil => exact absurd hv (by decide +kernel)
  | cons x r =>
    obtain rfl := hr x rfl
    cases r <;> simp [pyDecode, utf8All, utf8Next, utf8Cont] at hv

end Wifinfo
