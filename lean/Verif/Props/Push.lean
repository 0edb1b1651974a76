import Verif.Spec.Push
import Verif.Proofs.Tic
import Verif.Props.Power
import Verif.Props.Config
import Verif.Props.ConfigJson
import Verif.Props.TicJson

/-!
# C25, C26: the Jeedom and emoncms requests
-/

namespace Wifinfo
open Spec

/-- Text of a field. -/
def HasText {n} (a : Arr n) (s : Str) : Prop := textOf a.toList = some s

theorem HasText.cstr {n} {a : Arr n} {s : Str} (h : HasText a s) : a.cstr = .ok s := by
  unfold HasText textOf at h
  split at h
  · rename_i h0
    rw [cstr_ok h0]
    exact congrArg _ (Option.some.inj h)
  · cases h

theorem HasText.first {n} {a : Arr (n + 1)} {s : Str} (h : HasText a s) : a[0] = 0 ↔ s = [] := by
  obtain ⟨⟨l⟩, hl⟩ := a
  unfold HasText textOf at h
  split at h
  · have := Option.some.inj h
    subst this
    cases l with
    | nil => simp at hl
    | cons b r =>
      simp only [Vector.toList, List.takeWhile_cons]
      show b = 0 ↔ _
      by_cases hb : b = 0 <;> simp [hb]
  · cases h

/-! ## C25 -/

/-- **C25.** The Jeedom request carries the configured path and key, then every group of the frame
once, in order, ADCO being replaced by the configured identifier if there is one; it goes to the
configured host and port. -/
theorem c25_jeedom (c : Config) {t : Teleinfo} {ts gs l} (h : TinfoReach t ((ts, gs) :: l))
    {host path key adco : Str} (hh : HasText c.jeedom.host host) (hu : HasText c.jeedom.url path)
    (hk : HasText c.jeedom.apikey key) (ha : HasText c.jeedom.adco adco) (hne : host ≠ []) :
    jeedomNotif c t = .ok [.jeedom
      { host := host, port := c.jeedom.port,
        url := jeedomUrl path key adco (pairs (storedAll gs)), data := none }] := by
  obtain ⟨h1, h2, h3⟩ := (reach_inv h).2.2.2
  unfold jeedomNotif
  rw [if_neg (by rw [hh.first]; exact hne)]
  have hb : ∀ (url : Str) l v ls vs, StrAt t.fr.mem l ls → StrAt t.fr.mem v vs →
      (do
        let l ← t.fr.mem.cstr l
        let v ← (if l = bs "ADCO" ∧ c.jeedom.adco[0] ≠ 0 then c.jeedom.adco.cstr
          else t.fr.mem.cstr v : Res Str)
        pure (url ++ bs "&" ++ l ++ bs "=" ++ v) : Res Str) =
      .ok (url ++ bs "&" ++ ls ++ bs "=" ++ (if ls = bs "ADCO" ∧ adco ≠ [] then adco else vs)) := by
    intro url l v ls vs a b
    simp only [a.cstr, ok_bind, ne_eq, ha.first]
    split
    · rw [ha.cstr]; rfl
    · rw [b.cstr]; rfl
  have hf : ∀ (ps : List (Str × Str)) (url : Str),
      ps.foldl (fun s p => s ++ bs "&" ++ p.1 ++ bs "=" ++ (if p.1 = bs "ADCO" ∧ adco ≠ [] then adco else p.2)) url
        = url ++ ps.flatMap fun p => bs "&" ++ p.1 ++ bs "=" ++
          (if p.1 = bs "ADCO" ∧ adco ≠ [] then adco else p.2) := by
    intro ps
    induction ps with
    | nil => intro url; simp
    | cons p ps ih =>
      intro url
      rw [List.foldl_cons, ih, List.flatMap_cons]
      simp only [List.append_assoc]
  have hp : (if c.jeedom.url[0] ≠ 0 then c.jeedom.url.cstr else pure (bs "/") : Res Str) =
      .ok (if path = [] then bs "/" else path) := by
    simp only [ne_eq, hu.first]
    by_cases h : path = []
    · simp only [h, not_true_eq_false, if_false, if_true]; rfl
    · simp only [h, not_false_eq_true, if_true, if_false, hu.cstr]
  rw [hp, ok_bind, hk.cstr, ok_bind]
  simp only []
  rw [each_spec h1 h2 _ _ hb, ok_bind, hf, hh.cstr, ok_bind, pure_ok]
  simp only [jeedomUrl, List.append_assoc]
  rfl

/-- **C25.** The settings of a reachable configuration always have such texts, so the request is
always produced, without reading outside the frame or the settings. -/
theorem c25_reachable {s : Nv} (hs : NvReach s) : ∃ host path key adco,
    HasText s.config.jeedom.host host ∧ HasText s.config.jeedom.url path ∧
    HasText s.config.jeedom.apikey key ∧ HasText s.config.jeedom.adco adco := by
  have ht := c32_terminated hs
  rw [terminated_iff] at ht
  obtain ⟨h1, h2, h3, h4, h5, h6, h7, h8, h9, h10, h11, h12, h13, h14, h15, h16⟩ := ht
  exact ⟨_, _, _, _, textOf_mem (by assumption), textOf_mem (by assumption),
    textOf_mem (by assumption), textOf_mem (by assumption)⟩

/-- A configuration with Jeedom and emoncms. -/
def pushConfig : Config :=
  { Config.zero with
    jeedom := { Config.zero.jeedom with host := padArr 33 (bs "jee"), url := padArr 65 (bs "/j.php"),
                                        apikey := padArr 49 (bs "K"), adco := padArr 13 (bs "42") }
    emoncms := { Config.zero.emoncms with host := padArr 33 (bs "emon"), apikey := padArr 33 (bs "E"),
                                          node := 3 } }

example : HasText pushConfig.jeedom.host (bs "jee") ∧ HasText pushConfig.jeedom.url (bs "/j.php") ∧
    HasText pushConfig.jeedom.apikey (bs "K") ∧ HasText pushConfig.jeedom.adco (bs "42") ∧
    jeedomUrl (bs "/j.php") (bs "K") (bs "42") (meterPairs sampleMeter) =
      bs "/j.php?api=K&ADCO=42&OPTARIF=HC&HCHC=052890470&PTEC=HP" := by
  unfold HasText; decide +kernel

/-! ## C26 -/

theorem startsWith_spec {m : Mem} : ∀ (x : Str) {p : Nat} {s : Str}, StrAt m p s → NulFree x →
    startsWith m p x = .ok (x.isPrefixOf s) := by
  intro x
  induction x with
  | nil => intro p s _ _; simp [startsWith, pure_ok]
  | cons b x ih =>
    intro p s h hx
    obtain ⟨a, c, h1, rfl, h3⟩ := h
    cases s with
    | nil =>
      have hr : m.rd a.length = .ok 0 := Holds.rd_append (c := c) (by simpa using h1)
      simp only [startsWith, hr, ok_bind]
      rw [if_neg (fun e => hx b (by simp) e.symm)]
      rfl
    | cons y s =>
      have hr : m.rd a.length = .ok y := Holds.rd_append (c := s ++ 0 :: c) (by simpa using h1)
      simp only [startsWith, hr, ok_bind]
      by_cases e : y = b
      · subst e
        rw [if_pos rfl]
        have := ih (p := a.length + 1) (s := s) ⟨a ++ [y], c, by simpa using h1, by simp,
          fun z hz => h3 z (by simp [hz])⟩ (fun z hz => hx z (by simp [hz]))
        rw [this]
        simp [List.isPrefixOf]
      · rw [if_neg e]
        simp [List.isPrefixOf, Ne.symm e, pure_ok]

theorem optarif_spec {m : Mem} {p : Nat} {v : Str} (h : StrAt m p v) :
    optarifCode m p = .ok (emonValue (bs "OPTARIF") v) := by
  have hz : NulFree (bs "BAS") ∧ NulFree (bs "HC") ∧ NulFree (bs "EJP") ∧ NulFree (bs "BBR") := by
    refine ⟨?_, ?_, ?_, ?_⟩ <;> (intro b hb; revert b; decide)
  unfold optarifCode
  rw [startsWith_spec _ h hz.1, ok_bind]
  simp only [emonValue, optarifTable, List.find?, if_pos]
  cases (bs "BAS").isPrefixOf v
  · rw [startsWith_spec _ h hz.2.1]
    simp only [ok_bind, Bool.false_eq_true, if_false]
    cases (bs "HC").isPrefixOf v
    · rw [startsWith_spec _ h hz.2.2.1]
      simp only [ok_bind, Bool.false_eq_true, if_false]
      cases (bs "EJP").isPrefixOf v
      · rw [startsWith_spec _ h hz.2.2.2]
        simp only [ok_bind, Bool.false_eq_true, if_false]
        cases (bs "BBR").isPrefixOf v
        · rfl
        · rfl
      · rfl
    · rfl
  · rfl

theorem ptec_spec (v : Str) : ptecCode v = emonValue (bs "PTEC") v := by
  by_cases h0 : v = bs "TH"
  · subst h0; decide +kernel
  by_cases h1 : v = bs "HC"
  · subst h1; decide +kernel
  by_cases h2 : v = bs "HP"
  · subst h2; decide +kernel
  by_cases h3 : v = bs "HN"
  · subst h3; decide +kernel
  by_cases h4 : v = bs "PM"
  · subst h4; decide +kernel
  by_cases h5 : v = bs "HCJB"
  · subst h5; decide +kernel
  by_cases h6 : v = bs "HCJW"
  · subst h6; decide +kernel
  by_cases h7 : v = bs "HCJR"
  · subst h7; decide +kernel
  by_cases h8 : v = bs "HPJB"
  · subst h8; decide +kernel
  by_cases h9 : v = bs "HPJW"
  · subst h9; decide +kernel
  by_cases h10 : v = bs "HPJR"
  · subst h10; decide +kernel
  have hd : ∀ a : String, ¬ v = bs a → (bs a == v) = false := by
    intro a h
    have : ¬ bs a = v := fun e => h e.symm
    simp [this]
  simp only [emonValue, ptecCode, ptecTable, List.find?, if_neg h0, hd _ h0, if_neg h1, hd _ h1, if_neg h2, hd _ h2, if_neg h3, hd _ h3, if_neg h4, hd _ h4, if_neg h5, hd _ h5, if_neg h6, hd _ h6, if_neg h7, hd _ h7, if_neg h8, hd _ h8, if_neg h9, hd _ h9, if_neg h10, hd _ h10]
  rw [if_neg (by decide), if_neg (by decide), if_pos trivial]
  decide +kernel

theorem hhphc_spec {m : Mem} {p : Nat} {v : Str} (h : StrAt m p v) :
    ∃ b, m.rd p = .ok b ∧ decText b.toNat = emonValue (bs "HHPHC") v := by
  obtain ⟨a, c, h1, rfl, h3⟩ := h
  cases v with
  | nil => exact ⟨0, Holds.rd_append (c := c) (by simpa using h1), rfl⟩
  | cons y v => exact ⟨y, Holds.rd_append (c := v ++ 0 :: c) (by simpa using h1), rfl⟩

/-- One item of the payload. -/
def emonItem (p : Str × Str) : Str := p.1 ++ bs ":" ++ emonValue p.1 p.2

theorem emon_fold (ps : List (Str × Str)) (first : Bool) (url : Str) :
    (ps.foldl (fun (s : Bool × Str) p =>
      (false, (if s.1 then s.2 else s.2 ++ bs ",") ++ emonItem p)) (first, url)).2 =
    url ++ (if first ∨ ps = [] then [] else bs ",") ++ (bs ",").intercalate (ps.map emonItem) := by
  induction ps generalizing first url with
  | nil => simp [List.intercalate]
  | cons p ps ih =>
    rw [List.foldl_cons, ih]
    cases ps with
    | nil => cases first <;> simp [List.intercalate]
    | cons q ps => cases first <;> simp [List.intercalate]

theorem emonData_spec {t : Frame} {content : Str} (h : t.Has content) (hne : content ≠ []) (url : Str) :
    ticEmoncmsData t url = .ok (url ++ emonData (pairs content)) := by
  unfold ticEmoncmsData
  rw [each_spec h hne _ (fun (s : Bool × Str) l v =>
      (false, (if s.1 then s.2 else s.2 ++ bs ",") ++ emonItem (l, v)))]
  · rw [ok_bind]
    have e := emon_fold (pairs content) true (url ++ bs "{")
    simp only [pure_ok]
    rw [show (fun (s : Bool × Str) (p : Str × Str) =>
      (false, (if s.1 then s.2 else s.2 ++ bs ",") ++ emonItem (p.1, p.2))) = _ from rfl]
    rw [e]
    simp only [emonData, true_or, if_true, List.append_nil, List.append_assoc]
    rw [show emonItem = (fun p => p.1 ++ (bs ":" ++ emonValue p.1 p.2)) from
      funext fun p => List.append_assoc _ _ _]
  · rintro ⟨first, url⟩ l v ls vs h1 h2
    simp only [h1.cstr, ok_bind, emonItem]
    by_cases c1 : ls = bs "OPTARIF"
    · subst c1
      rw [if_pos rfl, optarif_spec h2]
      simp only [ok_bind, pure_ok, List.append_assoc]
    · rw [if_neg c1]
      by_cases c2 : ls = bs "HHPHC"
      · subst c2
        obtain ⟨b, e1, e2⟩ := hhphc_spec h2
        rw [if_pos rfl, e1]
        simp only [ok_bind, pure_ok, List.append_assoc, e2]
      · rw [if_neg c2]
        by_cases c3 : ls = bs "PTEC"
        · subst c3
          rw [if_pos rfl, h2.cstr]
          simp only [ok_bind, pure_ok, List.append_assoc, ptec_spec]
        · rw [if_neg c3]
          obtain ⟨q, e1, e2⟩ := h2.getInteger
          have e3 : emonValue ls vs = normNum vs := by
            unfold emonValue
            rw [if_neg c1, if_neg c2, if_neg c3]
          rw [e1]
          simp only [ok_bind, e2.cstr, pure_ok, List.append_assoc, e3]

/-- **C26.** The emoncms request carries the configured path, node and key, then every group of the
frame once, in order, with its numeric code. -/
theorem c26_emoncms (c : Config) {t : Teleinfo} {ts gs l} (h : TinfoReach t ((ts, gs) :: l))
    {host path key : Str} (hh : HasText c.emoncms.host host) (hu : HasText c.emoncms.url path)
    (hk : HasText c.emoncms.apikey key) (hne : host ≠ []) :
    emoncmsNotif c t = .ok [.emoncms
      { host := host, port := c.emoncms.port,
        url := emonUrl path key c.emoncms.node.toNat (pairs (storedAll gs)), data := none }] := by
  obtain ⟨h1, h2, h3⟩ := (reach_inv h).2.2.2
  unfold emoncmsNotif
  rw [if_neg (by rw [hh.first]; exact hne)]
  have hp : (if c.emoncms.url[0] ≠ 0 then c.emoncms.url.cstr else pure (bs "/") : Res Str) =
      .ok (if path = [] then bs "/" else path) := by
    simp only [ne_eq, hu.first]
    by_cases h : path = []
    · simp only [h, not_true_eq_false, if_false, if_true]; rfl
    · simp only [h, not_false_eq_true, if_true, if_false, hu.cstr]
  rw [hp, ok_bind, hk.cstr]
  simp only [ok_bind]
  rw [emonData_spec h1 h2, ok_bind, hh.cstr, ok_bind, pure_ok]
  have hn : (c.emoncms.node > 0) ↔ ¬ c.emoncms.node.toNat = 0 := by
    rw [gt_iff_lt, UInt8.lt_iff_toNat_lt]
    show 0 < _ ↔ _
    omega
  simp only [emonUrl]
  by_cases h0 : c.emoncms.node.toNat = 0
  · rw [if_neg (by rw [hn]; simpa using h0), if_pos h0]
    simp only [List.append_assoc, List.nil_append]
  · rw [if_pos (by rw [hn]; exact h0), if_neg h0]
    simp only [List.append_assoc]

/-- **C26.** Same remark as `c25_reachable`. -/
theorem c26_reachable {s : Nv} (hs : NvReach s) : ∃ host path key,
    HasText s.config.emoncms.host host ∧ HasText s.config.emoncms.url path ∧
    HasText s.config.emoncms.apikey key := by
  have ht := c32_terminated hs
  rw [terminated_iff] at ht
  obtain ⟨h1, h2, h3, h4, h5, h6, h7, h8, h9, h10, h11, h12, h13, h14, h15, h16⟩ := ht
  exact ⟨_, _, _, textOf_mem (by assumption), textOf_mem (by assumption), textOf_mem (by assumption)⟩

/-- The codes of what a meter sends: every documented value, dots included. -/
example :
    [("TH..", 1), ("HC..", 2), ("HP..", 3), ("HN..", 4), ("PM..", 5), ("HCJB", 6), ("HCJW", 7),
      ("HCJR", 8), ("HPJB", 9), ("HPJW", 10), ("HPJR", 11)].all (fun p =>
        emonValue (bs "PTEC") (dropDots (bs p.1)) == decText p.2) = true ∧
    [("BASE", 1), ("HC..", 2), ("EJP.", 3), ("BBR0", 4), ("BBRx", 4)].all (fun p =>
        emonValue (bs "OPTARIF") (dropDots (bs p.1)) == decText p.2) = true := by decide +kernel

example : HasText pushConfig.emoncms.host (bs "emon") ∧ HasText pushConfig.emoncms.url [] ∧
    HasText pushConfig.emoncms.apikey (bs "E") ∧
    emonUrl [] (bs "E") 3 (meterPairs sampleMeter) =
      bs "/?node=3&apikey=E&json={ADCO:111111111111,OPTARIF:2,HCHC:52890470,PTEC:3}" := by
  unfold HasText; decide +kernel

end Wifinfo
