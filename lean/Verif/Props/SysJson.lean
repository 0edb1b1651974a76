import Verif.Proofs.JsonExact
import Verif.Props.Sys

/-!
# C61, C62: the JSON of the system page
-/

namespace Wifinfo
open Spec

/-! ## Specification -/

namespace Spec

/-- A table of names and values as the web page reads it: an array of objects `{"na":…, "va":…}`. -/
def jsonTable (rows : List (Str × JVal)) : JVal :=
  .arr (rows.map fun r => .obj [(bs "na", .str r.1), (bs "va", r.2)])

/-- Bytes of `é`. -/
def eAcute : Str := [0xC3, 0xA9]

/-- The rows for everybody. -/
def publicRows (e : SysEnv) (sse : Sse) : List (Str × JVal) :=
  [(bs "Uptime", .str (sysUptime e.micros)), (bs "Timestamp", .str e.timestamp),
   (bs "Nb reconnexions Wi-Fi", .int e.nbReconnect),
   (bs "M" ++ eAcute ++ bs "moire Flash libre", .str e.flashFree),
   (bs "M" ++ eAcute ++ bs "moire RAM libre", .str e.ramFree)] ++
  (match e.cpu with | some x => [(bs "CPU", .str (decInt x ++ bs " %"))] | none => []) ++
  [(bs "FS Total", .str e.fsTotalText), (bs "FS Utilis" ++ eAcute ++ bs "s", .str e.fsUsedText),
   (bs "FS Occupation", .str (decText (100 * e.fsUsed % 2 ^ 32 / e.fsTotal) ++ bs " %")),
   (bs "SSE Clients", .int sse.clients.length),
   (bs "SSE Connexions", .str (sse.clients.flatMap fun c => e.remote c ++ bs " "))]

/-- The rows that identify the network and the device. -/
def privateRows (e : SysEnv) (ssid : Str) : List (Str × JVal) :=
  (if e.connected then
    [(bs "Wi-Fi R" ++ eAcute ++ bs "seau", .str ssid), (bs "Wi-Fi RSSI", .str (decInt e.rssi ++ bs " dB")),
     (bs "Adresse MAC station", .str e.mac)] else []) ++
  [(bs "WifInfo Version (Firmware)", .str e.version), (bs "Compil" ++ eAcute ++ bs " le", .str e.built),
   (bs "Options", .str e.flags), (bs "SDK Version", .str e.sdk), (bs "Chip ID", .str (bs "0x" ++ hex06 e.chipId)),
   (bs "Taille m" ++ eAcute ++ bs "moire Flash", .str e.flashSize), (bs "Taille Firmware", .str e.sketchSize)]

/-- The texts given by the SDK need no JSON escape. -/
structure PlainEnv (e : SysEnv) : Prop where
  timestamp : Plain e.timestamp
  mac : Plain e.mac
  version : Plain e.version
  built : Plain e.built
  flags : Plain e.flags
  sdk : Plain e.sdk
  flashSize : Plain e.flashSize
  sketchSize : Plain e.sketchSize
  flashFree : Plain e.flashFree
  ramFree : Plain e.ramFree
  fsTotalText : Plain e.fsTotalText
  fsUsedText : Plain e.fsUsedText
  remote : ∀ c, Plain (e.remote c)

end Spec

/-! ## C61 -/

/-- Row of the builder. -/
def row : Str × JVal → List JMember
  | (n, .str v) => [mText (bs "na") n, mText (bs "va") v]
  | (n, .int k) => [mText (bs "na") n, mNum (bs "va") k.toNat]
  | (n, _) => [mText (bs "na") n]

/-- Rows of plain texts and non-negative integers. -/
def RowGood : Str × JVal → Prop
  | (n, .str v) => Plain n ∧ Plain v
  | (n, .int k) => Plain n ∧ 0 ≤ k
  | _ => False

theorem na_va_plain : Plain (bs "na") ∧ Plain (bs "va") :=
  ⟨plain_lit _ (by decide), plain_lit _ (by decide)⟩

theorem row_good {r : Str × JVal} (h : RowGood r) : ∀ y ∈ row r, JMember.Good y := by
  obtain ⟨n, v⟩ := r
  obtain ⟨h1, h2⟩ := na_va_plain
  cases v with
  | str v => intro y hy; simp [row] at hy; rcases hy with rfl | rfl
             · exact mText_good h1 h.1
             · exact mText_good h2 h.2
  | int k => intro y hy; simp [row] at hy; rcases hy with rfl | rfl
             · exact mText_good h1 h.1
             · exact mNum_good h2 _
  | _ => exact absurd h id

theorem table_parses {rows : List (Str × JVal)} (h : ∀ r ∈ rows, RowGood r) :
    parseJson (91 :: elemsText (rows.map row)) = some (jsonTable rows) := by
  rw [parse_arr]
  · unfold jsonTable
    rw [List.map_map]
    congr 2
    apply List.map_congr_left
    intro r hr
    have := h r hr
    obtain ⟨n, v⟩ := r
    cases v with
    | str v => rfl
    | int k =>
      have hk : 0 ≤ k := this.2
      simp [row, memsVal, mText, mNum, Function.comp, Int.toNat_of_nonneg hk]
    | _ => exact absurd this id
  · intro x hx
    obtain ⟨r, hr, rfl⟩ := List.mem_map.1 hx
    exact row_good (h r hr)

theorem row_text (l : List (Str × JVal)) (n v : Str) :
    Jt.text (jtState (l.map row)) n v = jtState ((l ++ [(n, JVal.str v)]).map row) := by
  rw [jt_text]; simp [row]

theorem row_num (l : List (Str × JVal)) (n : Str) (k : Nat) :
    Jt.num (jtState (l.map row)) n k = jtState ((l ++ [(n, JVal.int k)]).map row) := by
  rw [jt_num]; simp [row]

theorem row_open : Jt.open = jtState (([] : List (Str × JVal)).map row) := jt_open

/-- The rows in the order of the page. -/
def sysRows (e : SysEnv) (ssid : Str) (sse : Sse) (restricted : Bool) : List (Str × JVal) :=
  (publicRows e sse).take 2 ++
  (if restricted then [] else (privateRows e ssid).take (if e.connected then 3 else 0)) ++
  ((publicRows e sse).drop 2).take 1 ++
  (if restricted then [] else (privateRows e ssid).drop (if e.connected then 3 else 0)) ++
  (publicRows e sse).drop 3

theorem sysInfo_ok {e : SysEnv} {c : Config} {ssid : Str} (hs : HasText c.ssid ssid) (sse : Sse)
    (h0 : e.fsTotal ≠ 0) (restricted : Bool) :
    sysInfoJson e c sse restricted = .ok (91 :: elemsText ((sysRows e ssid sse restricted).map row)) := by
  unfold sysInfoJson
  rw [row_open]
  dsimp only
  simp only [hs.cstr, ok_bind, pure_ok, if_neg h0, row_text, row_num, Sse.remotes]
  cases restricted <;> cases hc : e.connected <;> cases hp : e.cpu <;>
    simp only [if_true, if_false, and_true, and_false, Bool.false_eq_true, true_and, reduceCtorEq,
      ok_bind, pure_ok, row_text, row_num, jt_finalize, Sse.remotes] <;>
    simp [sysRows, publicRows, privateRows, hc, hp, eAcute]

theorem decInt_plain (n : Int) : Plain (decInt n) := by
  have h := numeral_plain (decText_spec n.natAbs).2.1
  unfold decInt
  split
  · intro b hb
    rcases List.mem_cons.1 hb with rfl | hb
    · decide
    · exact h b hb
  · exact h

theorem hex06_plain (id : UInt32) : Plain (hex06 id) := by
  have key : ∀ i : Fin 16, plain (hexDigit i.val) = true := by decide +kernel
  have hd : ∀ n, plain (hexDigit (n % 16)) = true := fun n => key ⟨n % 16, Nat.mod_lt _ (by decide)⟩
  intro b hb
  unfold hex06 at hb
  dsimp only at hb
  split at hb
  · simp only [List.mem_cons, List.not_mem_nil, or_false] at hb
    rcases hb with rfl | rfl | rfl | rfl | rfl | rfl <;> exact hd _
  · split at hb
    · simp only [List.mem_cons, List.not_mem_nil, or_false] at hb
      rcases hb with rfl | rfl | rfl | rfl | rfl | rfl | rfl <;> exact hd _
    · simp only [List.mem_cons, List.not_mem_nil, or_false] at hb
      rcases hb with rfl | rfl | rfl | rfl | rfl | rfl | rfl | rfl <;> exact hd _

theorem plain_all {s : Str} (h : s.all plain = true) : Plain s := fun b hb => List.all_eq_true.1 h b hb

theorem uptime_plain (m : Nat) : Plain (sysUptime m) := by
  obtain ⟨d, h, mi, s, e, h1, _, h2, h3, h4, _⟩ := c54_uptime m
  rw [e]
  refine plain_append (plain_append (plain_append (plain_append (plain_append (plain_append (plain_append
    (numeral_plain h1) ?_) (numeral_plain h2.2.1)) ?_) (numeral_plain h3.2.1)) ?_) (numeral_plain h4.2.1)) ?_ <;>
  exact plain_all (by decide +kernel)

theorem publicRows_good {e : SysEnv} (he : PlainEnv e) (sse : Sse) : ∀ r ∈ publicRows e sse, RowGood r := by
  intro r hr
  unfold publicRows at hr
  have lit : ∀ s : Str, s.all plain = true → Plain s := fun s => plain_all
  simp only [List.mem_append, List.mem_cons, List.not_mem_nil, or_false] at hr
  rcases hr with ((rfl | rfl | rfl | rfl | rfl) | hr) | rfl | rfl | rfl | rfl | rfl
  · exact ⟨lit _ (by decide +kernel), uptime_plain _⟩
  · exact ⟨lit _ (by decide +kernel), he.timestamp⟩
  · exact ⟨lit _ (by decide +kernel), Int.natCast_nonneg _⟩
  · exact ⟨lit _ (by decide +kernel), he.flashFree⟩
  · exact ⟨lit _ (by decide +kernel), he.ramFree⟩
  · cases hc : e.cpu with
    | none => rw [hc] at hr; exact absurd hr (by simp)
    | some x =>
      rw [hc] at hr
      rw [List.mem_singleton.1 hr]
      exact ⟨lit _ (by decide +kernel), plain_append (decInt_plain x) (lit _ (by decide +kernel))⟩
  · exact ⟨lit _ (by decide +kernel), he.fsTotalText⟩
  · exact ⟨lit _ (by decide +kernel), he.fsUsedText⟩
  · exact ⟨lit _ (by decide +kernel), plain_append (numeral_plain (decText_spec _).2.1) (lit _ (by decide +kernel))⟩
  · exact ⟨lit _ (by decide +kernel), Int.natCast_nonneg _⟩
  · refine ⟨lit _ (by decide +kernel), ?_⟩
    intro b hb
    obtain ⟨c, _, hc⟩ := List.mem_flatMap.1 hb
    exact plain_append (he.remote c) (lit (bs " ") (by decide +kernel)) b hc

theorem privateRows_good {e : SysEnv} (he : PlainEnv e) {ssid : Str} (hs : Plain ssid) :
    ∀ r ∈ privateRows e ssid, RowGood r := by
  intro r hr
  unfold privateRows at hr
  have lit : ∀ s : Str, s.all plain = true → Plain s := fun s => plain_all
  simp only [List.mem_append, List.mem_cons, List.not_mem_nil, or_false] at hr
  rcases hr with hr | rfl | rfl | rfl | rfl | rfl | rfl | rfl
  · split at hr
    · simp only [List.mem_cons, List.not_mem_nil, or_false] at hr
      rcases hr with rfl | rfl | rfl
      · exact ⟨lit _ (by decide +kernel), hs⟩
      · exact ⟨lit _ (by decide +kernel), plain_append (decInt_plain _) (lit _ (by decide +kernel))⟩
      · exact ⟨lit _ (by decide +kernel), he.mac⟩
    · exact absurd hr (by simp)
  · exact ⟨lit _ (by decide +kernel), he.version⟩
  · exact ⟨lit _ (by decide +kernel), he.built⟩
  · exact ⟨lit _ (by decide +kernel), he.flags⟩
  · exact ⟨lit _ (by decide +kernel), he.sdk⟩
  · exact ⟨lit _ (by decide +kernel), plain_append (lit _ (by decide +kernel)) (hex06_plain _)⟩
  · exact ⟨lit _ (by decide +kernel), he.flashSize⟩
  · exact ⟨lit _ (by decide +kernel), he.sketchSize⟩

theorem sysRows_perm (e : SysEnv) (ssid : Str) (sse : Sse) (restricted : Bool) :
    (sysRows e ssid sse restricted).Perm
      (publicRows e sse ++ if restricted then [] else privateRows e ssid) := by
  have e1 : publicRows e sse = (publicRows e sse).take 2 ++ ((publicRows e sse).drop 2).take 1 ++
      (publicRows e sse).drop 3 := by
    have h1 := List.take_append_drop 2 (publicRows e sse)
    have h2 := List.take_append_drop 1 ((publicRows e sse).drop 2)
    rw [List.drop_drop] at h2
    rw [List.append_assoc, h2, h1]
  cases restricted with
  | true =>
    unfold sysRows
    simp only [if_true, List.append_nil]
    rw [← e1]
  | false =>
    have e2 := List.take_append_drop (if e.connected then 3 else 0) (privateRows e ssid)
    unfold sysRows
    simp only [Bool.false_eq_true, if_false]
    have key : ∀ a b c x y : List (Str × JVal), (a ++ x ++ b ++ y ++ c).Perm (a ++ b ++ c ++ (x ++ y)) := by
      intro a b c x y
      classical
      rw [List.perm_iff_count]
      intro z
      simp only [List.count_append]
      omega
    have := key ((publicRows e sse).take 2) (((publicRows e sse).drop 2).take 1) ((publicRows e sse).drop 3)
      ((privateRows e ssid).take (if e.connected then 3 else 0))
      ((privateRows e ssid).drop (if e.connected then 3 else 0))
    rw [← e1, e2] at this
    exact this

theorem rows_built : ∀ x ∈ (rows : List (Str × JVal)).map row, ∀ y ∈ x, JMember.Built y := by
  intro x hx y hy
  obtain ⟨⟨n, v⟩, _, rfl⟩ := List.mem_map.1 hx
  cases v <;> simp only [row, List.mem_cons, List.not_mem_nil, or_false] at hy
  case int k => rcases hy with rfl | rfl
                · exact mText_built _ _
                · exact mNum_built _ _
  case str v => rcases hy with rfl | rfl <;> exact mText_built _ _
  all_goals subst hy; exact mText_built _ _

/-- The rows are texts and non-negative integers. -/
def RowKind : Str × JVal → Prop
  | (_, .str _) => True
  | (_, .int k) => 0 ≤ k
  | _ => False

theorem table_iff {rows : List (Str × JVal)} (hk : ∀ r ∈ rows, RowKind r) :
    parseJson (91 :: elemsText (rows.map row)) = some (jsonTable rows) ↔ ∀ r ∈ rows, RowGood r := by
  refine ⟨fun h => ?_, table_parses⟩
  have hv : jsonTable rows = .arr ((rows.map row).map fun x => .obj (memsVal x)) := by
    unfold jsonTable
    rw [List.map_map]
    congr 1
    apply List.map_congr_left
    intro r hr
    have := hk r hr
    obtain ⟨n, v⟩ := r
    cases v with
    | str v => rfl
    | int k =>
      have hk : 0 ≤ k := this
      simp [row, memsVal, mText, mNum, Function.comp, Int.toNat_of_nonneg hk]
    | _ => exact absurd this id
  rw [hv, parse_arr_iff _ rows_built] at h
  intro r hr
  have h1 := h _ (List.mem_map_of_mem hr)
  have h2 := hk r hr
  obtain ⟨n, v⟩ := r
  cases v with
  | str v =>
    exact ⟨(mText_good_iff.1 (h1 (mText (bs "na") n) (by simp [row]))).2,
      (mText_good_iff.1 (h1 (mText (bs "va") v) (by simp [row]))).2⟩
  | int k => exact ⟨(mText_good_iff.1 (h1 (mText (bs "na") n) (by simp [row]))).2, h2⟩
  | _ => exact absurd h2 id

theorem rowKind_of_good {r : Str × JVal} (h : RowGood r) : RowKind r := by
  obtain ⟨n, v⟩ := r
  cases v with
  | str v => trivial
  | int k => exact h.2
  | _ => exact absurd h id

/-- **C61 (partial), system page.** The document has exactly one row for each public item, plus those that identify
the network and the device for an unrestricted client, and is read as this table if and only if the name of
the network needs no JSON escape, or is not shown.  Missing with respect to the property as stated: the
other names, for which it is false (see also `c61_refuted_system`); texts of the SDK that need an escape. -/
theorem c61_system_partial {e : SysEnv} (he : PlainEnv e) (h0 : e.fsTotal ≠ 0) {c : Config} {ssid : Str}
    (hs : HasText c.ssid ssid) (sse : Sse) (restricted : Bool) :
    ∃ j rows, sysInfoJson e c sse restricted = .ok j ∧
      rows.Perm (publicRows e sse ++ if restricted then [] else privateRows e ssid) ∧
      (parseJson j = some (jsonTable rows) ↔ (restricted = false → e.connected = true → Plain ssid)) := by
  refine ⟨_, _, sysInfo_ok hs sse h0 restricted, sysRows_perm e ssid sse restricted, ?_⟩
  have priv : ∀ r ∈ privateRows e ssid, RowKind r ∧ (RowGood r ∨
      (e.connected = true ∧ r = (bs "Wi-Fi R" ++ eAcute ++ bs "seau", .str ssid))) := by
    intro r hr
    by_cases hc : e.connected = true ∧ r = (bs "Wi-Fi R" ++ eAcute ++ bs "seau", .str ssid)
    · exact ⟨by rw [hc.2]; trivial, Or.inr hc⟩
    · have : r ∈ privateRows e [] := by
        unfold privateRows at hr ⊢
        rcases List.mem_append.1 hr with hr | hr
        · refine List.mem_append_left _ ?_
          split at hr
          · rename_i h
            rw [if_pos h]
            rcases List.mem_cons.1 hr with hr | hr
            · exact absurd ⟨h, hr⟩ hc
            · exact List.mem_cons_of_mem _ hr
          · simp at hr
        · exact List.mem_append_right _ hr
      have := privateRows_good he (ssid := []) (by intro b hb; simp at hb) r this
      exact ⟨rowKind_of_good this, Or.inl this⟩
  have hmem : ∀ r, r ∈ sysRows e ssid sse restricted ↔
      r ∈ publicRows e sse ∨ (restricted = false ∧ r ∈ privateRows e ssid) := by
    intro r
    rw [(sysRows_perm e ssid sse restricted).mem_iff, List.mem_append]
    cases restricted <;> simp
  rw [table_iff]
  · constructor
    · intro h hr hc
      have := h (bs "Wi-Fi R" ++ eAcute ++ bs "seau", .str ssid) ((hmem _).2 (Or.inr ⟨hr, by
        unfold privateRows
        rw [if_pos hc]
        simp⟩))
      exact this.2
    · intro h r hr
      rcases (hmem r).1 hr with h1 | ⟨h1, h2⟩
      · exact publicRows_good he sse r h1
      · rcases (priv r h2).2 with h3 | ⟨h3, h4⟩
        · exact h3
        · rw [h4]
          exact ⟨plain_all (by decide +kernel), h h1 h3⟩
  · intro r hr
    rcases (hmem r).1 hr with h1 | ⟨h1, h2⟩
    · exact rowKind_of_good (publicRows_good he sse r h1)
    · exact (priv r h2).1

/-- The document is always produced, unless the file system has no size. -/
theorem c61_system_safe (e : SysEnv) {s : Nv} (hs : NvReach s) (sse : Sse) (restricted : Bool) :
    (∃ j, sysInfoJson e s.config sse restricted = .ok j) ↔ e.fsTotal ≠ 0 := by
  obtain ⟨t1, _⟩ := (terminated_iff _).1 (c32_terminated hs)
  constructor
  · rintro ⟨j, hj⟩ h0
    unfold sysInfoJson at hj
    dsimp only at hj
    have hc := HasText.cstr (a := s.config.ssid) (textOf_mem t1)
    simp only [h0, if_true, hc, ok_bind, pure_ok, err_bind] at hj
    split at hj <;> cases hj
  · intro h0
    exact ⟨_, sysInfo_ok (textOf_mem t1) sse h0 restricted⟩

/-! ### Networks -/

theorem mInt_good {n : Str} (k : Int) (hn : Plain n) : JMember.Good (n, decInt k, .int k) := by
  refine ⟨hn, ?_⟩
  obtain ⟨d1, d2, d3, d4⟩ := decText_spec k.natAbs
  unfold decInt
  by_cases hk : k < 0
  · rw [if_pos hk]
    have := JItem.neg d2 d1 d4
    rw [d3] at this
    rwa [show -(k.natAbs : Int) = k by omega] at this
  · rw [if_neg hk]
    have := JItem.num d2 d1 d4
    rw [d3] at this
    rwa [show (k.natAbs : Int) = k by omega] at this

theorem mInt_built (n : Str) (k : Int) : JMember.Built (n, decInt k, .int k) :=
  Or.inr (Or.inl (mInt_good (n := []) k (by intro b hb; simp at hb)).2)

/-- The members of a network. -/
def apMembers (a : Ap) : List JMember :=
  [mText (bs "ssid") a.ssid, (bs "rssi", decInt a.rssi, .int a.rssi), mText (bs "bssi") a.bssid,
    (bs "channel", decInt a.channel, .int a.channel), mNum (bs "encryptionType") a.encryption]

theorem scan_text (aps : List Ap) : wifiScanJson (some aps) false = 91 :: elemsText (aps.map apMembers) := by
  have e1 : ∀ a, apJson a = 123 :: memsText (apMembers a) := by
    intro a
    have b1 : bs "{\"ssid\":\"" = 123 :: 34 :: bs "ssid" ++ [34, 58, 34] := by decide +kernel
    have b2 : bs "\",\"rssi\":" = 34 :: 44 :: 34 :: bs "rssi" ++ [34, 58] := by decide +kernel
    have b3 : bs ",\"bssi\":\"" = 44 :: 34 :: bs "bssi" ++ [34, 58, 34] := by decide +kernel
    have b4 : bs "\",\"channel\":" = 34 :: 44 :: 34 :: bs "channel" ++ [34, 58] := by decide +kernel
    have b5 : bs ",\"encryptionType\":" = 44 :: 34 :: bs "encryptionType" ++ [34, 58] := by decide +kernel
    have b6 : bs "}" = [125] := by decide +kernel
    unfold apJson
    rw [b1, b2, b3, b4, b5, b6]
    simp [apMembers, memsText, memText, mText, mNum]
  have e2 : ∀ (l : List Ap) (s : Str), l ≠ [] →
      scanLoop false s l ++ [93] = s ++ elemsText (l.map apMembers) ∧
      scanLoop true s l ++ [93] = s ++ 44 :: elemsText (l.map apMembers) := by
    intro l
    induction l with
    | nil => intro s h; exact absurd rfl h
    | cons a l ih =>
      intro s _
      cases l with
      | nil => simp [scanLoop, e1, elemsText, bs]
      | cons b l =>
        have ih' := (ih (s ++ bs "," ++ apJson a) (by simp)).2
        have ih := (ih (s ++ apJson a) (by simp)).2
        constructor
        · simp only [scanLoop, Bool.false_eq_true, if_false] at ih ⊢
          rw [ih, e1]; simp [elemsText]
        · simp only [scanLoop, if_true] at ih' ⊢
          rw [ih', e1]; simp [elemsText, bs]
  unfold wifiScanJson
  simp only [Bool.false_eq_true, if_false, Option.getD_some]
  cases aps with
  | nil => rfl
  | cons a l => rw [show bs "]" = [93] by decide +kernel, (e2 (a :: l) _ (by simp)).1]; rfl

/-- **C61 (partial), networks.** The list is read as exactly the networks, in order, if and only if no network name
(nor address) has `"`, `\` or a control character.  Missing: those names, for which it is false (see also
`c61_refuted_scan`). -/
theorem c61_scan_partial (aps : List Ap) :
    parseJson (wifiScanJson (some aps) false) = some (.arr (aps.map fun a => .obj
      [(bs "ssid", .str a.ssid), (bs "rssi", .int a.rssi), (bs "bssi", .str a.bssid),
       (bs "channel", .int a.channel), (bs "encryptionType", .int a.encryption)])) ↔
    ∀ a ∈ aps, Plain a.ssid ∧ Plain a.bssid := by
  have hv : (aps.map fun a => JVal.obj
      [(bs "ssid", .str a.ssid), (bs "rssi", .int a.rssi), (bs "bssi", .str a.bssid),
       (bs "channel", .int a.channel), (bs "encryptionType", .int a.encryption)]) =
      (aps.map apMembers).map fun x => .obj (memsVal x) := by
    rw [List.map_map]; rfl
  rw [scan_text, hv, parse_arr_iff]
  · constructor
    · intro h a ha
      have h := h _ (List.mem_map_of_mem ha)
      exact ⟨(mText_good_iff.1 (h (mText (bs "ssid") a.ssid) (by simp [apMembers]))).2,
        (mText_good_iff.1 (h (mText (bs "bssi") a.bssid) (by simp [apMembers]))).2⟩
    · intro h x hx y hy
      obtain ⟨a, ha, rfl⟩ := List.mem_map.1 hx
      have := h a ha
      simp only [apMembers, List.mem_cons, List.not_mem_nil, or_false] at hy
      rcases hy with rfl | rfl | rfl | rfl | rfl
      · exact mText_good (plain_all (by decide +kernel)) this.1
      · exact mInt_good _ (plain_all (by decide +kernel))
      · exact mText_good (plain_all (by decide +kernel)) this.2
      · exact mInt_good _ (plain_all (by decide +kernel))
      · exact mNum_good (plain_all (by decide +kernel)) _
  · intro x hx y hy
    obtain ⟨a, ha, rfl⟩ := List.mem_map.1 hx
    simp only [apMembers, List.mem_cons, List.not_mem_nil, or_false] at hy
    rcases hy with rfl | rfl | rfl | rfl | rfl
    · exact mText_built _ _
    · exact mInt_built _ _
    · exact mText_built _ _
    · exact mInt_built _ _
    · exact mNum_built _ _

/-! ### Files -/

theorem pValue_arr (l : List (List JMember)) (hg : ∀ x ∈ l, ∀ y ∈ x, JMember.Good y) (r : Str) (f : Nat)
    (hf : ∀ x ∈ l, l.length + x.length + 1 < f) :
    pValue (f + 1) (91 :: (elemsText l ++ r)) = some (.arr (l.map fun x => .obj (memsVal x)), r) := by
  rw [pValue, skipWs_lbracket]
  cases l with
  | nil => simp [elemsText, skipWs_rbracket]
  | cons x l =>
    have e : ∃ s, elemsText (x :: l) ++ r = 123 :: s := by cases l <;> exact ⟨_, rfl⟩
    have h := pElems_spec (x :: l) (by simp) hg r f hf
    obtain ⟨s, hs⟩ := e
    rw [hs] at h ⊢
    have e93 : ¬ (123 : Byte) = 93 := by decide
    have e1 : ¬ (91 : Byte) = 34 := by decide
    have e2 : ¬ (91 : Byte) = 123 := by decide
    simp only [skipWs_lbrace, h, if_neg e93, if_neg e1, if_neg e2, if_true, Option.map_some]

/-- **C61 (partial), files.** The list is read as exactly the files, in order, with the sizes, if and only if no
file name needs a JSON escape.  Missing: the other names, for which it is false (see also `c61_refuted_files`). -/
theorem c61_files_partial (files : List (Str × Nat)) (total used : Nat) :
    ∃ j, fsJson files total used false = .ok j ∧
      (parseJson j = some (.obj [(bs "files", jsonTable (files.map fun f => (f.1, .int f.2))),
        (bs "info", .obj [(bs "Total", .int total), (bs "Used", .int used)])]) ↔ ∀ f ∈ files, Plain f.1) := by
  have e1 : ∀ (l : List (Str × Nat)) (t : List (List JMember)),
      l.foldl (fun t f => Jt.num t f.1 f.2) (jtState t) =
      jtState (t ++ l.map fun f => [mText (bs "na") f.1, mNum (bs "va") f.2]) := by
    intro l
    induction l with
    | nil => intro t; simp
    | cons f l ih => intro t; rw [List.foldl_cons, jt_num, ih]; simp
  let F : List (List JMember) := files.map fun f => [mText (bs "na") f.1, mNum (bs "va") f.2]
  let I : List JMember := [mNum (bs "Total") total, mNum (bs "Used") used]
  have e2 : fsJson files total used false = .ok (123 :: (34 :: (bs "files" ++ 34 :: (58 :: (91 :: (elemsText F ++
      44 :: (34 :: (bs "info" ++ 34 :: (58 :: (123 :: (memsText I ++ 125 :: [])))))))))))  := by
    unfold fsJson
    simp only [Bool.false_eq_true, if_false]
    rw [jt_open, e1, jt_finalize, ok_bind, jb_open, jb_num, jb_num_last, pure_ok]
    have b1 : bs "{\"files\":" = 123 :: 34 :: (bs "files" ++ [34, 58]) := by decide +kernel
    have b2 : bs ",\"info\":" = 44 :: 34 :: (bs "info" ++ [34, 58]) := by decide +kernel
    have b3 : bs "}" = [125] := by decide +kernel
    rw [b1, b2, b3]
    simp [F, I]
  refine ⟨_, e2, ?_⟩
  have gF : (∀ x ∈ F, ∀ y ∈ x, JMember.Good y) ↔ ∀ f ∈ files, Plain f.1 := by
    constructor
    · intro h f hf
      have := h _ (List.mem_map_of_mem hf) (mText (bs "na") f.1) (by simp)
      exact (mText_good_iff.1 this).2
    · intro h x hx y hy
      obtain ⟨f, hf, rfl⟩ := List.mem_map.1 hx
      simp only [List.mem_cons, List.not_mem_nil, or_false] at hy
      rcases hy with rfl | rfl
      · exact mText_good na_va_plain.1 (h f hf)
      · exact mNum_good na_va_plain.2 _
  have bF : ∀ x ∈ F, ∀ y ∈ x, JMember.Built y := by
    intro x hx y hy
    obtain ⟨f, hf, rfl⟩ := List.mem_map.1 hx
    simp only [List.mem_cons, List.not_mem_nil, or_false] at hy
    rcases hy with rfl | rfl
    · exact mText_built _ _
    · exact mNum_built _ _
  have gI : ∀ x ∈ I, JMember.Good x := by
    intro x hx
    simp only [I, List.mem_cons, List.not_mem_nil, or_false] at hx
    rcases hx with rfl | rfl <;> exact mNum_good (plain_all (by decide +kernel)) _
  have lF := elemsText_length F
  have vF : JVal.arr (F.map fun x => .obj (memsVal x)) =
      jsonTable (files.map fun f => (f.1, .int f.2)) := by
    simp only [F, jsonTable, List.map_map]
    rfl
  have vI : memsVal I = [(bs "Total", .int total), (bs "Used", .int used)] := rfl
  have hlI : I.length = 2 := rfl
  rw [← gF]
  generalize F = F at *
  generalize I = I at *
  have pf : Plain (bs "files") := plain_all (by decide +kernel)
  have pi : Plain (bs "info") := plain_all (by decide +kernel)
  unfold parseJson
  generalize hn : 2 * (List.length _) + 2 = n
  obtain ⟨n, rfl⟩ : ∃ m, n = m + 1 + 1 + 1 + 1 + 1 + 1 := by
    refine ⟨n - 6, ?_⟩
    simp only [List.length_cons, List.length_append] at hn
    omega
  simp only [List.length_cons, List.length_append] at hn
  rw [pValue, skipWs_lbrace]
  simp only [if_neg (show ¬ (123 : Byte) = 34 by decide), if_true, skipWs_quote,
    if_neg (show ¬ (34 : Byte) = 125 by decide)]
  rw [pMembers, skipWs_quote]
  simp only [ne_eq, not_true_eq_false, if_false]
  rw [pString_plain pf _ _ (by simp; omega)]
  simp only [skipWs_colon, not_true_eq_false, if_false]
  constructor
  · intro h
    cases h1 : pValue (n + 1 + 1 + 1 + 1) (91 :: (elemsText F ++ 44 :: 34 :: (bs "info" ++
        34 :: 58 :: 123 :: (memsText I ++ [125])))) with
    | none => rw [h1] at h; simp at h
    | some p =>
      obtain ⟨v, r1⟩ := p
      rw [h1] at h
      dsimp only at h
      cases h2 : skipWs r1 with
      | nil => rw [h2] at h; simp at h
      | cons d r2 =>
        rw [h2] at h
        dsimp only at h
        have hv : v = jsonTable (files.map fun f => (f.1, .int f.2)) := by
          by_cases h44 : d = 44
          · rw [if_pos h44] at h
            cases h5 : pMembers (n + 1 + 1 + 1 + 1) r2 with
            | none => rw [h5] at h; simp at h
            | some p =>
              rw [h5] at h
              simp only [Option.map_some] at h
              split at h
              · simp only [Option.some.injEq, JVal.obj.injEq, List.cons.injEq, Prod.mk.injEq] at h
                exact h.1.2
              · cases h
          · rw [if_neg h44] at h
            by_cases h125 : d = 125
            · rw [if_pos h125] at h
              simp only [Option.map_some] at h
              split at h
              · simp only [Option.some.injEq, JVal.obj.injEq, List.cons.injEq, Prod.mk.injEq] at h
                exact h.1.2
              · cases h
            · rw [if_neg h125] at h; simp at h
        rw [hv, ← vF] at h1
        exact pValue_arr_built F bF (by intro x hx; have := lF x hx; omega) h1
  · intro gF
    rw [pValue_arr F gF _ _ (by intro x hx; have := lF x hx; omega)]
    simp only [skipWs_comma, if_true]
    rw [pMembers, skipWs_quote]
    simp only [ne_eq, not_true_eq_false, if_false]
    rw [pString_plain pi _ _ (by simp; omega)]
    simp only [skipWs_colon, not_true_eq_false, if_false]
    rw [pValue_obj I gI _ _ (by omega)]
    simp only [skipWs_rbrace, vF, vI]
    rfl

/-! ### Examples and refutations -/

/-- What a device can answer. -/
def sampleEnv : SysEnv :=
  { micros := 90061000000, timestamp := bs "2020-05-17T18:42:25 CEST", connected := true, rssi := -61,
    mac := bs "5C:CF:7F:01:02:03", nbReconnect := 1, version := bs "v0.1", built := bs "May 17 2020 18:00:00",
    flags := bs " CLI LED", sdk := bs "2.2.2-dev(38a443e)", chipId := 0x010203, flashSize := bs "4.00 Mbytes",
    sketchSize := bs "350.00 Kbytes", flashFree := bs "650.00 Kbytes", ramFree := bs "40.00 Kbytes", cpu := some 12,
    fsTotal := 957314, fsUsed := 125000, fsTotalText := bs "934.88 Kbytes", fsUsedText := bs "122.07 Kbytes",
    remote := fun _ => bs "192.168.4.2:50000" }

theorem sampleEnv_plain : PlainEnv sampleEnv := by
  have h : ∀ s : Str, s.all plain = true → Plain s := fun s => plain_all
  exact ⟨h _ (by decide +kernel), h _ (by decide +kernel), h _ (by decide +kernel), h _ (by decide +kernel),
    h _ (by decide +kernel), h _ (by decide +kernel), h _ (by decide +kernel), h _ (by decide +kernel),
    h _ (by decide +kernel), h _ (by decide +kernel), h _ (by decide +kernel), h _ (by decide +kernel),
    fun _ => h (bs "192.168.4.2:50000") (by decide +kernel)⟩

/-- The hypotheses hold for a usual device. -/
example : ∃ e : SysEnv, PlainEnv e ∧ e.fsTotal ≠ 0 ∧ ∃ s : Nv, NvReach s ∧ HasText s.config.ssid [] := by
  obtain ⟨s, h1, h2⟩ := factory_no_ssid 7
  exact ⟨sampleEnv, sampleEnv_plain, by decide, s, h1, h2⟩

/-- A network called `a"b`. -/
def quoteAp : Ap := { ssid := bs "a\"b", rssi := -70, bssid := bs "00:11:22:33:44:55", channel := 6, encryption := 4 }

example : parseJson (wifiScanJson (some [{ quoteAp with ssid := bs "ab" }]) false) ≠ none := by
  rw [(c61_scan_partial _).2]
  · simp
  · intro a ha
    rw [List.mem_singleton.1 ha]
    exact ⟨plain_all (by decide +kernel), plain_all (by decide +kernel)⟩

/-- **C61** as stated is false: a neighbour's network called `a"b` makes the list unreadable. -/
theorem c61_refuted_scan : (parseJson (wifiScanJson (some [quoteAp]) false)).isNone = true := by decide +kernel

/-- **C61** as stated is false: being connected to such a network makes the system page unreadable. -/
theorem c61_refuted_system : ∃ s : Nv, NvReach s ∧ HasText s.config.ssid (bs "a\"b") ∧
    ∃ j, sysInfoJson sampleEnv s.config Sse.init false = .ok j ∧ (parseJson j).isNone = true := by
  obtain ⟨s, h1, h2⟩ := factory_no_ssid 7
  obtain ⟨s', g1, g2, _⟩ := c52_recovered_partial h1 h2 (ssid := bs "a\"b") (psk := bs "12345678")
    (by decide) (by unfold NulFree; decide) (by unfold NulFree; decide) (by decide) (by decide) .ok
  refine ⟨s', .step (op := .wifi (bs "a\"b") (bs "12345678") .ok) h1 g1, g2, _,
    sysInfo_ok g2 Sse.init (by decide) false, by decide +kernel⟩

/-- **C61** as stated is false for a file name with a quote. -/
theorem c61_refuted_files : ∃ j, fsJson [(bs "a\"b", 1)] 2 1 false = .ok j ∧ (parseJson j).isNone = true :=
  ⟨_, by rfl, by decide +kernel⟩

/-! ## C62 -/

theorem sysInfo_restricted (e : SysEnv) (c : Config) (sse : Sse) : sysInfoJson e c sse true =
    if e.fsTotal = 0 then .error .divByZero else .ok (91 :: elemsText ((publicRows e sse).map row)) := by
  by_cases h0 : e.fsTotal = 0
  · rw [if_pos h0]
    unfold sysInfoJson
    simp only [h0, if_true, err_bind, pure_ok, ok_bind, reduceCtorEq, and_false, if_false]
  · rw [if_neg h0]
    unfold sysInfoJson
    rw [row_open]
    dsimp only
    simp only [ok_bind, pure_ok, if_neg h0, row_text, row_num, Sse.remotes]
    cases hp : e.cpu <;>
      simp only [if_true, if_false, and_false, reduceCtorEq, ok_bind, pure_ok, row_text, row_num,
        jt_finalize, Sse.remotes] <;>
      simp [publicRows, hp, eAcute]

/-- **C62.** What a restricted client reads on the system page is the same for any two devices with the
same public rows: nothing of the configuration, the network, the firmware or the chip can be learnt. -/
theorem c62_system (e e' : SysEnv) (c c' : Config) (sse sse' : Sse)
    (h : publicRows e sse = publicRows e' sse') (h0 : e.fsTotal = 0 ↔ e'.fsTotal = 0) :
    sysInfoJson e c sse true = sysInfoJson e' c' sse' true := by
  rw [sysInfo_restricted, sysInfo_restricted, h]
  by_cases hz : e.fsTotal = 0
  · rw [if_pos hz, if_pos (h0.1 hz)]
  · rw [if_neg hz, if_neg (fun g => hz (h0.2 g))]

/-- Two devices on different networks, with different chips and firmwares. -/
example : ∃ e e' : SysEnv, publicRows e Sse.init = publicRows e' Sse.init ∧ e.mac ≠ e'.mac ∧
    e.connected ≠ e'.connected ∧ e.version ≠ e'.version ∧ e.chipId ≠ e'.chipId :=
  ⟨sampleEnv, { sampleEnv with mac := [], connected := false, version := bs "v2", chipId := 0 }, rfl,
    by decide +kernel, by decide +kernel, by decide +kernel, by decide +kernel⟩

/-- **C62.** The lists of networks and of files given to a restricted client do not depend on anything: both are
the empty JSON object. -/
theorem c62_lists (aps : Option (List Ap)) (files : List (Str × Nat)) (t u : Nat) :
    parseJson (wifiScanJson aps true) = some (.obj []) ∧
    ∃ j, fsJson files t u true = .ok j ∧ parseJson j = some (.obj []) :=
  have h : parseJson (bs "{}") = some (.obj []) := rfl
  ⟨h, _, rfl, h⟩

end Wifinfo
