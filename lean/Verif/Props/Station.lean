import Verif.Model.Station
import Verif.Props.SysJson

/-!
# C116: the network and the options on the system page
-/

namespace Wifinfo
namespace Spec

/-- Nothing that changes the name of the network in the settings: no start, and no form with full access that says another name. -/
def KeepsNetwork (n : Str) : StationOp → Prop
  | .start .. => False
  | .post a r _ => r = true ∨ isPosted a "save" = false ∨ cutText (posted a "ssid") 32 = .text (some n)
  | _ => True

/-- Anything but a start. -/
def Running : StationOp → Prop
  | .start .. => False
  | _ => True

/-- The rows of a table with a name. -/
def rowsNamed (rows : List (Str × JVal)) (name : Str) : List (Str × JVal) := rows.filter fun r => decide (r.1 = name)

/-- The names of the options of a build (README.md:128-132), in the order of the page. -/
def optionNames (f : Flags) : List Str :=
  (if f.debug then [bs "DEBUG"] else []) ++ (if f.cli then [bs "CLI"] else []) ++ (if f.led then [bs "LED"] else []) ++
    (if f.ota then [bs "OTA"] else []) ++ (if f.cpuload then [bs "CPULOAD"] else [])

/-- Names with a space before each. -/
def spaced (l : List Str) : Str := l.flatMap fun n => 32 :: n

/-- The name of the row of the network. -/
def networkRow : Str := bs "Wi-Fi R" ++ eAcute ++ bs "seau"

end Spec
open Spec

/-! ## Lemmas -/

theorem begun_replicate (n : Nat) (l : List WifiEff) : begun (List.replicate n .wait ++ l) = begun l := by
  induction n with
  | zero => rfl
  | succ n ih => rw [List.replicate_succ, List.cons_append]; exact ih

/-- After a start. -/
theorem station_start {s st : Station} {id k1 k2 a p k status} (h : s.step (.start id k1 k2 a p k status) = .ok st) :
    NvReach st.nv ∧ st.nbReconnect = st.radio.joins ∧ st.radio.joins = (if st.radio.joined then 1 else 0) ∧
    (st.radio.joined = false → st.radio.target = none) ∧
    ∀ n, HasText st.nv.config.ssid n → n ≠ [] → st.radio.joined = true → st.radio.target = some n := by
  unfold Station.step at h
  obtain ⟨nv1, h1, h⟩ := bind_ok h
  obtain ⟨nv, h2, h⟩ := bind_ok h
  obtain ⟨⟨ok, polls, e⟩, h3, h⟩ := bind_ok h
  have hr : NvReach nv := .step (op := .wifi a p k) (.boot h1) h2
  cases h
  refine ⟨hr, ?_, rfl, ?_, ?_⟩
  · cases ok <;> rfl
  · intro hj
    simp only at hj
    rw [hj]
    rfl
  · intro n hn h0 hj
    simp only at hj hn ⊢
    obtain ⟨q1, q2, q3, q4, _⟩ := (terminated_iff _).1 (c32_terminated hr)
    obtain ⟨ok', polls', waits, pre, c1, c2, _⟩ := c53_bounded hn (textOf_mem q2) (textOf_mem q3) (textOf_mem q4) status
    rw [h3] at c1
    cases c1
    rw [if_neg h0] at c2
    rw [if_pos hj, c2]
    rfl

/-- What a running device keeps. -/
theorem station_run {n : Str} {ops : List StationOp} : ∀ {st st' : Station}, NvReach st.nv → (∀ o ∈ ops, Running o) →
    st.run ops = .ok st' → NvReach st'.nv ∧ st'.radio.target = st.radio.target ∧ st'.nbReconnect = st.nbReconnect ∧
      st.radio.joins ≤ st'.radio.joins ∧ (st.radio.target = none → st.radio.joined = false →
        st'.radio.joins = st.radio.joins ∧ st'.radio.joined = false) ∧
      ((∀ o ∈ ops, KeepsNetwork n o) → HasText st.nv.config.ssid n → HasText st'.nv.config.ssid n) := by
  induction ops with
  | nil =>
    intro st st' hr _ h
    cases h
    exact ⟨hr, rfl, rfl, Nat.le_refl _, fun _ h => ⟨rfl, h⟩, fun _ h => h⟩
  | cons o ops ih =>
    intro st st' hr hro h
    obtain ⟨st1, h1, h⟩ := bind_ok h
    have hro' : ∀ o ∈ ops, Running o := fun x hx => hro x (by simp [hx])
    have ho := hro o (by simp)
    cases o with
    | start => exact ho.elim
    | lost =>
      cases h1
      obtain ⟨g1, g2, g3, g4, g5, g6⟩ := ih (st := { st with radio := { st.radio with joined := false } }) hr hro' h
      exact ⟨g1, g2, g3, g4, fun a b => g5 a rfl, fun hk => g6 fun x hx => hk x (by simp [hx])⟩
    | back =>
      simp only [Station.step, pure_ok] at h1
      split at h1
      · rename_i hc
        cases h1
        obtain ⟨g1, g2, g3, g4, g5, g6⟩ := ih
          (st := { st with radio := { st.radio with joined := true, joins := st.radio.joins + 1 } }) hr hro' h
        refine ⟨g1, g2, g3, Nat.le_trans (Nat.le_succ _) g4, fun a b => ?_, fun hk => g6 fun x hx => hk x (by simp [hx])⟩
        rw [a] at hc
        simp at hc
      · cases h1
        obtain ⟨g1, g2, g3, g4, g5, g6⟩ := ih hr hro' h
        exact ⟨g1, g2, g3, g4, g5, fun hk => g6 fun x hx => hk x (by simp [hx])⟩
    | post a r k =>
      obtain ⟨⟨nv, code⟩, h2, h1⟩ := bind_ok h1
      cases h1
      have hr' : NvReach nv := .step (op := .form a r k) hr (by simp only [Nv.step, h2]; rfl)
      obtain ⟨g1, g2, g3, g4, g5, g6⟩ := ih (st := { st with nv := nv }) hr' hro' h
      refine ⟨g1, g2, g3, g4, g5, fun hk hn => g6 (fun x hx => hk x (by simp [hx])) ?_⟩
      have hold : ∀ c c' : Config, privateSettings c' = privateSettings c → HasText c.ssid n → HasText c'.ssid n := by
        intro c c' he hc
        have : Setting.text (textOf c'.ssid.toList) = .text (textOf c.ssid.toList) := by
          have := congrArg (fun l => (l.map Prod.snd)[0]?) he
          simpa [privateSettings] using this
        unfold HasText at hc ⊢
        rw [← hc]
        simpa using this
      by_cases hsv : isPosted a "save" = true
      · cases r with
        | true =>
          obtain ⟨s', code', e1, e2, _⟩ := c34_restricted st.nv hr a k
          rw [h2] at e1
          cases e1
          exact hold _ _ e2 hn
        | false =>
          have hk' := hk (.post a false k) (by simp)
          simp only [KeepsNetwork, hsv, Bool.false_eq_true, false_or] at hk'
          obtain ⟨s', e1, e2⟩ := c33_form st.nv a k hsv
          rw [h2] at e1
          cases e1
          have hk2 : cutText (posted a "ssid") 32 = .text (some n) := by simpa using hk'
          have : Setting.text (textOf nv.config.ssid.toList) = .text (some n) := by
            rw [← hk2]
            have := congrArg (fun l => (l.map Prod.snd)[0]?) e2
            simpa [settings, privateSettings, postedPrivate] using this
          exact Setting.text.inj this
      · have : nv = st.nv := by
          have hsv : isPosted a "save" = false := by simpa using hsv
          have := c38_no_save st.nv a r k (fun p hp he => by
            have : isPosted a "save" = true := by
              unfold isPosted
              exact decide_eq_true ⟨p, hp, he⟩
            rw [hsv] at this
            cases this)
          rw [h2] at this
          cases this
          rfl
        rw [this]
        exact hn

/-- The rows of the page. -/
theorem station_page {st : Station} {n : Str} (hn : HasText st.nv.config.ssid n) (hp : Plain n) (f : Flags) {rest : SysEnv}
    (he : PlainEnv rest) (h0 : rest.fsTotal ≠ 0) (sse : Sse) (restricted : Bool) : ∃ j rows,
    st.page f rest sse restricted = .ok j ∧ parseJson j = some (jsonTable rows) ∧
    rowsNamed rows (bs "Nb reconnexions Wi-Fi") = [(bs "Nb reconnexions Wi-Fi", .int st.nbReconnect)] ∧
    rowsNamed rows networkRow = (if st.radio.joined = true ∧ restricted = false then [(networkRow, .str n)] else []) ∧
    (restricted = false → rowsNamed rows (bs "Options") = [(bs "Options", .str f.text)]) := by
  have hf : Plain f.text := by
    have : ∀ d c l o u e : Bool, (Flags.text ⟨d, c, l, o, u, e⟩).all plain = true := by decide +kernel
    obtain ⟨d, c, l, o, u, e⟩ := f
    exact fun b hb => List.all_eq_true.1 (this d c l o u e) b hb
  obtain ⟨j, rows, j1, j2, j3⟩ := c61_system_partial
    (e := { rest with connected := st.radio.joined, nbReconnect := st.nbReconnect, flags := f.text })
    ⟨he.timestamp, he.mac, he.version, he.built, hf, he.sdk, he.flashSize, he.sketchSize, he.flashFree, he.ramFree, he.fsTotalText,
      he.fsUsedText, he.remote⟩ h0 hn sse restricted
  have one : ∀ (name : Str) (v : JVal), rowsNamed (publicRows
      { rest with connected := st.radio.joined, nbReconnect := st.nbReconnect, flags := f.text } sse ++
      if restricted then [] else privateRows
        { rest with connected := st.radio.joined, nbReconnect := st.nbReconnect, flags := f.text } n) name = [(name, v)] →
      rowsNamed rows name = [(name, v)] := by
    intro name v h
    have := j2.filter (fun r => decide (r.1 = name))
    unfold rowsNamed at h ⊢
    rw [h] at this
    exact this.eq_singleton
  have noneR : ∀ (name : Str), rowsNamed (publicRows
      { rest with connected := st.radio.joined, nbReconnect := st.nbReconnect, flags := f.text } sse ++
      if restricted then [] else privateRows
        { rest with connected := st.radio.joined, nbReconnect := st.nbReconnect, flags := f.text } n) name = [] →
      rowsNamed rows name = [] := by
    intro name h
    have := j2.filter (fun r => decide (r.1 = name))
    unfold rowsNamed at h ⊢
    rw [h] at this
    exact this.eq_nil
  refine ⟨j, rows, j1, j3.2 fun _ _ => hp, one _ _ ?_, ?_, fun hr => one _ _ ?_⟩
  · unfold publicRows privateRows
    cases rest.cpu <;> cases restricted <;> cases st.radio.joined <;> rfl
  · by_cases hj : st.radio.joined = true ∧ restricted = false
    · rw [if_pos hj]
      apply one
      unfold publicRows privateRows
      rw [hj.1, hj.2]
      cases rest.cpu <;> rfl
    · rw [if_neg hj]
      apply noneR
      unfold publicRows privateRows
      revert hj
      cases rest.cpu <;> cases restricted <;> cases st.radio.joined <;> intro hj <;> first | rfl | exact absurd ⟨rfl, rfl⟩ hj
  · unfold publicRows privateRows
    subst hr
    cases rest.cpu <;> cases st.radio.joined <;> rfl

/-! ## C116 -/

/-- **C116 (partial)**, the network: whatever happens to the connection after the start, the page says the network with which the device is
connected, and none when it is not.  Missing with respect to the property as stated: nobody has saved another network since the start. -/
theorem c116_network_partial {s st st' : Station} {id k1 k2 a p k status} (h : s.step (.start id k1 k2 a p k status) = .ok st)
    {n : Str} (hn : HasText st.nv.config.ssid n) (h0 : n ≠ []) {ops : List StationOp} (hk : ∀ o ∈ ops, KeepsNetwork n o)
    (hr : st.run ops = .ok st') (hp : Plain n) (f : Flags) {rest : SysEnv} (he : PlainEnv rest) (ht : rest.fsTotal ≠ 0) (sse : Sse) :
    ∃ j rows, st'.page f rest sse false = .ok j ∧ parseJson j = some (jsonTable rows) ∧
      rowsNamed rows networkRow = (if st'.radio.joined then
        (match st'.radio.target with | some net => [(networkRow, .str net)] | none => []) else []) := by
  obtain ⟨g1, g2, g3, g4, g5⟩ := station_start h
  have hrun : ∀ o ∈ ops, Running o := fun o ho => by
    have := hk o ho
    cases o <;> trivial
  obtain ⟨q1, q2, q3, q4, q5, q6⟩ := station_run (n := n) g1 hrun hr
  obtain ⟨j, rows, j1, j2, j3, j4, _⟩ := station_page (q6 hk hn) hp f he ht sse false
  refine ⟨j, rows, j1, j2, ?_⟩
  rw [j4, q2]
  cases hj : st'.radio.joined with
  | false => simp
  | true =>
    cases hj0 : st.radio.joined with
    | false =>
      have := (q5 (g4 hj0) hj0).2
      rw [hj] at this
      cases this
    | true =>
      rw [g5 n hn h0 hj0]
      rfl

/-- **C116**, exactly what the page counts: once or never, whatever happens to the connection. -/
theorem c116_count_exact {s st st' : Station} {id k1 k2 a p k status} (h : s.step (.start id k1 k2 a p k status) = .ok st)
    {ops : List StationOp} (hk : ∀ o ∈ ops, Running o) (hr : st.run ops = .ok st') {n : Str} (hn : HasText st'.nv.config.ssid n)
    (hp : Plain n) (f : Flags) {rest : SysEnv} (he : PlainEnv rest) (ht : rest.fsTotal ≠ 0) (sse : Sse) (restricted : Bool) :
    ∃ j rows, st'.page f rest sse restricted = .ok j ∧ parseJson j = some (jsonTable rows) ∧
      rowsNamed rows (bs "Nb reconnexions Wi-Fi") = [(bs "Nb reconnexions Wi-Fi", .int (min st'.radio.joins 1 : Nat))] := by
  obtain ⟨g1, g2, g3, g4, g5⟩ := station_start h
  obtain ⟨q1, q2, q3, q4, q5, q6⟩ := station_run (n := n) g1 hk hr
  obtain ⟨j, rows, j1, j2, j3, _⟩ := station_page hn hp f he ht sse restricted
  refine ⟨j, rows, j1, j2, ?_⟩
  rw [j3, q3, g2]
  have : st.radio.joins = min st'.radio.joins 1 := by
    cases hj : st.radio.joined with
    | true =>
      rw [hj, if_pos rfl] at g3
      omega
    | false =>
      rw [hj, if_neg (by decide)] at g3
      have := (q5 (g4 hj) hj).1
      omega
  rw [this]

/-- **C116 (partial)**, the options: the page lists the options of the build.  Missing with respect to the property as stated: the build has
no LED. -/
theorem c116_options_partial (f : Flags) (hl : f.led = false) (hd : f.enabledLed = false) {st : Station} {n : Str}
    (hn : HasText st.nv.config.ssid n) (hp : Plain n) {rest : SysEnv} (he : PlainEnv rest) (ht : rest.fsTotal ≠ 0) (sse : Sse) :
    ∃ j rows, st.page f rest sse false = .ok j ∧ parseJson j = some (jsonTable rows) ∧
      rowsNamed rows (bs "Options") = [(bs "Options", .str (spaced (optionNames f)))] := by
  obtain ⟨j, rows, j1, j2, _, _, j3⟩ := station_page hn hp f he ht sse false
  refine ⟨j, rows, j1, j2, ?_⟩
  rw [j3 rfl]
  have : f.text = spaced (optionNames f) := by
    have key : ∀ d c o u : Bool, Flags.text ⟨d, c, false, o, u, false⟩ = spaced (optionNames ⟨d, c, false, o, u, false⟩) := by
      decide +kernel
    obtain ⟨d, c, l, o, u, e⟩ := f
    simp only at hl hd
    subst hl hd
    exact key d c o u
  rw [this]

/-! ## Where the property fails -/

/-- The form with a network. -/
def homeForm (n : Str) : Args := [(bs "save", []), (bs "ssid", n)]

/-- A device that was told to join the network `home`, and has joined it when it started. -/
theorem home_station : ∃ s st : Station, s.step (.start 7 .ok .ok [] [] .ok fun _ => true) = .ok st ∧
    HasText st.nv.config.ssid (bs "home") ∧ st.radio = ⟨some (bs "home"), true, 1⟩ := by
  obtain ⟨s0, _, _⟩ := factory_no_ssid 7
  obtain ⟨s1, _, h2⟩ := c56_settings s0 (homeForm (bs "home")) (by decide)
  obtain ⟨s2, h3, h4⟩ := h2 7 .ok .ok
  have hn : HasText s2.config.ssid (bs "home") := by
    have := congrArg (fun l => (l.map Prod.snd)[0]?) h4
    have e : cutText (posted (homeForm (bs "home")) "ssid") 32 = .text (some (bs "home")) := by decide
    simp only [settings, privateSettings, postedPrivate, e] at this
    exact Setting.text.inj (Option.some.inj this)
  have hb : bs "home" ≠ [] := by decide
  have hr : NvReach s2 := .boot h3
  obtain ⟨q1, q2, q3, q4, _⟩ := (terminated_iff _).1 (c32_terminated hr)
  obtain ⟨ok, polls, waits, pre, c1, c2, _, _, _, c3, _⟩ := c53_bounded hn (textOf_mem q2) (textOf_mem q3) (textOf_mem q4) (fun _ => true)
  have hw : s2.wifiSetup [] [] .ok = .ok s2 := by
    unfold Nv.wifiSetup
    rw [if_neg (fun h => hb (hn.first.1 h))]
    rfl
  rw [if_neg hb] at c2
  subst c2 c3
  refine ⟨⟨s1, ⟨none, false, 0⟩, 0⟩, ⟨s2, ⟨some (bs "home"), true, 1⟩, 1⟩, ?_, hn, rfl⟩
  simp only [Station.step, h3, ok_bind, hw, c1, if_true, List.cons_append, begun, Option.getD_some, pure_ok]

/-- **C116** as stated is false: after another network is saved on the page of the configuration, the page of the system says this other
network, while the device is still connected with the first one. -/
theorem c116_refuted_network (f : Flags) {rest : SysEnv} (he : PlainEnv rest) (ht : rest.fsTotal ≠ 0) (sse : Sse) :
    ∃ s st st' : Station, s.step (.start 7 .ok .ok [] [] .ok fun _ => true) = .ok st ∧
      st.run [.post (homeForm (bs "other")) false .ok] = .ok st' ∧ st'.radio.joined = true ∧ st'.radio.target = some (bs "home") ∧
      ∃ j rows, st'.page f rest sse false = .ok j ∧ parseJson j = some (jsonTable rows) ∧
        rowsNamed rows networkRow = [(networkRow, .str (bs "other"))] := by
  obtain ⟨s, st, h1, h2, h3⟩ := home_station
  obtain ⟨nv, g1, g2⟩ := c33_form st.nv (homeForm (bs "other")) .ok (by decide)
  have hn : HasText nv.config.ssid (bs "other") := by
    have := congrArg (fun l => (l.map Prod.snd)[0]?) g2
    have e : cutText (posted (homeForm (bs "other")) "ssid") 32 = .text (some (bs "other")) := by decide
    simp only [settings, privateSettings, postedPrivate, e] at this
    exact Setting.text.inj (Option.some.inj this)
  obtain ⟨j, rows, j1, j2, _, j3, _⟩ := station_page (st := { st with nv := nv }) hn
    (fun b hb => List.all_eq_true.1 (by decide : (bs "other").all plain = true) b hb) f he ht sse false
  refine ⟨s, st, { st with nv := nv }, h1, ?_, by rw [h3], by rw [h3], j, rows, j1, j2, ?_⟩
  · simp only [Station.run, Station.step, g1, ok_bind, pure_ok]
  · rw [j3, h3]
    rfl

/-- **C116** as stated is false: the network was lost twice and came back twice, the page still says one. -/
theorem c116_refuted_count (f : Flags) {rest : SysEnv} (he : PlainEnv rest) (ht : rest.fsTotal ≠ 0) (sse : Sse) :
    ∃ s st st' : Station, s.step (.start 7 .ok .ok [] [] .ok fun _ => true) = .ok st ∧
      st.run [.lost, .back, .lost, .back] = .ok st' ∧ st'.radio.joins = 3 ∧
      ∃ j rows, st'.page f rest sse false = .ok j ∧ parseJson j = some (jsonTable rows) ∧
        rowsNamed rows (bs "Nb reconnexions Wi-Fi") = [(bs "Nb reconnexions Wi-Fi", .int 1)] := by
  obtain ⟨s, st, h1, h2, h3⟩ := home_station
  have hr : st.run [.lost, .back, .lost, .back] = .ok { st with radio := ⟨some (bs "home"), true, 3⟩ } := by
    simp only [Station.run, Station.step, h3, ok_bind, pure_ok]
    rfl
  obtain ⟨j, rows, j1, j2, j3⟩ := c116_count_exact h1 (ops := [.lost, .back, .lost, .back])
    (fun o ho => by
      simp only [List.mem_cons, List.not_mem_nil, or_false] at ho
      rcases ho with rfl | rfl | rfl | rfl <;> trivial) hr h2
    (fun b hb => List.all_eq_true.1 (by decide : (bs "home").all plain = true) b hb) f he ht sse false
  exact ⟨s, st, _, h1, hr, rfl, j, rows, j1, j2, j3⟩

/-- **C116** as stated is false: none of the builds of the project lists its options as they are, all have the LED and none tells it. -/
theorem c116_refuted_options {f : Flags} (hf : f ∈ projectBuilds) : f.text ≠ spaced (optionNames f) ∧ f.led = true ∧
    f.text = spaced (optionNames { f with led := false }) := by
  have : ∀ f ∈ projectBuilds, f.text ≠ spaced (optionNames f) ∧ f.led = true ∧
      f.text = spaced (optionNames { f with led := false }) := by decide +kernel
  exact this f hf

theorem usual_keeps : ∀ o ∈ [StationOp.post (homeForm (bs "x")) true .ok, .lost, .back], KeepsNetwork (bs "home") o :=
  List.forall_mem_cons.2 ⟨Or.inl rfl, List.forall_mem_cons.2 ⟨trivial, List.forall_mem_cons.2
    ⟨trivial, fun _ h => absurd h List.not_mem_nil⟩⟩⟩

theorem usual_run {s st : Station} (h1 : s.step (.start 7 .ok .ok [] [] .ok fun _ => true) = .ok st)
    (h3 : st.radio = ⟨some (bs "home"), true, 1⟩) : ∃ st', st.run [.post (homeForm (bs "x")) true .ok, .lost, .back] = .ok st' ∧
      st'.radio.joined = true := by
  obtain ⟨nv, code, g1, _⟩ := c34_restricted st.nv (station_start h1).1 (homeForm (bs "x")) .ok
  have hr : st.run [.post (homeForm (bs "x")) true .ok, .lost, .back] =
      .ok { st with nv := nv, radio := ⟨some (bs "home"), true, 2⟩ } := by
    simp only [Station.run, Station.step, g1, ok_bind, pure_ok]
    rw [h3]
    simp
  exact ⟨_, hr, rfl⟩

/-- The other hypotheses hold of a usual device: it has joined its network, lost it, and somebody with restricted access has saved. -/
example : ∃ s st st' : Station, s.step (.start 7 .ok .ok [] [] .ok fun _ => true) = .ok st ∧ HasText st.nv.config.ssid (bs "home") ∧
    (∀ o ∈ [StationOp.post (homeForm (bs "x")) true .ok, .lost, .back], KeepsNetwork (bs "home") o) ∧
    st.run [.post (homeForm (bs "x")) true .ok, .lost, .back] = .ok st' ∧ st'.radio.joined = true := by
  obtain ⟨s, st, h1, h2, h3⟩ := home_station
  obtain ⟨st', h4, h5⟩ := usual_run h1 h3
  exact ⟨s, st, st', h1, h2, usual_keeps, h4, h5⟩

end Wifinfo
