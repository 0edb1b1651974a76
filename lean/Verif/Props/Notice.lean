import Verif.Model.Notice
import Verif.Props.PowerCut
import Verif.Props.Timed
import Verif.Props.Upload

/-!
# C105: what the page tells after an action
-/

namespace Wifinfo
open Spec

namespace Spec

/-- What the updater said when this event ended the upload. -/
def verdict : UploadEv → Option Bool
  | .fin ok | .abort ok | .start _ _ false ok | .write _ false ok => some ok
  | .start _ _ true _ | .write _ true _ => none

end Spec

theorem verdict_iff (u : UploadEv) (ok : Bool) : verdict u = some ok ↔ EndsUpload u ok := by
  constructor
  · intro h
    cases u with
    | start n l b o => cases b <;> simp only [verdict, reduceCtorEq, Option.some.injEq] at h; subst h; exact .start ..
    | write x b o => cases b <;> simp only [verdict, reduceCtorEq, Option.some.injEq] at h; subst h; exact .write ..
    | fin o => simp only [verdict, Option.some.injEq] at h; subst h; exact .fin _
    | abort o => simp only [verdict, Option.some.injEq] at h; subst h; exact .abort _
  · intro h; cases h <;> rfl

/-! ## Saving -/

theorem form_unsaved (s : Nv) (a : Args) (restricted : Bool) (k : Commit) (h : isPosted a "save" = false) :
    s.handleForm a restricted k = .ok (s, 400) := by
  unfold Nv.handleForm
  rw [if_neg]
  · rfl
  · rw [hasArg_eq, h]; simp

theorem form_handled {b : Build} {d : Device} {e : Env} {r : Req} {a : Access} (hu : r.uri = bs "/config_form.json")
    (hc : Client d.nv.config r a) (ha : a ≠ .none) {s' : Nv} {code : Nat}
    (hf : d.nv.handleForm r.args (decide (a = .restricted)) e.commit = .ok (s', code)) :
    d.handle b e r = .ok ({ d with nv := s', timers := ticMakeTimers s'.config }, [.send code
      (if code = 200 then bs "OK" else if code = 412 then bs "Unable to save configuration" else bs "Missing Form Field")]) := by
  unfold Device.handle
  rw [(route_form ..).2 hu]
  simp only [client_auth hc, ok_bind, if_neg ha, hf, pure_ok, List.nil_append]

/-- **C105 (partial), saving.** The page tells that the settings are saved exactly when the client may save and has posted the
form; then the settings posted are in use (a restricted client keeps the others) and, if the flash could be written, they are
in use after any restart.  Otherwise the page tells that there was an error, and nothing has changed.

Partial: the flash could be written (`c105_refuted_flash`). -/
theorem c105_saved_partial {b : Build} {d : Device} {e : Env} {r : Req} {a : Access} (hs : NvReach d.nv)
    (hu : r.uri = bs "/config_form.json") (hc : Client d.nv.config r a) :
    ∃ d' l, d.handle b e r = .ok (d', l) ∧
      (a ≠ .none ∧ isPosted r.args "save" = true ∧ noticeOf l = some (.done 200 (bs "OK")) ∧
        publicSettings d'.nv.config = postedPublic r.args ∧
        privateSettings d'.nv.config = (if a = .full then postedPrivate r.args else privateSettings d.nv.config) ∧
        (e.commit = .ok → ∀ id k1 k2, ∃ s, Nv.configSetup d'.nv.ee.flash id k1 k2 = .ok s ∧ s.config = d'.nv.config) ∨
      ((a = .none ∨ isPosted r.args "save" = false) ∧ (∃ code, noticeOf l = some (.error code)) ∧ d'.nv = d.nv)) := by
  by_cases ha : a = .none
  · refine ⟨d, [.needAuth], ?_, .inr ⟨.inl ha, ⟨401, rfl⟩, rfl⟩⟩
    unfold Device.handle
    rw [(route_form ..).2 hu]
    simp only [client_auth hc, ok_bind, if_pos ha, pure_ok]
  by_cases hp : isPosted r.args "save" = true
  · obtain ⟨c, h1, h2, h3⟩ := handleForm_ok d.nv r.args (decide (a = .restricted)) e.commit hp
    refine ⟨_, _, form_handled hu hc ha h1, .inl ⟨ha, hp, rfl, ?_⟩⟩
    have ht : Terminated c := by
      have hs' := c32_terminated hs
      unfold Terminated settings at *
      rw [h3, h2]
      intro p hp
      rcases List.mem_append.1 hp with hp | hp
      · split at hp
        · exact hs' p (List.mem_append_left _ hp)
        · exact postedPrivate_text r.args p hp
      · exact postedPublic_text r.args p hp
    simp only
    rw [Nv.configSave_eq]
    refine ⟨?_, ?_, ?_⟩
    · exact (Config.securize_public (Config.stamp_terminated ht)).trans h2
    · refine (Config.securize_private (Config.stamp_terminated ht)).trans (Eq.trans h3 ?_)
      cases a with
      | none => exact absurd rfl ha
      | restricted => rfl
      | full => rfl
    · intro hk id k1 k2
      rw [hk]
      exact ⟨_, configSetup_image c id k1 k2, rfl⟩
  · have hp : isPosted r.args "save" = false := by simpa using hp
    exact ⟨_, _, form_handled hu hc ha (form_unsaved _ _ _ _ hp), .inr ⟨.inr hp, ⟨400, rfl⟩, rfl⟩⟩

/-- **C105** as stated is false for saving: whenever the flash is left with something that is no configuration (a failed write), the
page tells that the settings are saved, they are in use, and after a restart the device has the factory settings. -/
theorem c105_refuted_flash {b : Build} {d : Device} {e : Env} {r : Req} {g : Arr 1024} (hs : NvReach d.nv)
    (hk : e.commit = .failed g) (hg : ¬ Accepted g) (hu : r.uri = bs "/config_form.json")
    (hp : isPosted r.args "save" = true) (hc : Client d.nv.config r .full) :
    ∃ d' l, d.handle b e r = .ok (d', l) ∧ noticeOf l = some (.done 200 (bs "OK")) ∧
      settings d'.nv.config = postedPrivate r.args ++ postedPublic r.args ∧
      ∀ id k1 k2, ∃ s', Nv.configSetup d'.nv.ee.flash id k1 k2 = .ok s' ∧
        settings s'.config = factory (bs "WifInfo-" ++ hex06 id) := by
  obtain ⟨d', l, h1, ⟨-, -, h2, h3, h4, -⟩ | ⟨h2, -⟩⟩ := c105_saved_partial (b := b) (e := e) hs hu hc
  · refine ⟨d', l, h1, h2, ?_, ?_⟩
    · unfold settings
      rw [h3, h4, if_pos rfl]
    · intro id k1 k2
      refine c30_boot _ ?_ id k1 k2
      obtain ⟨c, g1, -⟩ := handleForm_ok d.nv r.args false (.failed g) hp
      rw [← hk] at g1
      rw [form_handled hu hc (by decide) g1] at h1
      obtain ⟨rfl, -⟩ := Prod.mk.inj (Except.ok.inj h1)
      simp only
      rw [hk, Nv.configSave_eq]
      exact hg
  · rcases h2 with h2 | h2
    · cases h2
    · rw [hp] at h2; cases h2

/-! ## Updating -/

theorem firstAnswer_append (l m : List Eff) :
    firstAnswer (l ++ m) = (firstAnswer l).or (firstAnswer m) := by
  induction l with
  | nil => rfl
  | cons x l ih => cases x <;> first | rfl | exact ih

theorem upload_answer (b : Build) (d : Device) (u : UploadEv) :
    firstAnswer (d.upload b u).2 = (verdict u).map fun ok => (200, if ok then bs "OK" else bs "FAIL") := by
  cases u with
  | start n l o e => cases o <;> rfl
  | write x o e => cases o <;> rfl
  | fin e => rfl
  | abort e => rfl

/-- **C105, updating.** Whatever happens during an upload, the notice is the green one, with the word of the device beside: `OK` if
the updater was content when the upload first ended, else `FAIL`. -/
theorem c105_upload (b : Build) (r : Req) (us : List UploadEv) (d : Device) :
    ∃ d' ls, d.run b (us.map (.upload r)) = .ok (d', ls) ∧
      noticeOf ls.flatten = (us.findSome? verdict).map fun ok => .done 200 (if ok then bs "OK" else bs "FAIL") := by
  have key : ∃ d' ls, d.run b (us.map (.upload r)) = .ok (d', ls) ∧
      firstAnswer ls.flatten = (us.findSome? verdict).map fun ok => (200, if ok then bs "OK" else bs "FAIL") := by
    induction us generalizing d with
    | nil => exact ⟨d, [], rfl, rfl⟩
    | cons u us ih =>
      obtain ⟨d', ls, h1, h2⟩ := ih (d.upload b u).1
      refine ⟨d', (d.upload b u).2 :: ls, ?_, ?_⟩
      · simp only [List.map_cons, Device.run, Device.step, pure_ok, ok_bind, h1]
      · rw [List.flatten_cons, firstAnswer_append, upload_answer, h2, List.findSome?_cons]
        cases verdict u <;> rfl
  obtain ⟨d', ls, h1, h2⟩ := key
  refine ⟨d', ls, h1, ?_⟩
  unfold noticeOf
  rw [h2, Option.map_map]
  congr 1

theorem heartbeat (b : Build) (d : Device) (e : Env) {r : Req} (hu : r.uri = bs "/hb.htm") (hm : r.method = .get) :
    d.handle b e r = .ok (d, [.send 200 (bs "OK")]) := by
  have : route b.cpuload e.static r.method r.uri = .heartbeat := by
    unfold route
    rw [hu, hm, if_neg (by decide +kernel), if_neg (fun h => absurd h.2 (by decide +kernel)), if_neg (by decide +kernel),
      if_neg (by decide +kernel), if_neg (by decide +kernel), if_neg (by decide +kernel), if_neg (by decide +kernel),
      if_neg (by decide +kernel), if_neg (by decide +kernel), if_neg (by decide +kernel), if_neg (by decide +kernel),
      if_neg (by decide +kernel), if_pos ⟨rfl, rfl⟩]
  unfold Device.handle
  rw [this]
  rfl

theorem events_append {b : Build} : ∀ (l1 l2 : List Event) {d d1 d2 : Device} {e1 e2}, d.run b l1 = .ok (d1, e1) →
    d1.run b l2 = .ok (d2, e2) → d.run b (l1 ++ l2) = .ok (d2, e1 ++ e2) := by
  intro l1
  induction l1 with
  | nil =>
    intro l2 d d1 d2 e1 e2 h1 h2
    obtain ⟨rfl, rfl⟩ := Prod.mk.inj (Except.ok.inj h1)
    exact h2
  | cons ev l ih =>
    intro l2 d d1 d2 e1 e2 h1 h2
    obtain ⟨⟨d', e⟩, h3, h1⟩ := bind_ok h1
    obtain ⟨⟨d'', es⟩, h4, h1⟩ := bind_ok h1
    obtain ⟨rfl, rfl⟩ := Prod.mk.inj (Except.ok.inj h1)
    simp only [List.cons_append, Device.run, h3, ok_bind, ih l2 h4 h2, pure_ok]

/-- What the device keeps of an upload: the last verdict, nothing if there was none since the upload began. -/
theorem uploads_state (b : Build) (r : Req) : ∀ (us : List UploadEv) {d d' : Device} {ls},
    d.run b (us.map (.upload r)) = .ok (d', ls) → d'.nv = d.nv ∧ d'.updOk = lastUpload d.updOk (us.map (.upload r)) := by
  intro us
  induction us with
  | nil =>
    intro d d' ls h
    obtain ⟨rfl, -⟩ := Prod.mk.inj (Except.ok.inj h)
    exact ⟨rfl, rfl⟩
  | cons u us ih =>
    intro d d' ls h
    obtain ⟨⟨d1, e⟩, h1, h⟩ := bind_ok h
    obtain ⟨⟨d2, es⟩, h2, h⟩ := bind_ok h
    obtain ⟨rfl, -⟩ := Prod.mk.inj (Except.ok.inj h)
    obtain ⟨g1, g2⟩ := ih h2
    obtain ⟨rfl, -⟩ := Prod.mk.inj (Except.ok.inj h1)
    rw [g1, g2]
    cases u with
    | start n l o e => cases o <;> exact ⟨rfl, rfl⟩
    | write x o e => cases o <;> exact ⟨rfl, rfl⟩
    | fin e => exact ⟨rfl, rfl⟩
    | abort e => exact ⟨rfl, rfl⟩

/-- The request that carried a file, after its pieces. -/
theorem post_after (b : Build) (d : Device) (e : Env) {r : Req} {a : Access} (us : List UploadEv) (hu : r.uri = bs "/update")
    (hm : r.method = .post) (hc : Client d.nv.config r a) :
    ∃ d' ls, d.run b (us.map (.upload r) ++ [.handle r e]) = .ok (d', ls ++
        [if decide (a = .full) && lastUpload d.updOk (us.map (.upload r)) then refusal a ++ [.restartSoon] else refusal a]) ∧
      d.run b (us.map (.upload r)) = .ok (d', ls) ∧
      noticeOf ls.flatten = (us.findSome? verdict).map fun ok => .done 200 (if ok then bs "OK" else bs "FAIL") := by
  obtain ⟨d', ls, h1, h2⟩ := c105_upload b r us d
  obtain ⟨h3, h4⟩ := uploads_state b r us h1
  refine ⟨d', ls, ?_, h1, h2⟩
  have h5 := update_posted b d' e hu hm (a := a) (by rw [h3]; exact hc)
  rw [h4] at h5
  exact events_append _ _ h1 (by simp only [Device.run, Device.step, h5, ok_bind, pure_ok])

/-- **C105 (partial), an update that goes well.** When the upload ends once and the updater is then content, a client with
full access sees the green notice with `OK`, the page begins to wait, and the device is about to restart.

Partial: the device may refuse the file (`c105_refuted_update`) or the client (`c105_refuted_access`). -/
theorem c105_update_partial (b : Build) (d : Device) (e : Env) {r : Req} (us : List UploadEv) (hu : r.uri = bs "/update")
    (hm : r.method = .post) (hc : Client d.nv.config r .full) (hn : ∀ u ∈ us, verdict u = none) :
    ∃ d' ls, d.run b ((us ++ [UploadEv.fin true]).map (.upload r) ++ [.handle r e]) = .ok (d', ls ++ [[.restartSoon]]) ∧
      noticeOf ls.flatten = some (.done 200 (bs "OK")) ∧ waitsAfterUpload ls.flatten = true := by
  obtain ⟨d', ls, h1, -, h2⟩ := post_after b d e (us ++ [.fin true]) hu hm hc
  have hf : (us ++ [UploadEv.fin true]).findSome? verdict = some true := by
    rw [List.findSome?_append, List.findSome?_eq_none_iff.2 hn]; rfl
  have hl : ∀ ok, lastUpload ok ((us ++ [UploadEv.fin true]).map (.upload r)) = true := by
    clear h1 h2 hf hn
    induction us with
    | nil => intro ok; rfl
    | cons u us ih =>
      intro ok
      cases u with
      | start n l o x => cases o <;> exact ih _
      | write y o x => cases o <;> exact ih _
      | fin x => exact ih _
      | abort x => exact ih _
  rw [hf] at h2
  rw [hl] at h1
  refine ⟨d', ls, h1, h2, ?_⟩
  unfold waitsAfterUpload
  rw [h2]
  rfl

/-- **C105** as stated is false for an update that the device refuses: the page shows the green notice and waits for a restart;
there is none, and the page comes back at the next heartbeat as if there had been one. -/
theorem c105_refuted_update (b : Build) (d : Device) (e : Env) {r : Req} (us : List UploadEv) (hu : r.uri = bs "/update")
    (hm : r.method = .post) (hc : Client d.nv.config r .full) (hn : ∀ u ∈ us, verdict u = none) (e' : Env) {r' : Req}
    (hu' : r'.uri = bs "/hb.htm") (hm' : r'.method = .get) :
    ∃ d' ls, d.run b ((us ++ [UploadEv.fin false]).map (.upload r) ++ [.handle r e]) = .ok (d', ls ++ [[]]) ∧
      noticeOf ls.flatten = some (.done 200 (bs "FAIL")) ∧ waitsAfterUpload ls.flatten = true ∧
      ∃ l, d'.handle b e' r' = .ok (d', l) ∧ comesBack l = true := by
  obtain ⟨d', ls, h1, -, h2⟩ := post_after b d e (us ++ [.fin false]) hu hm hc
  have hf : (us ++ [UploadEv.fin false]).findSome? verdict = some false := by
    rw [List.findSome?_append, List.findSome?_eq_none_iff.2 hn]; rfl
  have hl : ∀ ok, lastUpload ok ((us ++ [UploadEv.fin false]).map (.upload r)) = false := by
    clear h1 h2 hf hn
    induction us with
    | nil => intro ok; rfl
    | cons u us ih =>
      intro ok
      cases u with
      | start n l o x => cases o <;> exact ih _
      | write y o x => cases o <;> exact ih _
      | fin x => exact ih _
      | abort x => exact ih _
  rw [hf] at h2
  rw [hl] at h1
  refine ⟨d', ls, h1, h2, ?_, _, heartbeat b d' e' hu' hm', by decide +kernel⟩
  unfold waitsAfterUpload
  rw [h2]
  rfl

/-- **C105** as stated is false for a client without full access who sends a good file: the page shows the green notice with `OK`
and waits, the device does not restart. -/
theorem c105_refuted_access (b : Build) (d : Device) (e : Env) {r : Req} {a : Access} (us : List UploadEv)
    (hu : r.uri = bs "/update") (hm : r.method = .post) (hc : Client d.nv.config r a) (ha : a ≠ .full)
    (hn : ∀ u ∈ us, verdict u = none) :
    ∃ d' ls l, d.run b ((us ++ [UploadEv.fin true]).map (.upload r) ++ [.handle r e]) = .ok (d', ls ++ [l]) ∧
      noticeOf (ls ++ [l]).flatten = some (.done 200 (bs "OK")) ∧ (∀ x ∈ l, dangerous x = false) := by
  obtain ⟨d', ls, h1, -, h2⟩ := post_after b d e (us ++ [.fin true]) hu hm hc
  have hf : (us ++ [UploadEv.fin true]).findSome? verdict = some true := by
    rw [List.findSome?_append, List.findSome?_eq_none_iff.2 hn]; rfl
  rw [hf] at h2
  have hd : decide (a = .full) = false := by simpa using ha
  rw [hd] at h1
  refine ⟨d', ls, refusal a, h1, ?_, ?_⟩
  · unfold noticeOf at h2 ⊢
    rw [List.flatten_append, firstAnswer_append]
    cases hx : firstAnswer ls.flatten with
    | none => rw [hx] at h2; cases h2
    | some y => rw [hx] at h2; exact h2
  · cases a with
    | full => exact absurd rfl ha
    | restricted => simp [refusal, dangerous]
    | none => simp [refusal, dangerous]

/-! ## Restarting -/

/-- **C105 (partial), the button that restarts.** The device restarts in the handler of the request of a client who has rights, so
that the heartbeats which let the page come back are answered after the restart.

Partial: a client whose credentials are refused (`c105_refuted_restart`). -/
theorem c105_restart_partial {b : Build} {d : Device} {e : Env} {r : Req} (hu : r.uri = bs "/reset") (hc : Guest d.nv.config r) :
    d.handle b e r = .ok (d, [.send 200 (bs "Restart"), .restart]) := (c91_restart hu).1 hc

/-- **C105** as stated is false for the button that restarts, when the credentials are refused: nothing happens and the page
comes back all the same. -/
theorem c105_refuted_restart {b : Build} {d : Device} {e e' : Env} {r r' : Req} (hu : r.uri = bs "/reset")
    (hc : Client d.nv.config r .none) (hu' : r'.uri = bs "/hb.htm") (hm' : r'.method = .get) :
    d.handle b e r = .ok (d, [.needAuth]) ∧ ∃ l, d.handle b e' r' = .ok (d, l) ∧ comesBack l = true :=
  ⟨(c91_restart hu).2 hc, _, heartbeat b d e' hu' hm', by decide +kernel⟩

/-- **C105, refused.** When a client without full access sends a request without a file, the page tells an error, does not wait,
and nothing of the device has changed. -/
theorem c105_refused (b : Build) (d : Device) (e : Env) {r : Req} {a : Access} (hu : r.uri = bs "/update")
    (hm : r.method = .post) (hc : Client d.nv.config r a) (ha : a ≠ .full) :
    ∃ l code, d.run b [.handle r e] = .ok (d, [l]) ∧ noticeOf l = some (.error code) ∧ 400 ≤ code ∧
      waitsAfterUpload l = false := by
  obtain ⟨d', ls, h1, h2, -⟩ := post_after b d e [] hu hm hc
  obtain ⟨rfl, rfl⟩ := Prod.mk.inj (Except.ok.inj h2)
  have hd : decide (a = .full) = false := by simpa using ha
  rw [hd] at h1
  simp only [List.map_nil, List.nil_append, Bool.false_and, Bool.false_eq_true, if_false] at h1
  cases a with
  | full => exact absurd rfl ha
  | none => exact ⟨_, 401, h1, rfl, by decide, rfl⟩
  | restricted => exact ⟨_, 403, h1, rfl, by decide, rfl⟩

/-- **C105, coming back.** The page comes back only when a device answers `OK` with success; without an answer it goes on
waiting. -/
theorem c105_comes_back (l : List Eff) (h : comesBack l = true) :
    ∃ code, ((200 ≤ code ∧ code < 300) ∨ code = 304) ∧ Eff.send code (bs "OK") ∈ l := by
  induction l with
  | nil => exact absurd h (by decide)
  | cons x l ih =>
    have rest : comesBack l = true → ∃ code, ((200 ≤ code ∧ code < 300) ∨ code = 304) ∧ Eff.send code (bs "OK") ∈ x :: l := by
      intro h
      obtain ⟨code, h1, h2⟩ := ih h
      exact ⟨code, h1, List.mem_cons_of_mem _ h2⟩
    cases x with
    | send code text =>
      simp only [comesBack, firstAnswer, jqSuccess, Bool.and_eq_true, Bool.or_eq_true, decide_eq_true_eq] at h
      exact ⟨code, h.1, by simp [h.2]⟩
    | needAuth =>
      simp only [comesBack, firstAnswer] at h
      exact absurd h (by decide)
    | _ => exact rest h

/-! ## Cases -/

-- Notices of the possible answers.
example : noticeOf [.send 200 (bs "OK")] = some (.done 200 (bs "OK")) ∧
    noticeOf [.send 412 (bs "Unable to save configuration")] = some (.error 412) ∧
    noticeOf [.send 400 (bs "Missing Form Field")] = some (.error 400) ∧ noticeOf [.needAuth] = some (.error 401) ∧
    comesBack [.send 200 (bs "FAIL")] = false ∧ comesBack [.needAuth] = false := by decide +kernel

-- Uploads without an end before the last event.
example : ∀ u ∈ [UploadEv.start (bs "firmware.bin") 8 true false, .write (bs "abc") true false, .write (bs "def") true true],
    verdict u = none := by decide +kernel

-- A failed write that leaves no configuration.
example : ∃ g : Arr 1024, ¬ Accepted g := rejected_exists

end Wifinfo
