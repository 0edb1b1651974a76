import Verif.Props.Web

/-!
# C73: firmware upload, and delivery of the notifications (C22)
-/

namespace Wifinfo
open Spec

namespace Spec

/-- What the updater last said, along a history: nothing good after a start of the device or of an
upload, then what it says when it is closed. -/
def lastUpload (ok : Bool) : List Event → Bool
  | [] => ok
  | .boot .. :: r => lastUpload false r
  | .upload _ (.start _ _ true _) :: r => lastUpload false r
  | .upload _ (.start _ _ false ended) :: r => lastUpload ended r
  | .upload _ (.write _ true _) :: r => lastUpload ok r
  | .upload _ (.write _ false ended) :: r => lastUpload ended r
  | .upload _ (.fin ended) :: r => lastUpload ended r
  | .upload _ (.abort ended) :: r => lastUpload ended r
  | _ :: r => lastUpload ok r

/-- This event ends the upload, and the updater says whether it is content: the file is complete, the client has gone, the
upload could not begin, or a piece could not be written. -/
inductive EndsUpload : UploadEv → Bool → Prop
  | fin (ok) : EndsUpload (.fin ok) ok
  | abort (ok) : EndsUpload (.abort ok) ok
  | start (name len ok) : EndsUpload (.start name len false ok) ok
  | write (buf ok) : EndsUpload (.write buf false ok) ok

/-- The bytes given to the updater. -/
def written (l : List Eff) : Str := l.flatMap fun
  | .updWrite s => s
  | _ => []

/-- The pieces received. -/
def pieces (l : List Event) : Str := l.flatMap fun
  | .upload _ (.write s _ _) => s
  | _ => []

/-- The notifications sent by HTTP. -/
def requests (l : List Eff) : List Out := l.filterMap fun
  | .out o => some o
  | _ => none

/-- Is it an event for the event-stream clients? -/
def Event? : Out → Bool
  | .sse _ => true
  | _ => false

end Spec

theorem isIn_iff (p s : Str) : contains p s = true ↔ p <:+: s := by
  induction s with
  | nil => simp [contains]
  | cons b r ih =>
    rw [contains, Bool.or_eq_true, ih, List.isPrefixOf_iff_prefix]
    exact List.infix_cons_iff.symm

/-- The end of `POST /update`. -/
theorem update_posted (b : Build) (d : Device) (e : Env) {r : Req} {a : Access} (hu : r.uri = bs "/update") (hm : r.method = .post)
    (hc : Client d.nv.config r a) :
    d.handle b e r = .ok (d, if decide (a = .full) && d.updOk then refusal a ++ [.restartSoon] else refusal a) := by
  unfold Device.handle
  have : route b.cpuload e.static r.method r.uri = .updatePost := by
    unfold route
    rw [hu, hm, if_neg (by decide +kernel), if_neg (fun h => absurd h.2 (by decide +kernel)), if_neg (by decide +kernel),
      if_neg (by decide +kernel), if_neg (by decide +kernel), if_neg (by decide +kernel), if_neg (by decide +kernel),
      if_neg (by decide +kernel), if_neg (by decide +kernel), if_neg (by decide +kernel), if_neg (by decide +kernel),
      if_neg (by decide +kernel), if_neg (fun h => absurd h.1 (by decide +kernel)),
      if_neg (fun h => absurd h.2 (by decide)), if_pos ⟨rfl, rfl⟩]
  rw [this]
  simp only [access_full hc, ok_bind]
  rfl

/-- **C73**, an upload that goes well: the updater is opened on the file system if the name of the file
contains `fs.bin` and on the firmware otherwise, gets exactly the pieces in order and is closed with
the order to accept; the client is told `OK`, and the request that carried the file then restarts the
device (for a client with full access). -/
theorem c73_complete (b : Build) (d : Device) (r : Req) (name : Str) (len : Nat) (chunks : List Str) (x : Bool)
    (ys : List Bool) (hy : ys.length = chunks.length) :
    ∃ d', d.run b (.upload r (.start name len true x) ::
        (List.zipWith (fun c y => Event.upload r (.write c true y)) chunks ys ++ [.upload r (.fin true)])) =
        .ok (d', [.updBegin (if bs "fs.bin" <:+: name then b.fsSize else len) (decide (bs "fs.bin" <:+: name))] ::
          (chunks.map (fun c => [.updWrite c]) ++ [[.updEnd true, .send 200 (bs "OK")]])) ∧
      d'.updOk = true ∧ d'.nv = d.nv ∧ d'.timers = d.timers ∧ d'.sse = d.sse ∧ d'.tic = { d.tic with pause := false } ∧
      ∀ e r', r'.uri = bs "/update" → r'.method = .post → Client d.nv.config r' .full →
        d'.handle b e r' = .ok (d', [.restartSoon]) := by
  have hw : ∀ (chunks : List Str) (ys : List Bool) (d : Device), ys.length = chunks.length →
      d.run b (List.zipWith (fun c y => Event.upload r (.write c true y)) chunks ys ++ [.upload r (.fin true)]) =
        .ok ({ d with tic := { d.tic with pause := false }, updOk := true },
          chunks.map (fun c => [.updWrite c]) ++ [[.updEnd true, .send 200 (bs "OK")]]) := by
    intro chunks
    induction chunks with
    | nil => intro ys d _; cases ys <;> rfl
    | cons c chunks ih =>
      intro ys d h
      match ys with
      | [] => cases h
      | y :: ys =>
        have := ih ys d (by simpa using h)
        simp only [List.zipWith_cons_cons, List.cons_append, Device.run]
        rw [show d.step b (.upload r (.write c true y)) = .ok (d, [.updWrite c]) from rfl]
        simp only [ok_bind, this]
        rfl
  refine ⟨{ d with tic := { d.tic with pause := false }, updOk := true }, ?_, rfl, rfl, rfl, rfl, rfl, ?_⟩
  · have e : d.step b (.upload r (.start name len true x)) =
        .ok ({ d with tic := { d.tic with pause := true }, updOk := false },
          [.updBegin (if bs "fs.bin" <:+: name then b.fsSize else len) (decide (bs "fs.bin" <:+: name))]) := by
      show Except.ok _ = Except.ok _
      congr 1
      simp only [Device.upload, if_true]
      by_cases hn : bs "fs.bin" <:+: name
      · simp [hn, (isIn_iff _ _).2 hn]
      · have : contains (bs "fs.bin") name = false := by
          cases h : contains (bs "fs.bin") name with
          | false => rfl
          | true => exact absurd ((isIn_iff _ _).1 h) hn
        simp [hn, this]
    rw [Device.run, e]
    simp only [ok_bind, hw chunks ys _ hy]
    rfl
  · intro e r' hu hm hc
    exact update_posted b { d with tic := { d.tic with pause := false }, updOk := true } e hu hm hc

/-- The tags of an HTML page without `<` or `>` inside of texts and attributes, in order. -/
def Spec.htmlTags : Str → List Str
  | [] => []
  | b :: r => if b = 60 then r.takeWhile (· ≠ 62) :: Spec.htmlTags r else Spec.htmlTags r

/-- A page with one form, which sends a file with POST to the address of the page (it has no `action`). -/
def Spec.UploadForm (page : Str) : Prop :=
  [bs "form method=\"POST\" enctype=\"multipart/form-data\"", bs "input type=\"file\" name=\"data\"",
    bs "input class=\"button\" type=\"submit\" value=\"Upload\"", bs "/form"] <:+: Spec.htmlTags page ∧
  ((Spec.htmlTags page).filter fun t => bs "form" <+: t).length = 1

/-- **C73**, the form: who may update the device gets at `/update` a page from which a file can be sent to that same
address; the device does not change. -/
theorem c73_form (b : Build) (d : Device) (e : Env) (r : Req) (hu : r.uri = bs "/update") (hm : r.method = .get)
    (hc : Client d.nv.config r .full) :
    ∃ page, d.handle b e r = .ok (d, [.send 200 page]) ∧ UploadForm page := by
  refine ⟨updateHtml, ?_, ?_⟩
  · unfold Device.handle
    have : route b.cpuload e.static r.method r.uri = .updatePage := by
      unfold route
      rw [hu, hm, if_neg (by decide +kernel), if_neg (fun h => absurd h.2 (by decide +kernel)), if_neg (by decide +kernel),
        if_neg (by decide +kernel), if_neg (by decide +kernel), if_neg (by decide +kernel), if_neg (by decide +kernel),
        if_neg (by decide +kernel), if_neg (by decide +kernel), if_neg (by decide +kernel), if_neg (by decide +kernel),
        if_neg (by decide +kernel), if_neg (fun h => absurd h.1 (by decide +kernel)), if_pos ⟨rfl, rfl⟩]
    rw [this]
    simp only [access_full hc, ok_bind]
    rfl
  · have ht : Spec.htmlTags updateHtml = [bs "!DOCTYPE html", bs "html", bs "head", bs "title", bs "/title", bs "style",
        bs "/style", bs "/head", bs "body", bs "p", bs "/p"] ++ [bs "form method=\"POST\" enctype=\"multipart/form-data\"",
        bs "input type=\"file\" name=\"data\"", bs "input class=\"button\" type=\"submit\" value=\"Upload\"",
        bs "/form"] ++ [bs "/body", bs "/html"] := by decide +kernel
    exact ⟨⟨_, _, ht.symm⟩, by rw [ht]; decide +kernel⟩

/-- **C73**, the answers: during an upload the client is answered exactly when the upload ends, and is told `OK` if the
updater is content and `FAIL` if not; the meter is listened to again. -/
theorem c73_answer (b : Build) (d : Device) (u : UploadEv) :
    (∀ code body, .send code body ∈ (d.upload b u).2 ↔
      ∃ ok, EndsUpload u ok ∧ code = 200 ∧ body = if ok then bs "OK" else bs "FAIL") ∧
    ((∃ ok, EndsUpload u ok) → (d.upload b u).1.tic.pause = false) := by
  have fin : ∀ (ok : Bool) (u : UploadEv) (d : Device) (force : Bool) (pre : List Eff) (code : Nat) (body : Str),
      (∀ x ∈ pre, ∀ c t, x ≠ Eff.send c t) → (∀ ok', EndsUpload u ok' ↔ ok' = ok) →
      (.send code body ∈ pre ++ (d.updFinish force ok).2 ↔
        ∃ ok', EndsUpload u ok' ∧ code = 200 ∧ body = if ok' then bs "OK" else bs "FAIL") := by
    intro ok u d force pre code body hp hu
    simp only [Device.updFinish, List.mem_append, List.mem_cons, List.not_mem_nil, or_false, hu, exists_eq_left]
    constructor
    · rintro (h | h | h)
      · exact absurd rfl (hp _ h code body)
      · cases h
      · injection h with h1 h2
        exact ⟨h1, h2⟩
    · rintro ⟨rfl, rfl⟩
      exact Or.inr (Or.inr rfl)
  cases u with
  | start name len beginOk endOk =>
    cases beginOk
    · refine ⟨fun code body => ?_, fun _ => rfl⟩
      refine fin endOk _ { d with updOk := false } false [.updBegin _ _] code body (by simp) fun ok' => ?_
      exact ⟨fun h => by cases h; rfl, fun h => h ▸ .start ..⟩
    · refine ⟨fun code body => ?_, fun ⟨_, h⟩ => nomatch h⟩
      refine ⟨fun h => ?_, fun ⟨_, h, _⟩ => nomatch h⟩
      simp [Device.upload] at h
  | write buf ok endOk =>
    cases ok
    · refine ⟨fun code body => ?_, fun _ => rfl⟩
      refine fin endOk _ d false [.updWrite buf] code body (by simp) fun ok' => ?_
      exact ⟨fun h => by cases h; rfl, fun h => h ▸ .write ..⟩
    · refine ⟨fun code body => ?_, fun ⟨_, h⟩ => nomatch h⟩
      refine ⟨fun h => ?_, fun ⟨_, h, _⟩ => nomatch h⟩
      simp [Device.upload] at h
  | fin endOk =>
    refine ⟨fun code body => ?_, fun _ => rfl⟩
    refine fin endOk _ d true [] code body (by simp) fun ok' => ?_
    exact ⟨fun h => by cases h; rfl, fun h => h ▸ .fin _⟩
  | abort endOk =>
    refine ⟨fun code body => ?_, fun _ => rfl⟩
    refine fin endOk _ d false [] code body (by simp) fun ok' => ?_
    exact ⟨fun h => by cases h; rfl, fun h => h ▸ .abort _⟩

/-- **C73**, an upload that is interrupted or fails is never accepted: the order to accept is given only
when the whole file has been received, and whatever does not go through the end of a file does not give
it. -/
theorem c73_accepts {b : Build} {d d' : Device} {ev : Event} {l} (hs : NvReach d.nv) (h : d.step b ev = .ok (d', l)) :
    .updEnd true ∈ l ↔ ∃ r ok, ev = .upload r (.fin ok) := by
  have sse : ∀ (es : List SseEff), Eff.updEnd true ∉ es.map .sse := by
    intro es hx; obtain ⟨_, _, hx⟩ := List.mem_map.1 hx; cases hx
  constructor
  · intro hx
    cases ev with
    | boot f m a p k1 k2 k3 =>
      obtain ⟨_, _, h⟩ := bind_ok h
      obtain ⟨-, rfl⟩ := Prod.mk.inj (Except.ok.inj h)
      cases hx
    | byte now k conn x =>
      obtain ⟨⟨tic, out⟩, _, h⟩ := bind_ok h
      obtain ⟨-, rfl⟩ := Prod.mk.inj (Except.ok.inj h)
      exfalso
      revert hx
      have : ∀ (out : List Out) (s : Sse), Eff.updEnd true ∉ (deliver conn s out).2 := by
        intro out
        induction out with
        | nil => intro s hx; cases hx
        | cons o out ih =>
          intro s hx
          cases o with
          | sse data =>
            rcases List.mem_append.1 hx with hx | hx
            · exact sse _ hx
            · exact ih _ hx
          | _ =>
            rcases List.mem_cons.1 hx with hx | hx
            · cases hx
            · exact ih _ hx
      exact this out d.sse
    | poll conn =>
      obtain ⟨-, rfl⟩ := Prod.mk.inj (Except.ok.inj h)
      exact absurd hx (sse _)
    | upload r u =>
      have e := Except.ok.inj h
      cases u with
      | start name len bo en =>
        cases bo <;> (obtain ⟨-, rfl⟩ := Prod.mk.inj e; simp at hx)
      | write s ok en =>
        cases ok <;> (obtain ⟨-, rfl⟩ := Prod.mk.inj e; simp at hx)
      | fin en => exact ⟨r, en, rfl⟩
      | abort en => obtain ⟨-, rfl⟩ := Prod.mk.inj e; simp at hx
    | handle r e =>
      obtain ⟨_, _, _, _, _, h6⟩ := c71_changes hs h
      rcases h6 _ hx rfl with ⟨h, _⟩ | ⟨h, _⟩ | ⟨h, _⟩ <;> cases h
    | cliSse t conn =>
      obtain ⟨-, rfl⟩ := Prod.mk.inj (Except.ok.inj h)
      exact absurd hx (sse _)
    | cliTimers =>
      obtain ⟨-, rfl⟩ := Prod.mk.inj (Except.ok.inj h)
      cases hx
    | cliWifi a p k =>
      obtain ⟨nv, _, h⟩ := bind_ok h
      obtain ⟨-, rfl⟩ := Prod.mk.inj (Except.ok.inj h)
      simp at hx
    | cliAp a p k =>
      obtain ⟨nv, _, h⟩ := bind_ok h
      obtain ⟨-, rfl⟩ := Prod.mk.inj (Except.ok.inj h)
      simp at hx
    | cliReset k =>
      obtain ⟨-, rfl⟩ := Prod.mk.inj (Except.ok.inj h)
      simp at hx
  · rintro ⟨r, ok, rfl⟩
    obtain ⟨-, rfl⟩ := Prod.mk.inj (Except.ok.inj h)
    exact List.mem_cons_self ..

theorem written_append (a b : List Eff) : written (a ++ b) = written a ++ written b := List.flatMap_append ..

theorem written_sse (l : List SseEff) : written (l.map .sse) = [] := by
  induction l with
  | nil => rfl
  | cons e l ih => exact ih

theorem deliver_written (conn : Nat → Bool) (out : List Out) : ∀ s, written (deliver conn s out).2 = [] := by
  induction out with
  | nil => intro s; rfl
  | cons o out ih =>
    intro s
    cases o with
    | sse data =>
      show written (_ ++ _) = []
      rw [written_append, written_sse]
      exact ih _
    | _ => exact ih _

theorem handle_written {b : Build} {d d' : Device} {e r l} (hs : NvReach d.nv) (h : d.handle b e r = .ok (d', l)) :
    written l = [] := by
  obtain ⟨_, _, _, _, _, h6⟩ := c71_changes hs h
  clear h
  induction l with
  | nil => rfl
  | cons x l ih =>
    have hx := h6 x (by simp)
    have := ih fun y hy => h6 y (by simp [hy])
    cases x with
    | updWrite s =>
      rcases hx rfl with ⟨h, _⟩ | ⟨h, _⟩ | ⟨h, _⟩ <;> cases h
    | _ => exact this

/-- One event: what the updater gets and what it last said. -/
theorem step_upload {b : Build} {d d' : Device} {ev l} (hs : NvReach d.nv) (h : d.step b ev = .ok (d', l)) :
    d'.updOk = lastUpload d.updOk [ev] ∧ written l = pieces [ev] := by
  cases ev with
  | boot f m a p k1 k2 k3 =>
    obtain ⟨x, h1, h⟩ := bind_ok h
    obtain ⟨rfl, rfl⟩ := Prod.mk.inj (Except.ok.inj h)
    obtain ⟨_, _, h1⟩ := bind_ok h1
    obtain ⟨_, _, h1⟩ := bind_ok h1
    rw [← Except.ok.inj h1]
    exact ⟨rfl, rfl⟩
  | byte now k conn x =>
    obtain ⟨⟨tic, out⟩, _, h⟩ := bind_ok h
    obtain ⟨rfl, rfl⟩ := Prod.mk.inj (Except.ok.inj h)
    exact ⟨rfl, deliver_written conn out d.sse⟩
  | poll conn =>
    obtain ⟨rfl, rfl⟩ := Prod.mk.inj (Except.ok.inj h)
    exact ⟨rfl, written_sse _⟩
  | upload r u =>
    have e := Except.ok.inj h
    cases u with
    | start name len bo en =>
      cases bo <;> (obtain ⟨rfl, rfl⟩ := Prod.mk.inj e; exact ⟨rfl, rfl⟩)
    | write s ok en =>
      cases ok <;> (obtain ⟨rfl, rfl⟩ := Prod.mk.inj e; exact ⟨rfl, rfl⟩)
    | fin en => obtain ⟨rfl, rfl⟩ := Prod.mk.inj e; exact ⟨rfl, rfl⟩
    | abort en => obtain ⟨rfl, rfl⟩ := Prod.mk.inj e; exact ⟨rfl, rfl⟩
  | handle r e =>
    obtain ⟨_, h2, _⟩ := c71_changes hs h
    exact ⟨h2, handle_written hs h⟩
  | cliSse t conn =>
    obtain ⟨rfl, rfl⟩ := Prod.mk.inj (Except.ok.inj h)
    exact ⟨rfl, written_sse _⟩
  | cliTimers =>
    obtain ⟨rfl, rfl⟩ := Prod.mk.inj (Except.ok.inj h)
    exact ⟨rfl, rfl⟩
  | cliWifi a p k =>
    obtain ⟨nv, _, h⟩ := bind_ok h
    obtain ⟨rfl, rfl⟩ := Prod.mk.inj (Except.ok.inj h)
    exact ⟨rfl, rfl⟩
  | cliAp a p k =>
    obtain ⟨nv, _, h⟩ := bind_ok h
    obtain ⟨rfl, rfl⟩ := Prod.mk.inj (Except.ok.inj h)
    exact ⟨rfl, rfl⟩
  | cliReset k =>
    obtain ⟨rfl, rfl⟩ := Prod.mk.inj (Except.ok.inj h)
    exact ⟨rfl, rfl⟩

theorem lastUpload_cons (ok : Bool) (ev : Event) (r : List Event) :
    lastUpload ok (ev :: r) = lastUpload (lastUpload ok [ev]) r := by
  cases ev with
  | upload q u =>
    cases u with
    | start n l bo en => cases bo <;> rfl
    | write s o en => cases o <;> rfl
    | _ => rfl
  | _ => rfl

/-- **C73**, any history: what the updater gets is what was uploaded, in order, and the device remembers
what the updater said last. -/
theorem c73_history {b : Build} (evs : List Event) : ∀ {d d' : Device} {up h fs es}, d.Inv b.world up h fs →
    d.run b evs = .ok (d', es) → written es.flatten = pieces evs ∧ d'.updOk = lastUpload d.updOk evs := by
  induction evs with
  | nil =>
    intro d d' up h fs es hd hr
    obtain ⟨rfl, rfl⟩ := Prod.mk.inj (Except.ok.inj hr)
    exact ⟨rfl, rfl⟩
  | cons ev evs ih =>
    intro d d' up h fs es hd hr
    obtain ⟨⟨d1, l⟩, h1, hr⟩ := bind_ok hr
    obtain ⟨⟨d2, ls⟩, h2, hr⟩ := bind_ok hr
    obtain ⟨rfl, rfl⟩ := Prod.mk.inj (Except.ok.inj hr)
    obtain ⟨e1, e2⟩ := step_upload hd.nv h1
    obtain ⟨fs', hd'⟩ := step_inv hd h1
    obtain ⟨e3, e4⟩ := ih hd' h2
    rw [lastUpload_cons, ← e1]
    refine ⟨?_, e4⟩
    rw [List.flatten_cons, written_append, e2, e3]
    show _ = pieces ([ev] ++ evs)
    exact (List.flatMap_append ..).symm

/-- **C73**, after a start of the device, a restart is programmed only by the `POST /update` of a client
with full access, and only if the last thing the updater said since is that all went well. -/
theorem c73_restart {b : Build} {f m a p k1 k2 k3} {d0 d d' : Device} {evs es ev l}
    (h0 : Device.boot b f m a p k1 k2 k3 = .ok d0) (h1 : d0.run b evs = .ok (d, es)) (h2 : d.step b ev = .ok (d', l))
    (hx : .restartSoon ∈ l) : lastUpload false evs = true ∧
      ∃ r e, ev = .handle r e ∧ r.uri = bs "/update" ∧ r.method = .post ∧ Client d.nv.config r .full := by
  have hd := boot_inv h0
  obtain ⟨fs', hd'⟩ := run_inv evs hd h1
  obtain ⟨_, h3⟩ := c73_history evs hd h1
  have h4 : d0.updOk = false := by
    obtain ⟨_, _, h0⟩ := bind_ok h0
    obtain ⟨_, _, h0⟩ := bind_ok h0
    rw [← Except.ok.inj h0]
  rw [h4] at h3
  have sse : ∀ (es : List SseEff), Eff.restartSoon ∉ es.map .sse := by
    intro es hx; obtain ⟨_, _, hx⟩ := List.mem_map.1 hx; cases hx
  cases ev with
  | boot f m a p k1 k2 k3 =>
    obtain ⟨_, _, h⟩ := bind_ok h2
    obtain ⟨-, rfl⟩ := Prod.mk.inj (Except.ok.inj h)
    cases hx
  | byte now k conn x =>
    obtain ⟨⟨tic, out⟩, _, h⟩ := bind_ok h2
    obtain ⟨-, rfl⟩ := Prod.mk.inj (Except.ok.inj h)
    exfalso
    revert hx
    have : ∀ (out : List Out) (s : Sse), Eff.restartSoon ∉ (deliver conn s out).2 := by
      intro out
      induction out with
      | nil => intro s hx; cases hx
      | cons o out ih =>
        intro s hx
        cases o with
        | sse data =>
          rcases List.mem_append.1 hx with hx | hx
          · exact sse _ hx
          · exact ih _ hx
        | _ =>
          rcases List.mem_cons.1 hx with hx | hx
          · cases hx
          · exact ih _ hx
    exact this out d.sse
  | poll conn =>
    obtain ⟨-, rfl⟩ := Prod.mk.inj (Except.ok.inj h2)
    exact absurd hx (sse _)
  | upload r u =>
    have e := Except.ok.inj h2
    cases u with
    | start name len bo en =>
      cases bo <;> (obtain ⟨-, rfl⟩ := Prod.mk.inj e; simp at hx)
    | write s ok en =>
      cases ok <;> (obtain ⟨-, rfl⟩ := Prod.mk.inj e; simp at hx)
    | fin en => obtain ⟨-, rfl⟩ := Prod.mk.inj e; simp at hx
    | abort en => obtain ⟨-, rfl⟩ := Prod.mk.inj e; simp at hx
  | handle r e =>
    obtain ⟨_, _, _, _, _, h6⟩ := c71_changes hd'.nv h2
    rcases h6 _ hx rfl with ⟨h, _⟩ | ⟨h, _⟩ | ⟨_, g1, g2, g3, g4⟩
    · cases h
    · cases h
    · exact ⟨by rw [← h3, g4], r, e, rfl, g1, g2, g3⟩
  | cliSse t conn =>
    obtain ⟨-, rfl⟩ := Prod.mk.inj (Except.ok.inj h2)
    exact absurd hx (sse _)
  | cliTimers =>
    obtain ⟨-, rfl⟩ := Prod.mk.inj (Except.ok.inj h2)
    cases hx
  | cliWifi a p k =>
    obtain ⟨nv, _, h⟩ := bind_ok h2
    obtain ⟨-, rfl⟩ := Prod.mk.inj (Except.ok.inj h)
    simp at hx
  | cliAp a p k =>
    obtain ⟨nv, _, h⟩ := bind_ok h2
    obtain ⟨-, rfl⟩ := Prod.mk.inj (Except.ok.inj h)
    simp at hx
  | cliReset k =>
    obtain ⟨-, rfl⟩ := Prod.mk.inj (Except.ok.inj h2)
    simp at hx

/-- An upload in two pieces that ends well, then an aborted one: the device will not restart. -/
example (r : Req) : lastUpload false [.upload r (.start (bs "firmware.bin") 6 true false),
      .upload r (.write (bs "abc") true false), .upload r (.write (bs "def") true false), .upload r (.fin true)] = true ∧
    lastUpload true [.upload r (.start (bs "firmware.bin") 6 true false), .upload r (.write (bs "abc") true false),
      .upload r (.abort false)] = false ∧
    pieces [.upload r (.start (bs "firmware.bin") 6 true false), .upload r (.write (bs "abc") true false),
      .upload r (.write (bs "def") true false), .upload r (.fin true)] = bs "abcdef" := by
  refine ⟨rfl, rfl, ?_⟩
  show bs "abc" ++ (bs "def" ++ []) = _
  decide +kernel

/-! ## C63: the answers to `POST /update` -/

namespace Spec

/-- The answers sent while a file is received: one for its end or for the loss of the connection, and one each time the updater
refuses the file or a part of it. -/
def uploadAnswers : UploadEv → Nat
  | .start _ _ ok _ => if ok then 0 else 1
  | .write _ ok _ => if ok then 0 else 1
  | .fin _ | .abort _ => 1

end Spec

/-- **C63** (exact), `POST /update`: the answers are those sent while the file is received, and a refusal when the client has no full
access.  So there is exactly one for a file that is received whole and accepted from a client with full access, none without a
file, two without full access. -/
theorem c63_update_exact {b : Build} {d d' : Device} {e : Env} {r : Req} {a : Access} {ups : List UploadEv} {es}
    (hu : r.uri = bs "/update") (hm : r.method = .post) (hc : Client d.nv.config r a)
    (h : d.run b (ups.map (.upload r) ++ [.handle r e]) = .ok (d', es)) :
    es.flatten.countP isAnswer = (ups.map uploadAnswers).sum + (if a = .full then 0 else 1) := by
  induction ups generalizing d es with
  | nil =>
    rw [List.map_nil, List.nil_append, Device.run, Device.step, update_posted b d e hu hm hc] at h
    simp only [ok_bind, Device.run, pure_ok] at h
    obtain ⟨-, rfl⟩ := Prod.mk.inj (Except.ok.inj h)
    cases a <;> cases d.updOk <;> rfl
  | cons u ups ih =>
    rw [List.map_cons, List.cons_append, Device.run] at h
    simp only [Device.step, pure_ok, ok_bind] at h
    obtain ⟨⟨d2, es2⟩, h1, h⟩ := bind_ok h
    obtain ⟨rfl, rfl⟩ := Prod.mk.inj (Except.ok.inj h)
    have hnv : (d.upload b u).1.nv = d.nv := by
      cases u <;> simp only [Device.upload, Device.updFinish] <;> repeat (first | rfl | split)
    have := ih (d := (d.upload b u).1) (by rw [hnv]; exact hc) h1
    have hone : (d.upload b u).2.countP isAnswer = uploadAnswers u := by
      cases u <;> simp only [Device.upload, Device.updFinish, uploadAnswers] <;> repeat (first | rfl | split)
    rw [List.flatten_cons, List.countP_append, this, hone, List.map_cons, List.sum_cons, Nat.add_assoc]

/-- A file in two parts, the second of which the updater refuses: three answers to a client without full access. -/
example : (([.start (bs "firmware.bin") 4 true true, .write (bs "ab") true true, .write (bs "cd") false true, .fin false] :
    List UploadEv).map uploadAnswers).sum = 2 := by decide

/-! ## C22: the notifications go out -/

theorem requests_sse (l : List SseEff) (r : List Eff) : requests (l.map .sse ++ r) = requests r := by
  induction l with
  | nil => rfl
  | cons e l ih => exact ih

theorem deliver_requests (conn : Nat → Bool) : ∀ (out : List Out) (s : Sse),
    requests (deliver conn s out).2 = out.filter (fun o => !Event? o) := by
  intro out
  induction out with
  | nil => intro s; rfl
  | cons o out ih =>
    intro s
    cases o with
    | sse data => exact (requests_sse _ _).trans (ih _)
    | http n q => exact congrArg (_ :: ·) (ih s)
    | jeedom q => exact congrArg (_ :: ·) (ih s)
    | emoncms q => exact congrArg (_ :: ·) (ih s)

/-- **C22**, delivery: when a meter byte completes a frame, all the requests decided for that frame are
sent, in order, and nothing else is. -/
theorem c22_delivered {b : Build} {d d' : Device} {now k conn x l} (h : d.byte b now k conn x = .ok (d', l)) :
    ∃ tic out, d.tic.decode b.world d.nv.config d.timers now { k with clients := !d.sse.clients.isEmpty } x =
        .ok (tic, out) ∧ d'.tic = tic ∧ requests l = out.filter (fun o => !Event? o) := by
  obtain ⟨⟨tic, out⟩, h1, h⟩ := bind_ok h
  obtain ⟨rfl, rfl⟩ := Prod.mk.inj (Except.ok.inj h)
  exact ⟨tic, out, h1, rfl, deliver_requests conn out d.sse⟩

end Wifinfo
