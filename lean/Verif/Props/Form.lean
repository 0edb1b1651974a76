import Verif.Props.Timed

/-! # What the client is told about a configuration form (properties C38 and C59) -/

namespace Wifinfo
open Spec

/-- **C59** and **C38**, seen from the client: whoever is let in gets exactly one answer, 200 `OK` if the form has the
save field, whatever becomes of the flash, and 400 `Missing Form Field` if not.  The answer 412 is never sent. -/
theorem c59_answer (b : Build) (d d' : Device) (e : Env) (r : Req) (l : List Eff) (hu : r.uri = bs "/config_form.json")
    (h : d.handle b e r = .ok (d', l)) (ha : .needAuth ∉ l) :
    l = if isPosted r.args "save" then [.send 200 (bs "OK")] else [.send 400 (bs "Missing Form Field")] := by
  unfold Device.handle at h
  rw [(route_form b.cpuload e.static r.method r.uri).2 hu] at h
  dsimp only at h
  obtain ⟨⟨a, ef⟩, h1, h⟩ := bind_ok h
  dsimp only at h
  rcases getAuth_form h1 with ⟨rfl, rfl⟩ | ⟨h2, rfl⟩
  · rw [if_pos rfl] at h
    obtain ⟨-, rfl⟩ := Prod.mk.inj (Except.ok.inj h)
    exact absurd (List.mem_singleton.2 rfl) ha
  · rw [if_neg h2] at h
    obtain ⟨⟨nv, code⟩, h3, h⟩ := bind_ok h
    obtain ⟨-, rfl⟩ := Prod.mk.inj (Except.ok.inj h)
    by_cases hs : isPosted r.args "save" = true
    · obtain ⟨c, h4, -⟩ := handleForm_ok d.nv r.args (a = .restricted) e.commit hs
      rw [h4] at h3
      obtain ⟨-, rfl⟩ := Prod.mk.inj (Except.ok.inj h3)
      rw [if_pos hs]
      rfl
    · have h4 := h3
      unfold Nv.handleForm at h4
      rw [if_neg (by rw [hasArg_eq]; exact hs)] at h4
      obtain ⟨-, rfl⟩ := Prod.mk.inj (Except.ok.inj h4)
      rw [if_neg hs]
      rfl

/-- A form with nothing but the save field, on any device without user name, is let in and answered. -/
example (b : Build) (d : Device) (e : Env) (h0 : d.nv.config.username[0] = 0) : ∃ d' l,
    d.handle b e ⟨.post, bs "/config_form.json", [(bs "save", [])], fun _ _ => false, false⟩ = .ok (d', l) ∧
      .needAuth ∉ l ∧ l = [.send 200 (bs "OK")] := by
  have ha : getAuth d.nv.config ⟨.post, bs "/config_form.json", [(bs "save", [])], fun _ _ => false, false⟩ =
      .ok (.full, []) := by
    unfold getAuth
    rw [if_neg (by simpa using h0)]
    rfl
  obtain ⟨c, h4, -⟩ := handleForm_ok d.nv [(bs "save", [])] false e.commit (by decide +kernel)
  let nv := (Nv.configSave { d.nv with config := c } e.commit).1
  refine ⟨{ d with nv := nv, timers := ticMakeTimers nv.config }, [.send 200 (bs "OK")], ?_, by simp, rfl⟩
  unfold Device.handle
  rw [(route_form _ _ _ _).2 rfl]
  dsimp only
  rw [ha, ok_bind]
  dsimp only
  rw [if_neg (by decide), show (decide (Access.full = Access.restricted)) = false by decide, h4, ok_bind]
  rfl

end Wifinfo
