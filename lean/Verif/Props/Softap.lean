import Verif.Spec.Radio
import Verif.Props.Sys
import Verif.Props.Page

/-!
# C103: the access point has the name and the key of the device
-/

namespace Wifinfo
open Spec

/-- The access point that clients see after these calls of the SDK. -/
def apSeen (w : Sdk) (old : AccessPoint) (e : List WifiEff) : AccessPoint :=
  e.foldl (fun a x => match x with
    | .softAp n k => w.softAP a n k
    | _ => a) old

theorem apSeen_append (w : Sdk) (old : AccessPoint) (e f : List WifiEff) :
    apSeen w old (e ++ f) = apSeen w (apSeen w old e) f := List.foldl_append

theorem apSeen_waits (w : Sdk) (old : AccessPoint) (n : Nat) : apSeen w old (List.replicate n .wait) = old := by
  induction n with
  | zero => rfl
  | succ n ih => rw [List.replicate_succ]; exact ih

/-- **C103**, exactly: a device that gives up joining a network opens the access point that the SDK makes of its name and of its
key, an empty one meaning an open network. -/
theorem c103_exact {s : Nv} (hs : NvReach s) {host key : Str} (h1 : ("host", .text (some host)) ∈ settings s.config)
    (h2 : ("ap_psk", .text (some key)) ∈ settings s.config) (status : Nat → Bool) : ∃ ok polls e,
    wifiConnect s.config status = .ok (ok, polls, e) ∧ ok = status (polls - 1) ∧
    ∀ w old, apSeen w old e = if ok then old else w.softAP old host (if key = [] then none else some key) := by
  obtain ⟨q1, q2, q3, q4, _⟩ := (terminated_iff _).1 (c32_terminated hs)
  have e1 : HasText s.config.host host := by simpa [settings, privateSettings, publicSettings, HasText, eq_comm] using h1
  have e2 : HasText s.config.apPsk key := by simpa [settings, privateSettings, publicSettings, HasText, eq_comm] using h2
  obtain ⟨ok, polls, waits, pre, c1, c2, _, _, _, c3, _⟩ := c53_bounded (textOf_mem q1) (textOf_mem q2) e1 e2 status
  refine ⟨ok, polls, _, c1, c3, fun w old => ?_⟩
  have hpre : apSeen w old pre = old := by rw [c2]; split <;> rfl
  rw [apSeen_append, apSeen_append, hpre, apSeen_waits]
  cases ok <;> rfl

/-- **C103** for a key that is empty or has 8 to 63 bytes, and a name that is not empty: these are the key and the name of the
access point, whatever the access point was before.

Partial: with a shorter key, or without name, the access point is another one (`c103_refuted_key`, `c103_refuted_name`). -/
theorem c103_open_partial {s : Nv} (hs : NvReach s) {host key : Str} (h1 : ("host", .text (some host)) ∈ settings s.config)
    (h2 : ("ap_psk", .text (some key)) ∈ settings s.config) (h3 : host ≠ [])
    (h4 : key = [] ∨ 8 ≤ key.length ∧ key.length ≤ 63) (status : Nat → Bool) : ∃ ok polls e,
    wifiConnect s.config status = .ok (ok, polls, e) ∧ ok = status (polls - 1) ∧
    ∀ w old, ok = false → apSeen w old e = ⟨host, if key = [] then none else some key⟩ := by
  obtain ⟨ok, polls, e, c1, c2, c3⟩ := c103_exact hs h1 h2 status
  refine ⟨ok, polls, e, c1, c2, fun w old ho => ?_⟩
  rw [c3, ho, if_neg (by decide)]
  have e1 : HasText s.config.host host := by simpa [settings, privateSettings, publicSettings, HasText, eq_comm] using h1
  have l1 := hasText_length e1
  have l0 : 1 ≤ host.length := by cases host with
    | nil => exact absurd rfl h3
    | cons => exact Nat.succ_le_succ (Nat.zero_le _)
  unfold Sdk.softAP
  rcases h4 with rfl | ⟨h4, h5⟩
  · rw [if_pos rfl, w.open_ok l0 (by omega), if_pos rfl]
  · have hk : ¬ key = [] := by rintro rfl; simp at h4
    rw [if_neg hk, w.key_ok l0 (by omega) h4 h5, if_pos rfl]

/-- **C103** holds for a new device: its access point is open and named after the chip. -/
theorem c103_factory (g : Arr 1024) (hg : ¬ Accepted g) (id : UInt32) (k1 k2 : Commit) : ∃ s,
    Nv.configSetup g id k1 k2 = .ok s ∧ ∀ status, ∃ ok polls e,
      wifiConnect s.config status = .ok (ok, polls, e) ∧ ok = status (polls - 1) ∧
      ∀ w old, ok = false → apSeen w old e = ⟨bs "WifInfo-" ++ hex06 id, none⟩ := by
  obtain ⟨s, h1, h2⟩ := c30_boot g hg id k1 k2
  refine ⟨s, h1, fun status => ?_⟩
  have := c103_open_partial (.boot h1) (host := bs "WifInfo-" ++ hex06 id) (key := [])
    (by rw [h2]; exact List.mem_of_getElem? (i := 2) rfl) (by rw [h2]; exact List.mem_of_getElem? (i := 3) rfl)
    (fun h => absurd (congrArg List.length h) (by simp [bs])) (.inl rfl) status
  simpa using this

/-- The device after a post that the flash takes, and after its next start. -/
theorem posted_ap {s : Nv} (hs : NvReach s) {a : Args} (h : isPosted a "save" = true) {host key : Str}
    (hh : cutText (posted a "host") 16 = .text (some host)) (hk : cutText (posted a "ap_psk") 64 = .text (some key)) :
    ∃ s', s.handleForm a false .ok = .ok (s', 200) ∧ ∀ id k1 k2, ∃ s'', Nv.configSetup s'.ee.flash id k1 k2 = .ok s'' ∧
      ∃ polls e, wifiConnect s''.config (fun _ => false) = .ok (false, polls, e) ∧
        ∀ w old, apSeen w old e = w.softAP old host (if key = [] then none else some key) := by
  obtain ⟨s', g1, g2⟩ := c33_form s a .ok h
  obtain ⟨s1, g3, g4⟩ := c56_survives_reboot s a false h
  obtain rfl : s' = s1 := by rw [g1] at g3; exact (Prod.mk.inj (Except.ok.inj g3)).1
  refine ⟨s', g1, fun id k1 k2 => ?_⟩
  obtain ⟨s'', g5, g6⟩ := g4 id k1 k2
  refine ⟨s'', g5, ?_⟩
  rw [g6]
  obtain ⟨ok, polls, e, c1, c2, c3⟩ := c103_exact (NvReach.step hs (step_form g1)) (host := host) (key := key)
    (by rw [g2, ← hh]; exact List.mem_append_left _ (List.mem_of_getElem? (i := 2) rfl))
    (by rw [g2, ← hk]; exact List.mem_append_left _ (List.mem_of_getElem? (i := 3) rfl)) (fun _ => false)
  subst c2
  exact ⟨polls, e, c1, fun w old => by rw [c3]; rfl⟩

/-- **C103** as stated is false: after the post of a key of 1 to 7 bytes, which the page and the device accept, the access point
of the next start has neither this key nor this name, but those it had before; it is open if it was. -/
theorem c103_refuted_key {s : Nv} (hs : NvReach s) {a : Args} (h : isPosted a "save" = true)
    (hk : ∀ b ∈ posted a "ap_psk", b ≠ 0) (h1 : 1 ≤ (posted a "ap_psk").length) (h2 : (posted a "ap_psk").length ≤ 7) :
    ∃ s', s.handleForm a false .ok = .ok (s', 200) ∧ ("ap_psk", .text (some (posted a "ap_psk"))) ∈ settings s'.config ∧
      ∀ id k1 k2, ∃ s'', Nv.configSetup s'.ee.flash id k1 k2 = .ok s'' ∧
      ∃ polls e, wifiConnect s''.config (fun _ => false) = .ok (false, polls, e) ∧ ∀ w old, apSeen w old e = old := by
  have hc : cutText (posted a "ap_psk") 64 = .text (some (posted a "ap_psk")) := cutText_id (by omega) hk
  obtain ⟨s', g1, g2⟩ := posted_ap hs h (host := ((posted a "host").takeWhile (· != 0)).take 16) rfl hc
  obtain ⟨s1, g3, g4⟩ := c33_form s a .ok h
  obtain rfl : s' = s1 := by rw [g1] at g3; exact (Prod.mk.inj (Except.ok.inj g3)).1
  refine ⟨s', g1, ?_, fun id k1 k2 => ?_⟩
  · rw [g4, ← hc]; exact List.mem_append_left _ (List.mem_of_getElem? (i := 3) rfl)
  obtain ⟨s'', g5, polls, e, g6, g7⟩ := g2 id k1 k2
  refine ⟨s'', g5, polls, e, g6, fun w old => ?_⟩
  rw [g7, if_neg (by intro e; rw [e] at h1; simp at h1), Sdk.softAP, w.short_key h1 h2, if_neg (by decide)]

/-- **C103** as stated is false: likewise when the name is posted empty. -/
theorem c103_refuted_name {s : Nv} (hs : NvReach s) {a : Args} (h : isPosted a "save" = true)
    (h1 : posted a "host" = []) :
    ∃ s', s.handleForm a false .ok = .ok (s', 200) ∧ ∀ id k1 k2, ∃ s'', Nv.configSetup s'.ee.flash id k1 k2 = .ok s'' ∧
      ∃ polls e, wifiConnect s''.config (fun _ => false) = .ok (false, polls, e) ∧ ∀ w old, apSeen w old e = old := by
  obtain ⟨s', g1, g2⟩ := posted_ap hs h (host := []) (key := ((posted a "ap_psk").takeWhile (· != 0)).take 64)
    (by rw [h1]; rfl) rfl
  refine ⟨s', g1, fun id k1 k2 => ?_⟩
  obtain ⟨s'', g5, polls, e, g6, g7⟩ := g2 id k1 k2
  refine ⟨s'', g5, polls, e, g6, fun w old => ?_⟩
  rw [g7, Sdk.softAP, w.no_name, if_neg (by decide)]

/-- A rule of the SDK as assumed. -/
def someSdk : Sdk where
  accepts n k := 1 ≤ n.length && n.length ≤ 31 && match k with
    | none => true
    | some k => 8 ≤ k.length && k.length ≤ 63
  open_ok h1 h2 := by simp [h1, h2]
  key_ok h1 h2 h3 h4 := by simp [h1, h2, h3, h4]
  no_name := by simp
  short_key h1 h2 := by simp; omega

example : isPosted [(bs "save", []), (bs "host", bs "WifInfo"), (bs "ap_psk", bs "1234567")] "save" = true ∧
    (∀ b ∈ posted [(bs "save", []), (bs "host", bs "WifInfo"), (bs "ap_psk", bs "1234567")] "ap_psk", b ≠ 0) ∧
    (posted [(bs "save", []), (bs "host", bs "WifInfo"), (bs "ap_psk", bs "1234567")] "ap_psk").length = 7 := by
  decide +kernel

/-- A device with a name and a key of eight bytes. -/
example {s : Nv} : ∃ s', s.handleForm [(bs "save", []), (bs "host", bs "WifInfo"), (bs "ap_psk", bs "12345678")] false .ok =
    .ok (s', 200) ∧ ("host", .text (some (bs "WifInfo"))) ∈ settings s'.config ∧
    ("ap_psk", .text (some (bs "12345678"))) ∈ settings s'.config := by
  obtain ⟨s', h1, h2⟩ := c33_form s [(bs "save", []), (bs "host", bs "WifInfo"), (bs "ap_psk", bs "12345678")] .ok
    (by decide +kernel)
  refine ⟨s', h1, ?_⟩
  rw [h2]
  decide +kernel

end Wifinfo
