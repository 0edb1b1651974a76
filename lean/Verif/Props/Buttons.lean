import Verif.Model.Buttons
import Verif.Props.Page
import Verif.Props.Notice

/-!
# C106: each button of the configuration page does what it says
-/

namespace Wifinfo
open Spec

namespace Spec

/-- What a caption announces, for a form with this content. -/
def announced (caption : Str) (form : Args) : List PageReq :=
  if caption = bs "Enregistrer" then [⟨.post, bs "/config_form.json", form⟩]
  else if caption = bs "Redemarrer WiFinfo" then [⟨.post, bs "/reset", []⟩]
  else if caption = bs "Oui tout effacer" then [⟨.post, bs "/factory_reset", []⟩]
  else if caption = bs "[networks]" then [⟨.get, bs "/wifiscan.json", []⟩]
  else []

/-- Can the user press a button with this caption ? In the form when no dialogue is open, else in the dialogue on top. -/
def Reachable (restricted : Bool) (p : Panel) (caption : Str) : Prop :=
  match p.dialogs with
  | [] => caption ∈ [bs "Enregistrer", bs "Redemarrer WiFinfo"] ∨
      restricted = false ∧ caption ∈ [bs "[networks]", bs "RAZ Usine"]
  | dialog :: _ => restricted = false ∧
      (dialog = bs "#confirm-raz" ∧ caption ∈ [bs "[x]", bs "Annuler", bs "Oui tout effacer"] ∨
        dialog = bs "#tab_scan" ∧ caption ∈ [bs "[x]", bs "Annuler"])

/-- The device gets the requests of the page one after the other, from the same client. -/
def sentBy (creds : Str → Str → Bool) (forwarded : Bool) (q : PageReq) : Req := ⟨q.method, q.uri, q.args, creds, forwarded⟩

end Spec

theorem form_buttons_mem {restricted : Bool} {b : Button} (h : b ∈ formButtons restricted) :
    b = saveButton ∨ b = rebootButton ∨ restricted = false ∧ (b = scanButton ∨ b = razButton) := by
  cases restricted <;> simp [formButtons] at h <;> grind

theorem dialog_buttons_mem {restricted : Bool} {dialog : Str} {b : Button} (h : b ∈ dialogButtons restricted dialog) :
    restricted = false ∧ (dialog = bs "#confirm-raz" ∧ (b = closeButton ∨ b = cancelButton ∨ b = yesButton) ∨
      dialog = bs "#tab_scan" ∧ (b = closeButton ∨ b = cancelButton)) := by
  unfold dialogButtons at h
  split at h
  · cases h
  · rename_i hr
    refine ⟨by simpa using hr, ?_⟩
    split at h
    · exact .inl ⟨‹_›, by simpa using h⟩
    · split at h
      · exact .inr ⟨‹_›, by simpa using h⟩
      · cases h

/-- The buttons that can be pressed now. -/
def Panel.buttons (restricted : Bool) (p : Panel) : List Button :=
  match p.dialogs with
  | [] => formButtons restricted
  | dialog :: _ => dialogButtons restricted dialog

/-- **C106, which buttons there are.** The captions that can be pressed. -/
theorem c106_there (restricted : Bool) (p : Panel) (caption : Str) :
    Reachable restricted p caption ↔ ∃ b ∈ p.buttons restricted, b.caption = caption := by
  unfold Panel.buttons Reachable
  constructor
  · split
    · rintro (h | ⟨rfl, h⟩)
      · simp only [List.mem_cons, List.not_mem_nil, or_false] at h
        rcases h with rfl | rfl
        · exact ⟨saveButton, by cases restricted <;> decide +kernel, rfl⟩
        · exact ⟨rebootButton, by cases restricted <;> decide +kernel, rfl⟩
      · simp only [List.mem_cons, List.not_mem_nil, or_false] at h
        rcases h with rfl | rfl
        · exact ⟨scanButton, by decide +kernel, rfl⟩
        · exact ⟨razButton, by decide +kernel, rfl⟩
    · rintro ⟨rfl, ⟨rfl, h⟩ | ⟨rfl, h⟩⟩
      · simp only [List.mem_cons, List.not_mem_nil, or_false] at h
        rcases h with rfl | rfl | rfl
        · exact ⟨closeButton, by decide +kernel, rfl⟩
        · exact ⟨cancelButton, by decide +kernel, rfl⟩
        · exact ⟨yesButton, by decide +kernel, rfl⟩
      · simp only [List.mem_cons, List.not_mem_nil, or_false] at h
        rcases h with rfl | rfl
        · exact ⟨closeButton, by decide +kernel, rfl⟩
        · exact ⟨cancelButton, by decide +kernel, rfl⟩
  · rintro ⟨b, hb, rfl⟩
    split at hb
    · rcases form_buttons_mem hb with rfl | rfl | ⟨rfl, rfl | rfl⟩
      · exact .inl (by decide +kernel)
      · exact .inl (by decide +kernel)
      · exact .inr ⟨rfl, by decide +kernel⟩
      · exact .inr ⟨rfl, by decide +kernel⟩
    · obtain ⟨rfl, ⟨rfl, rfl | rfl | rfl⟩ | ⟨rfl, rfl | rfl⟩⟩ := dialog_buttons_mem hb
      · exact ⟨rfl, .inl ⟨rfl, by decide +kernel⟩⟩
      · exact ⟨rfl, .inl ⟨rfl, by decide +kernel⟩⟩
      · exact ⟨rfl, .inl ⟨rfl, by decide +kernel⟩⟩
      · exact ⟨rfl, .inr ⟨rfl, by decide +kernel⟩⟩
      · exact ⟨rfl, .inr ⟨rfl, by decide +kernel⟩⟩

/-- What a click on each button does. -/
theorem clicks (p : Panel) (valid : Bool) :
    p.click true saveButton valid = (p, p.submit valid) ∧
    p.click true rebootButton valid = ({ p with dialogs := bs "#mdl_wait" :: p.dialogs }, [⟨.post, bs "/reset", []⟩]) ∧
    p.click true scanButton valid = ({ p with dialogs := bs "#tab_scan" :: p.dialogs }, [⟨.get, bs "/wifiscan.json", []⟩]) ∧
    p.click true razButton valid = ({ p with dialogs := bs "#confirm-raz" :: p.dialogs }, p.submit valid) ∧
    p.click false closeButton valid = ({ p with dialogs := p.dialogs.tail }, []) ∧
    p.click false cancelButton valid = ({ p with dialogs := p.dialogs.tail }, []) ∧
    p.click false yesButton valid =
      ({ p with dialogs := bs "#mdl_wait" :: p.dialogs }, [⟨.post, bs "/factory_reset", []⟩]) :=
  ⟨rfl, rfl, rfl, rfl, rfl, rfl, rfl⟩

theorem act_press (restricted : Bool) (p : Panel) (b : Button) (valid : Bool) :
    p.act restricted (.press b valid) =
      if b ∈ p.buttons restricted then p.click (decide (p.dialogs = [])) b valid else (p, []) := by
  unfold Panel.buttons
  simp only [Panel.act]
  cases h : p.dialogs with
  | nil => simp
  | cons d l => simp

theorem submit_announced (p : Panel) (valid : Bool) :
    p.submit valid = if valid then announced (bs "Enregistrer") p.form else [] := by
  unfold Panel.submit announced
  rw [if_pos rfl]

/-- **C106 (partial), buttons.** Pressing a button sends what its caption announces, once, and nothing else; `Enregistrer` sends
nothing when the form is not valid.  The content of the form stays.

Partial: the button `RAZ Usine` (`c106_raz`, `c106_refuted_cancel`). -/
theorem c106_press_partial {restricted : Bool} {p : Panel} {b : Button} (hb : b ∈ p.buttons restricted)
    (hz : b.caption ≠ bs "RAZ Usine") (valid : Bool) :
    (p.act restricted (.press b valid)).2 =
        (if b.caption = bs "Enregistrer" ∧ valid = false then [] else announced b.caption p.form) ∧
      (p.act restricted (.press b valid)).1.form = p.form := by
  rw [act_press, if_pos hb]
  obtain ⟨c1, c2, c3, c4, c5, c6, c7⟩ := clicks p valid
  unfold Panel.buttons at hb
  split at hb
  · rename_i hd
    rw [hd, decide_eq_true rfl]
    rcases form_buttons_mem hb with rfl | rfl | ⟨-, rfl | rfl⟩
    · rw [c1, submit_announced]
      cases valid <;> exact ⟨rfl, rfl⟩
    · rw [c2]; exact ⟨rfl, rfl⟩
    · rw [c3]; exact ⟨rfl, rfl⟩
    · exact absurd rfl hz
  · rename_i hd
    rw [hd, decide_eq_false (by simp)]
    obtain ⟨-, ⟨-, rfl | rfl | rfl⟩ | ⟨-, rfl | rfl⟩⟩ := dialog_buttons_mem hb
    · rw [c5]; exact ⟨rfl, rfl⟩
    · rw [c6]; exact ⟨rfl, rfl⟩
    · rw [c7]; exact ⟨rfl, rfl⟩
    · rw [c5]; exact ⟨rfl, rfl⟩
    · rw [c6]; exact ⟨rfl, rfl⟩

/-- **C106, the button `RAZ Usine`.** It asks for a confirmation, and it saves the form as `Enregistrer` does. -/
theorem c106_raz {p : Panel} (hd : p.dialogs = []) (valid : Bool) :
    p.act false (.press razButton valid) =
      ({ p with dialogs := [bs "#confirm-raz"] }, if valid then announced (bs "Enregistrer") p.form else []) := by
  have hb : razButton ∈ p.buttons false := by unfold Panel.buttons; rw [hd]; decide +kernel
  rw [act_press, if_pos hb, hd, decide_eq_true rfl, (clicks p valid).2.2.2.1, submit_announced, hd]

/-- **C106, Enter.** Enter in a field of the form saves it, and nothing else, on both pages; with a dialogue open it does
nothing to the form. -/
theorem c106_enter (restricted : Bool) (p : Panel) (valid : Bool) :
    p.act restricted (.enter valid) =
      (p, if p.dialogs = [] ∧ valid = true then announced (bs "Enregistrer") p.form else []) := by
  have hf : (formButtons restricted).find? Button.submits = some saveButton := by
    cases restricted <;> decide +kernel
  simp only [Panel.act, hf]
  cases hd : p.dialogs with
  | nil =>
    simp only [true_and]
    rw [(clicks p valid).1, submit_announced]
  | cons d l => simp

/-! ## Sessions -/

/-- What an action may do to the dialogues and send. -/
theorem act_cases (restricted : Bool) (p : Panel) (a : Act) :
    (bs "#confirm-raz" ∈ (p.act restricted a).1.dialogs → bs "#confirm-raz" ∈ p.dialogs ∨
      restricted = false ∧ ∃ v, a = .press razButton v) ∧
    (∀ q ∈ (p.act restricted a).2,
      q = ⟨.post, bs "/factory_reset", []⟩ ∧ restricted = false ∧ bs "#confirm-raz" ∈ p.dialogs ∧ (∃ v, a = .press yesButton v) ∨
      q = ⟨.post, bs "/reset", []⟩ ∧ (∃ v, a = .press rebootButton v) ∨
      q = ⟨.get, bs "/wifiscan.json", []⟩ ∧ restricted = false ∧ (∃ v, a = .press scanButton v) ∨
      q = ⟨.post, bs "/config_form.json", p.form⟩ ∧
        (a = .enter true ∨ a = .press saveButton true ∨ restricted = false ∧ a = .press razButton true)) := by
  have hsub : ∀ v, ∀ q ∈ p.submit v, v = true ∧ q = ⟨.post, bs "/config_form.json", p.form⟩ := by
    intro v q hq
    cases v with
    | true => exact ⟨rfl, by simpa [Panel.submit] using hq⟩
    | false => simp [Panel.submit] at hq
  have htail : ∀ {x : Str}, x ∈ p.dialogs.tail → x ∈ p.dialogs := fun h => List.mem_of_mem_tail h
  cases a with
  | edit f => exact ⟨fun h => .inl h, fun q hq => by simp [Panel.act] at hq⟩
  | leave => exact ⟨fun h => .inl (htail h), fun q hq => by simp [Panel.act] at hq⟩
  | enter v =>
    rw [c106_enter]
    refine ⟨fun h => .inl h, fun q hq => ?_⟩
    by_cases hv : p.dialogs = [] ∧ v = true
    · simp only [hv, and_self, if_true, announced, List.mem_singleton] at hq
      exact .inr (.inr (.inr ⟨hq, .inl (by rw [hv.2])⟩))
    · simp [if_neg hv] at hq
  | press b v =>
    rw [act_press]
    by_cases hb : b ∈ p.buttons restricted
    · rw [if_pos hb]
      obtain ⟨c1, c2, c3, c4, c5, c6, c7⟩ := clicks p v
      unfold Panel.buttons at hb
      split at hb
      · rename_i hd
        rw [hd, decide_eq_true rfl]
        rcases form_buttons_mem hb with rfl | rfl | ⟨hr, rfl | rfl⟩
        · rw [c1]
          refine ⟨fun h => ?_, fun q hq => ?_⟩
          · simp only at h; rw [hd] at h; cases h
          · obtain ⟨rfl, rfl⟩ := hsub v q hq
            exact .inr (.inr (.inr ⟨rfl, .inr (.inl rfl)⟩))
        · rw [c2]
          refine ⟨fun h => ?_, fun q hq => ?_⟩
          · rw [hd, List.mem_singleton] at h; exact absurd h (by decide +kernel)
          · exact .inr (.inl ⟨List.mem_singleton.1 hq, v, rfl⟩)
        · rw [c3]
          refine ⟨fun h => ?_, fun q hq => ?_⟩
          · rw [hd, List.mem_singleton] at h; exact absurd h (by decide +kernel)
          · exact .inr (.inr (.inl ⟨List.mem_singleton.1 hq, hr, v, rfl⟩))
        · rw [c4]
          refine ⟨fun _ => .inr ⟨hr, v, rfl⟩, fun q hq => ?_⟩
          obtain ⟨rfl, rfl⟩ := hsub v q hq
          exact .inr (.inr (.inr ⟨rfl, .inr (.inr ⟨hr, rfl⟩)⟩))
      · rename_i dialog l hd
        have hf : decide (p.dialogs = []) = false := by rw [hd]; exact decide_eq_false (by simp)
        rw [hf]
        obtain ⟨hr, ⟨rfl, rfl | rfl | rfl⟩ | ⟨-, rfl | rfl⟩⟩ := dialog_buttons_mem hb
        · rw [c5]; exact ⟨fun h => .inl (htail h), fun q hq => by cases hq⟩
        · rw [c6]; exact ⟨fun h => .inl (htail h), fun q hq => by cases hq⟩
        · rw [c7]
          refine ⟨fun h => .inl ?_, fun q hq => .inl ⟨List.mem_singleton.1 hq, hr, ?_, v, rfl⟩⟩
          · rw [hd]; exact List.mem_cons_self
          · rw [hd]; exact List.mem_cons_self
        · rw [c5]; exact ⟨fun h => .inl (htail h), fun q hq => by cases hq⟩
        · rw [c6]; exact ⟨fun h => .inl (htail h), fun q hq => by cases hq⟩
    · rw [if_neg hb]
      exact ⟨fun h => .inl h, fun q hq => by cases hq⟩

theorem session_sent (restricted : Bool) : ∀ (l : List Act) (p : Panel) (q : PageReq), q ∈ (p.session restricted l).2 →
    ∃ l1 a l2, l = l1 ++ a :: l2 ∧ q ∈ ((p.session restricted l1).1.act restricted a).2 := by
  intro l
  induction l with
  | nil => intro p q h; cases h
  | cons a l ih =>
    intro p q h
    rcases List.mem_append.1 h with h | h
    · exact ⟨[], a, l, rfl, h⟩
    · obtain ⟨l1, a', l2, rfl, h'⟩ := ih _ q h
      exact ⟨a :: l1, a', l2, rfl, h'⟩

theorem session_dialog (restricted : Bool) : ∀ (l : List Act) (p : Panel),
    bs "#confirm-raz" ∈ (p.session restricted l).1.dialogs → bs "#confirm-raz" ∈ p.dialogs ∨
      restricted = false ∧ ∃ l1 v l2, l = l1 ++ .press razButton v :: l2 := by
  intro l
  induction l with
  | nil => intro p h; exact .inl h
  | cons a l ih =>
    intro p h
    rcases ih _ h with h | ⟨hr, l1, v, l2, rfl⟩
    · rcases (act_cases restricted p a).1 h with h | ⟨hr, v, rfl⟩
      · exact .inl h
      · exact .inr ⟨hr, [], v, l, rfl⟩
    · exact .inr ⟨hr, a :: l1, v, l2, rfl⟩

/-- The content of the form at the end of a session: as it was last filled. -/
theorem act_form (restricted : Bool) (p : Panel) (a : Act) :
    (p.act restricted a).1.form = match a with | .edit f => f | _ => p.form := by
  cases a with
  | edit f => rfl
  | leave => rfl
  | enter v => rw [c106_enter]
  | press b v =>
    rw [act_press]
    split <;> rfl

/-- **C106, the reset is confirmed.** In any session on a page without open dialogue, the reset to the factory settings is asked
only after `RAZ Usine` and then `Oui tout effacer` were pressed; never on the restricted page. -/
theorem c106_confirmed {restricted : Bool} {p : Panel} (hp : p.dialogs = []) {l : List Act} {q : PageReq}
    (hq : q ∈ (p.session restricted l).2) (hu : q.uri = bs "/factory_reset") :
    restricted = false ∧ ∃ l1 v1 l2 v2 l3, l = l1 ++ .press razButton v1 :: l2 ++ .press yesButton v2 :: l3 := by
  obtain ⟨l1, a, l2, rfl, h⟩ := session_sent restricted l p q hq
  rcases (act_cases restricted _ a).2 q h with ⟨-, hr, hd, v, rfl⟩ | ⟨rfl, -⟩ | ⟨rfl, -⟩ | ⟨rfl, -⟩
  · rcases session_dialog restricted l1 p hd with hd | ⟨-, k1, v1, k2, rfl⟩
    · rw [hp] at hd; cases hd
    · exact ⟨hr, k1, v1, k2, v, l2, rfl⟩
  · exact absurd hu (by decide +kernel)
  · exact absurd hu (by decide +kernel)
  · exact absurd (show bs "/config_form.json" = _ from hu) (by decide +kernel)

/-- **C106, who sends what.** In any session every request of the page comes from a button whose caption announces it, from Enter,
or from `RAZ Usine` for the form, which is sent as it is filled at that moment. -/
theorem c106_session {restricted : Bool} {p : Panel} {l : List Act} {q : PageReq} (hq : q ∈ (p.session restricted l).2) :
    ∃ l1 a l2, l = l1 ++ a :: l2 ∧
      ((∃ b v, a = .press b v ∧ q ∈ announced b.caption (p.session restricted l1).1.form) ∨
        (a = .enter true ∨ a = .press razButton true) ∧ q = ⟨.post, bs "/config_form.json", (p.session restricted l1).1.form⟩) := by
  obtain ⟨l1, a, l2, rfl, h⟩ := session_sent restricted l p q hq
  refine ⟨l1, a, l2, rfl, ?_⟩
  rcases (act_cases restricted _ a).2 q h with ⟨rfl, -, -, v, rfl⟩ | ⟨rfl, v, rfl⟩ | ⟨rfl, -, v, rfl⟩ | ⟨rfl, rfl | rfl | ⟨-, rfl⟩⟩
  · exact .inl ⟨yesButton, v, rfl, List.mem_singleton.2 rfl⟩
  · exact .inl ⟨rebootButton, v, rfl, List.mem_singleton.2 rfl⟩
  · exact .inl ⟨scanButton, v, rfl, List.mem_singleton.2 rfl⟩
  · exact .inr ⟨.inl rfl, rfl⟩
  · exact .inl ⟨saveButton, true, rfl, List.mem_singleton.2 rfl⟩
  · exact .inr ⟨.inr rfl, rfl⟩

/-! ## With a device -/

/-- Asking for the reset and giving it up: what the page sends. -/
theorem given_up (form : Args) (valid v : Bool) :
    (Panel.mk form []).session false [.press razButton valid, .press cancelButton v] =
      (⟨form, []⟩, if valid then [⟨.post, bs "/config_form.json", form⟩] else []) := by
  have h1 := c106_raz (p := ⟨form, []⟩) rfl valid
  have hb : cancelButton ∈ (Panel.mk form [bs "#confirm-raz"]).buttons false :=
    show cancelButton ∈ dialogButtons false (bs "#confirm-raz") by decide +kernel
  have h2 : (Panel.mk form [bs "#confirm-raz"]).act false (.press cancelButton v) = (⟨form, []⟩, []) := by
    rw [act_press, if_pos hb]
    exact (clicks _ v).2.2.2.2.2.1
  simp only [Panel.session, h1, h2, List.append_nil]
  rfl

/-- **C106** as stated is false: whoever presses `RAZ Usine` and then `Annuler` has saved the form.  On any device, for a client
with full access, whatever was typed and not saved becomes the settings. -/
theorem c106_refuted_cancel {b : Build} {d : Device} {e : Env} (creds : Str → Str → Bool) (forwarded : Bool) {form : Args}
    (hf : isPosted form "save" = true) (v : Bool)
    (hc : ∀ q, Client d.nv.config (sentBy creds forwarded q) .full) :
    ∃ q d' l, ((Panel.mk form []).session false [.press razButton true, .press cancelButton v]).2 = [q] ∧
      d.handle b e (sentBy creds forwarded q) = .ok (d', l) ∧
      settings d'.nv.config = postedPrivate form ++ postedPublic form := by
  obtain ⟨s', h1, h2⟩ := c33_form d.nv form e.commit hf
  refine ⟨⟨.post, bs "/config_form.json", form⟩, _, _, by rw [given_up]; rfl, form_handled rfl (hc _) (by decide) h1, h2⟩

/-- **C106 (partial), giving up the reset.** On a page filled with the settings of the device and not touched, or on a form that
is not valid, `RAZ Usine` and then `Annuler` change no setting.

Partial: the form was not touched, and the page can show the settings (C75); `c106_refuted_cancel`. -/
theorem c106_cancel_partial {b : Build} {d : Device} {e : Env} (w : Browser) (creds : Str → Str → Bool) (forwarded : Bool)
    (hs : NvReach d.nv) (h1 : SimpleTexts (settings d.nv.config)) (h2 : NumbersInRange (settings d.nv.config))
    (h3 : PeriodsOffered (settings d.nv.config)) (hc : ∀ q, Client d.nv.config (sentBy creds forwarded q) .full) (v : Bool) :
    (∀ form, ((Panel.mk form []).session false [.press razButton false, .press cancelButton v]).2 = []) ∧
    ∃ j q d' l, d.nv.config.getJson false = .ok j ∧
      ((Panel.mk (w.save false j) []).session false [.press razButton true, .press cancelButton v]).2 = [q] ∧
      d.handle b e (sentBy creds forwarded q) = .ok (d', l) ∧ settings d'.nv.config = settings d.nv.config := by
  refine ⟨fun form => by rw [given_up]; rfl, ?_⟩
  obtain ⟨j, s', g1, g2, g3⟩ := c75_untouched_partial w hs h1 h2 h3 e.commit
  exact ⟨j, ⟨.post, bs "/config_form.json", w.save false j⟩, _, _, g1, by rw [given_up]; rfl,
    form_handled rfl (hc _) (by decide) g2, g3⟩

/-- **C106, the button that restarts.** It restarts the device of a client who has rights and leaves its settings, whatever was
typed in the form. -/
theorem c106_restart {b : Build} {d : Device} {e : Env} {restricted : Bool} (creds : Str → Str → Bool) (forwarded : Bool)
    (form : Args) (v : Bool) (hc : ∀ q, Guest d.nv.config (sentBy creds forwarded q)) :
    ∃ q, ((Panel.mk form []).session restricted [.press rebootButton v]).2 = [q] ∧
      d.handle b e (sentBy creds forwarded q) = .ok (d, [.send 200 (bs "Restart"), .restart]) := by
  refine ⟨⟨.post, bs "/reset", []⟩, ?_, (c91_restart rfl).1 (hc _)⟩
  have hb : rebootButton ∈ (Panel.mk form []).buttons restricted := by
    show rebootButton ∈ formButtons restricted
    cases restricted <;> decide +kernel
  simp only [Panel.session, act_press, if_pos hb, List.append_nil]
  rfl

/-- **C106, the confirmed reset.** `RAZ Usine` and then `Oui tout effacer`, by a client with full access: the device saves the
form, if it is valid, then gets the settings of the factory and restarts. -/
theorem c106_reset (form : Args) (valid v : Bool) :
    ((Panel.mk form []).session false [.press razButton valid, .press yesButton v]).2 =
      (if valid then [⟨.post, bs "/config_form.json", form⟩] else []) ++ [⟨.post, bs "/factory_reset", []⟩] := by
  have h1 := c106_raz (p := ⟨form, []⟩) rfl valid
  have hb : yesButton ∈ (Panel.mk form [bs "#confirm-raz"]).buttons false :=
    show yesButton ∈ dialogButtons false (bs "#confirm-raz") by decide +kernel
  have h2 : ((Panel.mk form [bs "#confirm-raz"]).act false (.press yesButton v)).2 = [⟨.post, bs "/factory_reset", []⟩] := by
    rw [act_press, if_pos hb]
    rfl
  simp only [Panel.session, h1, h2, List.append_nil]
  rfl

/-! ## Cases -/

-- A session on the full page.
example : ((Panel.mk [(bs "save", bs "1")] []).session false
    [.press yesButton true, .press scanButton true, .press saveButton true, .leave, .edit [(bs "save", bs "1"), (bs "ssid", bs "x")],
      .enter true, .press razButton false, .enter true, .press yesButton true]).2 =
    [⟨.get, bs "/wifiscan.json", []⟩, ⟨.post, bs "/config_form.json", [(bs "save", bs "1"), (bs "ssid", bs "x")]⟩,
      ⟨.post, bs "/factory_reset", []⟩] := by decide +kernel

-- A device without user name, which the page can show: every client has full access.
example : ∃ s : Nv, NvReach s ∧ SimpleTexts (settings s.config) ∧ NumbersInRange (settings s.config) ∧
    PeriodsOffered (settings s.config) ∧ (∀ creds forwarded q, Client s.config (sentBy creds forwarded q) .full) ∧
    ("ssid", .text (some (bs "Maison 2.4"))) ∈ settings s.config ∧ isPosted wipedForm "save" = true := by
  obtain ⟨s, h1, h2⟩ := reach_form blankFlash 1 someForm (by decide +kernel)
  refine ⟨s, h1, by rw [h2]; exact simple_posted (by decide +kernel),
    by rw [h2]; exact fun p hp n hn => c33_ranges someForm p.1 n (hn ▸ hp),
    by rw [h2]; exact offered_posted (by decide +kernel), fun creds forwarded q => .anybody ?_, by rw [h2]; decide +kernel,
    by decide +kernel⟩
  have := congrArg (fun l => l[6]?) h2
  rw [show (postedPrivate someForm ++ postedPublic someForm)[6]? = some ("username", .text (some [])) by decide +kernel] at this
  simpa [settings, privateSettings, HasText] using this

end Wifinfo
