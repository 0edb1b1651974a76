import Verif.Props.Page
import Verif.Model.Edit

/-!
# C126: saving the configuration page changes only what was changed on it
-/

namespace Wifinfo
open Spec

namespace Spec

/-- The settings after (`p` in `new`), those shown when the page was opened and what was changed on the page: a setting that was changed
is what was entered, the others are as shown. -/
def OnlyEdited (ed : Str → Option (Option Str)) (shown new : List (String × Setting)) : Prop :=
  ∀ p ∈ new, match ed (bs p.1) with
    | some x => AsTyped x p.2
    | none => p ∈ shown

/-- What was changed is within the limits of the controls and of the device (C76). -/
def Reasonable (restricted : Bool) (ed : Str → Option (Option Str)) : Prop :=
  (∀ f ∈ formFields restricted, ∀ x, ed f.1 = some x → Allowed f.2 x) ∧ DeviceLimits fun name => (ed (bs name)).join

end Spec

/-! ## Proof -/

/-- How each setting depends on what is posted under its name. -/
def publicMeaning : List (String × (Str → Bool → Setting)) :=
  [("sse_freq", fun v _ => .num (inRange v 360 0)), ("cfg_led_tinfo", fun _ b => flag b),
   ("emon_host", fun v _ => cutText v 32), ("emon_port", fun v _ => .num (inRange v 65535 80)),
   ("emon_url", fun v _ => cutText v 32), ("emon_apikey", fun v _ => cutText v 32),
   ("emon_node", fun v _ => .num (inRange v 255 0)), ("emon_freq", fun v _ => .num (inRange v 86400 0)),
   ("jdom_host", fun v _ => cutText v 32), ("jdom_port", fun v _ => .num (inRange v 65535 80)),
   ("jdom_url", fun v _ => cutText v 64), ("jdom_apikey", fun v _ => cutText v 48),
   ("jdom_adco", fun v _ => cutText v 12), ("jdom_freq", fun v _ => .num (inRange v 86400 0)),
   ("httpreq_host", fun v _ => cutText v 32), ("httpreq_port", fun v _ => .num (inRange v 65535 80)),
   ("httpreq_url", fun v _ => cutText v 150), ("httpreq_use_post", fun _ b => flag b),
   ("httpreq_freq", fun v _ => .num (inRange v 86400 0)), ("httpreq_trigger_ptec", fun _ b => flag b),
   ("httpreq_trigger_adps", fun _ b => flag b), ("httpreq_trigger_seuils", fun _ b => flag b),
   ("httpreq_seuil_bas", fun v _ => .num (inRange v 20000 0)), ("httpreq_seuil_haut", fun v _ => .num (inRange v 20000 0))]

def privateMeaning : List (String × (Str → Bool → Setting)) :=
  [("ssid", fun v _ => cutText v 32), ("psk", fun v _ => cutText v 64), ("host", fun v _ => cutText v 16),
   ("ap_psk", fun v _ => cutText v 64), ("ota_auth", fun v _ => cutText v 64),
   ("ota_port", fun v _ => .num (inRange v 65535 8266)), ("username", fun v _ => cutText v 31),
   ("password", fun v _ => cutText v 31)]

theorem posted_meaning (a : Args) :
    postedPrivate a = privateMeaning.map (fun m => (m.1, m.2 (posted a m.1) (isPosted a m.1))) ∧
    postedPublic a = publicMeaning.map (fun m => (m.1, m.2 (posted a m.1) (isPosted a m.1))) := ⟨rfl, rfl⟩

theorem meaning_fields (restricted : Bool) : ∀ m ∈ (if restricted then publicMeaning else privateMeaning ++ publicMeaning),
    ∃ ctl, (bs m.1, ctl) ∈ formFields restricted := by
  intro m hm
  have h : ∀ n ∈ (if restricted then publicMeaning else privateMeaning ++ publicMeaning).map Prod.fst,
      ((formFields restricted).any fun f => decide (f.1 = bs n)) = true := by
    cases restricted <;> decide +kernel
  obtain ⟨f, hf, e⟩ := List.any_eq_true.1 (h m.1 (List.mem_map.2 ⟨m, hm, rfl⟩))
  exact ⟨f.2, of_decide_eq_true e ▸ hf⟩

theorem edited_posted (w : Browser) (restricted : Bool) (j : Str) (ed : Str → Option (Option Str)) (name : String) (ctl : Control)
    (hf : (bs name, ctl) ∈ formFields restricted) :
    match ed (bs name) with
    | some x => posted (w.edited restricted j ed) name = x.getD [] ∧ isPosted (w.edited restricted j ed) name = x.isSome
    | none => posted (w.edited restricted j ed) name = posted (w.save restricted j) name ∧
        isPosted (w.edited restricted j ed) name = isPosted (w.save restricted j) name := by
  unfold Browser.edited Browser.save
  have h := posted_of (q := fun f => match ed f.1 with
    | some x => x.map fun v => (f.1, v)
    | none => w.control (match parseJson j with | some (.obj o) => o | _ => []) f) (by
    intro g x hx
    split at hx
    · rename_i y _
      cases y with
      | none => cases hx
      | some y => cases hx; rfl
    · exact control_name w _ g x hx) restricted name ctl hf
  have h' := posted_field w (match parseJson j with | some (.obj o) => o | _ => []) restricted name ctl hf
  dsimp only at h h' ⊢
  cases he : ed (bs name) with
  | some x =>
    rw [he] at h
    refine ⟨h.1.trans ?_, h.2.trans ?_⟩ <;> cases x <;> rfl
  | none =>
    rw [he] at h
    exact ⟨h.1.trans h'.1.symm, h.2.trans h'.2.symm⟩

theorem entered_good : (∀ f ∈ formFields false, Allowed f.2 (entered goodEntries f.1)) ∧
    DeviceLimits fun name => entered goodEntries (bs name) := by
  refine ⟨fun f hf => allowed_iff ?_, ?_, ?_⟩
  · have : ((formFields false).all fun f => allowed f.2 (entered goodEntries f.1)) = true := by decide +kernel
    exact List.all_eq_true.1 this f hf
  · intro name hn t ht
    have : ∀ name ∈ ["ssid", "psk", "host", "ap_psk", "ota_auth", "username", "password", "emon_host", "emon_url",
        "emon_apikey", "jdom_host", "jdom_url", "jdom_apikey", "jdom_adco", "httpreq_host", "httpreq_url"],
        (match entered goodEntries (bs name) with
        | some t => decide (t.length ≤ keptBytes name)
        | none => true) = true := by decide +kernel
    have h := this name hn
    rw [show entered goodEntries (bs name) = some t from ht] at h
    simpa using h
  · intro name hn t ht
    have : ∀ name ∈ ["emon_port", "jdom_port", "httpreq_port", "httpreq_seuil_bas", "httpreq_seuil_haut"],
        (match entered goodEntries (bs name) with
        | some t => decide (t ≠ [] ∧ numeral t = true ∧ decVal t ≤ maxOf name)
        | none => true) = true := by decide +kernel
    have h := this name hn
    rw [show entered goodEntries (bs name) = some t from ht] at h
    simpa using h

theorem restricted_fields : ∀ f ∈ formFields true, f ∈ formFields false := by
  intro f hf
  simp only [formFields, if_true, List.nil_append, List.append_nil, Bool.false_eq_true, if_false, List.mem_cons, List.mem_append] at hf ⊢
  rcases hf with h | h | h
  · exact .inl h
  · exact .inr (.inl (.inl (.inr h)))
  · exact .inr (.inr h)

theorem field_unique {r : Bool} {f g : Str × Control} (hf : f ∈ formFields r) (hg : g ∈ formFields r) (h : f.1 = g.1) : f = g := by
  have hn := fields_nodup r
  generalize formFields r = l at hf hg hn
  induction l with
  | nil => cases hf
  | cons x l ih =>
    rw [List.map_cons, List.nodup_cons] at hn
    rcases List.mem_cons.1 hf with rfl | hf' <;> rcases List.mem_cons.1 hg with rfl | hg'
    · rfl
    · exact absurd (List.mem_map.2 ⟨g, hg', h.symm⟩) hn.1
    · exact absurd (List.mem_map.2 ⟨f, hf', h⟩) hn.1
    · exact ih hf' hg' hn.2

/-- What was changed has its meaning. -/
theorem edited_typed (s : Nv) {restricted : Bool} {ed : Str → Option (Option Str)} (h : Reasonable restricted ed)
    {m : String × (Str → Bool → Setting)}
    (hm : m ∈ (if restricted then publicMeaning else privateMeaning ++ publicMeaning)) {x : Option Str} (hx : ed (bs m.1) = some x) :
    AsTyped x (m.2 (x.getD []) x.isSome) := by
  obtain ⟨h1, h2⟩ := h
  obtain ⟨hg1, hg2⟩ := entered_good
  -- what was changed, among good entries
  obtain ⟨v, hv⟩ : ∃ v : Str → Option Str, v = fun n => if n ∈ (formFields restricted).map Prod.fst then
      (ed n).getD (entered goodEntries n) else entered goodEntries n := ⟨_, rfl⟩
  have a1 : ∀ f ∈ formFields false, Allowed f.2 (v f.1) := by
    intro f hf
    rw [hv]
    dsimp only
    split
    · rename_i hr
      obtain ⟨g, hg, e⟩ := List.mem_map.1 hr
      have : g = f := field_unique (by cases restricted with | false => exact hg | true => exact restricted_fields g hg) hf e
      subst this
      cases he : ed g.1 with
      | none => exact hg1 g hf
      | some y => exact h1 g hg y he
    · exact hg1 f hf
  have cases_v : ∀ name t, v (bs name) = some t → (ed (bs name)).join = some t ∨ entered goodEntries (bs name) = some t := by
    intro name t ht
    rw [hv] at ht
    dsimp only at ht
    split at ht
    · cases he : ed (bs name) with
      | none => rw [he] at ht; exact .inr ht
      | some y => rw [he] at ht; exact .inl ht
    · exact .inr ht
  have a2 : DeviceLimits fun name => v (bs name) := by
    refine ⟨fun name hn t ht => ?_, fun name hn t ht => ?_⟩
    · rcases cases_v name t ht with ht | ht
      · exact h2.1 name hn t ht
      · exact hg2.1 name hn t ht
    · rcases cases_v name t ht with ht | ht
      · exact h2.2 name hn t ht
      · exact hg2.2 name hn t ht
  obtain ⟨s', g1, g2⟩ := c76_stored_partial s v .ok a1 a2
  have hs : isPosted (typedForm v) "save" = true := by
    rw [(posted_typed v "save" (.hidden (bs "1")) (by simp [formFields])).2,
      show v (bs "save") = some (bs "1") from a1 (bs "save", .hidden (bs "1")) (by simp [formFields])]
    rfl
  obtain ⟨s2, g3, g4⟩ := c33_form s (typedForm v) .ok hs
  rw [g1] at g3
  obtain rfl := (Prod.mk.inj (Except.ok.inj g3)).1
  rw [g4, (posted_meaning _).1, (posted_meaning _).2, ← List.map_append] at g2
  obtain ⟨ctl, hf⟩ := meaning_fields restricted m hm
  have hm' : m ∈ privateMeaning ++ publicMeaning := by
    cases restricted with
    | false => exact hm
    | true => exact List.mem_append_right _ hm
  have := g2 _ (List.mem_map.2 ⟨m, hm', rfl⟩)
  dsimp only at this
  have hvx : v (bs m.1) = x := by
    rw [hv]
    dsimp only
    rw [if_pos (List.mem_map.2 ⟨_, hf, rfl⟩), hx]
    rfl
  obtain ⟨q1, q2⟩ := posted_typed v m.1 ctl (by cases restricted with | false => exact hf | true => exact restricted_fields _ hf)
  rw [q1, q2, hvx] at this
  exact this

/-- The settings made of the post of the page where some controls were changed, and of the page as it was opened. -/
theorem edited_only (s : Nv) (w : Browser) {restricted : Bool} (j : Str) {ed : Str → Option (Option Str)} (h : Reasonable restricted ed)
    (l : List (String × (Str → Bool → Setting))) (hl : ∀ m ∈ l, m ∈ (if restricted then publicMeaning else privateMeaning ++ publicMeaning)) :
    OnlyEdited ed (l.map fun m => (m.1, m.2 (posted (w.save restricted j) m.1) (isPosted (w.save restricted j) m.1)))
      (l.map fun m => (m.1, m.2 (posted (w.edited restricted j ed) m.1) (isPosted (w.edited restricted j ed) m.1))) := by
  intro p hp
  obtain ⟨m, hm, rfl⟩ := List.mem_map.1 hp
  obtain ⟨ctl, hf⟩ := meaning_fields restricted m (hl m hm)
  have e := edited_posted w restricted j ed m.1 ctl hf
  dsimp only
  cases hx : ed (bs m.1) with
  | some x =>
    rw [hx] at e
    dsimp only
    rw [e.1, e.2]
    exact edited_typed s h (hl m hm) hx
  | none =>
    rw [hx] at e
    dsimp only
    rw [e.1, e.2]
    exact List.mem_map.2 ⟨m, hm, rfl⟩

theorem edited_save (w : Browser) {restricted : Bool} (j : Str) {ed : Str → Option (Option Str)} (h : Reasonable restricted ed) :
    isPosted (w.edited restricted j ed) "save" = true := by
  have hf : (bs "save", Control.hidden (bs "1")) ∈ formFields restricted := List.mem_cons_self
  have e := edited_posted w restricted j ed "save" _ hf
  cases hx : ed (bs "save") with
  | some x =>
    rw [hx] at e
    rw [e.2, show x = some (bs "1") from h.1 _ hf x hx]
    rfl
  | none =>
    rw [hx] at e
    rw [e.2, save_posted]

/-! ## C126 -/

/-- **C126 (partial).**  The page is opened on settings that it can show (C75), some controls are changed to values within the limits
(C76), and the form is saved, whatever the settings of the device are by then, the browser and the state of the flash: the settings
that were changed on the page are what was entered, all the others are those that the page was opened with.

Missing with respect to the property as stated: the settings that were changed in the meantime by someone else are lost
(`c126_refuted_stale`); settings that the page cannot show or take (C75, C76). -/
theorem c126_edits_partial (w : Browser) {s : Nv} (hs : NvReach s) (h1 : SimpleTexts (settings s.config))
    (h2 : NumbersInRange (settings s.config)) (h3 : PeriodsOffered (settings s.config)) (ed : Str → Option (Option Str))
    (h : Reasonable false ed) (t : Nv) (k : Commit) :
    ∃ j t', s.config.getJson false = .ok j ∧ t.handleForm (w.edited false j ed) false k = .ok (t', 200) ∧
      OnlyEdited ed (settings s.config) (settings t'.config) := by
  obtain ⟨j, hj, hp⟩ := c36_parses_partial hs
  replace hp := hp.2 (simple_plain h1)
  obtain ⟨t', g1, g2⟩ := c33_form t (w.edited false j ed) k (edited_save w j h)
  refine ⟨j, t', hj, g1, ?_⟩
  have hF : Filled w false (settings s.config) (w.save false j) :=
    ⟨settings_names _ false, by unfold Browser.save; rw [hp], h1, h2, h3⟩
  have e : settings s.config = postedPrivate (w.save false j) ++ postedPublic (w.save false j) := by
    rw [filled_private (c32_terminated hs) hF fun p hp => List.mem_append_left _ hp,
      filled_public (c32_terminated hs) hF fun p hp => List.mem_append_right _ hp]
    rfl
  rw [g2, e, (posted_meaning (w.save false j)).1, (posted_meaning (w.save false j)).2, (posted_meaning (w.edited false j ed)).1,
    (posted_meaning (w.edited false j ed)).2, ← List.map_append, ← List.map_append]
  exact edited_only s w j h _ fun m hm => hm

/-- **C126 (partial).**  The same for the page of restricted clients, which leaves the private settings as they are by then. -/
theorem c126_edits_restricted_partial (w : Browser) {s : Nv} (hs : NvReach s) (h1 : SimpleTexts (publicSettings s.config))
    (h2 : NumbersInRange (publicSettings s.config)) (h3 : PeriodsOffered (publicSettings s.config)) (ed : Str → Option (Option Str))
    (h : Reasonable true ed) {t : Nv} (ht : NvReach t) (k : Commit) :
    ∃ j t', s.config.getJson true = .ok j ∧ t.handleForm (w.edited true j ed) true k = .ok (t', 200) ∧
      OnlyEdited ed (publicSettings s.config) (publicSettings t'.config) ∧ privateSettings t'.config = privateSettings t.config := by
  obtain ⟨j, hj, hp⟩ := c36_parses_restricted_partial hs
  replace hp := hp.2 (simple_plain h1)
  obtain ⟨c, g1, g2, g3⟩ := handleForm_ok t (w.edited true j ed) true k (edited_save w j h)
  have hF : Filled w true (publicSettings s.config) (w.save true j) :=
    ⟨settings_names _ true, by unfold Browser.save; rw [hp], h1, h2, h3⟩
  have e := filled_public (c32_terminated hs) hF fun p hp => hp
  refine ⟨j, _, hj, g1, ?_⟩
  have hT : Terminated c := by
    intro p hp
    unfold settings at hp
    rw [g3] at hp
    rcases List.mem_append.1 hp with hp | hp
    · exact c32_terminated ht p (List.mem_append_left _ hp)
    · rw [g2] at hp
      exact postedPublic_text _ p hp
  have hs' : settings (Nv.configSave { t with config := c } k).1.config = settings c := by
    rw [Nv.configSave_eq]
    show settings c.stamp.securize = _
    rw [Config.securize_settings (Config.stamp_terminated hT), Config.stamp_settings]
  obtain ⟨e1, e2⟩ := List.append_inj hs' rfl
  refine ⟨?_, e1.trans g3⟩
  show OnlyEdited ed _ (publicSettings _)
  rw [e2, g2, ← e, (posted_meaning (w.save true j)).2, (posted_meaning (w.edited true j ed)).2]
  exact edited_only s w j h _ fun m hm => hm

/-- The settings of `someForm` (C75). -/
theorem some_shown : ∃ s : Nv, NvReach s ∧ SimpleTexts (settings s.config) ∧ NumbersInRange (settings s.config) ∧
    PeriodsOffered (settings s.config) ∧ settings s.config = postedPrivate someForm ++ postedPublic someForm := by
  obtain ⟨s, h1, h2⟩ := reach_form blankFlash 1 someForm (by decide +kernel)
  exact ⟨s, h1, by rw [h2]; exact simple_posted (by decide +kernel), by rw [h2]; exact fun p hp n hn => c33_ranges someForm p.1 n (hn ▸ hp),
    by rw [h2]; exact offered_posted (by decide +kernel), h2⟩

/-- One text is changed. -/
def oneText (name v : Str) : Str → Option (Option Str) := fun n => if n = name then some (some v) else none

theorem one_reasonable (r : Bool) (name v : Str) (h1 : ∀ f ∈ formFields r, f.1 = name → allowed f.2 (some v) = true)
    (h2 : ∀ name' ∈ ["ssid", "psk", "host", "ap_psk", "ota_auth", "username", "password", "emon_host", "emon_url", "emon_apikey",
      "jdom_host", "jdom_url", "jdom_apikey", "jdom_adco", "httpreq_host", "httpreq_url"], bs name' = name → v.length ≤ keptBytes name')
    (h3 : ∀ name' ∈ ["emon_port", "jdom_port", "httpreq_port", "httpreq_seuil_bas", "httpreq_seuil_haut"], bs name' ≠ name) :
    Reasonable r (oneText name v) := by
  have e : ∀ n x, oneText name v n = some x → n = name ∧ x = some v := by
    intro n x hx
    unfold oneText at hx
    split at hx
    · exact ⟨by assumption, (Option.some.inj hx).symm⟩
    · cases hx
  have e' : ∀ n t, (oneText name v n).join = some t → n = name ∧ t = v := by
    intro n t ht
    cases hx : oneText name v n with
    | none => rw [hx] at ht; cases ht
    | some x =>
      obtain ⟨h, rfl⟩ := e n x hx
      rw [hx] at ht
      exact ⟨h, (Option.some.inj ht).symm⟩
  refine ⟨fun f hf x hx => ?_, fun n hn t ht => ?_, fun n hn t ht => ?_⟩
  · obtain ⟨h, rfl⟩ := e _ _ hx
    exact allowed_iff (h1 f hf h)
  · obtain ⟨h, rfl⟩ := e' _ _ ht
    exact h2 n hn h
  · exact absurd (e' _ _ ht).1 (h3 n hn)

theorem jdom_reasonable (r : Bool) : Reasonable r (oneText (bs "jdom_host") (bs "jeedom.local")) := by
  refine one_reasonable r _ _ ?_ ?_ ?_ <;> cases r <;> decide +kernel

theorem emon_reasonable (r : Bool) : Reasonable r (oneText (bs "emon_host") (bs "emoncms.org")) := by
  refine one_reasonable r _ _ ?_ ?_ ?_ <;> cases r <;> decide +kernel

/-- The hypotheses of C126: a text is changed, and the settings are those of `someForm`. -/
example : ∃ s : Nv, NvReach s ∧ SimpleTexts (settings s.config) ∧ NumbersInRange (settings s.config) ∧ PeriodsOffered (settings s.config) ∧
    ("jdom_host", .text (some [])) ∈ settings s.config ∧
    Reasonable false (oneText (bs "jdom_host") (bs "jeedom.local")) ∧ Reasonable true (oneText (bs "jdom_host") (bs "jeedom.local")) := by
  obtain ⟨s, h1, h2, h3, h4, h5⟩ := some_shown
  exact ⟨s, h1, h2, h3, h4, by rw [h5]; decide +kernel, jdom_reasonable _, jdom_reasonable _⟩

theorem edited_text {name v : Str} {shown new : List (String × Setting)} (h : OnlyEdited (oneText name v) shown new) {n : String} {t : Option Str}
    (hm : (n, Setting.text t) ∈ new) : if bs n = name then t = some v else (n, Setting.text t) ∈ shown := by
  have := h _ hm
  unfold oneText at this
  dsimp only at this
  split
  · rename_i e
    rw [if_pos e] at this
    exact this
  · rename_i e
    rw [if_neg e] at this
    exact this

/-- **C126** as stated is false: the page is open in two browsers; the first one gives the host of jeedom and saves, then the second one
gives the host of emoncms and saves: the host of jeedom is lost, and both browsers were told that their settings are saved. -/
theorem c126_refuted_stale : ∃ s : Nv, NvReach s ∧ ∀ w1 w2 : Browser, ∃ j s1 s2, s.config.getJson false = .ok j ∧
    s.handleForm (w1.edited false j (oneText (bs "jdom_host") (bs "jeedom.local"))) false .ok = .ok (s1, 200) ∧
    ("jdom_host", .text (some (bs "jeedom.local"))) ∈ settings s1.config ∧
    s1.handleForm (w2.edited false j (oneText (bs "emon_host") (bs "emoncms.org"))) false .ok = .ok (s2, 200) ∧
    ("emon_host", .text (some (bs "emoncms.org"))) ∈ settings s2.config ∧ ("jdom_host", .text (some [])) ∈ settings s2.config := by
  obtain ⟨s, h1, h2, h3, h4, h5⟩ := some_shown
  refine ⟨s, h1, fun w1 w2 => ?_⟩
  obtain ⟨j, s1, a1, a2, a3⟩ := c126_edits_partial w1 h1 h2 h3 h4 _ (jdom_reasonable false) s .ok
  obtain ⟨j', s2, b1, b2, b3⟩ := c126_edits_partial w2 h1 h2 h3 h4 _ (emon_reasonable false) s1 .ok
  obtain rfl := Except.ok.inj (a1.symm.trans b1)
  have mj : ∀ c : Config, ∃ t, ("jdom_host", Setting.text t) ∈ settings c := fun c =>
    ⟨_, List.mem_append_right _ (List.mem_of_getElem? (i := 8) rfl)⟩
  have me : ∀ c : Config, ∃ t, ("emon_host", Setting.text t) ∈ settings c := fun c =>
    ⟨_, List.mem_append_right _ (List.mem_of_getElem? (i := 2) rfl)⟩
  refine ⟨j, s1, s2, a1, a2, ?_, b2, ?_, ?_⟩
  · obtain ⟨t, ht⟩ := mj s1.config
    have := edited_text a3 ht
    rw [if_pos rfl] at this
    exact this ▸ ht
  · obtain ⟨t, ht⟩ := me s2.config
    have := edited_text b3 ht
    rw [if_pos rfl] at this
    exact this ▸ ht
  · obtain ⟨t, ht⟩ := mj s2.config
    have := edited_text b3 ht
    rw [if_neg (by decide +kernel), h5] at this
    have e : ∀ p ∈ postedPrivate someForm ++ postedPublic someForm, p.1 = "jdom_host" → p.2 = .text (some []) := by decide +kernel
    have := e _ this rfl
    exact (Setting.text.inj this) ▸ ht

end Wifinfo
