import Verif.Model.Tic
import Verif.Proofs.Json
import Verif.Proofs.Queries

/-!
# Loops over the pairs of a frame, JSON of a frame
-/

namespace Wifinfo
open Spec

/-- The C string `x` is at index `p` of the array. -/
def StrAt (m : Mem) (p : Nat) (x : Str) : Prop :=
  ∃ a c, Holds m (a ++ x ++ 0 :: c) ∧ a.length = p ∧ NulFree x

theorem StrAt.cstr {m p x} (h : StrAt m p x) : m.cstr p = .ok x := by
  obtain ⟨a, c, h1, rfl, h3⟩ := h
  exact h1.cstr h3

theorem normNum_suffix (s : Str) : ∃ pre, s = pre ++ normNum s := by
  unfold normNum
  by_cases h : numeral s = true
  · rw [if_pos h]
    clear h
    induction s with
    | nil => exact ⟨[], rfl⟩
    | cons b s ih =>
      obtain ⟨pre, hp⟩ := ih
      by_cases hc : ∃ x r, s = x :: r ∧ b = 48
      · obtain ⟨x, r, rfl, rfl⟩ := hc
        exact ⟨48 :: pre, by rw [List.cons_append, show stripZeros (48 :: x :: r) = stripZeros (x :: r) from rfl, ← hp]⟩
      · refine ⟨[], ?_⟩
        rw [List.nil_append, stripZeros]
        intro x r e
        cases e
        exact hc ⟨x, r, rfl, rfl⟩
  · rw [if_neg h]; exact ⟨[], rfl⟩

theorem StrAt.getInteger {m p x} (h : StrAt m p x) :
    ∃ q, getInteger m p = .ok (numeral x, q) ∧ StrAt m q (normNum x) := by
  obtain ⟨a, c, h1, rfl, h3⟩ := h
  obtain ⟨pre, h4, h5⟩ := getInteger_spec h1 h3
  refine ⟨_, h5, a ++ pre, c, ?_, by simp, ?_⟩
  · rw [h4] at h1
    simpa using h1
  · intro b hb
    exact h3 b (by rw [h4]; simp [hb])

theorem eachF_spec {σ : Type} {body : σ → Nat → Nat → Res σ} {g : σ → Str → Str → σ} {m : Mem}
    (hb : ∀ s l v ls vs, StrAt m l ls → StrAt m v vs → body s l v = .ok (g s ls vs)) (n : Nat) :
    ∀ (ss : List Str) {a : Str} {ts : TimeVal} {st : Option Nat} {f : Nat} (x : σ), ss.length ≤ n →
    st.getD 0 = a.length → (st = none → glue ss ≠ []) → Holds m (a ++ glue ss) →
    (∀ s ∈ ss, NulFree s) → a.length + (glue ss).length ≤ 350 → ss.length < f →
    Frame.eachF { mem := m, size := a.length + (glue ss).length, ts := ts } body f st x =
      .ok ((pairUp ss).foldl (fun s p => g s p.1 p.2) x) := by
  induction n with
  | zero =>
    intro ss a ts st f x hn hst hne hm hz hl hf
    cases f with
    | zero => simp at hf
    | succ f =>
      have := getValueNext_spec st hst hne hm hz hl (ts := ts)
      have h0 : ss = [] := by simpa using hn
      subst h0
      simp only [Frame.eachF, this, ok_bind, pairUp, pure_ok, List.foldl_nil]
  | succ n ih =>
    intro ss a ts st f x hn hst hne hm hz hl hf
    cases f with
    | zero => simp at hf
    | succ f =>
      have hnext := getValueNext_spec st hst hne hm hz hl (ts := ts)
      match ss with
      | [] => simp only [Frame.eachF, hnext, ok_bind, pairUp, pure_ok, List.foldl_nil]
      | [s] => simp only [Frame.eachF, hnext, ok_bind, pairUp, pure_ok, List.foldl_nil]
      | s :: v :: r =>
        have hcat : Holds m (a ++ s ++ 0 :: (v ++ 0 :: glue r)) := by simpa using hm
        have hcat2 : Holds m ((a ++ s ++ [0]) ++ v ++ 0 :: glue r) := by simpa using hm
        have h3 : StrAt m a.length s := ⟨a, _, hcat, rfl, hz s (by simp)⟩
        have h4 : StrAt m (a.length + s.length + 1) v :=
          ⟨a ++ s ++ [0], _, hcat2, by simp; omega, hz v (by simp)⟩
        have hlen : (glue (s :: v :: r)).length = s.length + v.length + (glue r).length + 2 := by
          simp; omega
        have e3 : (a ++ s ++ [0] ++ v ++ [0]).length + (glue r).length
          = a.length + (glue (s :: v :: r)).length := by rw [hlen]; simp; omega
        have h5 := ih r (a := a ++ s ++ [0] ++ v ++ [0]) (ts := ts)
          (st := some (a.length + s.length + 1 + v.length + 1)) (f := f) (g x s v)
          (by simp at hn; omega) (by simp; omega) (by simp) (by simpa using hm)
          (fun x hx => hz x (by simp [hx])) (by rw [e3]; exact hl) (by simp at hf; omega)
        rw [e3] at h5
        simp only [Frame.eachF, hnext, ok_bind, pairUp, hb _ _ _ _ _ h3 h4, h5, List.foldl_cons]

/-- A loop over a frame is a fold over its pairs. -/
theorem each_spec {σ : Type} {t : Frame} {content : Str} (h : t.Has content) (hne : content ≠ [])
    (x : σ) {body : σ → Nat → Nat → Res σ} (g : σ → Str → Str → σ)
    (hb : ∀ s l v ls vs, StrAt t.mem l ls → StrAt t.mem v vs → body s l v = .ok (g s ls vs)) :
    t.each x body = .ok ((pairs content).foldl (fun s p => g s p.1 p.2) x) := by
  have hg := glue_cut h.nul
  have hbd := h.bound
  have hge := glue_length_ge (cut content)
  have hs := h.size
  obtain ⟨m, sz, ts⟩ := t
  simp only at hs hb
  subst hs
  have := eachF_spec hb (cut content).length (cut content) (a := []) (ts := ts) (st := none)
    (f := MAX_FRAME_SIZE + 1) x (Nat.le_refl _) rfl (by rw [hg]; intro _; exact hne)
    (by rw [hg]; exact h.holds) (cut_nulFree content)
    (by rw [hg]; simp; omega) (by rw [hg] at hge; simp [MAX_FRAME_SIZE]; omega)
  simp only [hg, List.length_nil, Nat.zero_add] at this
  exact this

/-! ## JSON -/

theorem isEmpty_false {t : Frame} {content : Str} (h : t.Has content) (hne : content ≠ []) :
    t.isEmpty = false := by
  unfold Frame.isEmpty
  rw [h.size]
  cases content with
  | nil => exact absurd rfl hne
  | cons a b => simp

/-- Members of the dictionary for the pairs. -/
def dictMember (p : Str × Str) : JMember :=
  if numeral p.2 then mRaw p.1 (normNum p.2) else mText p.1 p.2

theorem dict_fold (ps : List (Str × Str)) (l : List JMember) :
    ps.foldl (fun s p => if numeral p.2 then Jb.raw s p.1 (normNum p.2) else Jb.text s p.1 (normNum p.2))
      (jbState l) = jbState (l ++ ps.map dictMember) := by
  induction ps generalizing l with
  | nil => simp
  | cons p ps ih =>
    have e : (if numeral p.2 then Jb.raw (jbState l) p.1 (normNum p.2)
        else Jb.text (jbState l) p.1 (normNum p.2)) = jbState (l ++ [dictMember p]) := by
      unfold dictMember
      split
      · rw [jb_raw]
      · rename_i hn
        rw [jb_text, show normNum p.2 = p.2 by unfold normNum; rw [if_neg hn]]
    rw [List.foldl_cons, e, ih]
    simp

/-- The members before the pairs. -/
def dictHead (w : World) (t : Frame) (notif : Option Str) : List JMember :=
  [mText (bs "timestamp") (w.iso t.ts.sec), mText (bs "seconds") t.seconds] ++
    (match notif with | some n => [mText (bs "notif") n] | none => [])

theorem ticJsonDict_eq {t : Teleinfo} {content : Str} (h : t.fr.Has content) (hne : content ≠ [])
    (w : World) (notif : Option Str) :
    ticJsonDict w t notif =
      .ok (123 :: memsText (dictHead w t.fr notif ++ (pairs content).map dictMember)) := by
  unfold ticJsonDict
  rw [isEmpty_false h hne]
  have hbody : ∀ (s : Str) l v ls vs, StrAt t.fr.mem l ls → StrAt t.fr.mem v vs →
      (do
        let (isNumber, value) ← getInteger t.fr.mem v
        let l ← t.fr.mem.cstr l
        let v ← t.fr.mem.cstr value
        pure (if isNumber then Jb.raw s l v else Jb.text s l v) : Res Str) =
      .ok (if numeral vs then Jb.raw s ls (normNum vs) else Jb.text s ls (normNum vs)) := by
    intro s l v ls vs h1 h2
    obtain ⟨q, h3, h4⟩ := h2.getInteger
    simp only [h3, h1.cstr, h4.cstr, ok_bind, pure_ok]
  have he := each_spec h hne (jbState (dictHead w t.fr notif)) _ hbody
  rw [dict_fold] at he
  rw [if_neg (by simp)]
  cases notif with
  | none =>
    simp only [dictHead, List.append_nil] at he ⊢
    simp only [jb_open, jb_text, List.nil_append]
    rw [show ([mText (bs "timestamp") (w.iso t.fr.ts.sec)] ++ [mText (bs "seconds") t.fr.seconds]) =
      [mText (bs "timestamp") (w.iso t.fr.ts.sec), mText (bs "seconds") t.fr.seconds] from rfl, he]
    rw [ok_bind]
    exact jb_finalize _
  | some n =>
    simp only [dictHead] at he ⊢
    simp only [jb_open, jb_text, List.nil_append]
    rw [show ([mText (bs "timestamp") (w.iso t.fr.ts.sec)] ++ [mText (bs "seconds") t.fr.seconds]) =
      [mText (bs "timestamp") (w.iso t.fr.ts.sec), mText (bs "seconds") t.fr.seconds] from rfl, he]
    rw [ok_bind]
    exact jb_finalize _

/-- Elements of the array for the pairs. -/
def arrElem (p : Str × Str) : List JMember := [mText (bs "na") p.1, mText (bs "va") p.2]

theorem arr_fold (ps : List (Str × Str)) (l : List (List JMember)) :
    ps.foldl (fun s p => Jt.text s p.1 p.2) (jtState l) = jtState (l ++ ps.map arrElem) := by
  induction ps generalizing l with
  | nil => simp
  | cons p ps ih =>
    rw [List.foldl_cons, jt_text, ih]
    simp [arrElem]

theorem ticJsonArray_eq {t : Teleinfo} {content : Str} (h : t.fr.Has content) (hne : content ≠ [])
    (w : World) {x : UInt32} (hx : t.watt = .ok x) :
    ticJsonArray w t = .ok (91 :: elemsText ([arrElem (bs "timestamp", w.iso t.fr.ts.sec),
      [mText (bs "na") (bs "watt"), mNum (bs "va") x.toNat]] ++ (pairs content).map arrElem)) := by
  unfold ticJsonArray
  rw [isEmpty_false h hne]
  have hbody : ∀ (s : Str) l v ls vs, StrAt t.fr.mem l ls → StrAt t.fr.mem v vs →
      (do
        let l ← t.fr.mem.cstr l
        let v ← t.fr.mem.cstr v
        pure (Jt.text s l v) : Res Str) = .ok (Jt.text s ls vs) := by
    intro s l v ls vs h1 h2
    simp only [h1.cstr, h2.cstr, ok_bind, pure_ok]
  have he := each_spec h hne (jtState [arrElem (bs "timestamp", w.iso t.fr.ts.sec),
      [mText (bs "na") (bs "watt"), mNum (bs "va") x.toNat]]) _ hbody
  rw [arr_fold] at he
  rw [if_neg (by simp)]
  simp only [hx, ok_bind, jt_open, jt_text, jt_num, List.nil_append]
  rw [show ([[mText (bs "na") (bs "timestamp"), mText (bs "va") (w.iso t.fr.ts.sec)]] ++
      [[mText (bs "na") (bs "watt"), mNum (bs "va") x.toNat]]) =
      [arrElem (bs "timestamp", w.iso t.fr.ts.sec),
      [mText (bs "na") (bs "watt"), mNum (bs "va") x.toNat]] from rfl, he]
  exact jt_finalize _

end Wifinfo
