import Verif.Model.Ota
import Verif.Props.Push
import Verif.Props.Table
import Verif.Props.Sys
import Verif.Props.Http

/-!
# C114: updates over the air need the password
-/

namespace Wifinfo
open Spec

/-- The datagram answers a challenge with the password: it has a text of 32 bytes, a byte (a space), and the digest of the digest of
the password, the challenge and this text (as `espota.py` does). -/
def Answers (md5 : Str → Str) (pw nonce d : Str) : Prop :=
  ∃ (p c q : Str) (b : Byte), c.length = 32 ∧ d = p ++ c ++ b :: md5 (md5 pw ++ 58 :: nonce ++ 58 :: c) ++ q

/-- An event that is not a datagram. -/
def OtaEvent.Other : OtaEvent → Prop
  | .datagram _ _ => False
  | _ => True

/-- The events `a` end with an exchange: an invitation, a challenge made of the time, an answer with the password as the next
datagram, and nothing since. -/
def Exchange (md5 : Str → Str) (pw : Str) (a : List (OtaEvent × List OtaEff)) : Prop :=
  ∃ a1 a2 a3 d us d' us', a = a1 ++ (.datagram d us, [.challenge (md5 (decText us))]) :: (a2 ++ (.datagram d' us', []) :: a3) ∧
    (∀ x ∈ a2, x.1.Other ∧ x.2 = []) ∧ Answers md5 pw (md5 (decText us)) d' ∧ ∀ x ∈ a3, x.2 = []

theorem ota_snoc (md5 : Str → Str) (v : OtaDevice) (l : List OtaEvent) (e : OtaEvent) :
    v.run md5 (l ++ [e]) = (((v.run md5 l).1.step md5 e).1, (v.run md5 l).2 ++ [(e, ((v.run md5 l).1.step md5 e).2)]) := by
  induction l generalizing v with
  | nil => simp [OtaDevice.run]
  | cons x l ih => simp [OtaDevice.run, ih]

theorem until_split (e : Byte) (d : Str) : ∃ r, d = (otaUntil e d).1 ++ r ∧ (r = [] ∨ ∃ b, r = b :: (otaUntil e d).2 ∧ (b = 0 ∨ b = e)) := by
  unfold otaUntil
  simp only
  refine ⟨d.dropWhile fun b => b != 0 && b != e, (List.takeWhile_append_dropWhile).symm, ?_⟩
  cases h : d.dropWhile fun b => b != 0 && b != e with
  | nil => exact .inl rfl
  | cons b r =>
    refine .inr ⟨b, rfl, ?_⟩
    have := List.head_dropWhile_not (fun b : Byte => b != 0 && b != e) (l := d) (by rw [h]; simp)
    simp only [h, List.head_cons, Bool.and_eq_false_iff, bne_eq_false_iff_eq] at this
    exact this

theorem int_suffix (d : Str) : ∃ p, d = p ++ (otaInt d).2 := by
  have h1 : ∃ p, d = p ++ d.dropWhile (· == 32) := ⟨d.takeWhile (· == 32), (List.takeWhile_append_dropWhile).symm⟩
  obtain ⟨p, hp⟩ := h1
  unfold otaInt
  simp only
  generalize d.dropWhile (· == 32) = x at *
  split
  · exact ⟨p ++ x.take (x.takeWhile digit).length, by rw [List.append_assoc, List.take_append_drop]; exact hp⟩
  · exact ⟨p ++ x.take 16, by rw [List.append_assoc, List.take_append_drop]; exact hp⟩

/-- What the library has while the device runs. -/
structure OtaInv (md5 : Str → Str) (c : Config) (pw : Str) (v : OtaDevice) (a : List (OtaEvent × List OtaEff)) : Prop where
  init : v.lib.initialized = true
  port : v.lib.port = if c.otaPort = 0 then 8266 else c.otaPort.toNat
  password : v.lib.password = md5 pw
  waiting : v.lib.state = .waitAuth → ∃ a1 a2 d us, v.lib.nonce = md5 (decText us) ∧
    a = a1 ++ (.datagram d us, [.challenge (md5 (decText us))]) :: a2 ∧ ∀ x ∈ a2, x.1.Other ∧ x.2 = []
  ready : v.lib.state = .runUpdate → Exchange md5 pw a

theorem ota_start {md5 : Str → Str} {c : Config} {pw host : Str} (hp : HasText c.otaAuth pw)
    (hh : HasText c.host host) (chip : Str) : ∃ v, OtaDevice.start md5 c chip = .ok v ∧ OtaInv md5 c pw v [] ∧
      v.callback = false ∧ v.lib.state = .idle := by
  refine ⟨_, by rw [OtaDevice.start, otaStart, hp.cstr, hh.cstr]; rfl, ?_, rfl, ?_⟩
  all_goals by_cases h0 : c.otaPort = 0
  all_goals
    have hz : c.otaPort.toNat = 0 ↔ c.otaPort = 0 := by
      rw [← UInt16.toNat_inj]; rfl
    simp only [OtaLib.new, OtaLib.setPort, OtaLib.setHostname, OtaLib.setPassword, OtaLib.begin]
  · refine ⟨?_, ?_, ?_, ?_, ?_⟩ <;> simp [h0]
  · refine ⟨?_, ?_, ?_, ?_, ?_⟩ <;> simp [h0, hz]
  · simp [h0]
  · simp [h0, hz]

theorem ota_step {md5 : Str → Str} (h32 : ∀ x, (md5 x).length = 32) {c : Config} {pw : Str} {v : OtaDevice}
    {a : List (OtaEvent × List OtaEff)} (h : OtaInv md5 c pw v a) (e : OtaEvent) :
    OtaInv md5 c pw (v.step md5 e).1 (a ++ [(e, (v.step md5 e).2)]) ∧
      (.install ∈ (v.step md5 e).2 → Exchange md5 pw a ∧ ∃ run, e = .handle run) := by
  obtain ⟨h1, h2, h3, h4, h5⟩ := h
  have other : ∀ (v' : OtaDevice) (e : OtaEvent), v'.lib = v.lib → e.Other → OtaInv md5 c pw v' (a ++ [(e, [])]) := by
    intro v' e hv he
    refine ⟨by rw [hv, h1], by rw [hv, h2], by rw [hv, h3], ?_, ?_⟩
    · rw [hv]
      intro hs
      obtain ⟨a1, a2, d, us, w1, w2, w3⟩ := h4 hs
      refine ⟨a1, a2 ++ [(e, [])], d, us, w1, by rw [w2]; simp, ?_⟩
      intro x hx
      rcases List.mem_append.1 hx with hx | hx
      · exact w3 x hx
      · simp only [List.mem_singleton] at hx
        subst hx
        exact ⟨he, rfl⟩
    · rw [hv]
      intro hs
      obtain ⟨a1, a2, a3, d, us, d', us', w1, w2, w3, w4⟩ := h5 hs
      refine ⟨a1, a2, a3 ++ [(e, [])], d, us, d', us', by rw [w1]; simp, w2, w3, ?_⟩
      intro x hx
      rcases List.mem_append.1 hx with hx | hx
      · exact w4 x hx
      · simp only [List.mem_singleton] at hx
        subst hx
        rfl
  cases e with
  | callbacks => exact ⟨other _ _ rfl trivial, fun h => absurd h (by simp [OtaDevice.step])⟩
  | saved c' => exact ⟨other _ _ rfl trivial, fun h => absurd h (by simp [OtaDevice.step])⟩
  | handle run =>
    cases hs : v.lib.state with
    | runUpdate =>
      refine ⟨?_, fun _ => ⟨h5 hs, run, rfl⟩⟩
      simp only [OtaDevice.step, OtaLib.handle, hs]
      exact ⟨h1, h2, h3, by simp, by simp⟩
    | idle =>
      have e : v.step md5 (.handle run) = ({ v with lib := v.lib }, []) := by simp [OtaDevice.step, OtaLib.handle, hs]
      rw [e]
      exact ⟨other _ _ rfl trivial, fun h => absurd h (by simp)⟩
    | waitAuth =>
      have e : v.step md5 (.handle run) = ({ v with lib := v.lib }, []) := by simp [OtaDevice.step, OtaLib.handle, hs]
      rw [e]
      exact ⟨other _ _ rfl trivial, fun h => absurd h (by simp)⟩
  | datagram d us =>
    have hin : ∀ o : OtaLib, ∀ ef b, OtaLib.receive md5 b v.lib d us = (o, ef) → .install ∉ ef := by
      intro o ef b h hm
      unfold OtaLib.receive at h
      simp only at h
      repeat' split at h
      all_goals
        cases h
        revert hm
        first
        | exact List.not_mem_nil
        | (simp [otaError] <;> split <;> simp)
    refine ⟨?_, fun hm => absurd hm (hin _ _ _ rfl)⟩
    cases hs : v.lib.state with
    | runUpdate =>
      have e : v.step md5 (.datagram d us) = ({ v with lib := v.lib }, []) := by simp [OtaDevice.step, OtaLib.receive, hs]
      rw [e]
      refine ⟨h1, h2, h3, by simp [hs], fun _ => ?_⟩
      obtain ⟨a1, a2, a3, d1, us1, d', us', w1, w2, w3, w4⟩ := h5 hs
      refine ⟨a1, a2, a3 ++ [(.datagram d us, [])], d1, us1, d', us', by rw [w1]; simp, w2, w3, ?_⟩
      intro x hx
      rcases List.mem_append.1 hx with hx | hx
      · exact w4 x hx
      · simp only [List.mem_singleton] at hx
        subst hx
        rfl
    | idle =>
      have idle : ∀ ef, OtaInv md5 c pw { v with lib := v.lib } (a ++ [(.datagram d us, ef)]) := fun ef =>
        ⟨h1, h2, h3, by simp [hs], by simp [hs]⟩
      have hpw : v.lib.password.length ≠ 0 := by rw [h3, h32]; decide
      simp only [OtaDevice.step, OtaLib.receive, hs]
      split
      · exact idle _
      · split
        · exact idle _
        · exact ⟨h1, h2, h3, fun _ => ⟨a, [], d, us, rfl, by simp, by simp⟩, by simp⟩
    | waitAuth =>
      have idle : ∀ ef, OtaInv md5 c pw { v with lib := { v.lib with state := .idle } } (a ++ [(.datagram d us, ef)]) := fun ef =>
        ⟨h1, h2, h3, by simp, by simp⟩
      simp only [OtaDevice.step, OtaLib.receive, hs]
      split
      · exact idle _
      · split
        · exact idle _
        · split
          · rename_i hc hl hr
            refine ⟨h1, h2, h3, by simp, fun _ => ?_⟩
            obtain ⟨a1, a2, d1, us1, w1, w2, w3⟩ := h4 hs
            refine ⟨a1, a2, [], d1, us1, d, us, by rw [w2]; simp, w3, ?_, by simp⟩
            rw [h3, w1] at hr
            simp only [not_or, Decidable.not_not] at hl
            obtain ⟨p, hp⟩ := int_suffix d
            obtain ⟨r, hr1, hr2⟩ := until_split 32 ((otaInt d).2.drop 1)
            obtain ⟨r', hr1', -⟩ := until_split 10 (otaUntil 32 ((otaInt d).2.drop 1)).2
            rcases hr2 with rfl | ⟨b, rfl, -⟩
            · exfalso
              have hnil : (otaUntil 32 ((otaInt d).2.drop 1)).2 = [] := by
                have : ∀ x : Str, x = (otaUntil 32 x).1 → (otaUntil 32 x).2 = [] := by
                  intro x hx
                  have h' : x.dropWhile (fun b : Byte => b != 0 && b != 32) = [] := by
                    have := List.takeWhile_append_dropWhile (p := fun b : Byte => b != 0 && b != 32) (l := x)
                    unfold otaUntil at hx
                    simp only at hx
                    rw [← hx] at this
                    exact List.self_eq_append_right.1 this.symm
                  unfold otaUntil
                  simp [h']
                exact this _ (by simpa using hr1)
              rw [hnil] at hl
              exact absurd hl.2 (by simp [otaUntil])
            · refine ⟨p ++ (otaInt d).2.take 1, (otaUntil 32 ((otaInt d).2.drop 1)).1, r', b, hl.1, ?_⟩
              rw [hr]
              have : d = p ++ ((otaInt d).2.take 1 ++ ((otaUntil 32 ((otaInt d).2.drop 1)).1 ++
                  b :: ((otaUntil 10 (otaUntil 32 ((otaInt d).2.drop 1)).2).1 ++ r'))) := by
                rw [← hr1', ← hr1, List.take_append_drop]
                exact hp
              refine this.trans ?_
              simp only [List.append_assoc, List.cons_append]
          · exact idle _

theorem ota_run {md5 : Str → Str} (h32 : ∀ x, (md5 x).length = 32) {c : Config} {pw : Str} {v : OtaDevice}
    (h : OtaInv md5 c pw v []) (l : List OtaEvent) : OtaInv md5 c pw (v.run md5 l).1 (v.run md5 l).2 := by
  induction l using snoc_induction with
  | h0 => exact h
  | h1 l e ih =>
    rw [ota_snoc]
    exact (ota_step h32 ih e).1

theorem run_prefix {md5 : Str → Str} {v : OtaDevice} : ∀ {l : List OtaEvent} {a b e ef}, (v.run md5 l).2 = a ++ (e, ef) :: b →
    ∃ l', (v.run md5 l').2 = a ∧ ef = ((v.run md5 l').1.step md5 e).2
  | [], a, b, e, ef, h => by simp [OtaDevice.run] at h
  | x :: l, [], b, e, ef, h => by
    simp only [OtaDevice.run, List.nil_append, List.cons.injEq, Prod.mk.injEq] at h
    exact ⟨[], rfl, by rw [← h.1.2, ← h.1.1]; rfl⟩
  | x :: l, y :: a, b, e, ef, h => by
    simp only [OtaDevice.run, List.cons_append, List.cons.injEq] at h
    obtain ⟨l', h1, h2⟩ := run_prefix h.2
    exact ⟨x :: l', by simp only [OtaDevice.run, h1, h.1], h2⟩

/-- **C114, partial.**  Whatever the datagrams and whatever is saved meanwhile, the flash memory is written only after an exchange of
its own: an invitation, a challenge, and as the next datagram an answer to this challenge with the password that the settings had
when the device started (the empty password included: nobody is let in without an answer).
What is missing: a refused answer restarts the device (`c114_refuted_restart`), and a password saved on the page is not the one
before the next start (`c114_refuted_saved`). -/
theorem c114_password_partial {md5 : Str → Str} (h32 : ∀ x, (md5 x).length = 32) {c : Config} {pw host chip : Str}
    (hp : HasText c.otaAuth pw) (hh : HasText c.host host) : ∃ v, OtaDevice.start md5 c chip = .ok v ∧
      ∀ l a b e ef, (v.run md5 l).2 = a ++ (e, ef) :: b → .install ∈ ef → Exchange md5 pw a ∧ ∃ run, e = .handle run := by
  obtain ⟨v, h1, h2, -, -⟩ := ota_start (md5 := md5) hp hh chip
  refine ⟨v, h1, fun l a b e ef hl hm => ?_⟩
  obtain ⟨l', e1, e2⟩ := run_prefix hl
  have := (ota_step h32 (ota_run h32 h2 l') e).2
  rw [e1] at this
  exact this (e2 ▸ hm)

/-- **C114**: the device listens at the port of the settings, or at 8266 if this is 0, whatever is saved meanwhile. -/
theorem c114_port {md5 : Str → Str} (h32 : ∀ x, (md5 x).length = 32) {c : Config} {pw host chip : Str}
    (hp : HasText c.otaAuth pw) (hh : HasText c.host host) : ∃ v, OtaDevice.start md5 c chip = .ok v ∧
      ∀ l, (v.run md5 l).1.lib.initialized = true ∧ (v.run md5 l).1.lib.port = if c.otaPort = 0 then 8266 else c.otaPort.toNat := by
  obtain ⟨v, h1, h2, -, -⟩ := ota_start (md5 := md5) hp hh chip
  exact ⟨v, h1, fun l => ⟨(ota_run h32 h2 l).init, (ota_run h32 h2 l).port⟩⟩

/-! ## Those who have the password -/

/-- A digest is written with 32 hexadecimal digits. -/
def Hex32 (s : Str) : Prop := s.length = 32 ∧ ∀ b ∈ s, digit b = true ∨ 97 ≤ b.toNat ∧ b.toNat ≤ 102

/-- The invitation of the tools: what is to be written (0 for the program, 100 for the files), the port to connect to, the size and
the digest of what is to come. -/
def invitation (cmd port size : Nat) (sum : Str) : Str :=
  decText cmd ++ 32 :: decText port ++ 32 :: decText size ++ 32 :: sum ++ [10]

/-- The answer of the tools to a challenge. -/
def answer (cnonce result : Str) : Str := bs "200 " ++ cnonce ++ 32 :: result ++ [10]

theorem otaInt_dec {n : Nat} (h : n < 10 ^ 10) {r : Str} (hr : ∀ b t, r = b :: t → digit b = false) (k : Nat) :
    otaInt (List.replicate k 32 ++ decText n ++ r) = (min n 2147483647, r) := by
  obtain ⟨h1, h2, h3, -⟩ := decText_spec n
  have hlen : (decText n).length ≤ 10 := decText_length (k := 9) h
  have hd : ∀ b ∈ decText n, digit b = true := decText_bytes n
  have e1 : (List.replicate k (32 : Byte) ++ decText n ++ r).dropWhile (· == 32) = decText n ++ r := by
    rw [List.append_assoc, List.dropWhile_append_of_pos (by intro a ha; simp [List.mem_replicate] at ha; simp [ha.2])]
    cases hx : decText n with
    | nil => exact absurd hx h1
    | cons b t =>
      have hb := hd b (by rw [hx]; simp)
      have : (b == 32) = false := by
        rw [beq_eq_false_iff_ne]
        rintro rfl
        exact absurd hb (by decide)
      rw [List.cons_append, List.dropWhile_cons, this]
      rfl
  have e2 : (decText n ++ r).takeWhile digit = decText n := by
    rw [List.takeWhile_append_of_pos hd]
    cases r with
    | nil => simp
    | cons b t => simp [hr b t rfl]
  unfold otaInt
  simp only [e1, e2]
  rw [if_pos (by omega), h3, List.drop_left]

theorem otaUntil_end {e : Byte} {x r : Str} (hx : ∀ b ∈ x, b ≠ 0 ∧ b ≠ e) : otaUntil e (x ++ e :: r) = (x, r) := by
  have hp : ∀ b ∈ x, (b != 0 && b != e) = true := by
    intro b hb
    simp [hx b hb]
  unfold otaUntil
  simp only
  rw [List.takeWhile_append_of_pos hp, List.dropWhile_append_of_pos hp]
  simp

theorem ota_hex {s : Str} (h : Hex32 s) : ∀ b ∈ s, b ≠ 0 ∧ b ≠ 32 ∧ b ≠ 10 ∧ (b == 32 || (9 ≤ b && b ≤ 13)) = false := by
  intro b hb
  have : ∀ b : Byte, (digit b = true ∨ 97 ≤ b.toNat ∧ b.toNat ≤ 102) →
      b ≠ 0 ∧ b ≠ 32 ∧ b ≠ 10 ∧ (b == 32 || (9 ≤ b && b ≤ 13)) = false := byte_all (by decide +kernel)
  exact this b (h.2 b hb)

theorem trim_hex {s : Str} (h : Hex32 s) : otaTrim s = s := by
  have hs := ota_hex h
  have e : ∀ x : Str, (∀ b ∈ x, (b == 32 || (9 ≤ b && b ≤ 13)) = false) → x.dropWhile (fun b => b == 32 || (9 ≤ b && b ≤ 13)) = x := by
    intro x hx
    cases x with
    | nil => rfl
    | cons b t => rw [List.dropWhile_cons, hx b (by simp)]; rfl
  unfold otaTrim
  simp only
  rw [e s fun b hb => (hs b hb).2.2.2, e s.reverse fun b hb => (hs b (List.mem_reverse.1 hb)).2.2.2, List.reverse_reverse]

/-- An invitation is answered with a challenge. -/
theorem ota_invited {md5 : Str → Str} {o : OtaLib} (hs : o.state = .idle) (hp : o.password.length ≠ 0) {cmd port size : Nat} {sum : Str}
    (hc : cmd = 0 ∨ cmd = 100) (h1 : port < 10 ^ 10) (h2 : size < 10 ^ 10) (h3 : Hex32 sum) (cb : Bool) (us : Nat) :
    o.receive md5 cb (invitation cmd port size sum) us =
      ({ o with state := .waitAuth, nonce := md5 (decText us) }, [.challenge (md5 (decText us))]) := by
  have i1 : otaInt (invitation cmd port size sum) = (cmd, 32 :: (decText port ++ 32 :: (decText size ++ 32 :: (sum ++ [10])))) := by
    have := otaInt_dec (n := cmd) (by omega) (r := 32 :: (decText port ++ 32 :: (decText size ++ 32 :: (sum ++ [10]))))
      (by intro b t h; cases h; decide) 0
    rw [show min cmd 2147483647 = cmd by omega] at this
    simpa [invitation] using this
  have i2 : otaInt (32 :: (decText port ++ 32 :: (decText size ++ 32 :: (sum ++ [10])))) =
      (min port 2147483647, 32 :: (decText size ++ 32 :: (sum ++ [10]))) := by
    have := otaInt_dec h1 (r := 32 :: (decText size ++ 32 :: (sum ++ [10]))) (by intro b t h; cases h; decide) 1
    simpa [List.replicate] using this
  have i3 : otaInt (32 :: (decText size ++ 32 :: (sum ++ [10]))) = (min size 2147483647, 32 :: (sum ++ [10])) := by
    have := otaInt_dec h2 (r := 32 :: (sum ++ [10])) (by intro b t h; cases h; decide) 1
    simpa [List.replicate] using this
  have i4 : otaUntil 10 (sum ++ [10]) = (sum, []) := otaUntil_end fun b hb => ⟨(ota_hex h3 b hb).1, (ota_hex h3 b hb).2.2.1⟩
  unfold OtaLib.receive
  simp only [hs, i1, i2, i3, List.drop_succ_cons, List.drop_zero, i4, trim_hex h3, h3.1]
  rw [if_neg (by omega), if_neg (by simp), if_pos hp]

/-- An answer is judged by its digest. -/
theorem ota_answered {md5 : Str → Str} {o : OtaLib} (hs : o.state = .waitAuth) {cn res : Str} (h1 : Hex32 cn) (h2 : Hex32 res) (cb : Bool)
    (us : Nat) : o.receive md5 cb (answer cn res) us =
      if md5 (o.password ++ 58 :: o.nonce ++ 58 :: cn) = res then ({ o with state := .runUpdate }, [])
      else ({ o with state := .idle }, .failed :: otaError cb) := by
  have i1 : otaInt (answer cn res) = (200, 32 :: (cn ++ 32 :: (res ++ [10]))) := by
    have := otaInt_dec (n := 200) (by omega) (r := 32 :: (cn ++ 32 :: (res ++ [10]))) (by intro b t h; cases h; decide) 0
    rw [show decText 200 = [50, 48, 48] by decide +kernel] at this
    rw [answer, show bs "200 " = [50, 48, 48, 32] by decide]
    simpa using this
  have i2 : otaUntil 32 (cn ++ 32 :: (res ++ [10])) = (cn, res ++ [10]) :=
    otaUntil_end fun b hb => ⟨(ota_hex h1 b hb).1, (ota_hex h1 b hb).2.1⟩
  have i3 : otaUntil 10 (res ++ [10]) = (res, []) := otaUntil_end fun b hb => ⟨(ota_hex h2 b hb).1, (ota_hex h2 b hb).2.2.1⟩
  unfold OtaLib.receive
  simp only [hs, i1, List.drop_succ_cons, List.drop_zero, i2, i3, h1.1, h2.1]
  simp

theorem ota_quiet {md5 : Str → Str} : ∀ (l : List OtaEvent) (v : OtaDevice), (∀ e ∈ l, e.Other) → v.lib.state ≠ .runUpdate →
    (v.run md5 l).1.lib = v.lib
  | [], v, _, _ => rfl
  | e :: l, v, h, hs => by
    have h1 : (v.step md5 e).1.lib = v.lib := by
      cases e with
      | datagram d us => exact (h (.datagram d us) (by simp)).elim
      | handle run => simp only [OtaDevice.step, OtaLib.handle]
      | callbacks => rfl
      | saved c => rfl
    have h2 := ota_quiet (md5 := md5) l (v.step md5 e).1 (fun x hx => h x (by simp [hx])) (by rw [h1]; exact hs)
    exact h2.trans h1

/-- **C114**: an invitation and then an answer with the password of the start are accepted, for the program and for the files,
whatever else happens, and whatever is saved, before and in between; the device restarts when it has been written. -/
theorem c114_accepted {md5 : Str → Str} (hm : ∀ x, Hex32 (md5 x)) {c : Config} {pw host chip : Str} (hp : HasText c.otaAuth pw)
    (hh : HasText c.host host) {cmd port size : Nat} {sum cn : Str} (hc : cmd = 0 ∨ cmd = 100) (h1 : port < 65536)
    (h2 : size < 2 ^ 32) (h3 : Hex32 sum) (h4 : Hex32 cn) {l l' : List OtaEvent} (hl : ∀ e ∈ l, e.Other) (hl' : ∀ e ∈ l', e.Other)
    (us us' : Nat) : ∃ v, OtaDevice.start md5 c chip = .ok v ∧ ∃ t,
      (v.run md5 (l ++ .datagram (invitation cmd port size sum) us :: (l' ++
        [.datagram (answer cn (md5 (md5 pw ++ 58 :: md5 (decText us) ++ 58 :: cn))) us', .handle .done]))).2 =
        t ++ [(.handle .done, [.install, .restart])] := by
  obtain ⟨v, e1, e2, -, e4⟩ := ota_start (md5 := md5) hp hh chip
  refine ⟨v, e1, ?_⟩
  have app : ∀ (v : OtaDevice) (x y : List OtaEvent), v.run md5 (x ++ y) =
      (((v.run md5 x).1.run md5 y).1, (v.run md5 x).2 ++ ((v.run md5 x).1.run md5 y).2) := by
    intro v x y
    induction x generalizing v with
    | nil => rfl
    | cons a x ih => simp [OtaDevice.run, ih]
  have q1 := ota_quiet (md5 := md5) l v hl (by rw [e4]; simp)
  rw [app]
  generalize v.run md5 l = w at q1
  obtain ⟨w, t1⟩ := w
  simp only at q1 ⊢
  have hr := ota_invited (md5 := md5) (o := w.lib) (by rw [q1, e4]) (by rw [q1, e2.password, (hm _).1]; decide) hc
    (port := port) (size := size) (by omega) (by omega) h3 w.callback us
  simp only [OtaDevice.run, OtaDevice.step, hr]
  rw [app]
  have q2 := ota_quiet (md5 := md5) l'
    { w with lib := { w.lib with state := .waitAuth, nonce := md5 (decText us) } } hl' (by simp)
  generalize OtaDevice.run md5 _ l' = z at q2
  obtain ⟨z, t2⟩ := z
  simp only at q2 ⊢
  have ha := ota_answered (md5 := md5) (o := z.lib) (by rw [q2]) h4 (hm (md5 pw ++ 58 :: md5 (decText us) ++ 58 :: cn)) z.callback us'
  rw [if_pos (by rw [q2, q1, e2.password])] at ha
  simp only [OtaDevice.run, OtaDevice.step, ha, OtaLib.handle]
  exact ⟨t1 ++ (.datagram (invitation cmd port size sum) us, [.challenge (md5 (decText us))]) :: (t2 ++
    [(.datagram (answer cn (md5 (md5 pw ++ 58 :: md5 (decText us) ++ 58 :: cn))) us', [])]), by simp⟩

/-! ## What is missing -/

/-- **C114 is false as stated**: anybody can restart the device, without the password.  One of two fixed answers is refused, and the
device restarts. -/
theorem c114_refuted_restart {md5 : Str → Str} (hm : ∀ x, Hex32 (md5 x)) {c : Config} {pw host chip : Str} (hp : HasText c.otaAuth pw)
    (hh : HasText c.host host) (us us' : Nat) : ∃ v, OtaDevice.start md5 c chip = .ok v ∧
      ∃ r ∈ [List.replicate 32 48, List.replicate 32 49], ∃ t,
        (v.run md5 [.callbacks, .datagram (invitation 0 1 1 (List.replicate 32 48)) us,
          .datagram (answer (List.replicate 32 48) r) us']).2 =
          t ++ [(.datagram (answer (List.replicate 32 48) r) us', [.failed, .restart])] := by
  obtain ⟨v, e1, e2, -, e4⟩ := ota_start (md5 := md5) hp hh chip
  refine ⟨v, e1, ?_⟩
  have hx0 : Hex32 (List.replicate 32 48) := ⟨by decide, by decide⟩
  have hx1 : Hex32 (List.replicate 32 49) := ⟨by decide, by decide⟩
  obtain ⟨r, hr, hxr, hne⟩ : ∃ r ∈ [List.replicate 32 48, List.replicate 32 49], Hex32 r ∧
      md5 (md5 pw ++ 58 :: md5 (decText us) ++ 58 :: List.replicate 32 48) ≠ r := by
    by_cases h : md5 (md5 pw ++ 58 :: md5 (decText us) ++ 58 :: List.replicate 32 48) = List.replicate 32 48
    · exact ⟨List.replicate 32 49, by simp, hx1, by rw [h]; decide⟩
    · exact ⟨List.replicate 32 48, by simp, hx0, h⟩
  refine ⟨r, hr, ?_⟩
  have h1 := ota_invited (md5 := md5) (o := v.lib) e4 (by rw [e2.password, (hm _).1]; decide) (.inl rfl)
    (port := 1) (size := 1) (by decide) (by decide) hx0 true us
  have h2 := ota_answered (md5 := md5) (o := { v.lib with state := .waitAuth, nonce := md5 (decText us) }) rfl hx0 hxr true us'
  rw [if_neg (by simp only [e2.password]; exact hne)] at h2
  simp only [OtaDevice.run, OtaDevice.step, h1, h2, otaError]
  exact ⟨[(.callbacks, []), (.datagram (invitation 0 1 1 (List.replicate 32 48)) us, [.challenge (md5 (decText us))])], rfl⟩

/-- A device with a password, and another one. -/
def otaConfig (pw : Str) : Config := { Config.zero with otaAuth := padArr 65 pw, otaPort := 8266 }

/-- **C114 is false as stated**: after another password has been saved, an answer with the old one is accepted. -/
theorem c114_refuted_saved {md5 : Str → Str} (hm : ∀ x, Hex32 (md5 x)) (chip : Str) (us us' : Nat) :
    HasText (otaConfig (bs "old")).otaAuth (bs "old") ∧ HasText (otaConfig (bs "new")).otaAuth (bs "new") ∧
    ∃ v, OtaDevice.start md5 (otaConfig (bs "old")) chip = .ok v ∧ ∃ t,
      (v.run md5 ([.saved (otaConfig (bs "new"))] ++ .datagram (invitation 0 8000 1000 (List.replicate 32 48)) us :: ([] ++
        [.datagram (answer (List.replicate 32 48) (md5 (md5 (bs "old") ++ 58 :: md5 (decText us) ++ 58 :: List.replicate 32 48))) us',
          .handle .done]))).2 = t ++ [(.handle .done, [.install, .restart])] := by
  have h1 : HasText (otaConfig (bs "old")).otaAuth (bs "old") := by unfold HasText; decide +kernel
  have h2 : HasText (otaConfig (bs "new")).otaAuth (bs "new") := by unfold HasText; decide +kernel
  have h3 : HasText (otaConfig (bs "old")).host [] := by unfold HasText; decide +kernel
  have hx0 : Hex32 (List.replicate 32 48) := ⟨by decide, by decide⟩
  exact ⟨h1, h2, c114_accepted hm h1 h3 (.inl rfl) (by decide) (by decide) hx0 hx0
    (by intro e he; simp only [List.mem_singleton] at he; subst he; trivial) (by simp) us us'⟩

/-! ## Recorded answers -/

/-- **C114**: an answer that was accepted for one challenge is accepted for another challenge only if two texts have the same digest;
challenges are the same only at the same value of the clock of microseconds, or then as well. -/
theorem c114_replay {md5 : Str → Str} {pw d : Str} {o o' : OtaLib} {cb : Bool} {us us' t t' : Nat} (hl : ∀ x, (md5 x).length = 32)
    (ho : o.password = md5 pw ∧ o.state = .waitAuth ∧ o.nonce = md5 (decText t))
    (ho' : o'.password = md5 pw ∧ o'.state = .waitAuth ∧ o'.nonce = md5 (decText t'))
    (h : (o.receive md5 cb d us).1.state = .runUpdate) (h' : (o'.receive md5 cb d us').1.state = .runUpdate) :
    t = t' ∨ ∃ x y, x ≠ y ∧ md5 x = md5 y := by
  by_cases ht : t = t'
  · exact .inl ht
  refine .inr ?_
  have key : ∀ {o : OtaLib} {us : Nat}, o.state = .waitAuth → (o.receive md5 cb d us).1.state = .runUpdate →
      md5 (o.password ++ 58 :: o.nonce ++ 58 :: (otaUntil 32 ((otaInt d).2.drop 1)).1) =
        (otaUntil 10 (otaUntil 32 ((otaInt d).2.drop 1)).2).1 := by
    intro o us hs h
    simp only [OtaLib.receive, hs] at h
    split at h
    · cases h
    · split at h
      · cases h
      · split at h
        · assumption
        · cases h
  have k := key ho.2.1 h
  have k' := key ho'.2.1 h'
  rw [← k'] at k
  by_cases hn : md5 (decText t) = md5 (decText t')
  · refine ⟨_, _, ?_, hn⟩
    intro he
    exact ht (by rw [← decVal_decText t, ← decVal_decText t', he])
  · refine ⟨_, _, ?_, k⟩
    rw [ho.1, ho'.1, ho.2.2, ho'.2.2]
    intro he
    refine hn ?_
    simp only [List.append_assoc] at he
    have := List.append_cancel_left he
    simp only [List.cons_append, List.cons.injEq, true_and] at this
    exact (List.append_inj this (by rw [hl, hl])).1

/-! ## Examples -/

/-- A digest that tells nothing but the length (modulo 10) of its text: enough to see the protocol at work. -/
def toyDigest (x : Str) : Str := List.replicate 32 (48 + UInt8.ofNat (x.length % 10))

theorem toy_hex (x : Str) : Hex32 (toyDigest x) := by
  refine ⟨by simp [toyDigest], fun b hb => .inl ?_⟩
  simp only [toyDigest, List.mem_replicate] at hb
  rw [hb.2]
  have : ∀ n < 10, digit (48 + UInt8.ofNat n) = true := by decide
  exact this _ (Nat.mod_lt _ (by decide))

/-- The hypotheses of the theorems are met, with and without a password. -/
example : HasText (otaConfig (bs "OTA_WifInfo")).otaAuth (bs "OTA_WifInfo") ∧ HasText (otaConfig []).otaAuth [] ∧
    HasText (otaConfig []).host [] ∧ ∀ x, Hex32 (toyDigest x) :=
  ⟨by unfold HasText; decide +kernel, by unfold HasText; decide +kernel, by unfold HasText; decide +kernel, toy_hex⟩

/-- An update, first refused, then installed. -/
example : (OtaDevice.start toyDigest (otaConfig (bs "pw")) (bs "c")).map (fun v => ((v.run toyDigest
    [.datagram (invitation 0 8000 1000 (toyDigest [1])) 123, .datagram (answer (toyDigest [2]) (toyDigest [3])) 124, .handle .done,
      .datagram (invitation 0 8000 1000 (toyDigest [1])) 123, .datagram (answer (toyDigest [2]) (toyDigest (toyDigest (bs "pw") ++
        58 :: toyDigest (decText 123) ++ 58 :: toyDigest [2]))) 124, .handle .done]).2.map (·.2))) =
    .ok [[.challenge (toyDigest (decText 123))], [.failed], [], [.challenge (toyDigest (decText 123))], [], [.install, .restart]] := by
  decide +kernel

/-- A recorded answer is accepted again by this digest, for another value of the clock: two texts with the same digest are there. -/
example : let o : OtaLib := { OtaLib.new with password := toyDigest (bs "pw"), state := .waitAuth, nonce := toyDigest (decText 123) }
    let d := answer (toyDigest [2]) (toyDigest (toyDigest (bs "pw") ++ 58 :: toyDigest (decText 123) ++ 58 :: toyDigest [2]))
    (o.receive toyDigest false d 0).1.state = .runUpdate ∧
      ({ o with nonce := toyDigest (decText 456) }.receive toyDigest false d 0).1.state = .runUpdate := by
  decide +kernel

end Wifinfo
