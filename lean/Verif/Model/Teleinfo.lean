import Verif.Model.Base

/-!
# Model of `src/teleinfo.h`

`Teleinfo` (a stored frame and the power estimate) and `TeleinfoDecoder` (the serial automaton),
function by function, on cell memory.
-/

namespace Wifinfo

/-- `STX` teleinfo.h:11 -/
def STX : Byte := 0x02
/-- `ETX` teleinfo.h:12 -/
def ETX : Byte := 0x03
/-- `EOT` teleinfo.h:13 -/
def EOT : Byte := 0x04
/-- `LF` teleinfo.h:14 -/
def LF : Byte := 0x0A
/-- `CR` teleinfo.h:15 -/
def CR : Byte := 0x0D

/-- `MAX_FRAME_SIZE` teleinfo.h:43 -/
def MAX_FRAME_SIZE : Nat := 350
/-- `CONSO_MAX` teleinfo.h:56 -/
def CONSO_MAX : Nat := 48

/-- `struct timeval` as filled by the time callback.  `tv_sec` is only used modulo 2^32 by the
arithmetic and printed; dates before 1970 are not modelled (`Nat`).  `tv_usec` is below 1000000
on a real clock; the theorems say so where they need it. -/
structure TimeVal where
  sec : Nat
  usec : Nat
deriving DecidableEq, Repr

/-- The frame part of `class Teleinfo`: `frame_`, `size_`, `timestamp_` (teleinfo.h:46-48). -/
structure Frame where
  mem : Mem
  size : Nat
  ts : TimeVal
deriving DecidableEq, Repr

/-- `is_empty` teleinfo.h:211-214 -/
def Frame.isEmpty (t : Frame) : Bool := t.size == 0

/-- The loop `while (*p != 0) { if (p >= end) return ...; ++p; }` teleinfo.h:226-231 (and
241-246, 299-304, 314-319).  `some q`: stopped on the NUL at `q`; `none`: hit `end`. -/
def scanNul (m : Mem) (end_ : Nat) : Nat → Nat → Res (Option Nat)
  | 0, _ => .error .diverge
  | f + 1, p => do
    let b ← m.rd p
    if b = 0 then pure (some p)
    else if p ≥ end_ then pure none
    else scanNul m end_ f (p + 1)

/-- The outer loop of `get_value` teleinfo.h:221-256.  Result: index of `current_value`.
`strcmp(current_label, label)` is modelled by reading the whole label and comparing. -/
def getValueLoop (m : Mem) (end_ : Nat) (label : Str) : Nat → Nat → Res (Option Nat)
  | 0, _ => .error .diverge
  | f + 1, p =>
    if p < end_ then do
      let current_label := p
      match ← scanNul m end_ (MAX_FRAME_SIZE + 1) p with
      | none => pure none
      | some q =>
        let p := q + 1
        if p ≥ end_ then pure none else do
          let current_value := p
          match ← scanNul m end_ (MAX_FRAME_SIZE + 1) p with
          | none => pure none
          | some q =>
            let p := q + 1
            let l ← m.cstr current_label
            if l = label then pure (some current_value)
            else getValueLoop m end_ label f p
    else pure none

/-- `isdigit` on the C locale. -/
def isDigit (b : Byte) : Bool := 0x30 ≤ b && b ≤ 0x39

/-- First loop of `get_integer` teleinfo.h:388-394: are all characters of the C string digits? -/
def allDigitsF (m : Mem) : Nat → Nat → Res Bool
  | 0, _ => .error .diverge
  | f + 1, p => do
    let b ← m.rd p
    if b = 0 then pure true
    else if !isDigit b then pure false
    else allDigitsF m f (p + 1)

/-- Second loop of `get_integer` teleinfo.h:396-397. -/
def skipZerosF (m : Mem) : Nat → Nat → Res Nat
  | 0, _ => .error .diverge
  | f + 1, p => do
    let b ← m.rd p
    if b = 0x30 then do
      let b1 ← m.rd (p + 1)
      if b1 ≠ 0 then skipZerosF m f (p + 1) else pure p
    else pure p

/-- `get_integer` teleinfo.h:385-399: returns the flag and the updated pointer. -/
def getInteger (m : Mem) (p : Nat) : Res (Bool × Nat) := do
  if ← allDigitsF m (m.length + 1 - p) p then
    let q ← skipZerosF m (m.length + 1 - p) p
    pure (true, q)
  else pure (false, p)

/-- `get_value` teleinfo.h:216-259.  The result is the index of the value in `frame_`, `none`
stands for "return default_value". -/
def Frame.getValuePtr (t : Frame) (label : Str) (removeLeadingZeros : Bool := false) :
    Res (Option Nat) := do
  match ← getValueLoop t.mem t.size label (MAX_FRAME_SIZE + 1) 0 with
  | none => pure none
  | some v =>
    if removeLeadingZeros then do
      let (_, v) ← getInteger t.mem v
      pure (some v)
    else pure (some v)

/-- `get_value` seen by its callers: the C string the returned pointer designates. -/
def Frame.getValue (t : Frame) (label : Str) (removeLeadingZeros : Bool := false) :
    Res (Option Str) := do
  match ← t.getValuePtr label removeLeadingZeros with
  | none => pure none
  | some p =>
    let s ← t.mem.cstr p
    pure (some s)

/-- Conversion loop of `get_value_int` teleinfo.h:270-280.  `int8_t digit = *c - '0'` is the
byte difference; it is in 0..9 exactly when the unsigned byte difference is at most 9. -/
def toU32F (m : Mem) : Nat → Nat → UInt32 → Res (Option UInt32)
  | 0, _, _ => .error .diverge
  | f + 1, p, u => do
    let b ← m.rd p
    if b = 0 then pure (some u)
    else
      let digit : Byte := b - 0x30
      if digit > 9 then pure none
      else toU32F m f (p + 1) (digit.toUInt32 + u * 10)

/-- `get_value_int` teleinfo.h:261-281. -/
def Frame.getValueInt (t : Frame) (label : Str) (dflt : UInt32 := 0) : Res UInt32 := do
  match ← t.getValuePtr label true with
  | none => pure dflt
  | some p =>
    match ← toU32F t.mem (t.mem.length + 1 - p) p 0 with
    | none => pure dflt
    | some u => pure u

/-- `get_value_next` teleinfo.h:283-324 for a non-null `state` pointer.  `st` is `*state`
(`none` = nullptr, else an index in `frame_`; pointers below `frame_` do not exist here).
Result: label index, value index, new `*state`; `none` = false. -/
def Frame.getValueNext (t : Frame) (st : Option Nat) : Res (Option (Nat × Nat × Nat)) := do
  let end_ := t.size
  if st.any (fun s => s ≥ end_) then pure none else do
    let p := st.getD 0
    let label := p
    match ← scanNul t.mem end_ (MAX_FRAME_SIZE + 1) p with
    | none => pure none
    | some q =>
      let p := q + 1
      if p ≥ end_ then pure none else do
        let value := p
        match ← scanNul t.mem end_ (MAX_FRAME_SIZE + 1) p with
        | none => pure none
        | some q => pure (some (label, value, q + 1))

/-- The iteration idiom of the callers, e.g. tic.cpp:239-243:
`const char *state = nullptr; while (tinfo.get_value_next(label, value, &state)) ...`,
collecting the C strings designated by `label` and `value`. -/
def Frame.iterF (t : Frame) : Nat → Option Nat → Res (List (Str × Str))
  | 0, _ => .error .diverge
  | f + 1, st => do
    match ← t.getValueNext st with
    | none => pure []
    | some (l, v, s) =>
      let ls ← t.mem.cstr l
      let vs ← t.mem.cstr v
      let r ← t.iterF f (some s)
      pure ((ls, vs) :: r)

/-- All pairs seen by the iteration idiom. -/
def Frame.iter (t : Frame) : Res (List (Str × Str)) := t.iterF (MAX_FRAME_SIZE + 1) none

/-- Loop of `get_frame_ascii` teleinfo.h:350-373; `n` = iterations left (`size_ - i`).
`size - 2` is `size_t` arithmetic: it wraps when `size < 2`. -/
def asciiLoop (m : Mem) (size : Nat) : Nat → Nat → Nat → Bool → Mem → Res (Nat × Mem)
  | 0, _, j, _, out => pure (j, out)
  | n + 1, i, j, label, out => do
    let c ← m.rd i
    let (out, label) ←
      (if c = 0 then do
        let out ← out.wr j (if label then 0x20 else LF)
        pure (out, !label)
      else do
        let out ← out.wr j c
        pure (out, label) : Res (Mem × Bool))
    let j := j + 1
    if j ≥ (size + 2 ^ 32 - 2) % 2 ^ 32 then pure (j, out)
    else asciiLoop m size n (i + 1) j label out

/-- `get_frame_ascii` teleinfo.h:346-383: `out` is the caller's buffer (an array of at least
`size` cells), returns the length and the buffer. -/
def Frame.ascii (t : Frame) (out : Mem) (size : Nat) : Res (Nat × Mem) := do
  let (j, out) ← asciiLoop t.mem size t.size 0 0 true out
  let j ← (if j ≠ 0 then do
      let b ← out.rd (j - 1)
      pure (if b ≠ LF then 0 else j)
    else pure j : Res Nat)
  let out ← out.wr j 0
  pure (j, out)

/-! ## Samples and power estimate -/

/-- `struct conso` teleinfo.h:50-54 -/
structure Conso where
  dateMs : UInt32
  wattHeure : UInt32
deriving DecidableEq, Repr

/-- `class Teleinfo` teleinfo.h:40-59. -/
structure Teleinfo where
  fr : Frame
  consos : List Conso
  iConsos : Nat
  conso0 : Conso
deriving DecidableEq, Repr

/-- Zero-initialised static object + constructor teleinfo.h:62-65 (`Teleinfo tinfo;` tic.cpp:42
is a global, so `frame_` is zeroed before the constructor runs). -/
def Teleinfo.init : Teleinfo :=
  { fr := { mem := List.replicate MAX_FRAME_SIZE (some 0), size := 0, ts := ⟨0, 0⟩ },
    consos := List.replicate CONSO_MAX ⟨0, 0⟩, iConsos := 0, conso0 := ⟨0, 0⟩ }

/-- `memmove(frame_, tinfo.frame_, size_)` between two frame arrays: fails if `n` exceeds either
array; indeterminate cells are copied as such. -/
def memmove (dst src : Mem) (n : Nat) : Res Mem :=
  if n ≤ dst.length ∧ n ≤ src.length then .ok (src.take n ++ dst.drop n)
  else .error .outOfBounds

/-- `copy_from` teleinfo.h:67-90.  `timestamp_.tv_sec - conso0_.date_ms` etc. are computed
modulo 2^32 (on the ESP8266 `long` and `unsigned` are both 32-bit; on a 64-bit host the final
conversion to `uint32_t` gives the same value). -/
def Teleinfo.copyFrom (t : Teleinfo) (src : Frame) : Res Teleinfo := do
  let mem ← memmove t.fr.mem src.mem src.size
  let fr : Frame := { mem := mem, size := src.size, ts := src.ts }
  if fr.isEmpty then pure { t with fr := fr }
  else do
    let hp ← fr.getValueInt (bs "HCHP")
    let hc ← fr.getValueInt (bs "HCHC")
    let wh := hp + hc
    let sec := UInt32.ofNat fr.ts.sec
    let conso0 : Conso :=
      if t.conso0.dateMs = 0 then { dateMs := sec - 1, wattHeure := wh - 1 } else t.conso0
    if t.iConsos < t.consos.length then
      let c : Conso :=
        { dateMs := (sec - conso0.dateMs) * 1000 + UInt32.ofNat (fr.ts.usec / 1000),
          wattHeure := wh - conso0.wattHeure }
      pure { fr := fr, consos := t.consos.set t.iConsos c,
             iConsos := (t.iConsos + 1) % CONSO_MAX, conso0 := conso0 }
    else .error .outOfBounds

/-- `consos_[i]` -/
def rdConso (cs : List Conso) (i : Nat) : Res Conso :=
  match cs[i]? with
  | some c => .ok c
  | none => .error .outOfBounds

/-- The `do ... while` of `watt` teleinfo.h:110-122; returns `premier`. -/
def wattLoop (cs : List Conso) (i_ : Nat) (now periode : UInt32) : Nat → Nat → Res Nat
  | 0, _ => .error .diverge
  | f + 1, premier => do
    let suivant := (CONSO_MAX + premier - 1) % CONSO_MAX
    let s ← rdConso cs suivant
    if s.wattHeure = 0 then pure premier
    else if now - s.dateMs > periode then pure premier
    else if suivant ≠ i_ then wattLoop cs i_ now periode f suivant
    else pure suivant

/-- `watt` teleinfo.h:100-209.  `t` is `int32_t`: it is negative when bit 31 is set; the
division converts it back to `uint32_t`. -/
def Teleinfo.watt (x : Teleinfo) (periode : UInt32 := 60) : Res UInt32 := do
  let actuel := (CONSO_MAX + x.iConsos - 1) % CONSO_MAX
  let a ← rdConso x.consos actuel
  let now := a.dateMs
  let periode := periode * 1000
  let premier ← wattLoop x.consos x.iConsos now periode (CONSO_MAX + 1) actuel
  let p ← rdConso x.consos premier
  if a.dateMs = p.dateMs then pure 0
  else do
    let wh := a.wattHeure - p.wattHeure
    let t := now - p.dateMs
    let t := if t ≥ 0x80000000 then t + 1000000 else t
    if t = 0 then .error .divByZero
    else pure ((3600000 * wh) / t)

/-! ## The decoder -/

/-- `enum state_` teleinfo.h:406-411 -/
inductive DState
  | waitStx | waitLfOrEtx | waitCr
deriving DecidableEq, Repr

/-- `class TeleinfoDecoder` teleinfo.h:402-413 (the inherited sample store is not used by the
decoder and is left out). -/
structure Dec where
  fr : Frame
  offset : Nat
  start : Nat
  state : DState
deriving DecidableEq, Repr

/-- Member initialisers teleinfo.h:47-48, 404-411, on an array with arbitrary contents. -/
def Dec.init (mem : Mem) : Dec :=
  { fr := { mem := mem, size := 0, ts := ⟨0, 0⟩ }, offset := 0, start := 0, state := .waitStx }

/-- `ready` teleinfo.h:422-425 -/
def Dec.ready (d : Dec) : Bool := d.fr.size != 0

/-- The checksum loop teleinfo.h:472-481; `n` = iterations left.  `sum` is an `int` which stays
far below 2^31 (at most 348 bytes), so it is a `Nat`.  `sep = -1` is byte 255. -/
def sumLoop : Nat → Mem → Byte → Nat → Nat → Res (Mem × Nat)
  | 0, m, _, _, sum => pure (m, sum)
  | n + 1, m, sep, i, sum => do
    let b ← m.rd i
    let sum := sum + b.toNat
    if b = sep then do
      let m ← m.wr i 0
      sumLoop n m 0xFF (i + 1) sum
    else sumLoop n m sep (i + 1) sum

/-- The dot-stripping loop teleinfo.h:489-492. -/
def stripLoop (m : Mem) : Nat → Nat → Res Nat
  | 0, _ => .error .diverge
  | f + 1, off =>
    if off ≥ 2 then do
      let b ← m.rd (off - 2)
      if b = 0x2E then stripLoop m f (off - 1) else pure off
    else pure off

/-- Body of the `c == CR` case in state `wait_cr`, teleinfo.h:458-514. -/
def Dec.onCr (d : Dec) : Res Dec :=
  if d.offset ≥ 4 ∧ d.offset < MAX_FRAME_SIZE - 2 then
    if d.start < d.offset - 3 then do
      let sep ← d.fr.mem.rd (d.offset - 2)
      let checksum ← d.fr.mem.rd (d.offset - 1)
      let (mem, sum) ← sumLoop (d.offset - 2 - d.start) d.fr.mem sep d.start 0
      let sum := sum % 64 + 32
      if sum = checksum.toNat then do
        let off := d.offset - 1
        let off ← stripLoop mem (off + 1) off
        let mem ← mem.wr (off - 1) 0
        pure { d with fr := { d.fr with mem := mem }, offset := off, state := .waitLfOrEtx }
      else pure { d with fr := { d.fr with mem := mem }, state := .waitStx }
    else pure { d with state := .waitStx }
  else pure { d with state := .waitStx }

/-- `put` teleinfo.h:427-562; `now` is what the time callback would return. -/
def Dec.put (d0 : Dec) (now : TimeVal) (c : Byte) : Res Dec :=
  let d := { d0 with fr := { d0.fr with size := 0 } }
  if c = STX then
    pure { d with offset := 0, state := .waitLfOrEtx, fr := { d.fr with ts := now } }
  else if c = LF then
    if d.state = .waitLfOrEtx then pure { d with state := .waitCr, start := d.offset }
    else pure { d with state := .waitStx }
  else if c = CR then
    if d.state = .waitCr then d.onCr
    else pure { d with state := .waitStx }
  else if c = ETX then
    if d.state = .waitLfOrEtx then
      pure { d with fr := { d.fr with size := d.offset }, state := .waitStx }
    else pure { d with state := .waitStx }
  else if c = EOT then pure { d with state := .waitStx }
  else
    if d.state = .waitCr then
      if d.offset < MAX_FRAME_SIZE then do
        let mem ← d.fr.mem.wr d.offset c
        pure { d with fr := { d.fr with mem := mem }, offset := d.offset + 1 }
      else pure { d with state := .waitStx }
    else pure { d with state := .waitStx }

/-- Feeding a sequence of bytes, each with its clock reading. -/
def Dec.puts (d : Dec) : List (TimeVal × Byte) → Res Dec
  | [] => pure d
  | (t, c) :: r => do
    let d ← d.put t c
    d.puts r

end Wifinfo
