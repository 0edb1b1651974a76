import Verif.Model.Simu

/-!
# The terminal of the project, `tools/cli.py`

What the terminal sends to the device: the keys and the frames of the simulator.  Each `serial.write` is taken for atomic, so
that the thread of the periodic frames and the thread of the keys send whole frames and whole keys in some order; what is shown
is left out.
-/

namespace Wifinfo

/-- `pause_tic`, `alive` and the simulator of `Miniterm` cli.py:263-279 -/
structure Term where
  tic : SimuTic
  pause : Bool
  alive : Bool

/-- What the simulator draws for a frame (floating-point numbers, the clock and the random numbers are left out). -/
structure Draw where
  hchc : Nat
  hchp : Nat
  iinst : Nat
  papp : Nat

/-- `send_tic` cli.py:417-424 -/
def Term.send (t : Term) (w : Draw) : Term × Str :=
  let tic := { t.tic with hchc := w.hchc, hchp := w.hchp, iinst := w.iinst, papp := w.papp }
  ({ t with tic := tic }, tic.trame)

/-- `getkey` cli.py:112-116: the code of the key -/
def termKey (c : Nat) : Nat := if c = 0x7F then 8 else c

/-- The transformation `CRLF` cli.py:144-148 (the filter `colorize` sends the text unchanged), and the encoding in ASCII with
replacement cli.py:339-342, 508 -/
def termTx (c : Nat) : Str := if c = 10 then [13, 10] else if c < 128 then [UInt8.ofNat c] else [63]

/-- What happens in the terminal: a key, or the periodic timer; with the draw for a frame. -/
inductive TermEvent
  | key (c : Nat) (w : Draw)
  | tick (w : Draw)

/-- `writer` cli.py:360-411 and `send_tic_periodic` cli.py:413-415: the bytes written to the device -/
def Term.step (t : Term) : TermEvent → Term × Str
  | .key c w =>
    let c := termKey c
    if !t.alive then (t, [])
    else if c = 0x14 then t.send w
    else if c = 0x19 then ({ t with pause := !t.pause }, [])
    else if c = 0x10 then ({ t with tic := t.tic.bascule 84 } : Term).send w
    else if c = 0x01 then ({ t with tic := t.tic.bascule 65 } : Term).send w
    else if c = 0x04 then ({ t with tic := t.tic.bascule 80 } : Term).send w
    else if c = 0x03 then ({ t with alive := false }, [])
    else (t, termTx c)
  | .tick w => if t.alive && !t.pause then t.send w else (t, [])

/-- A session. -/
def Term.run : Term → List TermEvent → Term × Str
  | t, [] => (t, [])
  | t, e :: l =>
    let (t, s) := t.step e
    let (t, r) := t.run l
    (t, s ++ r)

end Wifinfo
