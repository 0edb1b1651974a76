import Verif.Model.Teleinfo

/-!
# The bytes of the meter between the wire and `tic_decode`: `src/main.cpp`

`loop` (main.cpp:81-110) takes at most one byte in each turn, between the web server, the updates over the air and the
notifications.  The bytes that come in meanwhile wait in the buffer of the serial line, which is that of the core: `main.cpp`
does not change its size, and `Serial.begin` (main.cpp:29, 32) sets the speed.

The core is not part of /repo.  Assumed: the buffer keeps `cap` bytes (255 of the 256 of the core), and when it is full a new
byte takes the place of the oldest one (`UART_DISCARD_NEWEST` is not defined in platformio.ini).  The theorems hold for every
`cap`.  Left out: the pause of an upload (`tinfo_pause`, C51), and the console, which takes its bytes from the same place (C50).
-/

namespace Wifinfo

/-- What happens to the serial line, in the order of time. -/
inductive RxEv
  /-- a byte has come in -/
  | byte (b : Byte)
  /-- a turn of `loop` comes to the serial line, the clock shows `t` -/
  | turn (t : TimeVal)
deriving DecidableEq

/-- The buffer, the oldest byte first, and the bytes that `tic_decode` has had. -/
structure Rx where
  ring : Str := []
  seen : List (TimeVal × Byte) := []
deriving DecidableEq

/-- A byte comes in: the interrupt of the core. -/
def Rx.put (cap : Nat) (r : Rx) (b : Byte) : Rx :=
  if r.ring.length < cap then { r with ring := r.ring ++ [b] }
  else { r with ring := (r.ring ++ [b]).drop 1 }

/-- `if (Serial.available()) { int c = Serial.read(); tic_decode(c); }` main.cpp:104-108 (and 96-102 with `cli_loop_read`) -/
def Rx.turn (r : Rx) (t : TimeVal) : Rx :=
  match r.ring with
  | [] => r
  | b :: ring => { ring := ring, seen := r.seen ++ [(t, b)] }

/-- One event. -/
def Rx.step (cap : Nat) (r : Rx) : RxEv → Rx
  | .byte b => r.put cap b
  | .turn t => r.turn t

/-- The events one after the other. -/
def Rx.run (cap : Nat) (r : Rx) (evs : List RxEv) : Rx := evs.foldl (Rx.step cap) r

/-- `SERIAL_7E1` at 1200 bauds (main.cpp:32): a start bit, seven bits, the parity and a stop bit take this many microseconds
(8333 and a third, rounded down: the bytes are at least that far apart). -/
def byteTime : Nat := 8333

/-- The events of turns that last `d` microseconds, from the instant `now` on, and of bytes that come in at known instants: a turn
looks at the line, and then come the bytes that come in before the next one. -/
def RxEv.timeline (now : Nat) (bytes : List (Nat × Byte)) : List (Nat × TimeVal) → List RxEv
  | [] => []
  | (d, t) :: ds =>
    .turn t :: (bytes.takeWhile fun x => x.1 < now + d).map (fun x => .byte x.2) ++
      RxEv.timeline (now + d) (bytes.dropWhile fun x => x.1 < now + d) ds

end Wifinfo
