import Verif.Model.Device

/-!
# Model of the LED: `src/led.h` and its uses, and of the ticker of `src/update.cpp`

The board of a build with `ENABLE_LED`.  The pin is written by `setup`, by the meter module, by the upload handler,
by the ticker that blinks during an upload, and by the command `led` of the console.  ArduinoOTA is left out.
A ticker fires when the SDK likes, but only while it is armed; periods are left out.
-/

namespace Wifinfo

/-- What is done to the pin: `led_on`, `led_off`, `led_toggle` led.h:15-28. -/
inductive LedOp
  | on | off | toggle
deriving DecidableEq, Repr

/-- The LED is lit when the pin is low led.h:15-28. -/
def LedOp.apply (lit : Bool) : LedOp → Bool
  | .on => true
  | .off => false
  | .toggle => !lit

/-- What `static Ticker blink` update.cpp:19 is armed for. -/
inductive Ticker
  | idle
  /-- `blink.attach_ms(333, led_toggle)` update.cpp:107-109 -/
  | toggle
  /-- `blink.once_ms(500, ESP.restart)` update.cpp:88-90 -/
  | restart
deriving DecidableEq, Repr

/-- A device with its LED. -/
structure Board where
  d : Device
  lit : Bool
  blink : Ticker
  /-- `timer_blink` cli.cpp:37 is running -/
  cli : Bool

/-- What happens to a board. -/
inductive BoardEvent
  /-- an event of the device; `tries` is the number of turns of the loop sys.cpp:287-294 if it is a start -/
  | dev (ev : Event) (tries : Nat)
  /-- the ticker fires, if it is armed -/
  | tick
  /-- `timer_blink` has expired, cli.cpp:273-276, if it is running -/
  | timer
  /-- the command `led` of the console with its argument, cli.cpp:41-60 -/
  | led (value : Str)

/-- `tic_decode` tic.cpp:54-85, what it does to the LED. -/
def Tic.leds (c : Config) (x : Tic) (now : TimeVal) (b : Byte) : Res (List LedOp) :=
  if x.pause then pure []
  else do
    let d ← x.dec.put now b
    if d.ready then pure ((if c.options &&& 1 ≠ 0 then [.on] else []) ++ (if c.options &&& 1 ≠ 0 then [.off] else []))
    else pure []

/-- `setup` main.cpp:20-79 with `sys_wifi_connect` sys.cpp:287-294 -/
def setupLeds (tries : Nat) : List LedOp :=
  .on :: ((List.replicate tries [LedOp.on, .off]).flatten ++ [.off])

/-- `sys_update_finish` update.cpp:35-57 as far as the LED and the ticker go. -/
def finishLeds : List LedOp × Ticker := ([.off], .idle)

/-- The upload handler update.cpp:102-174 as far as the LED and the ticker go. -/
def uploadLeds (t : Ticker) : UploadEv → List LedOp × Ticker
  | .start _ _ beginOk _ => if beginOk then ([], .toggle) else finishLeds
  | .write _ ok _ => if ok then ([], t) else finishLeds
  | .fin _ => finishLeds
  | .abort _ => finishLeds

/-- What an event of the device does to the LED and to the ticker; `e` is what the device does. -/
def Board.leds (s : Board) (tries : Nat) (e : List Eff) : Event → Res (List LedOp × Ticker)
  | .boot .. => pure (setupLeds tries, .idle)
  | .byte now _ _ x => do pure (← s.d.tic.leds s.d.nv.config now x, s.blink)
  | .upload _ u => pure (uploadLeds s.blink u)
  | _ => pure ([], if Eff.restartSoon ∈ e then .restart else s.blink)

/-- The levels of the LED after each operation. -/
def levels (lit : Bool) : List LedOp → List Bool
  | [] => []
  | o :: r => o.apply lit :: levels (o.apply lit) r

/-- A start of the device: static variables have their first value again. -/
def Event.isStart : Event → Bool
  | .boot .. => true
  | _ => false

/-- One event: the board, what the device does, the levels written to the LED. -/
def Board.step (b : Build) (s : Board) : BoardEvent → Res (Board × List Eff × List Bool)
  | .dev ev tries => do
    let (d, e) ← s.d.step b ev
    let (ops, t) ← s.leds tries e ev
    pure (⟨d, ops.foldl LedOp.apply s.lit, t, s.cli && !ev.isStart⟩, e, levels s.lit ops)
  | .tick =>
    match s.blink with
    | .idle => pure (s, [], [])
    | .toggle => pure ({ s with lit := LedOp.toggle.apply s.lit }, [], [LedOp.toggle.apply s.lit])
    | .restart => pure ({ s with blink := .idle }, [.restart], [])
  | .timer =>
    if s.cli then pure ({ s with lit := !s.lit }, [], [!s.lit]) else pure (s, [], [])
  | .led value =>
    if value = bs "off" then pure ({ s with cli := false, lit := false }, [], [false])
    else if value = bs "on" then pure ({ s with cli := false, lit := true }, [], [true])
    else if value = bs "blink" then pure ({ s with cli := true }, [], [])
    else pure (s, [], [])

/-- A sequence of events: the board, and for each event what it does and the levels written. -/
def Board.run (b : Build) : Board → List BoardEvent → Res (Board × List (List Eff × List Bool))
  | s, [] => pure (s, [])
  | s, ev :: r => do
    let (s, e, l) ← s.step b ev
    let (s, es) ← s.run b r
    pure (s, (e, l) :: es)

end Wifinfo
