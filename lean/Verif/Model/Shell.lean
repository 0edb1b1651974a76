import Verif.Model.Tic
import Verif.Model.Console
import Verif.Model.Device

/-!
# Commands of the console: `tic` (src/tic.cpp:669-675) and `set` (src/cli.cpp:85-136)

The arguments of a command are those that SimpleCLI hands over; an argument that is not there is an empty text (assumption on this
library).  What `set wifi` and `set ap` do to the settings is in `Store.lean`.
-/

namespace Wifinfo
open Spec

/-- `tic_dump` tic.cpp:669-675: what is printed.  `raw` is the array on the stack, with any content. -/
def ticDump (w : World) (t : Teleinfo) (raw : Mem) : Res Str := do
  let (_, raw) ← t.fr.ascii raw MAX_FRAME_SIZE
  let text ← raw.cstr 0
  pure (println (w.iso t.fr.ts.sec) ++ println text)

/-- What `set` does: nothing or a message, an event of the device (the timers are made again, settings are saved), a pin that is read or
written. -/
inductive SetAct
  | message (text : Str)
  | timers
  | wifi (ssid psk : Str)
  | ap (host psk : Str)
  | pinRead (pin : UInt8)
  | pinWrite (pin value : UInt8)
deriving DecidableEq

/-- `cmd.getArg(n).getValue()` -/
def argAt (args : List Str) (n : Nat) : Str := args.getD n []

/-- The branch that the handler of `set` takes cli.cpp:88-136 -/
def cliSet (args : List Str) : SetAct :=
  if args.length = 0 then .message (println (bs "nothing to set"))
  else
    let arg := argAt args 0
    if arg = bs "timers" then .timers
    else if arg = bs "wifi" ∧ 1 ≤ args.length then .wifi (argAt args 1) (argAt args 2)
    else if arg = bs "ap" ∧ 1 ≤ args.length then .ap (argAt args 1) (argAt args 2)
    else if arg = bs "gpio" ∧ 2 ≤ args.length then
      let pin := toU8 (toInt (argAt args 1))
      if args.length = 2 then .pinRead pin
      else .pinWrite pin (toU8 (toInt (argAt args 2)))
    else .message []

/-- What is seen of a command: the device, what it does, what is printed, the pins read and the pins written. -/
structure Shell where
  dev : Device
  effs : List Eff
  text : Str
  reads : List Nat
  writes : List (Nat × Nat)

/-- `set` cli.cpp:88-136.  `level` is what `digitalRead` gives, `k` the outcome of `EEPROM.commit`. -/
def Device.shellSet (b : Build) (d : Device) (level : UInt8 → UInt8) (k : Commit) (args : List Str) : Res Shell := do
  match cliSet args with
  | .message t => pure ⟨d, [], t, [], []⟩
  | .timers => let (d, e) ← d.step b .cliTimers; pure ⟨d, e, [], [], []⟩
  | .wifi x y => let (d, e) ← d.step b (.cliWifi x y k); pure ⟨d, e, [], [], []⟩
  | .ap x y => let (d, e) ← d.step b (.cliAp x y k); pure ⟨d, e, [], [], []⟩
  | .pinRead pin =>
    pure ⟨d, [], bs "gpio " ++ decText pin.toNat ++ bs " read " ++ decText (level pin).toNat ++ [10], [pin.toNat], []⟩
  | .pinWrite pin v =>
    pure ⟨d, [], bs "gpio " ++ decText pin.toNat ++ bs " write " ++ decText v.toNat ++ [10], [], [(pin.toNat, v.toNat)]⟩

end Wifinfo
