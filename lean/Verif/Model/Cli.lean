import Verif.Model.Base

/-!
# Model of the console input of `src/cli.cpp`

The commands themselves are in `Model/Store.lean` and `Model/Device.lean`; the library that splits a
command line into words (SimpleCLI) is left out, and so are the echo and the LED.
-/

namespace Wifinfo

/-- `cli_mode` and `cli_input` cli.cpp:35-36 -/
structure Cli where
  mode : Bool
  input : Str
deriving DecidableEq, Repr

/-- After static initialisation. -/
def Cli.init : Cli := { mode := false, input := [] }

/-- TAB, ESC or back-quote cli.cpp:281 -/
def cliMarker (c : Byte) : Bool := c == 0x09 || c == 0x1B || c == 0x60

/-- `cli_loop_read` cli.cpp:271-304 when a byte is there (without one it returns -1 and does nothing):
the byte returned, unless it is -1, and the command line given to `cli.parse`, if any.  The command is
taken for something that leaves `cli_mode` and `cli_input` alone, as all of them do. -/
def Cli.step (s : Cli) (c : Byte) : Cli × Option Byte × Option Str :=
  if cliMarker c then ({ s with mode := true }, none, none)
  else if s.mode then
    let input := s.input ++ [c]
    if c == 0x0A || c == 0x0D || decide (input.length ≥ 128) then ({ mode := false, input := [] }, none, some input)
    else ({ s with input := input }, none, none)
  else (s, some c, none)

/-- The bytes that reach the decoder (main.cpp:96-103) and the command lines, for a stream of bytes. -/
def Cli.run (s : Cli) : Str → Cli × Str × List Str
  | [] => (s, [], [])
  | c :: r =>
    let (s, d, p) := s.step c
    let (t, ds, ps) := s.run r
    (t, d.toList ++ ds, p.toList ++ ps)

end Wifinfo
