import Verif.Model.Device

/-!
# The programs that follow the event stream: tools/sse.py and tools/dashboard/wifinfo_sse/influx.py

Both have the same loop: `SSEClient(url, timeout=...)`, the messages one after the other, and a pause after `socket.timeout` and
`requests.exceptions.ConnectionError`.  The library `sseclient` is not in the repository; what is assumed of it:

* the constructor connects, and raises `ConnectionError` if the device cannot be reached and `HTTPError` (`raise_for_status`) if the
  answer is not a success; `HTTPError` is not caught by the programs, which end;
* when nothing has come for `timeout` seconds, `socket.timeout` comes out of the iterator;
* when the device has closed the connection, the library prints the error, sleeps for three seconds (`retry=3000`) and connects again,
  with the same exceptions as the constructor.

Times are milliseconds; connecting, printing and writing to the database take no time.
-/

namespace Wifinfo

/-- What comes of a connection -/
inductive Reply
  | accepted
  /-- an answer that is not a success -/
  | refused
  /-- no answer -/
  | unreachable
deriving DecidableEq

/-- The numbers of a program: `timeout` of `SSEClient` and the pause of the handler of the exceptions -/
structure Follower where
  timeout : Nat
  pause : Nat

/-- sse.py:19 (`timeout=10`) and sse.py:25-27 (ten times `sleep(1)`) -/
def sseFollower : Follower := ⟨10000, 10000⟩

/-- influx.py:104 (`timeout=31`) and influx.py:121-124 (`sleep(10)`) -/
def influxFollower : Follower := ⟨31000, 10000⟩

/-- `retry` of `SSEClient`, which the programs do not set -/
def libraryPause : Nat := 3000

/-- Where a program is -/
inductive FollowState
  /-- in the iterator; the last byte came at `since`; `alive` tells if the device still has the other end -/
  | listening (since : Nat) (alive : Bool)
  /-- in `sleep`, then it connects -/
  | sleeping (till : Nat)
  /-- by an exception that is not caught -/
  | ended
deriving DecidableEq

/-- What happens outside -/
inductive FollowEvent
  /-- the device sends an event to its clients -/
  | message (data : Str)
  /-- the device closes the connection -/
  | closed
  /-- the connection is lost and nobody is told -/
  | cut

/-- The program until the time `t`: `k` turns of the loop sse.py:17-27 at most; `net` tells what comes of a connection at a given time -/
def Follower.advance (f : Follower) (net : Nat → Reply) : Nat → FollowState → Nat → FollowState
  | 0, s, _ => s
  | k + 1, s, t =>
    match s with
    | .ended => .ended
    | .listening a _ => if a + f.timeout ≤ t then f.advance net k (.sleeping (a + f.timeout + f.pause)) t else s
    | .sleeping u =>
      if u ≤ t then
        match net u with
        | .accepted => f.advance net k (.listening u true) t
        | .unreachable => f.advance net k (.sleeping (u + f.pause)) t
        | .refused => .ended
      else s

/-- Something happens at the time `t`: the state, and what the program gets (printed sse.py:20-21; taken influx.py:107-119) -/
def Follower.step (f : Follower) (net : Nat → Reply) (s : FollowState) (t : Nat) (e : FollowEvent) : FollowState × List Str :=
  match f.advance net (2 * t + 2) s t, e with
  | .listening _ true, .message m => (.listening t true, [m])
  | .listening _ true, .closed => (.sleeping (t + libraryPause), [])
  | .listening a _, .cut => (.listening a false, [])
  | s, _ => (s, [])

/-- All that happens, and what the program gets -/
def Follower.run (f : Follower) (net : Nat → Reply) (s : FollowState) : List (Nat × FollowEvent) → FollowState × List Str
  | [] => (s, [])
  | (t, e) :: r =>
    let (s, l) := f.step net s t e
    let (s, l') := f.run net s r
    (s, l ++ l')

/-- A program started at `t` connects at once sse.py:19 -/
def followStart (t : Nat) : FollowState := .sleeping t

/-- What comes of a connection that a device has answered with these effects: the header of the stream (sse.h:29-34), another
answer, or nothing (the connection was gone) -/
def replyOf : List Eff → Reply
  | [.sse (.opened _ true)] => .accepted
  | [.send _ _] => .refused
  | [.needAuth] => .refused
  | _ => .unreachable

end Wifinfo
