import Verif.Model.Follow

/-!
# The gauges of the page and their event source: data_src/index.html

The page makes an `EventSource` when the tab of the gauges is shown and closes it when another one is; it has no handler of errors.
What is assumed of the browser (WHATWG HTML, 9.2):

* when the device cannot be reached, or when the connection ends, it connects again after its reconnection time; the device does not
  send the field `retry`, so that it is the one of the browser;
* when the answer is not a success, the connection has failed for good;
* there is no time-out: a connection of which the other end has gone without a word stays open.

Times are milliseconds; connecting takes no time.
-/

namespace Wifinfo

/-- The variable `source` of the page and the state of the object -/
inductive SourceState
  /-- `null` index.html:689, 857 -/
  | null
  /-- `CONNECTING`; the next attempt is at `next` -/
  | connecting (next : Nat)
  /-- `OPEN`; `alive` tells if the device still has the other end -/
  | opened (alive : Bool)
  /-- `CLOSED` by the browser -/
  | failed
deriving DecidableEq

/-- What happens to the page -/
inductive GaugeEvent
  /-- a tab is shown index.html:848; `gauges` tells if it is the one of the gauges -/
  | tab (gauges : Bool)
  /-- the device sends an event to its clients -/
  | message (data : Str)
  /-- the device closes the connection -/
  | closed
  /-- the connection is lost and nobody is told -/
  | cut

/-- The browser until the time `t`: `k` attempts at most; `retry` is its reconnection time and `net` tells what comes of a connection -/
def sourceAdvance (retry : Nat) (net : Nat → Reply) : Nat → SourceState → Nat → SourceState
  | 0, s, _ => s
  | k + 1, .connecting u, t =>
    if u ≤ t then
      match net u with
      | .accepted => .opened true
      | .unreachable => sourceAdvance retry net k (.connecting (u + retry)) t
      | .refused => .failed
    else .connecting u
  | _ + 1, s, _ => s

/-- Something happens at the time `t`: the state, and what the page shows.  A tab: index.html:853-858 and 894-898; a message:
index.html:899-914 -/
def gaugeStep (retry : Nat) (net : Nat → Reply) (s : SourceState) (t : Nat) (e : GaugeEvent) : SourceState × List Str :=
  match sourceAdvance retry net (t + 1) s t, e with
  | _, .tab true => (.connecting t, [])
  | _, .tab false => (.null, [])
  | .opened true, .message m => (.opened true, [m])
  | .opened true, .closed => (.connecting (t + retry), [])
  | .opened _, .cut => (.opened false, [])
  | s, _ => (s, [])

/-- All that happens to a page, and what it shows -/
def gaugeRun (retry : Nat) (net : Nat → Reply) (s : SourceState) : List (Nat × GaugeEvent) → SourceState × List Str
  | [] => (s, [])
  | (t, e) :: r =>
    let (s, l) := gaugeStep retry net s t e
    let (s, l') := gaugeRun retry net s r
    (s, l ++ l')

end Wifinfo
