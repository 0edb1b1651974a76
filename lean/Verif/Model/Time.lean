import Verif.Model.Date
import Verif.Model.Sse

/-!
# The clock on the console: `src/timesync.cpp`

`asctime` belongs to the C library (newlib) and is modelled after its source.  As in `Model/Console.lean` this is the text written
on the serial line.
-/

namespace Wifinfo
open Spec

/-- `PTM(w)` timesync.cpp:53-55 -/
def ptm (w : Str) (n : Nat) : Str := bs " " ++ w ++ bs "=" ++ decText n

/-- `print_tm` timesync.cpp:57-69; `tm_year` counts from 1900 -/
def printTm (what : Str) (r : Tm) : Str :=
  what ++ ptm (bs "isdst") (if r.isdst then 1 else 0) ++ ptm (bs "yday") r.yday ++ ptm (bs "wday") r.wday ++
    ptm (bs "year") (r.year - 1900) ++ ptm (bs "mon") r.mon ++ ptm (bs "mday") r.mday ++ ptm (bs "hour") r.hour ++
    ptm (bs "min") r.min ++ ptm (bs "sec") r.sec

/-- `day_name` of `asctime_r` -/
def dayName (k : Nat) : Str :=
  [bs "Sun", bs "Mon", bs "Tue", bs "Wed", bs "Thu", bs "Fri", bs "Sat"].getD k []

/-- `mon_name` of `asctime_r` -/
def monName (k : Nat) : Str :=
  [bs "Jan", bs "Feb", bs "Mar", bs "Apr", bs "May", bs "Jun", bs "Jul", bs "Aug", bs "Sep", bs "Oct", bs "Nov", bs "Dec"].getD k []

/-- `asctime_r`: `"%.3s %.3s%3d %.2d:%.2d:%.2d %d\n"` -/
def asctime (r : Tm) : Str :=
  dayName r.wday ++ bs " " ++ monName r.mon ++ (List.replicate (3 - (decText r.mday).length) 32 ++ decText r.mday) ++ bs " " ++
    pad2 r.hour ++ bs ":" ++ pad2 r.min ++ bs ":" ++ pad2 r.sec ++ bs " " ++ decText r.year ++ [10]

/-- `ctime` -/
def ctime (t : Nat) : Str := asctime (localTm t)

/-- A server of the time that is set: its number, its name if it has one, its address, whether this is one of IPv6, and
`sntp_getreachability`. -/
structure SntpServer where
  index : Nat
  name : Option Str
  address : Str
  v6 : Bool
  reach : Nat

/-- A line of the servers, timesync.cpp:118-130. -/
def SntpServer.line (s : SntpServer) : Str :=
  bs "sntp" ++ decText s.index ++ bs ":     " ++
    (match s.name with
     | some name => name ++ bs " (" ++ s.address ++ bs ") "
     | none => s.address ++ bs " ") ++
    (if s.v6 then bs "IPv6" else bs "IPv4") ++ bs " Reachability: " ++ decText s.reach ++ [10]

/-- What the clocks give: `gettimeofday`, `time`, `millis`, `micros` (timesync.cpp:77-80). -/
structure ClockReadings where
  tv : Nat × Nat
  now : Nat
  ms : Nat
  us : Nat

/-- `TZ_Europe_Paris` -/
def parisZone : Str := bs "CET-1CEST,M3.5.0,M10.5.0/3"

/-- `time_show` timesync.cpp:71-135, the command `time` of the console (cli.cpp:68-70); the casts to 32 bits are kept. -/
def timeShow (k : ClockReadings) (servers : List SntpServer) : Str :=
  println [] ++ println (printTm (bs "localtime:") (localTm k.now)) ++ println (printTm (bs "gmtime:   ") (gmTm k.now)) ++
    println (bs "millis:    " ++ decText (k.ms % 2 ^ 32)) ++ println (bs "micros:    " ++ decText (k.us % 2 ^ 32)) ++
    println (bs "gtod:      " ++ decText (k.tv.1 % 2 ^ 32) ++ bs "s / " ++ decText (k.tv.2 % 2 ^ 32) ++ bs "us") ++
    println (bs "time:      " ++ decText (k.now % 2 ^ 32)) ++ (bs "timezone:  " ++ parisZone ++ [10]) ++
    (bs "ctime:     " ++ ctime k.now) ++ (servers.map SntpServer.line).flatten ++ println []

/-- `time_is_set_scheduled` timesync.cpp:137-142 -/
def timeIsSet (now : Nat) : Str := bs "SNTP updated, time: " ++ ctime now

end Wifinfo
