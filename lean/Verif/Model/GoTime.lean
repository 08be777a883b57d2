import Verif.Model.Server
/-
Go's `time.Time`, as in package time of the standard library: the fields, `Now`, `Add`, `Before` and
`Unix` with the arithmetic of 64-bit words, and server.go over such times. In Model/Server.lean a
time is a number of nanoseconds instead.

The two clocks of a computer, the wall clock, which people and programs set, and the monotonic clock,
which nobody sets, are arbitrary functions of the instant at which they are read.
-/

namespace OAuth2

/-- What the two clocks show. Go: the results of `now()`, the runtime function that `time.Now` calls
(server.go:108): seconds and nanoseconds of the wall clock since 1970, and nanoseconds of the
monotonic clock. -/
structure Reading where
  sec : Int64
  nsec : Int32
  mono : Int64
  deriving DecidableEq, Repr

/-- The clocks of the computer, and what the monotonic clock showed when the program started. Go:
`now()` and the variable `startNano` of package time, which `time.Now` reads (server.go:108). -/
structure Clocks where
  read : Time → Reading
  startNano : Int64

/-- Go: `time.Time` (server.go:48). Simplification: without the location, which neither `Before` nor
`Unix` look at. -/
structure GoTime where
  wall : UInt64
  ext : Int64
  deriving DecidableEq, Repr

namespace GoTime

/-- Go: the constant `hasMonotonic` of package time, for the times of server.go:48. -/
def hasMonotonic : UInt64 := 0x8000000000000000
/-- Go: the constant `nsecMask` of package time, for the times of server.go:48. -/
def nsecMask : UInt64 := 0x3FFFFFFF
/-- Go: the constant `wallToInternal` (`minWall`) of package time, for the times of server.go:48: the
seconds from the year 1 to the year 1885. -/
def wallToInternal : Int64 := (1884 * 365 + 1884 / 4 - 1884 / 100 + 1884 / 400) * 86400
/-- Go: the constant `unixToInternal` of package time, for the times of server.go:48: the seconds from
the year 1 to the year 1970. -/
def unixToInternal : Int64 := (1969 * 365 + 1969 / 4 - 1969 / 100 + 1969 / 400) * 86400

/-- Go: `t.wall&hasMonotonic != 0` in package time, for the times of server.go:48. -/
def isMonotonic (t : GoTime) : Bool := t.wall &&& hasMonotonic != 0

/-- Go: the method `nsec` of package time, for the times of server.go:48. -/
def nsec (t : GoTime) : Int32 := (t.wall &&& nsecMask).toUInt32.toInt32

/-- Go: the seconds in the `wall` field, `int64(t.wall << 1 >> (nsecShift + 1))` in package time, for
the times of server.go:48. -/
def wallSec (t : GoTime) : Int64 := (t.wall <<< 1 >>> 31).toInt64

/-- Go: the method `sec` of package time, for the times of server.go:48: seconds since the year 1. -/
def sec (t : GoTime) : Int64 := if t.isMonotonic then wallToInternal + t.wallSec else t.ext

/-- Go: the method `stripMono` of package time, for the times of server.go:48. -/
def stripMono (t : GoTime) : GoTime :=
  if t.isMonotonic then { wall := t.wall &&& nsecMask, ext := t.sec } else t

/-- Go: the method `addSec` of package time, for the times of server.go:48. -/
def addSec (t : GoTime) (d : Int64) : GoTime :=
  if t.isMonotonic then
    let dsec := t.wallSec + d
    if 0 ≤ dsec ∧ dsec ≤ 0x1FFFFFFFF then
      { t with wall := t.wall &&& nsecMask ||| dsec.toUInt64 <<< 30 ||| hasMonotonic }
    else
      let t := t.stripMono
      { t with ext := t.ext + d }
  else { t with ext := t.ext + d }

/-- Go: the first part of the method `Add` of package time, for server.go:248, 611 and 621: the sum of
the nanoseconds and the seconds that they carry. -/
def addNsec (t : GoTime) (d : Int64) : Int64 × Int32 :=
  let dsec := d / 1000000000
  let nsec := t.nsec + (d % 1000000000).toInt32
  if 1000000000 ≤ nsec then (dsec + 1, nsec - 1000000000)
  else if nsec < 0 then (dsec - 1, nsec + 1000000000)
  else (dsec, nsec)

/-- Go: `t.Add(d)` (server.go:248, 611 and 621). A duration is a number of nanoseconds. -/
def add (t : GoTime) (d : Int64) : GoTime :=
  let (dsec, nsec) := t.addNsec d
  let t := { t with wall := t.wall &&& ~~~nsecMask ||| nsec.toInt64.toUInt64 }
  let t := t.addSec dsec
  if t.isMonotonic then
    let te := t.ext + d
    if d < 0 ∧ t.ext < te ∨ 0 < d ∧ te < t.ext then t.stripMono else { t with ext := te }
  else t

/-- Go: `t.Before(u)` (server.go:108, 374 and 417). -/
def before (t u : GoTime) : Bool :=
  if t.wall &&& u.wall &&& hasMonotonic != 0 then t.ext < u.ext
  else t.sec < u.sec || t.sec == u.sec && t.nsec < u.nsec

/-- Go: `t.Unix()` (server.go:562 and 579). -/
def unix (t : GoTime) : Int64 := t.sec - unixToInternal

end GoTime

/-- Go: `time.Now()` (server.go:108, 248, 374, 417, 611 and 621) at an instant. -/
def Clocks.now (c : Clocks) (t : Time) : GoTime :=
  let r := c.read t
  let mono := r.mono - c.startNano
  let sec := r.sec + (GoTime.unixToInternal - GoTime.wallToInternal)
  if sec.toUInt64 >>> 33 != 0 then
    { wall := r.nsec.toInt64.toUInt64, ext := sec + GoTime.wallToInternal }
  else
    { wall := GoTime.hasMonotonic ||| sec.toUInt64 <<< 30 ||| r.nsec.toInt64.toUInt64, ext := mono }

end OAuth2
