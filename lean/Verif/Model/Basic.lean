/-!
# Basic notions shared by the whole model

Outcomes of Go calls, Go's `time.Time`/`time.Duration`, and `unixtime.VerifyTime`.
-/

namespace Oidfed

/-- How a Go call can end abnormally. An `error` value is returned to the caller; a `panic` unwinds the goroutine
(and, uncaught, kills the process). Error texts are not modelled. -/
inductive Fail where
  | error
  | panic
deriving DecidableEq, Repr

/-- Result of a Go call `(T, error)` that may also panic. -/
abbrev Res (α : Type) := Except Fail α

/-- Entity identifiers are Go strings. -/
abbrev ID := String

/-! ## Time

`time.Time` is modelled as an integer number of nanoseconds since the Unix epoch (monotonic clock readings and
locations are ignored, they do not affect `Before`/`After`/`Sub` on the values the code compares). -/

/-- Nanoseconds since the Unix epoch. -/
abbrev Time := Int

/-- The zero value of Go's `time.Time`: January 1, year 1, 00:00:00 UTC, i.e. 62135596800 s before the epoch. -/
def Time.zero : Time := -62135596800 * 1000000000

/-- `time.Time.IsZero`. -/
def Time.isZero (t : Time) : Bool := t == Time.zero

/-- `math.MaxInt64`, the largest `time.Duration`. -/
def maxDuration : Int := 9223372036854775807

/-- `math.MinInt64`, the smallest `time.Duration`. -/
def minDuration : Int := -9223372036854775808

/-- `time.Time.Sub` / `time.Until`: the difference saturates at the limits of a 64-bit `time.Duration`. -/
def durSub (t u : Time) : Int := max minDuration (min maxDuration (t - u))

/-- `unixtime.Until` (unixtime/unixtime.go:36-39): the saturated duration from `now` until `t`. -/
def untilT (now t : Time) : Int := durSub t now

/-- Arithmetic on `int64` wraps around. -/
def wrap64 (x : Int) : Int := (x + 9223372036854775808) % 18446744073709551616 - 9223372036854775808

/-- One second as a `time.Duration`. -/
def second : Int := 1000000000

/-- `unixtime.VerifyTime` (unixtime/unixtime.go:42-51). `none` is a nil pointer. `now` is the reading of `time.Now()`
taken at line 43. Returns `true` for a nil error. The two distinct error texts are not distinguished. -/
def verifyTime (now : Time) (iat exp : Option Time) : Bool :=
  let notYet := match iat with
    | none => false
    | some t => !t.isZero && decide (now < t)
  let expired := match exp with
    | none => false
    | some t => !t.isZero && decide (t < now)
  if notYet then false else if expired then false else true

end Oidfed
