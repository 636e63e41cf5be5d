import Mathlib.Data.Int.Log
import Mathlib.Data.Rat.Floor
import Verif.Model.Basic
/-!
# `float64` arithmetic and the JSON form of times and durations (`unixtime/unixtime.go`)

A finite `float64` is the rational number it stands for. Subnormal numbers, infinities, NaN and the sign of zero do not
occur for the values converted here and are not modelled, and neither is the error for JSON numbers above the largest `float64` (1.8e308). The shortest decimal text Go writes for a `float64` is assumed to be read
back as the same `float64` (`strconv.FormatFloat` and `strconv.ParseFloat`), so the JSON text is identified with the number.
-/

namespace Oidfed

/-- The nearest integer; in case of a tie the even one. -/
def nearestEven (x : ℚ) : ℤ :=
  let r := x - ⌊x⌋
  if r < 1 / 2 then ⌊x⌋
  else if 1 / 2 < r then ⌊x⌋ + 1
  else if ⌊x⌋ % 2 = 0 then ⌊x⌋ else ⌊x⌋ + 1

/-- The exponent of the last of the 53 binary digits of `x`. -/
def lastPlace (x : ℚ) : ℤ := Int.log 2 |x| - 52

/-- Rounding to `float64`: 53 significant binary digits, to nearest, ties to even (the IEEE 754 default Go uses). -/
def float64 (x : ℚ) : ℚ := if x = 0 then 0 else nearestEven (x / 2 ^ lastPlace x) * 2 ^ lastPlace x

/-- `math.Modf`'s integral part: rounding towards zero. -/
def truncZ (x : ℚ) : ℤ := if 0 ≤ x then ⌊x⌋ else ⌈x⌉

/-- The conversion `int64(f)`: rounding towards zero. For numbers that are no `int64` the result depends on the implementation; this is what Go does on
amd64. -/
def toInt64 (x : ℚ) : ℤ := if -9223372036854775808 ≤ truncZ x ∧ truncZ x ≤ 9223372036854775807 then truncZ x else -9223372036854775808

/-- `time.Unix` for less than a second of nanoseconds: the seconds are kept as an `int64` counted from the year 1. -/
def timeUnix (sec nsec : ℤ) : Time := (wrap64 (sec + 62135596800) - 62135596800) * second + nsec

/-- `Unixtime.MarshalJSON` (unixtime/unixtime.go:28-33). `UnixNano` wraps around for times before 1678 or after 2262. -/
def marshalTime (t : Time) : ℚ := if t.isZero then 0 else float64 (float64 (wrap64 t) / 10 ^ 9)

/-- `Unixtime.UnmarshalJSON` (unixtime/unixtime.go:17-25) for a JSON number. -/
def unmarshalTime (f : ℚ) : Time :=
  let sec := truncZ f
  let dec := f - sec
  timeUnix (toInt64 sec) (toInt64 (float64 (dec * 10 ^ 9)))

/-- `DurationInSeconds.MarshalJSON` and `MarshalYAML` (unixtime/unixtime.go:84-91) of a duration in nanoseconds. -/
def marshalDuration (d : ℤ) : ℚ := float64 (float64 d / 10 ^ 9)

/-- `DurationInSeconds.UnmarshalJSON` and `UnmarshalYAML` (unixtime/unixtime.go:64-81): `time.Duration(f) * time.Second`, an `int64` product. -/
def unmarshalDuration (f : ℚ) : ℤ := wrap64 (toInt64 f * second)

/-- `NewDurationInSeconds` (unixtime/unixtime.go:54-56). -/
def newDurationInSeconds (s : ℚ) : ℤ := toInt64 (float64 (s * 10 ^ 9))

end Oidfed
