import Verif.Spec.LastStated
/-!
# The times that a JWT states
-/

namespace Oidfed.Spec

/-- The claim is stated as this number (of seconds since 1970); if it is stated more than once, the last time. -/
def StatesSeconds (l : JObj) (claim : String) (q : Rat) : Prop := LastStated l claim (.num q)

/-- The claim is stated, once, as this number. -/
def StatesOnce (l : JObj) (claim : String) (q : Rat) : Prop :=
  ∃ pre post, l = pre ++ (claim, .num q) :: post ∧ ∀ kv ∈ pre ++ post, ¬ SpelledAs claim kv.1

/-- The claim is not stated. -/
def NotStated (l : JObj) (claim : String) : Prop := ∀ kv ∈ l, ¬ SpelledAs claim kv.1

/-- The claim is stated as this number, or it is not stated, or null in the end. -/
def StatesOptional (l : JObj) (claim : String) : Option Rat → Prop
  | some q => StatesSeconds l claim q
  | none => NotStated l claim ∨ LastStated l claim .null

/-- The number of seconds is whole, is a `float64`, and is not that of 1 January of the year 1. -/
def WholeSecond (q : Rat) : Prop := ∃ n : Int, q = n ∧ -9007199254740992 ≤ n ∧ n ≤ 9007199254740992 ∧ n ≠ -62135596800

/-- The number of seconds is that of a time between the years 1697 and 2242. -/
def NearPresent (q : Rat) : Prop := -8589934592 ≤ q ∧ q ≤ 8589934592

/-- The time (in nanoseconds since 1970) is not before that of the number of seconds. -/
def NotBefore (q : Rat) (now : Time) : Prop := q * 1000000000 ≤ (now : Int)

/-- The time is not after that of the number of seconds. -/
def NotAfter (q : Rat) (now : Time) : Prop := ((now : Int) : Rat) ≤ q * 1000000000

/-- The time is between the stated times. -/
def WithinStated (iat : Rat) (exp : Option Rat) (now : Time) : Prop := NotBefore iat now ∧ ∀ e, exp = some e → NotAfter e now

/-- The time is between the stated times and more than a microsecond away from them. -/
def WellWithin (iat : Rat) (exp : Option Rat) (now : Time) : Prop :=
  NotBefore iat ((now : Int) - 1000) ∧ ∀ e, exp = some e → NotAfter e ((now : Int) + 1000)

/-- The time is between the stated times or less than a microsecond away. -/
def AlmostWithin (iat : Rat) (exp : Option Rat) (now : Time) : Prop :=
  NotBefore iat ((now : Int) + 1000) ∧ ∀ e, exp = some e → NotAfter e ((now : Int) - 1000)

end Oidfed.Spec
