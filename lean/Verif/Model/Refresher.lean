import Verif.Model.Basic
/-!
# Keeping a published trust mark fresh (`trustmark_refresher.go`)

`TrustMarkJWT` may be called from several goroutines at once (every request for the entity configuration does) and starts background
refreshes. Nothing is locked, so every access to a field of the configuration is a step of its own and steps of different goroutines
interleave in every possible way.
-/

namespace Oidfed

/-- The fields of `EntityConfigurationTrustMarkConfig` (trustmark_refresher.go:17-31) that are fixed, and the answers of the issuer as far as
they are functions: the expiry of a trust mark JWT as recorded at lines 110-115 and 148-152 (`none`: no expiry). For self-issued
marks this is the exact time, which in the JWT is rounded (see `Unixtime`). -/
structure RefreshConfig where
  refresh : Bool
  minLifetime : Int
  grace : Int
  recorded : String → Option Time

/-- `Verify` (trustmark_refresher.go:35-79) as far as these fields are concerned: defaults, and refreshing is switched on if no JWT is configured. -/
def RefreshConfig.verify (jwt : String) (c : RefreshConfig) : RefreshConfig :=
  { c with
    minLifetime := if c.minLifetime = 0 then 10 * second else c.minLifetime
    grace := if c.grace = 0 then 3600 * second else c.grace
    refresh := if jwt = "" then true else c.refresh }

/-- The mutable fields (trustmark_refresher.go:22, 26-27). -/
structure RefreshVars where
  jwt : String
  exp : Time
  last : Time

/-- One minute. -/
def minute : Int := 60 * second

/-- What a call of `TrustMarkJWT` returned, with its history: when it began and ended, and the trust mark it obtained from the issuer, if it
did. `ok`: no error. -/
structure CallResult where
  start : Time
  finish : Time
  jwt : String
  ok : Bool
  obtained : Option String

/-- Where a goroutine is. `who` is the start time of a call of `TrustMarkJWT`, or `none` in a background refresh. -/
inductive RPC where
  /-- about to read `c.JWT` (line 87) -/
  | readJWT (start : Time)
  /-- about to compare the remaining time with `MinLifetime` (line 87) -/
  | checkMin (start : Time)
  /-- about to compare it with the grace period (line 88) -/
  | checkGrace (start checked : Time)
  /-- about to return (line 91) -/
  | retGood (start checked : Time)
  /-- about to look at the time of the last attempt (line 99) -/
  | checkLast (who : Option Time)
  /-- about to record an attempt (line 103) -/
  | setLast (who : Option Time)
  /-- about to obtain the mark (lines 104-146) -/
  | obtain (who : Option Time)
  /-- about to store the JWT (lines 109, 147) -/
  | setJWT (who : Option Time) (jwt : String)
  /-- about to store the expiry (lines 110-115, 148-152) -/
  | setExp (who : Option Time) (jwt : String)
  /-- about to return (lines 85, 94); `ok`: no error -/
  | ret (who : Option Time) (ok : Bool) (obtained : Option String)
  | done (r : Option CallResult)

/-- One step of a goroutine at time `now` (trustmark_refresher.go:83-154): the fields, the next place, and whether a background refresh is
started. `ans` is what the issuer returns if asked: a JWT that was parsed successfully, or an error. -/
def rstep (cfg : RefreshConfig) (now : Time) (ans : Option String) (v : RefreshVars) : RPC → Option (RefreshVars × RPC × Bool)
  | .readJWT t => some (v, if v.jwt ≠ "" then .checkMin t else .checkLast (some t), false)
  | .checkMin t => some (v, if untilT now v.exp > cfg.minLifetime then .checkGrace t now else .checkLast (some t), false)
  | .checkGrace t c => some (v, .retGood t c, decide (untilT now v.exp < cfg.grace))
  | .retGood t _ => some (v, .done (some ⟨t, now, v.jwt, true, none⟩), false)
  | .checkLast w => some (v, if durSub now v.last < minute then .ret w false none else .setLast w, false)
  | .setLast w => some ({ v with last := now }, .obtain w, false)
  | .obtain w => some (v, match ans with | none => .ret w false none | some j => .setJWT w j, false)
  | .setJWT w j => some ({ v with jwt := j }, .setExp w j, false)
  | .setExp w j => some ({ v with exp := (cfg.recorded j).getD Time.zero }, .ret w true (some j), false)
  | .ret w ok ob => some (v, .done (w.map (fun t => ⟨t, now, v.jwt, ok, ob⟩)), false)
  | .done _ => none

/-- The whole: clock, fields, goroutines, and the times at which attempts were made, latest first. -/
structure RSys where
  now : Time
  vars : RefreshVars
  threads : List RPC
  attempts : List Time

/-- The first place of a call of `TrustMarkJWT` (trustmark_refresher.go:84-87). -/
def RefreshConfig.entry (cfg : RefreshConfig) (now : Time) : RPC :=
  if cfg.refresh then .readJWT now else .ret (some now) true none

/-- The time of an attempt, if this is the step that makes one. -/
def RPC.attempt (now : Time) : RPC → List Time
  | .setLast _ => [now]
  | _ => []

/-- The steps of the whole: time passes, somebody calls `TrustMarkJWT`, or one of the goroutines makes a step. -/
inductive RSys.Step (cfg : RefreshConfig) : RSys → RSys → Prop
  | tick (s : RSys) (d : Nat) : Step cfg s { s with now := (s.now : Int) + (d : Int) }
  | call (s : RSys) : Step cfg s { s with threads := s.threads ++ [cfg.entry s.now] }
  | run (s : RSys) (i : Nat) (pc pc' : RPC) (v' : RefreshVars) (spawn : Bool) (ans : Option String) (hi : s.threads[i]? = some pc)
      (h : rstep cfg s.now ans s.vars pc = some (v', pc', spawn)) :
      Step cfg s { s with
        vars := v'
        threads := s.threads.set i pc' ++ (if spawn then [.checkLast none] else [])
        attempts := pc.attempt s.now ++ s.attempts }

/-- A goroutine that has begun and not ended. A background refresh that has not done anything yet has not begun. -/
def RPC.active : RPC → Bool
  | .done _ => false
  | .checkLast none => false
  | _ => true

/-- The steps if calls and background refreshes do not overlap. -/
inductive RSys.SeqStep (cfg : RefreshConfig) : RSys → RSys → Prop
  | tick (s : RSys) (d : Nat) : SeqStep cfg s { s with now := (s.now : Int) + (d : Int) }
  | call (s : RSys) (hq : ∀ pc ∈ s.threads, pc.active = false) : SeqStep cfg s { s with threads := s.threads ++ [cfg.entry s.now] }
  | run (s : RSys) (i : Nat) (pc pc' : RPC) (v' : RefreshVars) (spawn : Bool) (ans : Option String) (hi : s.threads[i]? = some pc)
      (hq : ∀ (j : Nat) (q : RPC), j ≠ i → s.threads[j]? = some q → q.active = false)
      (h : rstep cfg s.now ans s.vars pc = some (v', pc', spawn)) :
      SeqStep cfg s { s with
        vars := v'
        threads := s.threads.set i pc' ++ (if spawn then [.checkLast none] else [])
        attempts := pc.attempt s.now ++ s.attempts }

/-- The configuration after `Verify`: with a JWT its recorded expiry, without one nothing (trustmark_refresher.go:47-62). -/
def RSys.init (cfg : RefreshConfig) (now : Time) (jwt : String) : RSys :=
  ⟨now, ⟨jwt, if jwt = "" then Time.zero else (cfg.recorded jwt).getD Time.zero, Time.zero⟩, [], []⟩

/-- Any number of steps. -/
inductive RSteps (R : RSys → RSys → Prop) : RSys → RSys → Prop
  | refl (s : RSys) : RSteps R s s
  | step {s t u : RSys} : RSteps R s t → R t u → RSteps R s u

end Oidfed
