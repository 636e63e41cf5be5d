import Verif.Model.FedEntity
import Verif.Model.Fetch
/-!
# The trust marks configured for publication (`trustmark_refresher.go`)

`Model/Refresher` has when a trust mark is refreshed and what the goroutines do to the fields. Here is how a configuration is checked and where a new
trust mark comes from.
-/

namespace Oidfed

/-- What `jwt.Parse` of jwx finds in a configured JWT (trustmark_refresher.go:48-57): expiry, issuer, and the claim `trust_mark_type` if it is a string. -/
structure ConfiguredJWT where
  exp : Option Time
  iss : Option String
  type : Option String

/-- `TrustMarkIssuer` (trustmark.go:374-378) with a signer that may be a nil pointer. -/
structure OwnIssuer where
  id : ID
  sign : Option Signer
  specs : List MarkSpec

/-- `IssueTrustMark` (trustmark.go:470-509) without a custom lifetime; calling a nil signer (line 495) panics. -/
def OwnIssuer.issue (I : OwnIssuer) (now : Time) (type sub : String) : Res Info :=
  match I.specs.find? (fun s => s.type == type) with
  | none => .error .error
  | some _ =>
    match I.sign with
    | none => .error .panic
    | some sign =>
      match (MarkIssuer.mk I.id sign I.specs).issue now type sub [] with
      | none => .error .error
      | some i => .ok i

/-- `EntityConfigurationTrustMarkConfig` (trustmark_refresher.go:17-31); `ownIssuer = none` is a nil pointer. The fields that change after `Verify` are in `RefreshVars`. -/
structure MarkConfig where
  type : String
  issuer : String
  selfIssued : Bool
  spec : MarkSpec
  jwt : String
  refresh : Bool
  minLifetime : Int
  grace : Int
  expiration : Time
  sub : String
  ownEndpoint : String
  ownIssuer : Option OwnIssuer

/-- `Verify` (trustmark_refresher.go:35-79): whether it returns no error, and the configuration afterwards. `J` is `jwt.Parse` of jwx. -/
def MarkConfig.verify (J : String → Option ConfiguredJWT) (sub endpoint : String) (sign : Option Signer) (c : MarkConfig) : Bool × MarkConfig :=
  let c := { c with
    sub := sub
    ownEndpoint := endpoint
    minLifetime := if c.minLifetime = 0 then 10 * second else c.minLifetime
    grace := if c.grace = 0 then 3600 * second else c.grace }
  if c.jwt ≠ "" then
    match J c.jwt with
    | none => (false, c)
    | some p =>
      let c := { c with expiration := p.exp.getD Time.zero, issuer := p.iss.getD "" }
      match p.type with
      | none => (false, c)
      | some t => (true, { c with type := t })
  else
    let c := { c with refresh := true }
    if c.selfIssued then
      let c := { c with spec := { c.spec with type := c.type } }
      let c := { c with ownIssuer := some ⟨sub, sign, [c.spec]⟩ }
      (decide (c.type ≠ ""), c)
    else (decide (¬ (c.type = "" ∨ c.issuer = "")), c)

/-- A request made for a trust mark: for the entity configuration of an entity, or for a trust mark at an endpoint. -/
inductive MarkReq where
  | config (id : ID)
  | mark (endpoint type sub : String)
deriving DecidableEq, Repr

/-- What others answer at a moment. `endpoint id` is the trust mark endpoint in the configuration that `GetEntityConfiguration` returns for `id`: `none` if there is an
error, `""` if the configuration has none. `get` answers requests for trust marks. -/
structure MarkWorld where
  endpoint : ID → Option String
  get : String → String → String → Option Answer

/-- The part of `refresh` that obtains a trust mark (trustmark_refresher.go:104-152) at time `now`: the JWT and the expiry that is recorded, and the requests made. -/
def MarkConfig.obtain (R : JWTReader) (W : MarkWorld) (now : Time) (c : MarkConfig) : Res (String × Option Time) × List MarkReq :=
  if c.selfIssued then
    (match c.ownIssuer with
      | none => .error .panic
      | some I =>
        match I.issue now c.type c.sub with
        | .error f => .error f
        | .ok i => .ok (i.jwt, i.cached.bind Mark.exp), [])
  else
    let ask (ep : String) : Res (String × Option Time) :=
      match httpBody (W.get ep c.type c.sub) with
      | none => .error .error
      | some body =>
        match parseMark R body with
        | none => .error .error
        | some m => .ok (body, m.exp)
    if c.issuer = c.sub then (ask c.ownEndpoint, [.mark c.ownEndpoint c.type c.sub])
    else match W.endpoint c.issuer with
      | none => (.error .error, [.config c.issuer])
      | some ep =>
        if ep = "" then (.error .error, [.config c.issuer])
        else (ask ep, [.config c.issuer, .mark ep c.type c.sub])

/-- The fixed fields of the configuration that `Model/Refresher` uses; `recorded` stands for the expiry recorded with a JWT. -/
def MarkConfig.refresher (c : MarkConfig) (recorded : String → Option Time) : RefreshConfig := ⟨c.refresh, c.minLifetime, c.grace, recorded⟩

/-- What a refresh at time `now` can obtain if others may answer as in one of the `worlds` (`none`: it fails without a panic). -/
def MarkConfig.Obtains (R : JWTReader) (c : MarkConfig) (worlds : Time → MarkWorld → Prop) (now : Time) (ans : Option String) : Prop :=
  ∃ W, worlds now W ∧ match (c.obtain R W now).1 with
    | .ok (j, _) => ans = some j
    | .error .error => ans = none
    | .error .panic => False

/-- The steps of `RSys.Step` (trustmark_refresher.go:83-154) in which refreshes obtain only what the configuration lets them obtain. Calls and refreshes may overlap in every way. -/
inductive OwnStep (R : JWTReader) (c : MarkConfig) (worlds : Time → MarkWorld → Prop) (cfg : RefreshConfig) : RSys → RSys → Prop
  | tick (s : RSys) (d : Nat) : OwnStep R c worlds cfg s { s with now := (s.now : Int) + (d : Int) }
  | call (s : RSys) : OwnStep R c worlds cfg s { s with threads := s.threads ++ [cfg.entry s.now] }
  | run (s : RSys) (i : Nat) (pc pc' : RPC) (v' : RefreshVars) (spawn : Bool) (ans : Option String) (hi : s.threads[i]? = some pc)
      (ha : ∀ w, pc = .obtain w → c.Obtains R worlds s.now ans) (h : rstep cfg s.now ans s.vars pc = some (v', pc', spawn)) :
      OwnStep R c worlds cfg s { s with
        vars := v'
        threads := s.threads.set i pc' ++ (if spawn then [.checkLast none] else [])
        attempts := pc.attempt s.now ++ s.attempts }

/-- The fields after `Verify` and the moment of the first call. -/
def MarkConfig.start (c : MarkConfig) (now : Time) : RSys := ⟨now, ⟨c.jwt, c.expiration, Time.zero⟩, [], []⟩

end Oidfed
