import Verif.Model.Statement
/-!
# Trust chain resolution (`trustresolver.go`)

## The world

Everything the resolver obtains from outside — HTTP answers, cached statements, clock readings, host names, signature checks —
is an arbitrary function.  A *position* is the list of hint indices from the starting entity to the authority being
processed; answers and clock readings may differ from position to position even for the same request, which covers servers
that change their answers, expiring caches, and the passage of time.
-/

namespace Oidfed

/-- Position in the resolution: hint indices from the starting entity upwards. -/
abbrev Pos := List Nat

/-- The outside world as seen by one resolution. -/
structure World where
  /-- `GetEntityConfiguration(r.StartingEntity)` (trustresolver.go:211, 526-532); `none` is an error. -/
  start : ID → Option Stmt
  /-- `GetEntityConfiguration(aID)` at a position (trustresolver.go:333). -/
  ec : Pos → ID → Option Stmt
  /-- `FetchEntityStatement(endpoint, sub, iss)` at a position (trustresolver.go:344-346, 588-594). -/
  fetch : Pos → String → ID → ID → Option Stmt
  /-- clock reading when the authority's configuration is checked (trustresolver.go:337). -/
  nowEC : Pos → Time
  /-- clock reading when the subordinate statement is checked (trustresolver.go:350). -/
  nowSub : Pos → Time
  /-- `url.Parse(id)` followed by `Hostname()` (trustresolver.go:424-428); `none` if parsing fails. -/
  host : ID → Option String
  /-- JWS verification. -/
  sig : SigOracle

/-- `trustTree` (trustresolver.go:304-313). `authNil` tells whether `Authorities` is the nil slice. -/
inductive Tree where
  | node (entity : Option Stmt) (subordinate : Option Stmt) (authNil : Bool) (authorities : List Tree)
      (signaturesVerified : Bool) (expiresAt : Time) (depth : Nat) (includedEntityTypes : List String)
      (subordinateIDs : List ID)

/-- `trustTree{}`. -/
def Tree.zero : Tree := .node none none true [] false Time.zero 0 [] []

/-- `matchNamingConstraint` (trustresolver.go:423-433). -/
def matchNaming (host : ID → Option String) (constraint : String) (id : ID) : Bool :=
  match host id with
  | none => false
  | some h =>
    if ['.'].isPrefixOf constraint.toList then constraint.toList.isSuffixOf h.toList
    else constraint == h

/-- The naming part of `checkConstraints` for one id (trustresolver.go:388-407). -/
def namingOk (host : ID → Option String) (n : Naming) (id : ID) : Bool :=
  if n.excluded.any (fun e => matchNaming host e id) then false
  else match n.permitted with
    | none => true
    | some ps => ps.any (fun e => matchNaming host e id)

/-- `trustTree.checkConstraints` (trustresolver.go:375-421) for a node at `depth` with the given id and type sets. -/
def checkConstraints (host : ID → Option String) (depth : Nat) (ids : List ID) (types : List String)
    (c : Option Constraints) : Bool :=
  match c with
  | none => true
  | some c =>
    (match c.maxPath with
      | none => true
      | some n => !(decide (n < (depth : Int)))) &&
    (match c.naming with
      | none => true
      | some n => ids.all (namingOk host n)) &&
    (match c.allowedTypes with
      | none => true
      | some ts => types.all (fun t => (ts ++ ["federation_entity"]).contains t))

/-- The fields of a `trustTree` on entry to `resolve`. -/
structure Pending where
  entity : Stmt
  subordinate : Option Stmt
  depth : Nat
  types : List String
  ids : List ID

/-- The checks on one authority hint (trustresolver.go:329-355), up to the recursive call: the authority's configuration
and the subordinate statement if everything is in order. -/
def hintStmts (W : World) (t : Pending) (p : Pos) (aID : ID) : Option (Stmt × Stmt) :=
  if t.ids.contains aID then none
  else match W.ec p aID with
  | none => none
  | some a =>
    if !(a.iss == a.sub && a.iss == aID) || !a.timeValid (W.nowEC p) then none
    else if a.fetchEndpoint == "" then none
    else match W.fetch p a.fetchEndpoint t.entity.iss aID with
    | none => none
    | some s =>
      if s.iss != aID || s.sub != t.entity.iss || !s.timeValid (W.nowSub p) then none
      else if !checkConstraints W.host t.depth t.ids t.types s.constraints then none
      else some (a, s)

/-- The child node built at trustresolver.go:359-369. -/
def childOf (t : Pending) (aID : ID) (a s : Stmt) : Pending where
  entity := a
  subordinate := some s
  depth := t.depth + 1
  types := t.types ++ a.entityTypes
  ids := t.ids ++ [aID]

/-- The loop over `AuthorityHints` (trustresolver.go:328-372) from index `i` on, threading `t.expiresAt`; `rec` is the
recursive call. `none` means the recursion has not finished. -/
def resolveHints (W : World) (rec : Pos → Pending → Option Tree) (t : Pending) (p : Pos) :
    Nat → List ID → Time → Option (List Tree × Time)
  | _, [], e => some ([], e)
  | i, aID :: hs, e =>
    match hintStmts W t (p ++ [i]) aID with
    | none => do
        let (ts, e') ← resolveHints W rec t p (i+1) hs e
        some (Tree.zero :: ts, e')
    | some (a, s) => do
        let e1 := if s.exp < e then s.exp else e
        let tt ← rec (p ++ [i]) (childOf t aID a s)
        let (ts, e') ← resolveHints W rec t p (i+1) hs e1
        some (tt :: ts, e')

/-- `trustTree.resolve` (trustresolver.go:315-373) with a bound on the recursion depth; `none` if the bound is hit, i.e. the
computation is not finished. Go has no such bound. -/
def resolve (W : World) (A : List Anchor) : Nat → Pos → Pending → Option Tree
  | 0, _, _ => none
  | fuel+1, p, t =>
    let e0 := if t.entity.exp < Time.zero then t.entity.exp else Time.zero
    if (anchorIDs A).contains t.entity.iss then
      some (.node (some t.entity) t.subordinate true [] false e0 t.depth t.types t.ids)
    else do
      let (ts, e) ← resolveHints W (resolve W A fuel) t p 0 t.entity.hints e0
      some (.node (some t.entity) t.subordinate t.entity.hints.isEmpty ts
        false e t.depth t.types t.ids)

/-- The first matching anchor in `verifySignatures` (trustresolver.go:440-441). -/
def matchingAnchor (A : List Anchor) (e s : Stmt) : Option Anchor :=
  A.find? (fun ta => ta.id == e.iss && ta.id == e.sub && ta.id == s.iss)

/-- The key set used at an anchor (trustresolver.go:443-446). -/
def anchorKeys (ta : Anchor) (e : Stmt) : Keys :=
  match ta.jwks with
  | none => e.jwks
  | some ks => some ks

mutual
/-- `trustTree.verifySignatures` (trustresolver.go:435-471). Returns the updated node; the Go return value is its
`signaturesVerified` flag. A nil `Entity` is only dereferenced when `Subordinate` or `Authorities` is set; trees built by `resolve` never
are in that state, and the model treats a missing entity there as not verifying. -/
def verifySigs (sig : SigOracle) (A : List Anchor) : Tree → Tree
  | .node e s n as v x d ty ids =>
    if v then .node e s n as v x d ty ids
    else
      match e, s with
      | some e, some s =>
        match matchingAnchor A e s with
        | some ta =>
            let ks := anchorKeys ta e
            .node (some e) (some s) n as (e.verify sig ks && s.verify sig ks) x d ty ids
        | none =>
            let as' := verifyAuths sig A (some e) (some s) as
            .node (some e) (some s) n as' (!as'.isEmpty) x d ty ids
      | e, s =>
        let as' := verifyAuths sig A e s as
        .node e s n as' (!as'.isEmpty) x d ty ids
/-- The loop of `verifySignatures` over the authorities with its in-place compaction (trustresolver.go:452-468). -/
def verifyAuths (sig : SigOracle) (A : List Anchor) (e s : Option Stmt) : List Tree → List Tree
  | [] => []
  | tt :: rest =>
    match verifySigs sig A tt with
    | .node te (some ts) tn tas true x d ty ids =>
      if e.any (·.verify sig ts.jwks) && s.all (·.verify sig ts.jwks)
      then .node te (some ts) tn tas true x d ty ids :: verifyAuths sig A e s rest
      else verifyAuths sig A e s rest
    | _ => verifyAuths sig A e s rest
end

mutual
/-- `trustTree.chains` (trustresolver.go:473-502). -/
def chains : Tree → List Chain
  | .node e s true _ _ _ _ _ _ =>
    match s, e with
    | none, none => []
    | none, some e => [[e]]
    | some s, some e => [[s, e]]
    | some s, none => [[s]] -- Go would put a nil entity in second place; no tree built by `resolve` has this shape
  | .node e s false as _ _ _ _ _ =>
    match s, e with
    | some s, _ => chainsList s as
    | none, some e => chainsList e as
    | none, none => []
/-- The double loop of `chains` (trustresolver.go:492-500) with the statement to prepend. -/
def chainsList (x : Stmt) : List Tree → List Chain
  | [] => []
  | a :: as => (chains a).map (x :: ·) ++ chainsList x as
end

/-- A `TrustResolver` (trustresolver.go:142-147). -/
structure Resolver where
  anchors : List Anchor
  start : ID
  types : List String

/-- Root node built at trustresolver.go:218-222. -/
def rootPending (s : Stmt) : Pending where
  entity := s
  subordinate := none
  depth := 0
  types := s.entityTypes
  ids := [s.sub]

/-- Restriction of the starting configuration to the requested types (trustresolver.go:215-217). -/
def restrictTypes (types : List String) (s : Stmt) : Stmt :=
  if types.isEmpty then s else { s with metadata := s.metadata.map (·.restrict types) }

/-- `TrustResolver.Resolve` without the tree cache (trustresolver.go:208-223): `ok none` if recursion did not finish within
the fuel, `error panic` if the starting configuration carries no metadata (`NilAllExceptByTag` on a nil pointer, line 216,
or the nil dereference for `GuessEntityTypes`, line 220). An empty or failing start leaves the zero tree. -/
def Resolver.resolveTree (W : World) (fuel : Nat) (r : Resolver) : Res (Option Tree) :=
  if r.start == "" then .ok (some Tree.zero)
  else match W.start r.start with
  | none => .ok (some Tree.zero)
  | some s =>
    if s.metadata.isNone then .error .panic
    else .ok (resolve W r.anchors fuel [] (rootPending (restrictTypes r.types s)))

/-- `ResolveToValidChainsWithoutVerifyingMetadata` on a cache miss (trustresolver.go:195-197). -/
def Resolver.chainsNoMeta (W : World) (fuel : Nat) (r : Resolver) : Res (Option (List Chain)) := do
  let t ← r.resolveTree W fuel
  .ok (t.map (fun t => chains (verifySigs W.sig r.anchors t)))

/-- `TrustChainsFilterValidMetadata` (trustchainfilter.go:157-162) applied to the chains; a panic in `Metadata` propagates. -/
def filterValidMetadata : List Chain → Res (List Chain)
  | [] => .ok []
  | c :: cs =>
    match chainMetadata c with
    | .error .panic => .error .panic
    | .error .error => filterValidMetadata cs
    | .ok _ => do
        let r ← filterValidMetadata cs
        .ok (c :: r)

/-- `ResolveToValidChains` on a cache miss (trustresolver.go:173-179). -/
def Resolver.validChains (W : World) (fuel : Nat) (r : Resolver) : Res (Option (List Chain)) := do
  let cs ← r.chainsNoMeta W fuel
  match cs with
  | none => .ok none
  | some cs => do
      let cs ← filterValidMetadata cs
      .ok (some cs)

end Oidfed
