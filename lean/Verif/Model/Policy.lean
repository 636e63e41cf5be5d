import Verif.Model.PolicyOps
/-!
# Metadata policies: verification, merging, application (`metadataPolicy.go`, `policyverifiers.go`)

A Go map is modelled by an association list with pairwise different keys; the *order* of the list stands for the (arbitrary)
iteration order of one `range` over the map.  Functions that range over a map take the list as is, so a statement that holds
for all lists holds for all iteration orders.
-/

namespace Oidfed

/-- Association list standing for a Go map. -/
abbrev AMap (α : Type) := List (String × α)

/-- Map lookup `m[k]`. -/
def AMap.get {α : Type} (m : AMap α) (k : String) : Option α :=
  match m with
  | [] => none
  | (k', v) :: m => if k' = k then some v else AMap.get m k

/-- Map keys in iteration order (`utils.MapKeys`, internal/utils/utils.go:29-35). -/
def AMap.keys {α : Type} (m : AMap α) : List String := m.map (·.1)

/-- Go maps have unique keys. -/
def AMap.WF {α : Type} (m : AMap α) : Prop := m.keys.Nodup

/-- `MetadataPolicyEntry` (metadataPolicy.go:74); a nil map behaves like an empty one in every use. -/
abbrev Entry := AMap Val

/-- `MetadataPolicy` (metadataPolicy.go:71); nil and empty are distinguished only by `Metadata.ApplyPolicy`, where they lead
to the same result for the known entity types, so both are `[]`; for others see `Policies`. -/
abbrev Policy := AMap Entry

/-! ## Verifiers (policyverifiers.go) -/

/-- `policyVerifierSubsetSupersetOneOf` (policyverifiers.go:21-32). -/
def vOneOfExclusive (p : Entry) : Res Unit :=
  if (p.get opOneOf).isSome && ((p.get opSubsetOf).isSome || (p.get opSupersetOf).isSome)
  then .error .error else .ok ()

/-- The common shape of policyverifiers.go:34-51, 53-70, 72-89, 106-125: if operators `inner` and `outer` are both present,
the values of `inner` must all be in `outer`. -/
def vSubset (inner outer : OpName) (p : Entry) : Res Unit :=
  match p.get inner, p.get outer with
  | some i, some o => do
      let ok ← reflectIsSubsetOf i o
      if ok then .ok () else .error .error
  | _, _ => .ok ()

/-- `policyVerifyAddInOneOf` (policyverifiers.go:146-169). `ReflectSliceContains` is called on the raw `one_of` value, so a
scalar `one_of` contains nothing; an empty `add` panics in `Index(0)`. -/
def vAddInOneOf (p : Entry) : Res Unit :=
  match p.get opOneOf, p.get opAdd with
  | some o, some a =>
      match slicify a with
      | none => .error .panic
      | some s =>
        if s.xs.length > 1 then .error .error
        else match s.xs with
          | [] => .error .panic
          | x :: _ =>
            let contained := match o with
              | .slice _ _ xs => xs.contains x
              | _ => false
            if contained then .ok () else .error .error
  | _, _ => .ok ()

/-- `policyVerifyOneOfStillHasValues` (policyverifiers.go:223-235). -/
def vOneOfNonempty (p : Entry) : Res Unit :=
  match p.get opOneOf with
  | none => .ok ()
  | some o =>
    match slicify o with
    | none => .error .error
    | some s => if s.xs.length == 0 then .error .error else .ok ()

/-- `policyVerifyDefaultAndValue` (policyverifiers.go:91-104). -/
def vDefaultAndValue (p : Entry) : Res Unit :=
  match p.get opValue, p.get opDefault with
  | some v, some _ => if v.isNilIface then .error .error else .ok ()
  | _, _ => .ok ()

/-- The registered verifiers, run in order until the first error (policyverifiers.go:237-250 and
metadataPolicy.go:253-257). -/
def runVerifiers (p : Entry) : Res Unit := do
  vOneOfExclusive p
  vSubset opSupersetOf opSubsetOf p
  vSubset opAdd opSubsetOf p
  vAddInOneOf p
  vSubset opAdd opValue p
  vOneOfNonempty p
  vSubset opValue opSubsetOf p
  vDefaultAndValue p

/-! ## MetadataPolicyEntry.Verify -/

/-- The combination check for one active operator (metadataPolicy.go:236-251): unknown operators and operators without a
combination list are skipped; otherwise every active operator must be in the list or the operator itself. -/
def combineOk (active : List OpName) (opN : OpName) : Bool :=
  match operators opN with
  | none => true
  | some op =>
    match op.mayCombineWith with
    | none => true
    | some l => active.all (fun n => (l ++ [op.name]).contains n)

/-- `MetadataPolicyEntry.Verify` (metadataPolicy.go:234-259). -/
def Entry.verify (p : Entry) : Res Unit :=
  if p.keys.all (combineOk p.keys) then runVerifiers p else .error .error

/-- `MetadataPolicy.Verify` (metadataPolicy.go:80-87): entries are verified in iteration order until the first failure. -/
def Policy.verify : Policy → Res Unit
  | [] => .ok ()
  | (_, e) :: ps => do
      Entry.verify e
      Policy.verify ps

/-! ## Merging -/

/-- First loop of `mergeMetadataPolicyEntries` (metadataPolicy.go:206-223): accumulates `out` (here: in iteration order).
Result `none` models the early `return nil, nil` for an operator that is unknown and present in both entries. -/
def mergeLoop (b : Entry) : Entry → Entry → Res (Option Entry)
  | [], out => .ok (some out)
  | (op, av) :: a, out =>
    match b.get op with
    | none => mergeLoop b a (out ++ [(op, av)])
    | some bv =>
      match operators op with
      | none => .ok none
      | some o => do
          let c ← o.merge av bv
          mergeLoop b a (out ++ [(op, c)])

/-- `mergeMetadataPolicyEntries` (metadataPolicy.go:204-231). A nil result map is the empty entry. -/
def mergeEntries (a b : Entry) : Res Entry := do
  let r ← mergeLoop b a []
  match r with
  | none => .ok []
  | some out => .ok (out ++ b.filter (fun kv => (out.get kv.1).isNone))

/-- First loop of `combineMetadataPolicy` (metadataPolicy.go:183-194). -/
def combineLoop (sub : Policy) : Policy → Policy → Res Policy
  | [], out => .ok out
  | (k, pv) :: parent, out =>
    match AMap.get sub k with
    | none => combineLoop sub parent (out ++ [(k, pv)])
    | some sv => do
        let c ← mergeEntries pv sv
        combineLoop sub parent (out ++ [(k, c)])

/-- `combineMetadataPolicy` (metadataPolicy.go:175-202). On a failed final verification Go returns the policy together with the error; callers discard it. -/
def combinePolicy (parent sub : Policy) : Res Policy :=
  if sub.isEmpty then .ok parent
  else if parent.isEmpty then .ok sub
  else do
    let out ← combineLoop sub parent []
    let out := out ++ sub.filter (fun kv => (AMap.get out kv.1).isNone)
    Policy.verify out
    .ok out

/-- The loop of `CombineMetadataPolicy` (metadataPolicy.go:165-170). -/
def combineRest : Policy → List Policy → Res Policy
  | out, [] => .ok out
  | out, p :: ps => do
      let out ← combinePolicy out p
      combineRest out ps

/-- `CombineMetadataPolicy` (metadataPolicy.go:156-172). -/
def combineAll : List Policy → Res Policy
  | [] => .ok []
  | p :: ps => do
      Policy.verify p
      combineRest p ps

/-! ## Application -/

/-- One iteration of the loop in `ApplyTo` (metadataPolicy.go:269-282); the `unsupported policy operator` branch is
unreachable for the built-in table but kept. -/
def applyStep (p : Entry) (essential : Bool) (c : Cur) (n : OpName) : Res Cur :=
  match p.get n with
  | none => .ok c
  | some pv =>
    match operators n with
    | none => .error .error
    | some o => o.apply c pv essential

/-- The essential flag read at the start of `ApplyTo` (metadataPolicy.go:264-268). -/
def Entry.essential (p : Entry) : Bool :=
  match p.get opEssential with
  | some (.bool b) => b
  | _ => false

/-- The loop of `MetadataPolicyEntry.ApplyTo` (metadataPolicy.go:269-282) over a list of operator names. -/
def applyLoop (p : Entry) (essential : Bool) : List OpName → Cur → Res Cur
  | [], c => .ok c
  | n :: ns, c => do
      let c ← applyStep p essential c n
      applyLoop p essential ns c

/-- `MetadataPolicyEntry.ApplyTo` (metadataPolicy.go:262-284), keeping also the final `valueSet` flag, which Go drops. -/
def Entry.applyCur (p : Entry) (c : Cur) : Res Cur :=
  applyLoop p p.essential operatorOrder c

/-- `MetadataPolicyEntry.ApplyTo` (metadataPolicy.go:262-284). -/
def Entry.applyTo (p : Entry) (v : Val) (isSet : Bool) : Res Val :=
  (p.applyCur ⟨v, isSet⟩).map Cur.v

end Oidfed
