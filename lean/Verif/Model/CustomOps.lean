import Verif.Model.Policy
/-!
# Registered policy operators and verifiers (`policyoperators.go:34-51`, `policyverifiers.go:11-19`)

The other modules model the tables as they are built in `init`. Here the tables are a parameter: an application may register operators and verifiers and
change the order. The functions are those of `Model/Policy` with the tables as an argument; `Props/CustomOps` shows that with the built-in tables they are the same.
-/

namespace Oidfed

/-- The interface `PolicyOperator` (policyoperators.go:12-21), which `NewPolicyOperator` fills with the given functions (policyoperators.go:53-95). -/
structure OpImpl where
  name : OpName
  merge : Val → Val → Res Val
  apply : Cur → Val → Bool → Res Cur
  combine : Option (List OpName)

/-- The global tables: `operators` (policyoperators.go:46), `OperatorOrder` (policyoperators.go:36-44), `policyVerifiers` (policyverifiers.go:14). -/
structure Registry where
  ops : OpName → Option OpImpl
  order : List OpName
  verifiers : List (Entry → Res Unit)

/-- A built-in operator as an implementation. -/
def Op.impl (o : Op) : OpImpl := ⟨o.name, o.merge, o.apply, o.mayCombineWith⟩

/-- The tables after `init` (policyoperators.go:362-371, policyverifiers.go:237-250). -/
def Registry.builtin : Registry where
  ops := fun n => (operators n).map Op.impl
  order := operatorOrder
  verifiers := [vOneOfExclusive, vSubset opSupersetOf opSubsetOf, vSubset opAdd opSubsetOf, vAddInOneOf, vSubset opAdd opValue, vOneOfNonempty,
    vSubset opValue opSubsetOf, vDefaultAndValue]

/-- `RegisterPolicyOperator` (policyoperators.go:48-51). -/
def Registry.register (R : Registry) (o : OpImpl) : Registry := { R with ops := fun n => if n = o.name then some o else R.ops n }

/-- `RegisterPolicyVerifier` (policyverifiers.go:16-19). -/
def Registry.registerVerifier (R : Registry) (v : Entry → Res Unit) : Registry := { R with verifiers := R.verifiers ++ [v] }

/-- Putting a name into `OperatorOrder` at a position, which the documentation asks for (policyoperators.go:34-35). -/
def Registry.insertAt (R : Registry) (i : Nat) (n : OpName) : Registry := { R with order := R.order.take i ++ n :: R.order.drop i }

/-- The combination check for one active operator (metadataPolicy.go:236-251). -/
def combineOkIn (R : Registry) (active : List OpName) (opN : OpName) : Bool :=
  match R.ops opN with
  | none => true
  | some op =>
    match op.combine with
    | none => true
    | some l => active.all (fun n => (l ++ [op.name]).contains n)

/-- The loop over the verifiers (metadataPolicy.go:253-257). -/
def runAll (p : Entry) : List (Entry → Res Unit) → Res Unit
  | [] => .ok ()
  | v :: vs => do
      v p
      runAll p vs

/-- `MetadataPolicyEntry.Verify` (metadataPolicy.go:234-259). -/
def Entry.verifyIn (R : Registry) (p : Entry) : Res Unit :=
  if p.keys.all (combineOkIn R p.keys) then runAll p R.verifiers else .error .error

/-- `MetadataPolicy.Verify` (metadataPolicy.go:80-87). -/
def Policy.verifyIn (R : Registry) : Policy → Res Unit
  | [] => .ok ()
  | (_, e) :: ps => do
      Entry.verifyIn R e
      Policy.verifyIn R ps

/-- First loop of `mergeMetadataPolicyEntries` (metadataPolicy.go:206-223). -/
def mergeLoopIn (R : Registry) (b : Entry) : Entry → Entry → Res (Option Entry)
  | [], out => .ok (some out)
  | (op, av) :: a, out =>
    match b.get op with
    | none => mergeLoopIn R b a (out ++ [(op, av)])
    | some bv =>
      match R.ops op with
      | none => .ok none
      | some o => do
          let c ← o.merge av bv
          mergeLoopIn R b a (out ++ [(op, c)])

/-- `mergeMetadataPolicyEntries` (metadataPolicy.go:204-231). -/
def mergeEntriesIn (R : Registry) (a b : Entry) : Res Entry := do
  let r ← mergeLoopIn R b a []
  match r with
  | none => .ok []
  | some out => .ok (out ++ b.filter (fun kv => (out.get kv.1).isNone))

/-- First loop of `combineMetadataPolicy` (metadataPolicy.go:183-194). -/
def combineLoopIn (R : Registry) (sub : Policy) : Policy → Policy → Res Policy
  | [], out => .ok out
  | (k, pv) :: parent, out =>
    match AMap.get sub k with
    | none => combineLoopIn R sub parent (out ++ [(k, pv)])
    | some sv => do
        let c ← mergeEntriesIn R pv sv
        combineLoopIn R sub parent (out ++ [(k, c)])

/-- `combineMetadataPolicy` (metadataPolicy.go:175-202). -/
def combinePolicyIn (R : Registry) (parent sub : Policy) : Res Policy :=
  if sub.isEmpty then .ok parent
  else if parent.isEmpty then .ok sub
  else do
    let out ← combineLoopIn R sub parent []
    let out := out ++ sub.filter (fun kv => (AMap.get out kv.1).isNone)
    Policy.verifyIn R out
    .ok out

/-- The loop of `CombineMetadataPolicy` (metadataPolicy.go:165-170). -/
def combineRestIn (R : Registry) : Policy → List Policy → Res Policy
  | out, [] => .ok out
  | out, p :: ps => do
      let out ← combinePolicyIn R out p
      combineRestIn R out ps

/-- `CombineMetadataPolicy` (metadataPolicy.go:156-172). -/
def combineAllIn (R : Registry) : List Policy → Res Policy
  | [] => .ok []
  | p :: ps => do
      Policy.verifyIn R p
      combineRestIn R p ps

/-- One iteration of the loop in `ApplyTo` (metadataPolicy.go:269-282). -/
def applyStepIn (R : Registry) (p : Entry) (essential : Bool) (c : Cur) (n : OpName) : Res Cur :=
  match p.get n with
  | none => .ok c
  | some pv =>
    match R.ops n with
    | none => .error .error
    | some o => o.apply c pv essential

/-- The loop of `MetadataPolicyEntry.ApplyTo` (metadataPolicy.go:269-282). -/
def applyLoopIn (R : Registry) (p : Entry) (essential : Bool) : List OpName → Cur → Res Cur
  | [], c => .ok c
  | n :: ns, c => do
      let c ← applyStepIn R p essential c n
      applyLoopIn R p essential ns c

/-- `MetadataPolicyEntry.ApplyTo` (metadataPolicy.go:262-284). -/
def Entry.applyToIn (R : Registry) (p : Entry) (v : Val) (isSet : Bool) : Res Val :=
  (applyLoopIn R p p.essential R.order ⟨v, isSet⟩).map Cur.v

/-- The check of `metadata_policy_crit` (trustchain.go:74-82): a critical operator has to be in `OperatorOrder`. -/
def critOkIn (R : Registry) (crit : List OpName) : Bool := crit.all (fun n => R.order.contains n)

end Oidfed
