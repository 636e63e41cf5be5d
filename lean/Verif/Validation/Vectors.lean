import Verif.Model.StmtJSON
/-!
# The metadata policy test vectors in the repository, run on the model

The vectors are those of `metadata-policy-test-vectors-2025-02-13.json`, translated by `validation/gen_vectors.py`. As in `TestApplyPolicies` and `TestMergeAndApplyMetadataPolicies`
(metadataPolicy_test.go:74-169) the policies are read from JSON, combined and applied to relying party metadata read from JSON. An error is fine if the vector has one; otherwise all attributes
have to be as in the expected metadata (nil and empty lists are not told apart, as in the JSON that the Go test compares). These are tests of the model, not proofs of properties.
-/

namespace Oidfed.Validation
open Oidfed

/-- A test vector. -/
structure TestVector where
  n : Nat
  ta : JV
  int : JV
  merged : Option JV
  metadata : JV
  resolved : JV
  err : Bool

/-- No vector has nested objects; they need not be told apart. -/
def numbering : Numbering := ⟨fun _ => 0, fun _ => 0⟩

def readPolicy (v : JV) : Option Policy := (decPolicy v).map (JPolicy.toPolicy numbering)

def readRP : JV → Option EntityMeta
  | .obj l => (readMeta (fun _ v => some v) rpFields rpPtrFields l).map (MStruct.toMeta numbering rpFields)
  | _ => none

def asWritten : Val → Val
  | .slice _ _ xs => .slice .any false xs
  | v => v

def sameAttributes (a b : EntityMeta) : Bool := a.fields.map (fun f => (f.tag, asWritten f.val)) == b.fields.map (fun f => (f.tag, asWritten f.val))

def TestVector.judge (v : TestVector) : Res EntityMeta → Bool
  | .error .panic => false
  | .error .error => v.err
  | .ok m => match readRP v.resolved with
    | none => false
    | some e => sameAttributes m e

/-- `TestMergeAndApplyMetadataPolicies` for this vector. -/
def TestVector.mergeAndApply (v : TestVector) : Bool :=
  match readPolicy v.ta, readPolicy v.int, readRP v.metadata with
  | some ta, some int, some m => v.judge (do
      let p ← combinePolicy ta int
      m.apply p)
  | _, _, _ => false

/-- `TestApplyPolicies` for this vector. -/
def TestVector.applyMerged (v : TestVector) : Bool :=
  match v.merged with
  | none => true
  | some mg =>
    match readPolicy mg, readRP v.metadata with
    | some p, some m => v.judge (m.apply p)
    | _, _ => false

end Oidfed.Validation
