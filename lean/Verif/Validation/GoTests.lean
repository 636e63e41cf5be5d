import Verif.Model.Policy
/-!
# The library's own tests of policy operators and verifiers, run on the model

Generated by `validation/gen_vectors.py` from the tables in `policyoperators_test.go` and `policyverifiers_test.go`. These are tests of the model, not proofs of properties: they show that the
model computes what the authors of the library expect of their code. Left out are the tests of verifiers that the library defines but does not register, and those with an empty
struct as value: `struct{}{}` in TestPolicyOperatorDefaultApply, `struct{}{}` in TestPolicyOperatorEssentialApply, `policyVerifyDefaultInOneOf`, `policyVerifyDefaultInSubset`, `policyVerifyDefaultSuperset`, `policyVerifySubsetOfStillHasValues`.
-/

namespace Oidfed.Validation
open Oidfed

/-- A case of the tests of `Merge`. -/
structure MergeCase where
  name : String
  op : Op
  a : Val
  b : Val
  expected : Val
  err : Bool

/-- What the Go tests check: an error exactly if one is expected, otherwise `utils.SliceEqual` to what is expected. -/
def MergeCase.passes (c : MergeCase) : Bool :=
  match c.op.merge c.a c.b with
  | .error .error => c.err
  | .error .panic => false
  | .ok v => !c.err && sliceEqual c.expected v

/-- A case of the tests of `Apply`. -/
structure ApplyCase where
  name : String
  op : Op
  value : Val
  isSet : Bool
  policyValue : Val
  essential : Bool
  expected : Val
  err : Bool

/-- The same for `Apply`. -/
def ApplyCase.passes (c : ApplyCase) : Bool :=
  match c.op.apply ⟨c.value, c.isSet⟩ c.policyValue c.essential with
  | .error .error => c.err
  | .error .panic => false
  | .ok r => !c.err && sliceEqual c.expected r.v

/-- A case of the tests of verifiers. -/
structure VerifyCase where
  name : String
  verifier : Entry → Res Unit
  policy : Entry
  err : Bool

/-- An error exactly if one is expected. -/
def VerifyCase.passes (c : VerifyCase) : Bool :=
  match c.verifier c.policy with
  | .error .error => c.err
  | .error .panic => false
  | .ok _ => !c.err

/-- Cases for `Merge` (policyoperators_test.go). -/
def mergeCases : List MergeCase := [
  ⟨"TestPolicyOperatorAddMerge: both nil", .add, .nil, .nil, .nil, false⟩,
  ⟨"TestPolicyOperatorAddMerge: both empty slices", .add, (.slice .str false []), (.slice .str false []), (.slice .str false []), false⟩,
  ⟨"TestPolicyOperatorAddMerge: string + nil", .add, (.str "value"), .nil, (.str "value"), false⟩,
  ⟨"TestPolicyOperatorAddMerge: string + empty slice", .add, (.str "value"), (.slice .str false []), (.str "value"), false⟩,
  ⟨"TestPolicyOperatorAddMerge: string + string", .add, (.str "value"), (.str "other"), (.slice .str false [(.str "value"), (.str "other")]), false⟩,
  ⟨"TestPolicyOperatorAddMerge: string + slice", .add, (.str "value"), (.slice .str false [(.str "other"), (.str "values")]), (.slice .str false [(.str "value"), (.str "other"), (.str "values")]), false⟩,
  ⟨"TestPolicyOperatorAddMerge: slice + slice", .add, (.slice .str false [(.str "value")]), (.slice .str false [(.str "other"), (.str "values")]), (.slice .str false [(.str "value"), (.str "other"), (.str "values")]), false⟩,
  ⟨"TestPolicyOperatorAddMerge: slice + slice with duplicates", .add, (.slice .str false [(.str "value"), (.str "values")]), (.slice .str false [(.str "other"), (.str "values"), (.str "value")]), (.slice .str false [(.str "value"), (.str "values"), (.str "other")]), false⟩,
  ⟨"TestPolicyOperatorAddMerge: nil + slice", .add, .nil, (.slice .str false [(.str "other"), (.str "values"), (.str "value")]), (.slice .str false [(.str "other"), (.str "values"), (.str "value")]), false⟩,
  ⟨"TestPolicyOperatorAddMerge: slice + nil", .add, (.slice .str false [(.str "other"), (.str "values"), (.str "value")]), .nil, (.slice .str false [(.str "other"), (.str "values"), (.str "value")]), false⟩,
  ⟨"TestPolicyOperatorAddMerge: empty slice + slice", .add, (.slice .str false []), (.slice .str false [(.str "other"), (.str "values"), (.str "value")]), (.slice .str false [(.str "other"), (.str "values"), (.str "value")]), false⟩,
  ⟨"TestPolicyOperatorAddMerge: slice + empty slice", .add, (.slice .str false [(.str "other"), (.str "values"), (.str "value")]), (.slice .str false []), (.slice .str false [(.str "other"), (.str "values"), (.str "value")]), false⟩,
  ⟨"TestPolicyOperatorSubsetOfMerge: both nil", .subsetOf, .nil, .nil, .nil, false⟩,
  ⟨"TestPolicyOperatorSubsetOfMerge: both empty", .subsetOf, (.slice .str false []), (.slice .str false []), (.slice .str false []), false⟩,
  ⟨"TestPolicyOperatorSubsetOfMerge: one nil", .subsetOf, .nil, (.slice .str false [(.str "a"), (.str "b")]), (.slice .str false [(.str "a"), (.str "b")]), false⟩,
  ⟨"TestPolicyOperatorSubsetOfMerge: one empty", .subsetOf, (.slice .str false []), (.slice .str false [(.str "a"), (.str "b")]), (.slice .str false []), false⟩,
  ⟨"TestPolicyOperatorSubsetOfMerge: equal", .subsetOf, (.slice .str false [(.str "a"), (.str "b")]), (.slice .str false [(.str "a"), (.str "b")]), (.slice .str false [(.str "a"), (.str "b")]), false⟩,
  ⟨"TestPolicyOperatorSubsetOfMerge: subset", .subsetOf, (.slice .str false [(.str "a"), (.str "b"), (.str "c")]), (.slice .str false [(.str "b"), (.str "c"), (.str "d")]), (.slice .str false [(.str "b"), (.str "c")]), false⟩,
  ⟨"TestPolicyOperatorSubsetOfMerge: distinct", .subsetOf, (.slice .str false [(.str "a"), (.str "b")]), (.slice .str false [(.str "c"), (.str "d")]), (.slice .str false []), false⟩,
  ⟨"TestPolicyOperatorOneOfMerge: both nil", .oneOf, .nil, .nil, .nil, false⟩,
  ⟨"TestPolicyOperatorOneOfMerge: a nil", .oneOf, (.slice .str false [(.str "a"), (.str "b")]), .nil, (.slice .str false [(.str "a"), (.str "b")]), false⟩,
  ⟨"TestPolicyOperatorOneOfMerge: b nil", .oneOf, .nil, (.slice .str false [(.str "a"), (.str "b")]), (.slice .str false [(.str "a"), (.str "b")]), false⟩,
  ⟨"TestPolicyOperatorOneOfMerge: both empty", .oneOf, (.slice .str false []), (.slice .str false []), (.slice .str false []), false⟩,
  ⟨"TestPolicyOperatorOneOfMerge: one empty", .oneOf, (.slice .str false [(.str "a"), (.str "b")]), (.slice .str false []), (.slice .str false []), false⟩,
  ⟨"TestPolicyOperatorOneOfMerge: distinct", .oneOf, (.slice .str false [(.str "a"), (.str "b")]), (.slice .str false [(.str "c"), (.str "d")]), (.slice .str false []), false⟩,
  ⟨"TestPolicyOperatorOneOfMerge: equal", .oneOf, (.slice .str false [(.str "a"), (.str "b")]), (.slice .str false [(.str "a"), (.str "b")]), (.slice .str false [(.str "a"), (.str "b")]), false⟩,
  ⟨"TestPolicyOperatorOneOfMerge: intersect", .oneOf, (.slice .str false [(.str "a"), (.str "b"), (.str "c")]), (.slice .str false [(.str "b"), (.str "c"), (.str "d")]), (.slice .str false [(.str "b"), (.str "c")]), false⟩,
  ⟨"TestPolicyOperatorOneOfMerge: subset", .oneOf, (.slice .str false [(.str "a"), (.str "b"), (.str "c")]), (.slice .str false [(.str "b"), (.str "c")]), (.slice .str false [(.str "b"), (.str "c")]), false⟩,
  ⟨"TestPolicyOperatorOneOfMerge: only one left", .oneOf, (.slice .str false [(.str "a"), (.str "b"), (.str "c")]), (.slice .str false [(.str "b"), (.str "d")]), (.slice .str false [(.str "b")]), false⟩,
  ⟨"TestPolicyOperatorSupersetOfMerge: both nil", .supersetOf, .nil, .nil, .nil, false⟩,
  ⟨"TestPolicyOperatorSupersetOfMerge: a nil", .supersetOf, .nil, (.slice .str false [(.str "a"), (.str "b")]), (.slice .str false [(.str "a"), (.str "b")]), false⟩,
  ⟨"TestPolicyOperatorSupersetOfMerge: b nil", .supersetOf, (.slice .str false [(.str "a"), (.str "b")]), .nil, (.slice .str false [(.str "a"), (.str "b")]), false⟩,
  ⟨"TestPolicyOperatorSupersetOfMerge: a empty", .supersetOf, (.slice .str false []), (.slice .str false [(.str "a"), (.str "b")]), (.slice .str false [(.str "a"), (.str "b")]), false⟩,
  ⟨"TestPolicyOperatorSupersetOfMerge: b empty", .supersetOf, (.slice .str false [(.str "a"), (.str "b")]), (.slice .str false []), (.slice .str false [(.str "a"), (.str "b")]), false⟩,
  ⟨"TestPolicyOperatorSupersetOfMerge: equal", .supersetOf, (.slice .str false [(.str "a"), (.str "b")]), (.slice .str false [(.str "a"), (.str "b")]), (.slice .str false [(.str "a"), (.str "b")]), false⟩,
  ⟨"TestPolicyOperatorSupersetOfMerge: distinct", .supersetOf, (.slice .str false [(.str "a"), (.str "b")]), (.slice .str false [(.str "c"), (.str "d")]), (.slice .str false [(.str "a"), (.str "b"), (.str "c"), (.str "d")]), false⟩,
  ⟨"TestPolicyOperatorSupersetOfMerge: mixed", .supersetOf, (.slice .str false [(.str "a"), (.str "b")]), (.slice .str false [(.str "b"), (.str "c")]), (.slice .str false [(.str "a"), (.str "b"), (.str "c")]), false⟩,
  ⟨"TestPolicyOperatorValueMerge: both nil", .value, .nil, .nil, .nil, false⟩,
  ⟨"TestPolicyOperatorValueMerge: a nil", .value, .nil, (.str "value"), .nil, true⟩,
  ⟨"TestPolicyOperatorValueMerge: b nil", .value, (.str "value"), .nil, .nil, true⟩,
  ⟨"TestPolicyOperatorValueMerge: equal string", .value, (.str "value"), (.str "value"), (.str "value"), false⟩,
  ⟨"TestPolicyOperatorValueMerge: different string", .value, (.str "value"), (.str "value2"), .nil, true⟩,
  ⟨"TestPolicyOperatorValueMerge: equal slices", .value, (.slice .str false [(.str "a"), (.str "b")]), (.slice .str false [(.str "a"), (.str "b")]), (.slice .str false [(.str "a"), (.str "b")]), false⟩,
  ⟨"TestPolicyOperatorValueMerge: equal slices wrong order", .value, (.slice .str false [(.str "a"), (.str "b")]), (.slice .str false [(.str "b"), (.str "a")]), (.slice .str false [(.str "a"), (.str "b")]), false⟩,
  ⟨"TestPolicyOperatorValueMerge: different slices", .value, (.slice .str false [(.str "a"), (.str "b"), (.str "c")]), (.slice .str false [(.str "b"), (.str "a")]), .nil, true⟩,
  ⟨"TestPolicyOperatorDefaultMerge: both nil", .default, .nil, .nil, .nil, false⟩,
  ⟨"TestPolicyOperatorDefaultMerge: a nil", .default, .nil, (.str "value"), (.str "value"), false⟩,
  ⟨"TestPolicyOperatorDefaultMerge: b nil", .default, (.str "value"), .nil, (.str "value"), false⟩,
  ⟨"TestPolicyOperatorDefaultMerge: equal string", .default, (.str "value"), (.str "value"), (.str "value"), false⟩,
  ⟨"TestPolicyOperatorDefaultMerge: different string", .default, (.str "value"), (.str "value2"), .nil, true⟩,
  ⟨"TestPolicyOperatorDefaultMerge: equal slices", .default, (.slice .str false [(.str "a"), (.str "b")]), (.slice .str false [(.str "a"), (.str "b")]), (.slice .str false [(.str "a"), (.str "b")]), false⟩,
  ⟨"TestPolicyOperatorDefaultMerge: equal slices wrong order", .default, (.slice .str false [(.str "a"), (.str "b")]), (.slice .str false [(.str "b"), (.str "a")]), (.slice .str false [(.str "a"), (.str "b")]), false⟩,
  ⟨"TestPolicyOperatorDefaultMerge: different slices", .default, (.slice .str false [(.str "a"), (.str "b"), (.str "c")]), (.slice .str false [(.str "b"), (.str "a")]), .nil, true⟩,
  ⟨"TestPolicyOperatorEssentialMerge: both nil", .essential, .nil, .nil, (.bool false), false⟩,
  ⟨"TestPolicyOperatorEssentialMerge: nil + false", .essential, .nil, (.bool false), (.bool false), false⟩,
  ⟨"TestPolicyOperatorEssentialMerge: false + nil", .essential, (.bool false), .nil, (.bool false), false⟩,
  ⟨"TestPolicyOperatorEssentialMerge: nil + true", .essential, .nil, (.bool true), (.bool true), false⟩,
  ⟨"TestPolicyOperatorEssentialMerge: true + nil", .essential, (.bool true), .nil, (.bool true), false⟩,
  ⟨"TestPolicyOperatorEssentialMerge: false + true", .essential, (.bool false), (.bool true), (.bool true), false⟩,
  ⟨"TestPolicyOperatorEssentialMerge: true + false", .essential, (.bool true), (.bool false), (.bool true), false⟩,
  ⟨"TestPolicyOperatorEssentialMerge: true + true", .essential, (.bool true), (.bool true), (.bool true), false⟩,
  ⟨"TestPolicyOperatorEssentialMerge: false + false", .essential, (.bool false), (.bool false), (.bool false), false⟩]

/-- Cases for `Apply` (policyoperators_test.go). -/
def applyCases : List ApplyCase := [
  ⟨"TestPolicyOperatorAddApply: both nil", .add, .nil, false, .nil, false, .nil, false⟩,
  ⟨"TestPolicyOperatorAddApply: value nil, policy string", .add, .nil, false, (.str "value"), false, (.str "value"), false⟩,
  ⟨"TestPolicyOperatorAddApply: value set to nil, policy string", .add, .nil, true, (.str "value"), false, (.str "value"), false⟩,
  ⟨"TestPolicyOperatorAddApply: value nil, policy slice", .add, .nil, false, (.slice .str false [(.str "value"), (.str "other")]), false, (.slice .str false [(.str "value"), (.str "other")]), false⟩,
  ⟨"TestPolicyOperatorAddApply: value nil, policy slice", .add, .nil, true, (.slice .str false [(.str "value"), (.str "other")]), false, (.slice .str false [(.str "value"), (.str "other")]), false⟩,
  ⟨"TestPolicyOperatorAddApply: value string, policy string", .add, (.str "value"), true, (.str "other"), false, (.slice .str false [(.str "value"), (.str "other")]), false⟩,
  ⟨"TestPolicyOperatorAddApply: value string, policy slice", .add, (.str "value"), true, (.slice .str false [(.str "additional"), (.str "other")]), false, (.slice .str false [(.str "value"), (.str "additional"), (.str "other")]), false⟩,
  ⟨"TestPolicyOperatorAddApply: value string, policy string dupl", .add, (.str "value"), true, (.str "value"), false, (.str "value"), false⟩,
  ⟨"TestPolicyOperatorAddApply: value string, policy slice dupl", .add, (.str "value"), true, (.slice .str false [(.str "value"), (.str "other")]), false, (.slice .str false [(.str "value"), (.str "other")]), false⟩,
  ⟨"TestPolicyOperatorAddApply: value empty slice, policy string", .add, (.slice .str false []), true, (.str "value"), false, (.slice .str false [(.str "value")]), false⟩,
  ⟨"TestPolicyOperatorAddApply: value empty slice, policy slice", .add, (.slice .str false []), true, (.slice .str false [(.str "value"), (.str "other")]), false, (.slice .str false [(.str "value"), (.str "other")]), false⟩,
  ⟨"TestPolicyOperatorAddApply: value slice, policy string", .add, (.slice .str false [(.str "value")]), true, (.str "add"), false, (.slice .str false [(.str "value"), (.str "add")]), false⟩,
  ⟨"TestPolicyOperatorAddApply: value slice, policy slice", .add, (.slice .str false [(.str "value"), (.str "more")]), true, (.slice .str false [(.str "value"), (.str "other")]), false, (.slice .str false [(.str "value"), (.str "more"), (.str "other")]), false⟩,
  ⟨"TestPolicyOperatorSubsetOfApply: both nil", .subsetOf, .nil, false, .nil, false, .nil, false⟩,
  ⟨"TestPolicyOperatorSubsetOfApply: both nil essential", .subsetOf, .nil, false, .nil, true, .nil, false⟩,
  ⟨"TestPolicyOperatorSubsetOfApply: value nil", .subsetOf, .nil, false, (.slice .str false [(.str "a"), (.str "b")]), false, .nil, false⟩,
  ⟨"TestPolicyOperatorSubsetOfApply: value nil essential", .subsetOf, .nil, false, (.slice .str false [(.str "a"), (.str "b")]), true, .nil, true⟩,
  ⟨"TestPolicyOperatorSubsetOfApply: policy nil", .subsetOf, (.slice .str false [(.str "a"), (.str "b")]), true, .nil, false, (.slice .str false [(.str "a"), (.str "b")]), false⟩,
  ⟨"TestPolicyOperatorSubsetOfApply: policy nil essential", .subsetOf, (.slice .str false [(.str "a"), (.str "b")]), true, .nil, true, (.slice .str false [(.str "a"), (.str "b")]), false⟩,
  ⟨"TestPolicyOperatorSubsetOfApply: equal", .subsetOf, (.slice .str false [(.str "a"), (.str "b")]), true, (.slice .str false [(.str "a"), (.str "b")]), false, (.slice .str false [(.str "a"), (.str "b")]), false⟩,
  ⟨"TestPolicyOperatorSubsetOfApply: subset", .subsetOf, (.slice .str false [(.str "a"), (.str "b")]), true, (.slice .str false [(.str "a"), (.str "b"), (.str "c")]), false, (.slice .str false [(.str "a"), (.str "b")]), false⟩,
  ⟨"TestPolicyOperatorSubsetOfApply: no subset", .subsetOf, (.slice .str false [(.str "a"), (.str "c"), (.str "d")]), true, (.slice .str false [(.str "a"), (.str "b"), (.str "c")]), false, (.slice .str false [(.str "a"), (.str "c")]), false⟩,
  ⟨"TestPolicyOperatorSubsetOfApply: distinct", .subsetOf, (.slice .str false [(.str "a"), (.str "b")]), true, (.slice .str false [(.str "c"), (.str "d")]), false, (.slice .str false []), false⟩,
  ⟨"TestPolicyOperatorSubsetOfApply: distinct essential", .subsetOf, (.slice .str false [(.str "a"), (.str "b")]), true, (.slice .str false [(.str "c"), (.str "d")]), true, (.slice .str false []), false⟩,
  ⟨"TestPolicyOperatorOneOfApply: both nil", .oneOf, .nil, false, .nil, false, .nil, false⟩,
  ⟨"TestPolicyOperatorOneOfApply: both nil", .oneOf, .nil, false, .nil, true, .nil, false⟩,
  ⟨"TestPolicyOperatorOneOfApply: policy nil", .oneOf, (.str "value"), true, .nil, false, (.str "value"), false⟩,
  ⟨"TestPolicyOperatorOneOfApply: policy nil; essential", .oneOf, (.str "value"), true, .nil, true, (.str "value"), false⟩,
  ⟨"TestPolicyOperatorOneOfApply: value nil", .oneOf, .nil, false, (.slice .str false [(.str "a"), (.str "b")]), false, .nil, false⟩,
  ⟨"TestPolicyOperatorOneOfApply: value nil; essential", .oneOf, .nil, false, (.slice .str false [(.str "a"), (.str "b")]), true, .nil, true⟩,
  ⟨"TestPolicyOperatorOneOfApply: one of", .oneOf, (.str "value"), true, (.slice .str false [(.str "one"), (.str "of"), (.str "value")]), false, (.str "value"), false⟩,
  ⟨"TestPolicyOperatorOneOfApply: not one of", .oneOf, (.str "other"), true, (.slice .str false [(.str "one"), (.str "of"), (.str "value")]), false, .nil, true⟩,
  ⟨"TestPolicyOperatorOneOfApply: slice as value", .oneOf, (.slice .str false [(.str "one"), (.str "of"), (.str "value")]), true, (.slice .str false [(.str "one"), (.str "of"), (.str "value")]), false, .nil, true⟩,
  ⟨"TestPolicyOperatorSupersetOfApply: both nil", .supersetOf, .nil, false, .nil, false, .nil, false⟩,
  ⟨"TestPolicyOperatorSupersetOfApply: both nil; essential", .supersetOf, .nil, false, .nil, true, .nil, false⟩,
  ⟨"TestPolicyOperatorSupersetOfApply: policy nil", .supersetOf, (.slice .str false [(.str "a"), (.str "b")]), true, .nil, false, (.slice .str false [(.str "a"), (.str "b")]), false⟩,
  ⟨"TestPolicyOperatorSupersetOfApply: policy nil; essential", .supersetOf, (.slice .str false [(.str "a"), (.str "b")]), true, .nil, false, (.slice .str false [(.str "a"), (.str "b")]), false⟩,
  ⟨"TestPolicyOperatorSupersetOfApply: policy empty", .supersetOf, (.slice .str false [(.str "a"), (.str "b")]), true, (.slice .str false []), false, (.slice .str false [(.str "a"), (.str "b")]), false⟩,
  ⟨"TestPolicyOperatorSupersetOfApply: value nil", .supersetOf, .nil, false, (.slice .str false [(.str "a")]), false, .nil, false⟩,
  ⟨"TestPolicyOperatorSupersetOfApply: value nil; essential", .supersetOf, .nil, false, (.slice .str false [(.str "a")]), true, .nil, true⟩,
  ⟨"TestPolicyOperatorSupersetOfApply: value empty", .supersetOf, (.slice .str false []), true, (.slice .str false [(.str "a")]), false, .nil, true⟩,
  ⟨"TestPolicyOperatorSupersetOfApply: value empty; essential", .supersetOf, (.slice .str false []), true, (.slice .str false [(.str "a")]), true, .nil, true⟩,
  ⟨"TestPolicyOperatorSupersetOfApply: equal", .supersetOf, (.slice .str false [(.str "a"), (.str "b")]), true, (.slice .str false [(.str "a"), (.str "b")]), false, (.slice .str false [(.str "a"), (.str "b")]), false⟩,
  ⟨"TestPolicyOperatorSupersetOfApply: superset", .supersetOf, (.slice .str false [(.str "a"), (.str "b")]), true, (.slice .str false [(.str "a")]), false, (.slice .str false [(.str "a"), (.str "b")]), false⟩,
  ⟨"TestPolicyOperatorSupersetOfApply: no superset", .supersetOf, (.slice .str false [(.str "a"), (.str "b")]), true, (.slice .str false [(.str "a"), (.str "c")]), false, .nil, true⟩,
  ⟨"TestPolicyOperatorValueApply: both nil", .value, .nil, false, .nil, false, .nil, false⟩,
  ⟨"TestPolicyOperatorValueApply: policy nil", .value, (.str "value"), true, .nil, false, .nil, false⟩,
  ⟨"TestPolicyOperatorValueApply: policy string", .value, (.str "value"), true, (.str "overwrite"), false, (.str "overwrite"), false⟩,
  ⟨"TestPolicyOperatorValueApply: policy slice string", .value, (.str "value"), true, (.slice .str false [(.str "overwrite"), (.str "with"), (.str "values")]), false, (.slice .str false [(.str "overwrite"), (.str "with"), (.str "values")]), false⟩,
  ⟨"TestPolicyOperatorDefaultApply: both nil", .default, .nil, false, .nil, false, .nil, false⟩,
  ⟨"TestPolicyOperatorDefaultApply: policy nil", .default, (.str "value"), true, .nil, false, (.str "value"), false⟩,
  ⟨"TestPolicyOperatorDefaultApply: value nil", .default, .nil, false, (.str "value"), false, (.str "value"), false⟩,
  ⟨"TestPolicyOperatorDefaultApply: value empty string set", .default, (.str ""), true, (.str "value"), false, (.str ""), false⟩,
  ⟨"TestPolicyOperatorDefaultApply: value empty string", .default, (.str ""), false, (.str "value"), false, (.str "value"), false⟩,
  ⟨"TestPolicyOperatorDefaultApply: policy string", .default, (.str "value"), true, (.str "default"), false, (.str "value"), false⟩,
  ⟨"TestPolicyOperatorDefaultApply: policy slice string", .default, (.str "value"), true, (.slice .str false [(.str "default"), (.str "with"), (.str "values")]), false, (.str "value"), false⟩,
  ⟨"TestPolicyOperatorEssentialApply: both nil", .essential, .nil, false, .nil, false, .nil, false⟩,
  ⟨"TestPolicyOperatorEssentialApply: value nil + false", .essential, .nil, false, (.bool false), false, .nil, false⟩,
  ⟨"TestPolicyOperatorEssentialApply: value nil + true", .essential, .nil, false, (.bool true), false, .nil, true⟩,
  ⟨"TestPolicyOperatorEssentialApply: value empty string + true", .essential, (.str ""), true, (.bool true), false, .nil, true⟩,
  ⟨"TestPolicyOperatorEssentialApply: value string + true", .essential, (.str "value"), true, (.bool true), false, (.str "value"), false⟩,
  ⟨"TestPolicyOperatorEssentialApply: value empty string + false", .essential, (.str ""), true, (.bool false), false, (.str ""), false⟩,
  ⟨"TestPolicyOperatorEssentialApply: value string + false", .essential, (.str "value"), true, (.bool false), false, (.str "value"), false⟩]

/-- Cases for verifiers (policyverifiers_test.go). -/
def verifyCases : List VerifyCase := [
  ⟨"TestPolicyVerifierSubsetSupersetOneOf: nil", vOneOfExclusive, [], false⟩,
  ⟨"TestPolicyVerifierSubsetSupersetOneOf: all empty", vOneOfExclusive, [], false⟩,
  ⟨"TestPolicyVerifierSubsetSupersetOneOf: only subset", vOneOfExclusive, [("subset_of", (.slice .str false [(.str "one"), (.str "two")]))], false⟩,
  ⟨"TestPolicyVerifierSubsetSupersetOneOf: only superset", vOneOfExclusive, [("superset_of", (.slice .str false [(.str "one"), (.str "two")]))], false⟩,
  ⟨"TestPolicyVerifierSubsetSupersetOneOf: only oneof", vOneOfExclusive, [("one_of", (.slice .str false [(.str "one"), (.str "two")]))], false⟩,
  ⟨"TestPolicyVerifierSubsetSupersetOneOf: subset + superset", vOneOfExclusive, [("subset_of", (.slice .str false [(.str "one"), (.str "two")])), ("superset_of", (.slice .str false [(.str "one")]))], false⟩,
  ⟨"TestPolicyVerifierSubsetSupersetOneOf: subset + superset + oneof", vOneOfExclusive, [("subset_of", (.slice .str false [(.str "one"), (.str "two")])), ("superset_of", (.slice .str false [(.str "one")])), ("one_of", (.slice .str false [(.str "one"), (.str "two")]))], true⟩,
  ⟨"TestPolicyVerifierSubsetSupersetOneOf: subset + oneof", vOneOfExclusive, [("subset_of", (.slice .str false [(.str "one"), (.str "two")])), ("one_of", (.slice .str false [(.str "one"), (.str "two")]))], true⟩,
  ⟨"TestPolicyVerifierSubsetSupersetOneOf: superset + oneof", vOneOfExclusive, [("superset_of", (.slice .str false [(.str "one")])), ("one_of", (.slice .str false [(.str "one"), (.str "two")]))], true⟩,
  ⟨"TestPolicyVerifierSubsetSupersetOf: nil", vSubset opSupersetOf opSubsetOf, [], false⟩,
  ⟨"TestPolicyVerifierSubsetSupersetOf: all empty", vSubset opSupersetOf opSubsetOf, [], false⟩,
  ⟨"TestPolicyVerifierSubsetSupersetOf: only subset", vSubset opSupersetOf opSubsetOf, [("subset_of", (.slice .str false [(.str "one"), (.str "of"), (.str "three")]))], false⟩,
  ⟨"TestPolicyVerifierSubsetSupersetOf: only superset", vSubset opSupersetOf opSubsetOf, [("superset_of", (.slice .str false [(.str "one"), (.str "two")]))], false⟩,
  ⟨"TestPolicyVerifierSubsetSupersetOf: superset is subset", vSubset opSupersetOf opSubsetOf, [("subset_of", (.slice .str false [(.str "one"), (.str "two"), (.str "three")])), ("superset_of", (.slice .str false [(.str "one"), (.str "two")]))], false⟩,
  ⟨"TestPolicyVerifierSubsetSupersetOf: subset is completely different", vSubset opSupersetOf opSubsetOf, [("subset_of", (.slice .str false [(.str "all"), (.str "are"), (.str "different")])), ("superset_of", (.slice .str false [(.str "one"), (.str "two")]))], true⟩,
  ⟨"TestPolicyVerifierSubsetSupersetOf: subset is not superset", vSubset opSupersetOf opSubsetOf, [("subset_of", (.slice .str false [(.str "one"), (.str "of"), (.str "three")])), ("superset_of", (.slice .str false [(.str "one"), (.str "two")]))], true⟩,
  ⟨"TestPolicyVerifyAddInSubset: nil", vSubset opAdd opSubsetOf, [], false⟩,
  ⟨"TestPolicyVerifyAddInSubset: all empty", vSubset opAdd opSubsetOf, [], false⟩,
  ⟨"TestPolicyVerifyAddInSubset: only add", vSubset opAdd opSubsetOf, [("add", (.str "value"))], false⟩,
  ⟨"TestPolicyVerifyAddInSubset: only subset", vSubset opAdd opSubsetOf, [("subset_of", (.slice .str false [(.str "value"), (.str "other")]))], false⟩,
  ⟨"TestPolicyVerifyAddInSubset: single value subset", vSubset opAdd opSubsetOf, [("add", (.str "value")), ("subset_of", (.slice .str false [(.str "value"), (.str "other")]))], false⟩,
  ⟨"TestPolicyVerifyAddInSubset: multiple value subset", vSubset opAdd opSubsetOf, [("add", (.slice .str false [(.str "value"), (.str "other")])), ("subset_of", (.slice .str false [(.str "value"), (.str "more"), (.str "other")]))], false⟩,
  ⟨"TestPolicyVerifyAddInSubset: equal", vSubset opAdd opSubsetOf, [("add", (.slice .str false [(.str "value"), (.str "other")])), ("subset_of", (.slice .str false [(.str "value"), (.str "other")]))], false⟩,
  ⟨"TestPolicyVerifyAddInSubset: no subset", vSubset opAdd opSubsetOf, [("add", (.slice .str false [(.str "value"), (.str "different")])), ("subset_of", (.slice .str false [(.str "value"), (.str "other")]))], true⟩,
  ⟨"TestPolicyVerifyAddInSubset: single value not included", vSubset opAdd opSubsetOf, [("add", (.str "different")), ("subset_of", (.slice .str false [(.str "value"), (.str "other")]))], true⟩,
  ⟨"TestPolicyVerifyAddInOneOf: nil", vAddInOneOf, [], false⟩,
  ⟨"TestPolicyVerifyAddInOneOf: all empty", vAddInOneOf, [], false⟩,
  ⟨"TestPolicyVerifyAddInOneOf: only add", vAddInOneOf, [("add", (.str "value"))], false⟩,
  ⟨"TestPolicyVerifyAddInOneOf: only oneof", vAddInOneOf, [("one_of", (.slice .str false [(.str "value"), (.str "other")]))], false⟩,
  ⟨"TestPolicyVerifyAddInOneOf: single value", vAddInOneOf, [("add", (.str "value")), ("one_of", (.slice .str false [(.str "value"), (.str "other")]))], false⟩,
  ⟨"TestPolicyVerifyAddInOneOf: multiple values", vAddInOneOf, [("add", (.slice .str false [(.str "value"), (.str "other")])), ("one_of", (.slice .str false [(.str "value"), (.str "more"), (.str "other")]))], true⟩,
  ⟨"TestPolicyVerifyAddInOneOf: equal with slice in add", vAddInOneOf, [("add", (.slice .str false [(.str "value")])), ("one_of", (.slice .str false [(.str "value")]))], false⟩,
  ⟨"TestPolicyVerifyAddInOneOf: equal", vAddInOneOf, [("add", (.str "value")), ("one_of", (.slice .str false [(.str "value")]))], false⟩,
  ⟨"TestPolicyVerifyAddInOneOf: not included", vAddInOneOf, [("add", (.str "different")), ("one_of", (.slice .str false [(.str "value"), (.str "other")]))], true⟩,
  ⟨"TestPolicyVerifierPolicyVerifyOneOfStillHasValues: nil", vOneOfNonempty, [], false⟩,
  ⟨"TestPolicyVerifierPolicyVerifyOneOfStillHasValues: all empty", vOneOfNonempty, [], false⟩,
  ⟨"TestPolicyVerifierPolicyVerifyOneOfStillHasValues: one of nil", vOneOfNonempty, [("one_of", .nil)], true⟩,
  ⟨"TestPolicyVerifierPolicyVerifyOneOfStillHasValues: one of empty", vOneOfNonempty, [("one_of", (.slice .str false []))], true⟩,
  ⟨"TestPolicyVerifierPolicyVerifyOneOfStillHasValues: values", vOneOfNonempty, [("one_of", (.slice .str false [(.str "one"), (.str "two")]))], false⟩]

set_option maxRecDepth 10000 in
example : mergeCases.all MergeCase.passes = true := by decide +kernel

set_option maxRecDepth 10000 in
example : applyCases.all ApplyCase.passes = true := by decide +kernel

set_option maxRecDepth 10000 in
example : verifyCases.all VerifyCase.passes = true := by decide +kernel

end Oidfed.Validation
