import Verif.Model.Slices
/-!
# Metadata policy operators (`policyoperators.go`)

The seven registered operators, their `Merge`, `Apply` and `MayCombineWith`.  The
operator table is the one built in `init` (policyoperators.go:362-371); `Model/CustomOps` has the table as a parameter.
-/

namespace Oidfed

/-- `PolicyOperatorName` (metadataPolicy.go:77). -/
abbrev OpName := String

/-- The operator names (policyoperators.go:24-32). -/
def opValue : OpName := "value"
/-- policyoperators.go:26 -/
def opDefault : OpName := "default"
/-- policyoperators.go:27 -/
def opAdd : OpName := "add"
/-- policyoperators.go:28 -/
def opOneOf : OpName := "one_of"
/-- policyoperators.go:29 -/
def opSubsetOf : OpName := "subset_of"
/-- policyoperators.go:30 -/
def opSupersetOf : OpName := "superset_of"
/-- policyoperators.go:31 -/
def opEssential : OpName := "essential"

/-- A registered operator: the range of the `operators` map (policyoperators.go:46, 362-371). -/
inductive Op where
  | subsetOf | oneOf | supersetOf | add | value | default | essential
deriving DecidableEq, Repr

/-- `PolicyOperator.Name` (policyoperators.go:61-63, 98, 129, 179, 222, 269, 301, 334). -/
def Op.name : Op → OpName
  | .subsetOf => opSubsetOf
  | .oneOf => opOneOf
  | .supersetOf => opSupersetOf
  | .add => opAdd
  | .value => opValue
  | .default => opDefault
  | .essential => opEssential

/-- Lookup in the `operators` map (policyoperators.go:46, 362-371). -/
def operators (n : OpName) : Option Op :=
  if n = opSubsetOf then some .subsetOf
  else if n = opOneOf then some .oneOf
  else if n = opSupersetOf then some .supersetOf
  else if n = opAdd then some .add
  else if n = opValue then some .value
  else if n = opDefault then some .default
  else if n = opEssential then some .essential
  else none

/-- `OperatorOrder` (policyoperators.go:36-44). -/
def operatorOrder : List OpName :=
  [opValue, opAdd, opDefault, opOneOf, opSubsetOf, opSupersetOf, opEssential]

/-- The state threaded through `ApplyTo`: current value and whether it counts as set. -/
structure Cur where
  v : Val
  isSet : Bool
deriving DecidableEq, Repr

/-- `Merge` of `add` and `superset_of` (policyoperators.go:99-107, 223-231). -/
def mergeUnion (a b : Val) : Res Val :=
  if a.isNilIface then .ok b
  else if b.isNilIface then .ok a
  else reflectUnion a b

/-- `Merge` of `subset_of` and `one_of` (policyoperators.go:130-138, 180-188). -/
def mergeIntersect (a b : Val) : Res Val :=
  if a.isNilIface then .ok b
  else if b.isNilIface then .ok a
  else reflectIntersect a b

/-- `Merge` of `value` (policyoperators.go:270-283). -/
def mergeValue (a b : Val) : Res Val :=
  if sliceEqual a b then .ok a else .error .error

/-- `Merge` of `default` (policyoperators.go:302-316). -/
def mergeDefault (a b : Val) : Res Val :=
  if a.isNilIface then .ok b
  else if b.isNilIface then .ok a
  else if sliceEqual a b then .ok a else .error .error

/-- The type assertion `x.(bool)` (policyoperators.go:336-337, 353). -/
def Val.asBool : Val → Option Bool
  | .bool b => some b
  | _ => none

/-- `Merge` of `essential` (policyoperators.go:335-348). -/
def mergeEssential (a b : Val) : Res Val :=
  match a.asBool, b.asBool with
  | none, none => .ok (.bool false)
  | none, some bb => .ok (.bool bb)
  | some ab, none => .ok (.bool ab)
  | some ab, some bb => .ok (.bool (ab || bb))

/-- `PolicyOperator.Merge` (policyoperators.go:66-68). -/
def Op.merge : Op → Val → Val → Res Val
  | .subsetOf => mergeIntersect
  | .oneOf => mergeIntersect
  | .supersetOf => mergeUnion
  | .add => mergeUnion
  | .value => mergeValue
  | .default => mergeDefault
  | .essential => mergeEssential

/-- `Apply` of `add` (policyoperators.go:108-118). -/
def applyAdd (c : Cur) (p : Val) : Res Cur :=
  if c.v.isNilIface then .ok ⟨p, !p.isNilIface⟩
  else if p.isNilIface then .ok c
  else do
    let r ← reflectUnion c.v p
    .ok ⟨r, true⟩

/-- `Apply` of `subset_of` (policyoperators.go:139-168). The slicified arguments passed to `ReflectIntersect` are slicified
again there, which changes nothing. -/
def applySubsetOf (c : Cur) (p : Val) (essential : Bool) : Res Cur :=
  if !c.isSet && !essential then .ok c
  else if p.isNilIface then .ok c
  else if !c.isSet then .error .error
  else do
    let r ← intersectSlc (slicify c.v) (slicify p)
    .ok ⟨r.toVal, true⟩

/-- `Apply` of `one_of` (policyoperators.go:189-213). -/
def applyOneOf (c : Cur) (p : Val) (essential : Bool) : Res Cur :=
  if !c.isSet && !essential then .ok c
  else if p.isNilIface then .ok c
  else if !c.isSet then .error .error
  else if !sliceContains c.v (slicify p) then .error .error
  else .ok c

/-- `Apply` of `superset_of` (policyoperators.go:232-258). -/
def applySupersetOf (c : Cur) (p : Val) (essential : Bool) : Res Cur :=
  if !c.isSet && !essential then .ok c
  else if p.isNilIface then .ok c
  else if !c.isSet then .error .error
  else do
    let ok ← reflectIsSupersetOf c.v p
    if !ok then .error .error else .ok c

/-- `Apply` of `value` (policyoperators.go:284-289). -/
def applyValue (c : Cur) (p : Val) : Res Cur :=
  if p.isNilIface then .ok ⟨.nil, false⟩
  else do
    let r ← reflectSliceCast p (slicify c.v)
    .ok ⟨r, true⟩

/-- `Apply` of `default` (policyoperators.go:317-322). -/
def applyDefault (c : Cur) (p : Val) : Res Cur :=
  if !c.isSet && (c.v.isNilIface || c.v.isZero) then do
    let r ← reflectSliceCast p (slicify c.v)
    .ok ⟨r, true⟩
  else .ok c

/-- `Apply` of `essential` (policyoperators.go:349-358). -/
def applyEssential (c : Cur) (p : Val) : Res Cur :=
  if p.isNilIface then .ok c
  else if p.asBool = some true && (c.v.isNilIface || (!c.v.isSlice && c.v.isZero)) then .error .error
  else .ok c

/-- `PolicyOperator.Apply` (policyoperators.go:71-75). -/
def Op.apply (op : Op) (c : Cur) (p : Val) (essential : Bool) : Res Cur :=
  match op with
  | .subsetOf => applySubsetOf c p essential
  | .oneOf => applyOneOf c p essential
  | .supersetOf => applySupersetOf c p essential
  | .add => applyAdd c p
  | .value => applyValue c p
  | .default => applyDefault c p
  | .essential => applyEssential c p

/-- `PolicyOperator.MayCombineWith` (policyoperators.go:119-125, 169-175, 214-218, 259-265, 290-297, 323-330, 359);
`none` is the nil list of `essential`. -/
def Op.mayCombineWith : Op → Option (List OpName)
  | .add => some [opValue, opDefault, opSubsetOf, opSupersetOf, opEssential]
  | .subsetOf => some [opValue, opAdd, opDefault, opSupersetOf, opEssential]
  | .oneOf => some [opValue, opDefault, opEssential]
  | .supersetOf => some [opValue, opAdd, opDefault, opSubsetOf, opEssential]
  | .value => some [opAdd, opDefault, opOneOf, opSubsetOf, opSupersetOf, opEssential]
  | .default => some [opValue, opAdd, opOneOf, opSubsetOf, opSupersetOf, opEssential]
  | .essential => none

end Oidfed
