import Verif.Model.Basic
/-!
# Go dynamic values (`any`) as they occur in metadata and metadata policies

Policy operator values are Go `any` values decoded from JSON; attribute values are read from and written to statically typed
struct fields through `reflect`.  The model keeps the dynamic types, because the code's behaviour (and its panics) depends
on them.

A finite `float64` is the rational number it stands for (see `Model/Unixtime.lean`).

Simplifications: a JSON object (`map[string]interface{}`) is opaque, identified up to
`reflect.DeepEqual` by a number (`none` = nil map); a `*jwks.JWKS` is opaque (`none` = nil pointer), and so is a map of another type
(`map[string]string`, `map[string][]string`), which shares the constructor `ptr` with it.
-/

namespace Oidfed

/-- Element type of a Go slice: `[]any`, `[]string`, `[]bool`, `[]float64`, `[]int64`, `[]map..`, `[]*jwks.JWKS`. -/
inductive ETy where
  | any | str | bool | num | int | obj | ptr
deriving DecidableEq, Repr

/-- Dynamic Go values. `nil` is the nil interface value (JSON null); `num` is a `float64`, `int` an `int64`;
`slice e isNil xs` is a value of type `[]e`, `isNil` tells a nil slice from an empty one. -/
inductive Val where
  | nil
  | str (s : String)
  | bool (b : Bool)
  | num (n : Rat)
  | int (n : Int)
  | obj (k : Option Nat)
  | ptr (p : Option Nat)
  | slice (e : ETy) (isNil : Bool) (xs : List Val)
deriving Repr

/-- Static Go type of a struct field or dynamic type of a non-nil value. -/
inductive Ty where
  | str | bool | num | int | obj | ptr
  | slice (e : ETy)
deriving DecidableEq, Repr

namespace Val

mutual
/-- Decidable equality of values, which is what `reflect.DeepEqual` computes on them (types must agree, nil and empty
slices differ). -/
def decEq : (a b : Val) → Decidable (a = b)
  | .nil, b => by cases b <;> first | exact isTrue rfl | exact isFalse (by simp)
  | .str s, b => by
      cases b with
      | str t => exact decidable_of_iff (s = t) (by simp)
      | _ => exact isFalse (by simp)
  | .bool s, b => by
      cases b with
      | bool t => exact decidable_of_iff (s = t) (by simp)
      | _ => exact isFalse (by simp)
  | .num s, b => by
      cases b with
      | num t => exact decidable_of_iff (s = t) (by simp)
      | _ => exact isFalse (by simp)
  | .int s, b => by
      cases b with
      | int t => exact decidable_of_iff (s = t) (by simp)
      | _ => exact isFalse (by simp)
  | .obj s, b => by
      cases b with
      | obj t => exact decidable_of_iff (s = t) (by simp)
      | _ => exact isFalse (by simp)
  | .ptr s, b => by
      cases b with
      | ptr t => exact decidable_of_iff (s = t) (by simp)
      | _ => exact isFalse (by simp)
  | .slice e n xs, b =>
      match b with
      | .slice e' n' xs' =>
          match decEqList xs xs' with
          | isTrue h => decidable_of_iff (e = e' ∧ n = n') (by simp [h])
          | isFalse h => isFalse (by simp [h])
      | .nil => isFalse (by simp)
      | .str _ => isFalse (by simp)
      | .bool _ => isFalse (by simp)
      | .num _ => isFalse (by simp)
      | .int _ => isFalse (by simp)
      | .obj _ => isFalse (by simp)
      | .ptr _ => isFalse (by simp)
/-- Companion of `decEq` for the elements of a slice. -/
def decEqList : (a b : List Val) → Decidable (a = b)
  | [], [] => isTrue rfl
  | [], _ :: _ => isFalse (by simp)
  | _ :: _, [] => isFalse (by simp)
  | x :: xs, y :: ys =>
      match decEq x y, decEqList xs ys with
      | isTrue h, isTrue h' => isTrue (by rw [h, h'])
      | isFalse h, _ => isFalse (by simp [h])
      | _, isFalse h' => isFalse (by simp [h'])
end

instance : DecidableEq Val := decEq

/-- Dynamic type of a value (`reflect.TypeOf`); `none` for the nil interface. -/
def ty? : Val → Option Ty
  | .nil => none
  | .str _ => some .str
  | .bool _ => some .bool
  | .num _ => some .num
  | .int _ => some .int
  | .obj _ => some .obj
  | .ptr _ => some .ptr
  | .slice e _ _ => some (.slice e)

/-- `reflect.ValueOf(v).IsZero()` for a valid (non-nil-interface) value; for `nil` the Go call panics, and all callers test
`value == nil` first, so `true` is never observed for it. -/
def isZero : Val → Bool
  | .nil => true
  | .str s => s == ""
  | .bool b => !b
  | .num n => n == 0
  | .int n => n == 0
  | .obj k => k.isNone
  | .ptr p => p.isNone
  | .slice _ isNil _ => isNil

/-- The zero value of a static type (`reflect.Zero`, `f.SetZero()`). -/
def zeroOf : Ty → Val
  | .str => .str ""
  | .bool => .bool false
  | .num => .num 0
  | .int => .int 0
  | .obj => .obj none
  | .ptr => .ptr none
  | .slice e => .slice e true []

/-- Is this the nil interface (`v == nil` in Go for an `any`)? -/
def isNilIface : Val → Bool
  | .nil => true
  | _ => false

/-- `utils.IsSlice` (internal/utils/slices.go:154-159). -/
def isSlice : Val → Bool
  | .slice _ _ _ => true
  | _ => false

end Val

/-- Slice element type of `reflect.SliceOf(reflect.TypeOf(in))` for a non-slice `in` (used by `Slicify`). -/
def Ty.elem : Ty → ETy
  | .str => .str
  | .bool => .bool
  | .num => .num
  | .int => .int
  | .obj => .obj
  | .ptr => .ptr
  | .slice _ => .any  -- not used: Slicify leaves slices alone

end Oidfed
