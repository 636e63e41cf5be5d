import Verif.Model.Val
/-!
# `internal/utils/slices.go`: reflective set operations on dynamic values

Each function follows the Go code including the places where `reflect` panics.
-/

namespace Oidfed

/-- A Go slice value taken apart: element type, nil flag, elements. -/
structure Slc where
  e : ETy
  isNil : Bool
  xs : List Val
deriving DecidableEq, Repr

/-- Repackage a slice as `any` (`reflect.Value.Interface`). -/
def Slc.toVal (s : Slc) : Val := .slice s.e s.isNil s.xs

/-- `utils.Slicify` (internal/utils/slices.go:184-195): `none` for a nil interface, the slice itself for a slice, and a
one-element slice of the value's own type otherwise. -/
def slicify : Val → Option Slc
  | .nil => none
  | .slice e n xs => some ⟨e, n, xs⟩
  | .str s => some ⟨.str, false, [.str s]⟩
  | .bool b => some ⟨.bool, false, [.bool b]⟩
  | .num n => some ⟨.num, false, [.num n]⟩
  | .int n => some ⟨.int, false, [.int n]⟩
  | .obj k => some ⟨.obj, false, [.obj k]⟩
  | .ptr p => some ⟨.ptr, false, [.ptr p]⟩

/-- Does a dynamic value fit into a slice element of type `e` (the type assertions in `ReflectSliceCast`,
internal/utils/slices.go:36-71, or `Set` for an interface element)? -/
def fitsElem : ETy → Val → Bool
  | .any, _ => true
  | .str, .str _ => true
  | .bool, .bool _ => true
  | .num, .num _ => true
  | .int, .int _ => true
  | .obj, .obj _ => true
  | .ptr, .ptr _ => true
  | _, _ => false

/-- `utils.ReflectSliceCast` on slices (internal/utils/slices.go:25-75, the slice branch): `newType = none` is the nil
interface, for which `reflect.MakeSlice(nil, …)` panics; an element of the wrong dynamic type panics in the type assertion.
For map and pointer element types (lines 69-70) the code calls `Convert`, which panics on an interface-typed source element
and succeeds on an element of that very type. -/
def castSlc (s : Slc) (newType : Option Slc) : Res Slc :=
  match newType with
  | none => .error .panic
  | some t =>
    if s.xs.all (fun x => fitsElem t.e x && (!(t.e == .obj || t.e == .ptr) || s.e == t.e))
    then .ok ⟨t.e, false, s.xs⟩ else .error .panic

/-- `utils.ReflectSliceCast` (internal/utils/slices.go:25-75): a non-slice is returned unchanged. -/
def reflectSliceCast (v : Val) (newType : Option Slc) : Res Val :=
  match v with
  | .slice e n xs => (castSlc ⟨e, n, xs⟩ newType).map Slc.toVal
  | v => .ok v

/-- `utils.ReflectSliceContains` (internal/utils/slices.go:78-89): membership by `reflect.DeepEqual`; `false` if the second
argument is not a slice (`none` = nil interface). -/
def sliceContains (v : Val) (s : Option Slc) : Bool :=
  match s with
  | none => false
  | some s => s.xs.contains v

/-- The loop of `ReflectUnion` (internal/utils/slices.go:107-112): append the elements of `bs` not yet contained. -/
def unionLoop (out : List Val) : List Val → List Val
  | [] => out
  | b :: bs => unionLoop (if out.contains b then out else out ++ [b]) bs

/-- `utils.ReflectUnion` (internal/utils/slices.go:92-114) on already slicified arguments. `none` (a nil interface) makes
`reflect.Value.Len` panic. The `out.Index(0).Type()` comparison compares the static element types. The result of
`reflect.Append` may share memory with `a`; values are immutable here (aliasing not modelled). -/
def unionSlc (a b : Option Slc) : Res Slc :=
  match a, b with
  | _, none => .error .panic
  | none, some _ => .error .panic
  | some a, some b =>
    if b.xs.isEmpty then .ok a
    else do
      let b' ← (if a.xs.isEmpty || a.e != b.e then castSlc b (some a) else .ok b)
      if a.xs.isEmpty then .ok b'
      else .ok ⟨a.e, false, unionLoop a.xs b'.xs⟩

/-- `utils.ReflectUnion` (internal/utils/slices.go:92-114). -/
def reflectUnion (a b : Val) : Res Val := (unionSlc (slicify a) (slicify b)).map Slc.toVal

/-- `utils.ReflectIntersect` (internal/utils/slices.go:117-132) on slicified arguments: the elements of `a` contained in `b`,
in the order of `a`; the result is a nil slice if empty (`reflect.New(T).Elem()`). The cast of `b` to `a`'s type happens
only when the slice types differ. -/
def intersectSlc (a b : Option Slc) : Res Slc :=
  match a, b with
  | some a, some b => do
      let b' ← (if a.e != b.e then castSlc b (some a) else .ok b)
      let r := a.xs.filter (fun x => b'.xs.contains x)
      .ok ⟨a.e, r.isEmpty, r⟩
  | _, _ => .error .panic

/-- `utils.ReflectIntersect` (internal/utils/slices.go:117-132). -/
def reflectIntersect (a b : Val) : Res Val := (intersectSlc (slicify a) (slicify b)).map Slc.toVal

/-- `utils.ReflectIsSubsetOf` (internal/utils/slices.go:135-146). A nil interface as first argument panics in
`reflect.Value.Len`; a nil second argument contains nothing. -/
def reflectIsSubsetOf (is_ of_ : Val) : Res Bool :=
  match slicify is_ with
  | none => .error .panic
  | some s => .ok (s.xs.all (fun v => sliceContains v (slicify of_)))

/-- `utils.ReflectIsSupersetOf` (internal/utils/slices.go:149-151). -/
def reflectIsSupersetOf (is_ of_ : Val) : Res Bool := reflectIsSubsetOf of_ is_

/-- `utils.SliceEqual` (internal/utils/slices.go:163-180): both nil, or equal length and every element of the first
contained in the second. -/
def sliceEqual (a b : Val) : Bool :=
  match slicify a, slicify b with
  | none, none => true
  | none, some _ => false
  | some _, none => false
  | some a, some b => a.xs.length == b.xs.length && a.xs.all (fun v => b.xs.contains v)

end Oidfed
