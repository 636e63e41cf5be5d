import Verif.Model.Slices
/-!
# Memory shared by slices (`reflect.Append` in `ReflectUnion`)

The rest of the model treats slices as immutable values. Here they are what they are in Go: a window on an array that other
slices may share.  Only the `add` operator applied to a struct field writes to memory that outlives the call (`ReflectUnion`,
internal/utils/slices.go:92-114, called from policyoperators.go:115); `ReflectIntersect` and `ReflectSliceCast` always build a
fresh array.
-/

namespace Oidfed

/-- The memory: every array with its full capacity (cells beyond a slice's length hold what happens to be there). -/
abbrev Heap := List (List Val)

/-- A slice: array and length. All slices start at the beginning of their array (the code never re-slices). -/
structure GoSlice where
  arr : Nat
  len : Nat
deriving DecidableEq, Repr

/-- The array of a slice. -/
def Heap.arrOf (h : Heap) (s : GoSlice) : List Val := (h[s.arr]?).getD []

/-- `cap(s)`. -/
def Heap.cap (h : Heap) (s : GoSlice) : Nat := (h.arrOf s).length

/-- The elements of a slice. -/
def Heap.read (h : Heap) (s : GoSlice) : List Val := (h.arrOf s).take s.len

/-- A slice of an existing array. -/
def Heap.Valid (h : Heap) (s : GoSlice) : Prop := s.arr < h.length ∧ s.len ≤ h.cap s

/-- `reflect.Append` (Go's `append`) of one element, as used in internal/utils/slices.go:110: in place if there is room, else
into a new array with `grow cap` spare cells. -/
def Heap.append (grow : Nat → Nat) (h : Heap) (s : GoSlice) (v : Val) : Heap × GoSlice :=
  if s.len < h.cap s then (h.set s.arr ((h.arrOf s).set s.len v), ⟨s.arr, s.len + 1⟩)
  else (h ++ [h.read s ++ [v] ++ List.replicate (grow (h.cap s)) .nil], ⟨h.length, s.len + 1⟩)

/-- The loop of `ReflectUnion` (internal/utils/slices.go:107-112). -/
def Heap.unionLoop (grow : Nat → Nat) (h : Heap) (out : GoSlice) : List Val → Heap × GoSlice
  | [] => (h, out)
  | b :: bs =>
    if (h.read out).contains b then Heap.unionLoop grow h out bs
    else
      let r := h.append grow out b
      Heap.unionLoop grow r.1 r.2 bs

/-- `ReflectUnion` (internal/utils/slices.go:92-114) of a struct field and the operand of `add`; `bs` are the operand's
elements after `ReflectSliceCast`, which has put them into an array of their own (slices.go:32, 101). -/
def Heap.union (grow : Nat → Nat) (h : Heap) (a : GoSlice) (bs : List Val) : Heap × GoSlice :=
  if bs.isEmpty then (h, a)
  else if a.len = 0 then (h ++ [bs], ⟨h.length, bs.length⟩)
  else Heap.unionLoop grow h a bs

end Oidfed
