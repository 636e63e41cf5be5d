import Verif.Model.Statement
/-!
# Filtering and sorting trust chains (`trustchainfilter.go`)

nil and empty chain lists are not distinguished (both are `[]`).
-/

namespace Oidfed

/-- A `TrustChainsFilter` (trustchainfilter.go:67-69): an arbitrary function on chain lists. -/
abbrev ChainsFilter := List Chain → List Chain

/-- `TrustChains.Filter` (trustchainfilter.go:11-19). -/
def filterChains : List ChainsFilter → List Chain → List Chain
  | [], cs => cs
  | f :: fs, cs => if (f cs).isEmpty then f cs else filterChains fs (f cs)

/-- The loop of `trustChainFilterFromChecker.Filter` (trustchainfilter.go:82-87) over what was collected so far. -/
def checkerLoop (check : Chain → Bool) : List Chain → List Chain → List Chain
  | final, [] => final
  | final, c :: cs => checkerLoop check (if check c then final ++ [c] else final) cs

/-- `trustChainFilterFromChecker.Filter` (trustchainfilter.go:78-88), made from any check (trustchainfilter.go:90-107). -/
def checkerFilter (check : Chain → Bool) : ChainsFilter := fun cs => checkerLoop check [] cs

/-- `trustChainsCheckerTrustAnchor.Check` (trustchainfilter.go:114-119). -/
def anchorCheck (anchor : ID) (c : Chain) : Bool :=
  match c[c.length - 1]? with
  | none => false
  | some s => s.iss == anchor

/-- `TrustChainsFilterTrustAnchor` (trustchainfilter.go:123-125). -/
def filterTrustAnchor (anchor : ID) : ChainsFilter := checkerFilter (anchorCheck anchor)

/-- The minimum loop (trustchainfilter.go:137-142). -/
def minLoop : Nat → List Chain → Nat
  | m, [] => m
  | m, c :: cs => minLoop (if pathLen c < m then pathLen c else m) cs

/-- `trustChainsFilterPathLength.Filter` (trustchainfilter.go:132-150). -/
def filterPathLength (maxPathLen : Int) : ChainsFilter := fun cs =>
  match cs with
  | [] => []
  | c :: rest =>
    let m : Int := if maxPathLen < 0 then (minLoop (pathLen c) rest : Int) else maxPathLen
    checkerLoop (fun c => decide ((pathLen c : Int) ≤ m)) [] (c :: rest)

/-- `TrustChainsFilterMinPathLength` (trustchainfilter.go:154). -/
def filterMinPathLength : ChainsFilter := filterPathLength (-1)

/-- `TrustChainsFilterMaxPathLength` (trustchainfilter.go:167-169). -/
def filterMaxPathLength (n : Int) : ChainsFilter := filterPathLength n

/-! ## Sorting

`sort.Slice` calls `less` with *indices* into the slice being sorted, and `swap`s slice elements.  The `scores` slice the
comparison reads is filled once and is never swapped. -/

/-- Swap elements `n` and `n+1`. -/
def swapAdj {α} : Nat → List α → List α
  | 0, a :: b :: l => b :: a :: l
  | n+1, a :: l => a :: swapAdj n l
  | _, l => l

/-- Inner loop of Go's `insertionSort_func` (sort/zsortfunc.go): `for j := i; j > 0 && less(j, j-1); j-- { swap(j, j-1) }`. -/
def insInner {α} (less : Nat → Nat → Bool) : Nat → List α → List α
  | 0, l => l
  | j+1, l => if less (j+1) j then insInner less j (swapAdj j l) else l

/-- Outer loop of `insertionSort_func`: `for i := 1; i < n; i++`, with `k` iterations left, starting at `i`. -/
def insOuter {α} (less : Nat → Nat → Bool) : Nat → Nat → List α → List α
  | 0, _, l => l
  | k+1, i, l => insOuter less k (i+1) (insInner less i l)

/-- `sort.Slice` on at most 12 elements, where `pdqsort_func` is plain insertion sort. -/
def sortSliceSmall {α} (less : Nat → Nat → Bool) (l : List α) : List α := insOuter less (l.length - 1) 1 l

/-- `TrustChains.SortAsc` (trustchainfilter.go:22-34) for at most 12 chains: the comparison reads the stale scores. -/
def sortAsc (scorer : Chain → Int) (cs : List Chain) : List Chain :=
  let scores := cs.map scorer
  sortSliceSmall (fun i j => decide (scores.getD i 0 < scores.getD j 0)) cs

/-- `TrustChains.SortDesc` (trustchainfilter.go:37-49) for at most 12 chains. -/
def sortDesc (scorer : Chain → Int) (cs : List Chain) : List Chain :=
  let scores := cs.map scorer
  sortSliceSmall (fun i j => decide (scores.getD i 0 > scores.getD j 0)) cs

/-- For more than 12 elements the algorithm (pdqsort) is not modelled; whatever it is, it permutes the slice only by
swapping two positions at a time. A run is a list of swaps. -/
def runSwaps {α} : List (Nat × Nat) → List α → List α
  | [], l => l
  | (i, j) :: ps, l =>
    runSwaps ps (match l[i]?, l[j]? with
      | some x, some y => (l.set i y).set j x
      | _, _ => l)

end Oidfed
