import Verif.Model.Collector
/-!
# Queries for display names
-/

namespace Oidfed

/-- How `fuzzysearch` and the standard library treat the characters of texts (third-party). -/
structure TextRules where
  /-- the transformation of `fuzzy.FindNormalizedFold`: decompose, remove marks, compose, fold case -/
  norm : List Char → List Char
  /-- `unicode.ToLower` -/
  lower : Char → Char
  /-- a representative of the characters `strings.EqualFold` takes for the same -/
  fold : Char → Char

/-- The inner loop of `match` (fuzzysearch v1.1.8, fuzzy/fuzzy.go, called from discovery.go:483): what comes after the first occurrence
of `r` in the target, if there is one. -/
def afterRune (r : Char) : List Char → Option (List Char)
  | [] => none
  | c :: t => if c = r then some t else afterRune r t

/-- The outer loop of `match`. -/
def scanRunes : List Char → List Char → Bool
  | [], _ => true
  | r :: s, t => match afterRune r t with
    | none => false
    | some t' => scanRunes s t'

/-- The length of a text in bytes. -/
def byteLen (l : List Char) : Nat := (l.map Char.utf8Size).sum

/-- `match` (fuzzysearch v1.1.8, called from discovery.go:483) of two transformed texts. -/
def fuzzyMatch (s t : List Char) : Bool :=
  if byteLen t < byteLen s then false
  else if byteLen t = byteLen s && s == t then true
  else scanRunes s t

/-- `fuzzy.FindNormalizedFold` (fuzzysearch v1.1.8): the targets that match. -/
def findNormalizedFold (T : TextRules) (input : String) (names : List String) : List String :=
  names.filter (fun n => fuzzyMatch (T.norm input.toList) (T.norm n.toList))

/-- `strings.Contains`: whether the text occurs at some position. -/
def containsText : List Char → List Char → Bool
  | s, [] => s.isEmpty
  | s, c :: t => s.isPrefixOf (c :: t) || containsText s t

/-- `matchWithMode` (discovery.go:480-507); modes are strings (discovery.go:460-468). -/
def matchWithMode (T : TextRules) (input : String) (names : List String) (mode : String) : Bool :=
  if mode = "fuzzy" then (findNormalizedFold T input names).length > 0
  else if mode = "exact-case-sensitive" then names.contains input
  else if mode = "exact-case-insensitive" then names.any (fun s => s.toList.map T.fold == input.toList.map T.fold)
  else if mode = "substring-case-sensitive" then names.any (fun s => containsText input.toList s.toList)
  else if mode = "substring-case-insensitive" then names.any (fun s => containsText (input.toList.map T.lower) (s.toList.map T.lower))
  else false

/-- `matchDisplayName` (discovery.go:470-478): the names are collected in the order in which the map is iterated, here the order of the list. -/
def matchDisplayName (T : TextRules) (input : String) (names : AMap String) (mode : String) : Bool :=
  matchWithMode T input (names.map (fun kv => kv.2)) mode

/-- The environment of a collection with `matchDisplayName(…, MatchModeFuzzy)` for the queries (discovery.go:316). -/
def CollectEnv.withNames (E : CollectEnv) (T : TextRules) : CollectEnv := { E with fuzzy := fun i ns => matchWithMode T i ns "fuzzy" }

end Oidfed
