import Verif.Spec.Independent
import Verif.Lemmas.Merge
import Verif.Lemmas.MetadataApply
import Verif.Props.PolicyMerge
/-!
# C157: attributes and entity types do not influence each other
-/

namespace Oidfed
open Spec

theorem combinePolicy_get {par sub m : Policy} (h : combinePolicy par sub = .ok m) (k : String) :
    AMap.get m k = mergedEntry (AMap.get par k) (AMap.get sub k) := by
  by_cases hs : sub = []
  · subst hs
    cases h
    cases AMap.get par k <;> rfl
  · by_cases hp : par = []
    · subst hp
      unfold combinePolicy at h
      rw [if_neg (by simpa using hs), if_pos (show ([] : Policy).isEmpty = true from rfl)] at h
      cases h
      rfl
    · exact (combinePolicy_nonempty hp hs h).1 k

theorem combineRest_get (k : String) : ∀ {ps : List Policy} {out m : Policy}, combineRest out ps = .ok m →
    AMap.get m k = (ps.filterMap (fun p => AMap.get p k)).foldl (fun acc e => mergedEntry acc (some e)) (AMap.get out k) := by
  intro ps
  induction ps with
  | nil => intro out m h; cases h; rfl
  | cons p ps ih =>
    intro out m h
    rw [combineRest] at h
    obtain ⟨o, ho, h⟩ := bind_ok h
    rw [ih h, combinePolicy_get ho k, List.filterMap_cons]
    cases hp : AMap.get p k with
    | none =>
      congr 1
      cases AMap.get out k <;> rfl
    | some e => rfl

theorem combineAll_get (k : String) {ps : List Policy} {m : Policy} (h : combineAll ps = .ok m) :
    AMap.get m k = (ps.filterMap (fun p => AMap.get p k)).foldl (fun acc e => mergedEntry acc (some e)) none := by
  cases ps with
  | nil => cases h; rfl
  | cons p ps =>
    rw [combineAll] at h
    obtain ⟨_, _, h⟩ := bind_ok h
    rw [combineRest_get k h, List.filterMap_cons]
    cases hp : AMap.get p k with
    | none => rfl
    | some e => rfl

theorem entries_eq (t : EType) (claim : String) (c : List Stmt) :
    (((c.map Stmt.policy).filterMap id).map (fun p => p.known t)).filterMap (fun p => AMap.get p claim) = c.filterMap (entryFor t claim) := by
  induction c with
  | nil => rfl
  | cons s c ih =>
    rw [List.map_cons, List.filterMap_cons]
    cases hp : s.policy with
    | none =>
      rw [List.filterMap_cons, show entryFor t claim s = none by simp [entryFor, hp]]
      exact ih
    | some P =>
      simp only [id, List.map_cons, List.filterMap_cons]
      rw [show entryFor t claim s = AMap.get (P.known t) claim by simp [entryFor, hp]]
      cases AMap.get (P.known t) claim with
      | none => exact ih
      | some e => simp only; rw [ih]

/-- the resolved fields of a chain -/
theorem resolved_field {a b : Stmt} {rest : Chain} {r : Metadata} (h : chainMetadata (a :: b :: rest) = .ok (some r)) {t : EType} {m : Metadata} {em : EntityMeta}
    (hm : a.metadata = some m) (hem : m.known t = some em) :
    ∃ em' p, r.known t = some em' ∧ em'.fields.length = em.fields.length ∧
      (∀ k, AMap.get p k = ((a :: b :: rest).filterMap (entryFor t k)).foldl (fun acc e => mergedEntry acc (some e)) none) ∧
      ∀ (i : Nat) f, em.fields[i]? = some f → ∃ f', em'.fields[i]? = some f' ∧ applyField p em.wasSet f = .ok f' := by
  obtain ⟨p, md, hr, hp, hmd⟩ := chainMetadata_ok h
  cases hr
  rw [hm] at hmd
  obtain ⟨h1, _⟩ := applyPolicy_ok hmd
  obtain ⟨em', hem', hk⟩ := (h1 t).2 em hem
  obtain ⟨hf, _, _⟩ := apply_ok hem'
  obtain ⟨hl, hi⟩ := applyFields_ok hf
  exact ⟨em', p.known t, hk, hl, fun k => by rw [← entries_eq]; exact combineAll_get k (mergePolicies_ok hp t), hi⟩

theorem applyField_local {p q : Policy} {ws ws' : List String} {f : Field} (h : AMap.get p f.tag = AMap.get q f.tag) (hs : ws.contains f.name = ws'.contains f.name) :
    applyField p ws f = applyField q ws' f := by
  unfold applyField
  rw [h, hs]

/-- C157: two chains whose leaves agree on an attribute of an entity type, and whose statements say the same about this attribute in their metadata policies, give
the attribute the same value, whatever else the leaves state, and whatever the policies say about other attributes and entity types. -/
theorem C157_attribute (a b a' b' : Stmt) (rest rest' : Chain) (r r' : Metadata) (h : chainMetadata (a :: b :: rest) = .ok (some r))
    (h' : chainMetadata (a' :: b' :: rest') = .ok (some r')) (t : EType) (m m' : Metadata) (em em' : EntityMeta)
    (hm : a.metadata = some m) (hem : m.known t = some em) (hm' : a'.metadata = some m') (hem' : m'.known t = some em') (f : Field) (i j : Nat)
    (hi : em.fields[i]? = some f) (hj : em'.fields[j]? = some f) (hset : em.wasSet.contains f.name = em'.wasSet.contains f.name)
    (hp : (a :: b :: rest).filterMap (entryFor t f.tag) = (a' :: b' :: rest').filterMap (entryFor t f.tag)) :
    ∃ g x x', r.known t = some x ∧ r'.known t = some x' ∧ x.fields[i]? = some g ∧ x'.fields[j]? = some g := by
  obtain ⟨x, p, h1, _, h2, h3⟩ := resolved_field h hm hem
  obtain ⟨x', p', h1', _, h2', h3'⟩ := resolved_field h' hm' hem'
  obtain ⟨g, hg, hga⟩ := h3 i f hi
  obtain ⟨g', hg', hga'⟩ := h3' j f hj
  rw [applyField_local (q := p') (ws' := em'.wasSet) (by rw [h2, h2', hp]) hset, hga'] at hga
  cases hga
  exact ⟨_, x, x', h1, h1', hg, hg'⟩

/-- a policy for names and one for providers do not change the scopes; both chains resolve -/
example : ∃ (a a' b' : Stmt) (r r' : Metadata), a = Ex.polLeaf ∧ a' = Ex.polLeaf ∧
    b' = { Ex.polStmt Ex.polIA with policy := some ⟨fun t => if t = .rp then [("name", [("value", .str "z")]), ("scopes", [("subset_of", jl ["a", "b", "c"])])] else [("issuer", [("value", .str "i")])], []⟩ } ∧
    chainMetadata [a, Ex.polStmt Ex.polIA] = .ok (some r) ∧ chainMetadata [a', b'] = .ok (some r') ∧
    [a, Ex.polStmt Ex.polIA].filterMap (entryFor .rp "scopes") = [a', b'].filterMap (entryFor .rp "scopes") ∧
    ((r.known .rp).bind (fun e => e.fields[0]?)) = some ⟨"Scopes", "scopes", .slice .str, sl ["a", "b"]⟩ ∧
    ((r'.known .rp).bind (fun e => e.fields[0]?)) = some ⟨"Scopes", "scopes", .slice .str, sl ["a", "b"]⟩ ∧
    ((r.known .rp).bind (fun e => e.fields[1]?)) = some ⟨"Name", "name", .str, .str "n"⟩ ∧
    ((r'.known .rp).bind (fun e => e.fields[1]?)) = some ⟨"Name", "name", .str, .str "z"⟩ :=
  ⟨_, _, _, _, _, rfl, rfl, rfl, rfl, rfl, rfl, rfl, rfl, rfl, rfl⟩

end Oidfed
