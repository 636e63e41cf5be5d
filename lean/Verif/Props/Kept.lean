import Verif.Spec.Kept
import Verif.Props.Provenance
/-!
# C168: what takes values out of resolved metadata
-/

namespace Oidfed
open Spec

/-- The entry has an operator that takes the value out of an attribute. -/
def Omits (e : Entry) (x : Val) : Prop := ∃ op v, op ∈ ["value", "subset_of"] ∧ AMap.get e op = some v ∧ x ∉ v.elems

/-- Applying an entry to an attribute that was stated keeps what the entry does not take out. -/
theorem applyTo_kept {e : Entry} {v v' : Val} {b : Bool} (h : e.applyTo v b = .ok v') {x : Val} (hx : x ∈ v.elems) (hs : b = true ∨ ¬ Unset v) :
    x ∈ v'.elems ∨ Omits e x := by
  by_cases ho : Omits e x
  · exact .inr ho
  refine .inl ?_
  unfold Entry.applyTo at h
  cases hc : e.applyCur ⟨v, b⟩ with
  | error f => rw [hc] at h; cases h
  | ok c =>
    rw [hc] at h
    cases h
    obtain ⟨c1, c2, c3, c4, c5, c6, h1, h2, h3, h4, h5, h6, h7⟩ := applyCur_steps hc
    have e1 : x ∈ c1.v.elems ∧ (c1.isSet = true ∨ ¬ Unset c1.v) := by
      cases hg : e.get opValue with
      | none => rw [hg] at h1; rw [optStep_none h1]; exact ⟨hx, hs⟩
      | some p =>
        have hp : x ∈ p.elems := Classical.byContradiction fun hn => ho ⟨_, p, by simp [opValue], hg, hn⟩
        rw [hg] at h1
        rcases applyValue_ok h1 with ⟨rfl, _⟩ | ⟨_, hset, _, he, _⟩
        · cases hp
        · exact ⟨by rw [he]; exact hp, .inl hset⟩
    have e2 : x ∈ c2.v.elems ∧ (c2.isSet = true ∨ ¬ Unset c2.v) := by
      cases hg : e.get opAdd with
      | none => rw [hg] at h2; rw [optStep_none h2]; exact e1
      | some p =>
        rw [hg] at h2
        rcases applyAdd_ok h2 with ⟨hn, rfl⟩ | ⟨_, _, rfl⟩ | ⟨_, _, hset, sa, n, _, he, _⟩
        · rw [hn] at e1; cases e1.1
        · exact e1
        · exact ⟨by rw [he]; exact (unionElems_mem _ _ _).mpr (.inl e1.1), .inl hset⟩
    have e3 : x ∈ c3.v.elems ∧ (c3.isSet = true ∨ ¬ Unset c3.v) := by
      cases hg : e.get opDefault with
      | none => rw [hg] at h3; rw [optStep_none h3]; exact e2
      | some p =>
        rw [hg] at h3
        rcases applyDefault_ok h3 with ⟨k1, k2, _⟩ | ⟨_, rfl⟩
        · rcases e2.2 with k | k
          · rw [k1] at k; cases k
          · exact absurd k2 k
        · exact e2
    have e4 : c4 = c3 := by
      cases hg : e.get opOneOf with
      | none => rw [hg] at h4; exact optStep_none h4
      | some p => rw [hg] at h4; exact (applyOneOf_ok h4).1
    subst e4
    have e5 : x ∈ c5.v.elems := by
      cases hg : e.get opSubsetOf with
      | none => rw [hg] at h5; rw [optStep_none h5]; exact e3.1
      | some p =>
        have hp : x ∈ p.elems := Classical.byContradiction fun hn => ho ⟨_, p, by simp [opSubsetOf], hg, hn⟩
        rw [hg] at h5
        rcases applySubsetOf_ok h5 with ⟨_, _, _, sa, _, he⟩ | ⟨rfl, _⟩
        · rw [he]
          exact (interElems_mem _ _ _).mpr ⟨e3.1, hp⟩
        · exact e3.1
    have e6 : c6 = c5 := by
      cases hg : e.get opSupersetOf with
      | none => rw [hg] at h6; exact optStep_none h6
      | some p => rw [hg] at h6; exact (applySupersetOf_ok h6).1
    subst e6
    have e7 : c = c6 := by
      cases hg : e.get opEssential with
      | none => rw [hg] at h7; exact optStep_none h7
      | some p => rw [hg] at h7; exact (applyEssential_ok h7).1
    subst e7
    exact e5

/-- A merged value lacks only what one of the merged values lacks. -/
theorem merge_omits {op : OpName} (hop : op ∈ ["value", "subset_of"]) {o : Op} (ho : operators op = some o) {a b c : Val} (h : o.merge a b = .ok c) {x : Val}
    (hx : x ∉ c.elems) : x ∉ a.elems ∨ x ∉ b.elems := by
  simp only [List.mem_cons, List.not_mem_nil, or_false] at hop
  rcases hop with rfl | rfl
  · cases ho
    rw [(mergeValue_ok h).1] at hx
    exact .inl hx
  · cases ho
    have h : mergeIntersect a b = .ok c := h
    unfold mergeIntersect at h
    split at h
    · cases h; exact .inr hx
    · split at h
      · cases h; exact .inl hx
      · obtain ⟨sa, _, _, he⟩ := reflectIntersect_ok h
        by_cases ha : x ∈ a.elems
        · exact .inr fun hb => hx (by rw [he]; exact (interElems_mem _ _ _).mpr ⟨ha, hb⟩)
        · exact .inl ha

theorem mergeEntries_omits {a b m : Entry} (h : mergeEntries a b = .ok m) {x : Val} (hx : Omits m x) : Omits a x ∨ Omits b x := by
  unfold mergeEntries at h
  obtain ⟨r, hr, h⟩ := bind_ok h
  obtain ⟨op, v, h1, h2, h3⟩ := hx
  cases r with
  | none => cases h; cases h2
  | some out =>
    dsimp only at h
    cases h
    obtain ⟨res, e, hg⟩ := mergeLoop_some hr
    rw [List.nil_append] at e
    subst e
    rw [get_append, get_filter b (fun k => (AMap.get out k).isNone), hg op] at h2
    cases ha : a.get op with
    | none =>
      rw [ha] at h2
      have : AMap.get b op = some v := by simpa using h2
      exact .inr ⟨op, v, h1, this, h3⟩
    | some va =>
      rw [ha] at h2
      cases hb : b.get op with
      | none =>
        rw [hb] at h2
        have : va = v := by simpa [mergedVal] using h2
        exact .inl ⟨op, va, h1, ha, this ▸ h3⟩
      | some vb =>
        obtain ⟨o, z, ho, hz⟩ := mergeLoop_ops hr op va vb (get_mem ha) hb
        rw [hb] at h2
        have : z = v := by simpa [mergedVal, ho, hz] using h2
        subst this
        rcases merge_omits h1 ho hz h3 with h | h
        · exact .inl ⟨op, va, h1, ha, h⟩
        · exact .inr ⟨op, vb, h1, hb, h⟩

theorem fold_omits {x : Val} : ∀ {es : List Entry} {acc : Option Entry} {e : Entry}, es.foldl (fun acc e => mergedEntry acc (some e)) acc = some e →
    Omits e x → (∃ a, acc = some a ∧ Omits a x) ∨ ∃ e' ∈ es, Omits e' x := by
  intro es
  induction es with
  | nil => intro acc e h hx; exact .inl ⟨e, h, hx⟩
  | cons d es ih =>
    intro acc e h hx
    rw [List.foldl_cons] at h
    rcases ih h hx with ⟨m, hm, hmx⟩ | ⟨e', he', hx'⟩
    · cases acc with
      | none =>
        cases hm
        exact .inr ⟨_, List.mem_cons_self, hmx⟩
      | some a =>
        simp only [mergedEntry] at hm
        split at hm
        · rename_i z hz
          cases hm
          rcases mergeEntries_omits hz hmx with h | h
          · exact .inl ⟨a, rfl, h⟩
          · exact .inr ⟨d, List.mem_cons_self, h⟩
        · cases hm
    · exact .inr ⟨e', List.mem_cons_of_mem _ he', hx'⟩

/-- **C168**: if the metadata of a chain resolves, then every value that the leaf stated in an attribute is still there, unless some statement of the chain prescribes the value
of this attribute of this entity type, or a set of allowed values for it, without that value. All entity types and attributes are still there. -/
theorem C168_kept (a : Stmt) (rest : Chain) (r : Metadata) (h : chainMetadata (a :: rest) = .ok (some r)) (m : Metadata) (hm : a.metadata = some m) (t : EType)
    (em : EntityMeta) (hem : m.known t = some em) :
    ∃ em', r.known t = some em' ∧ ∀ (i : Nat) (f : Field), em.fields[i]? = some f → ∃ f', em'.fields[i]? = some f' ∧ f'.name = f.name ∧ f'.tag = f.tag ∧
      (f.name ∈ em.wasSet ∨ ¬ Unset f.val → ∀ x ∈ f.val.elems, (∃ v, HeldAs f'.name v f'.val ∧ x ∈ v.elems) ∨ ∃ s ∈ a :: rest, Excludes s t f.tag x) := by
  cases rest with
  | nil =>
    have hm' : a.metadata = some r := Except.ok.inj h
    rw [hm] at hm'
    cases hm'
    exact ⟨em, hem, fun i f hi => ⟨f, hi, rfl, rfl, fun _ x hx => .inl ⟨_, .inl rfl, hx⟩⟩⟩
  | cons b rest =>
    obtain ⟨em', p, h1, _, h2, h3⟩ := resolved_field h hm hem
    refine ⟨em', h1, fun i f hi => ?_⟩
    obtain ⟨f', hf', ha⟩ := h3 i f hi
    refine ⟨f', hf', ?_⟩
    rcases applyField_ok ha with ⟨_, rfl⟩ | ⟨e, v, he, hv, g1, g2, g3, g4⟩
    · exact ⟨rfl, rfl, fun _ x hx => .inl ⟨_, .inl rfl, hx⟩⟩
    · refine ⟨g1, g2, fun hs x hx => ?_⟩
      rcases applyTo_kept hv hx (hs.imp (fun h => List.contains_iff_mem.mpr h) id) with hx | hx
      · refine .inl ⟨v, ?_, hx⟩
        rcases g4 with ⟨rfl, _⟩ | ⟨_, g5, _⟩
        · cases hx
        · rw [g5, g1]
          exact scopeJoin_held _ v
      · rw [h2] at he
        rcases fold_omits he hx with ⟨_, h', _⟩ | ⟨e', he', op, w, k1, k2, k3⟩
        · cases h'
        · obtain ⟨s, hs, hse⟩ := List.mem_filterMap.mp he'
          exact .inr ⟨s, hs, e', op, w, hse, k1, k2, k3⟩

/-- The leaf's scopes "a" and "b" are kept; "x" is excluded by the intermediate. -/
example : ∃ m em r f, Ex.polLeaf.metadata = some m ∧ m.known .rp = some em ∧ em.fields[0]? = some f ∧ f.name ∈ em.wasSet ∧ f.val = sl ["x", "a", "b"] ∧
    chainMetadata [Ex.polLeaf, Ex.polStmt Ex.polIA] = .ok (some r) ∧
    (r.known .rp).bind (fun em => em.fields[0]?.map Field.val) = some (sl ["a", "b"]) ∧ Excludes (Ex.polStmt Ex.polIA) .rp "scopes" (.str "x") :=
  ⟨_, _, _, _, rfl, rfl, rfl, by decide, rfl, rfl, rfl, _, "subset_of", jl ["a", "b", "c"], rfl, by decide, rfl, by decide⟩

end Oidfed
