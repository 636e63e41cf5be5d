import Verif.Spec.Provenance
import Verif.Props.Independent
/-!
# C167: where the values in resolved metadata come from
-/

namespace Oidfed
open Spec

/-- The entry has the value in an operator that may put values into an attribute. -/
def Carries (e : Entry) (x : Val) : Prop := ∃ op v, op ∈ ["value", "add", "default"] ∧ AMap.get e op = some v ∧ x ∈ v.elems

theorem carries_value {e : Entry} {v x : Val} (h : e.get opValue = some v) (hx : x ∈ v.elems) : Carries e x := ⟨_, v, by simp [opValue], h, hx⟩
theorem carries_add {e : Entry} {v x : Val} (h : e.get opAdd = some v) (hx : x ∈ v.elems) : Carries e x := ⟨_, v, by simp [opAdd], h, hx⟩
theorem carries_default {e : Entry} {v x : Val} (h : e.get opDefault = some v) (hx : x ∈ v.elems) : Carries e x := ⟨_, v, by simp [opDefault], h, hx⟩

/-- Applying an entry only brings in what it carries. -/
theorem applyTo_origin {e : Entry} {v v' : Val} {b : Bool} (h : e.applyTo v b = .ok v') : ∀ x ∈ v'.elems, x ∈ v.elems ∨ Carries e x := by
  unfold Entry.applyTo at h
  cases hc : e.applyCur ⟨v, b⟩ with
  | error f => rw [hc] at h; cases h
  | ok c =>
    rw [hc] at h
    cases h
    obtain ⟨c1, c2, c3, c4, c5, c6, h1, h2, h3, h4, h5, h6, h7⟩ := applyCur_steps hc
    have e1 : ∀ x ∈ c1.v.elems, x ∈ v.elems ∨ Carries e x := by
      intro x hx
      cases hg : e.get opValue with
      | none => rw [hg] at h1; rw [optStep_none h1] at hx; exact .inl hx
      | some p =>
        rw [hg] at h1
        rcases applyValue_ok h1 with ⟨_, rfl⟩ | ⟨_, _, _, he, _⟩
        · cases hx
        · rw [he] at hx; exact .inr (carries_value hg hx)
    have e2 : ∀ x ∈ c2.v.elems, x ∈ v.elems ∨ Carries e x := by
      intro x hx
      cases hg : e.get opAdd with
      | none => rw [hg] at h2; rw [optStep_none h2] at hx; exact e1 x hx
      | some p =>
        rw [hg] at h2
        rcases applyAdd_ok h2 with ⟨_, rfl⟩ | ⟨_, _, rfl⟩ | ⟨_, _, _, sa, n, _, he, _⟩
        · exact .inr (carries_add hg hx)
        · exact e1 x hx
        · rw [he] at hx
          rcases (unionElems_mem _ _ _).mp hx with hx | hx
          · exact e1 x hx
          · exact .inr (carries_add hg hx)
    have e3 : ∀ x ∈ c3.v.elems, x ∈ v.elems ∨ Carries e x := by
      intro x hx
      cases hg : e.get opDefault with
      | none => rw [hg] at h3; rw [optStep_none h3] at hx; exact e2 x hx
      | some p =>
        rw [hg] at h3
        rcases applyDefault_ok h3 with ⟨_, _, _, he, _⟩ | ⟨_, rfl⟩
        · rw [he] at hx; exact .inr (carries_default hg hx)
        · exact e2 x hx
    have e4 : c4 = c3 := by
      cases hg : e.get opOneOf with
      | none => rw [hg] at h4; exact optStep_none h4
      | some p => rw [hg] at h4; exact (applyOneOf_ok h4).1
    subst e4
    have e5 : ∀ x ∈ c5.v.elems, x ∈ v.elems ∨ Carries e x := by
      intro x hx
      cases hg : e.get opSubsetOf with
      | none => rw [hg] at h5; rw [optStep_none h5] at hx; exact e3 x hx
      | some p =>
        rw [hg] at h5
        rcases applySubsetOf_ok h5 with ⟨_, _, _, sa, _, he⟩ | ⟨rfl, _⟩
        · rw [he] at hx
          exact e3 x ((interElems_mem _ _ _).mp hx).1
        · exact e3 x hx
    have e6 : c6 = c5 := by
      cases hg : e.get opSupersetOf with
      | none => rw [hg] at h6; exact optStep_none h6
      | some p => rw [hg] at h6; exact (applySupersetOf_ok h6).1
    subst e6
    have e7 : c = c6 := by
      cases hg : e.get opEssential with
      | none => rw [hg] at h7; exact optStep_none h7
      | some p => rw [hg] at h7; exact (applyEssential_ok h7).1
    subst e7
    exact e5

theorem mergeUnion_origin {a b c : Val} (h : mergeUnion a b = .ok c) : ∀ x ∈ c.elems, x ∈ a.elems ∨ x ∈ b.elems := by
  intro x hx
  unfold mergeUnion at h
  split at h
  · cases h; exact .inr hx
  · split at h
    · cases h; exact .inl hx
    · obtain ⟨sa, n, _, _, he, _⟩ := reflectUnion_ok h
      rw [he] at hx
      exact (unionElems_mem _ _ _).mp hx

/-- A merged value is made of what was merged, for the operators that may put values into an attribute. -/
theorem merge_origin {op : OpName} (hop : op ∈ ["value", "add", "default"]) {o : Op} (ho : operators op = some o) {a b c : Val} (h : o.merge a b = .ok c) :
    ∀ x ∈ c.elems, x ∈ a.elems ∨ x ∈ b.elems := by
  simp only [List.mem_cons, List.not_mem_nil, or_false] at hop
  intro x hx
  rcases hop with rfl | rfl | rfl
  · cases ho
    rw [(mergeValue_ok h).1] at hx
    exact .inl hx
  · cases ho
    exact mergeUnion_origin h x hx
  · cases ho
    rcases mergeDefault_ok h with ⟨_, rfl⟩ | ⟨_, _, rfl⟩ | ⟨_, _, rfl, _⟩
    · exact .inr hx
    · exact .inl hx
    · exact .inl hx

theorem mergeEntries_origin {a b m : Entry} (h : mergeEntries a b = .ok m) {x : Val} (hx : Carries m x) : Carries a x ∨ Carries b x := by
  unfold mergeEntries at h
  obtain ⟨r, hr, h⟩ := bind_ok h
  obtain ⟨op, v, h1, h2, h3⟩ := hx
  cases r with
  | none => cases h; cases h2
  | some out =>
    dsimp only at h
    cases h
    obtain ⟨res, e, hg⟩ := mergeLoop_some hr
    rw [List.nil_append] at e
    subst e
    rw [get_append, get_filter b (fun k => (AMap.get out k).isNone), hg op] at h2
    cases ha : a.get op with
    | none =>
      rw [ha] at h2
      have : AMap.get b op = some v := by simpa using h2
      exact .inr ⟨op, v, h1, this, h3⟩
    | some va =>
      rw [ha] at h2
      cases hb : b.get op with
      | none =>
        rw [hb] at h2
        have : va = v := by simpa [mergedVal] using h2
        exact .inl ⟨op, va, h1, ha, this ▸ h3⟩
      | some vb =>
        obtain ⟨o, z, ho, hz⟩ := mergeLoop_ops hr op va vb (get_mem ha) hb
        rw [hb] at h2
        have : z = v := by simpa [mergedVal, ho, hz] using h2
        subst this
        rcases merge_origin h1 ho hz x h3 with h | h
        · exact .inl ⟨op, va, h1, ha, h⟩
        · exact .inr ⟨op, vb, h1, hb, h⟩

theorem fold_origin {x : Val} : ∀ {es : List Entry} {acc : Option Entry} {e : Entry}, es.foldl (fun acc e => mergedEntry acc (some e)) acc = some e →
    Carries e x → (∃ a, acc = some a ∧ Carries a x) ∨ ∃ e' ∈ es, Carries e' x := by
  intro es
  induction es with
  | nil => intro acc e h hx; exact .inl ⟨e, h, hx⟩
  | cons d es ih =>
    intro acc e h hx
    rw [List.foldl_cons] at h
    rcases ih h hx with ⟨m, hm, hmx⟩ | ⟨e', he', hx'⟩
    · cases acc with
      | none =>
        cases hm
        exact .inr ⟨_, List.mem_cons_self, hmx⟩
      | some a =>
        simp only [mergedEntry] at hm
        split at hm
        · rename_i z hz
          cases hm
          rcases mergeEntries_origin hz hmx with h | h
          · exact .inl ⟨a, rfl, h⟩
          · exact .inr ⟨d, List.mem_cons_self, h⟩
        · cases hm
    · exact .inr ⟨e', List.mem_cons_of_mem _ he', hx'⟩

/-- **C167**: whatever statements and policies make up a chain, every value that an attribute of the resolved metadata holds was stated for this attribute by the leaf, or is in
a `value`, `add` or `default` operator that some statement of the chain has for this attribute of this entity type. No attribute, entity type or additional claim comes from
anybody but the leaf. -/
theorem C167_origin (a : Stmt) (rest : Chain) (r : Metadata) (h : chainMetadata (a :: rest) = .ok (some r)) :
    (∀ (t : EType) (em' : EntityMeta), r.known t = some em' → ∃ m em, a.metadata = some m ∧ m.known t = some em ∧ (em'.extra = em.extra ∨ em'.extra = []) ∧
      ∀ (i : Nat) (f' : Field), em'.fields[i]? = some f' → ∃ f, em.fields[i]? = some f ∧ f.name = f'.name ∧ f.tag = f'.tag ∧ HasOrigin (a :: rest) t f f') ∧
    r.extra.getD [] = (a.metadata.bind Metadata.extra).getD [] := by
  cases rest with
  | nil =>
    have hm : a.metadata = some r := Except.ok.inj h
    refine ⟨fun t em' hk => ⟨r, em', hm, hk, .inl rfl, fun i f' hi => ⟨f', hi, rfl, rfl, f'.val, .inl (.inl rfl), fun x hx => .inl hx⟩⟩, by rw [hm]; rfl⟩
  | cons b rest =>
    obtain ⟨p, md, hr, hp, hmd⟩ := chainMetadata_ok h
    cases hr
    obtain ⟨h1, h2⟩ := applyPolicy_ok hmd
    refine ⟨?_, ?_⟩
    · intro t em' hk
      cases hm : a.metadata with
      | none =>
        rw [hm] at h1
        rw [(h1 t).1 rfl] at hk
        cases hk
      | some m =>
        rw [hm] at h1
        simp only [Option.getD_some] at h1
        cases hem : m.known t with
        | none => rw [(h1 t).1 hem] at hk; cases hk
        | some em =>
          obtain ⟨em'', ha, hk'⟩ := (h1 t).2 em hem
          rw [hk] at hk'
          cases hk'
          have hex : em'.extra = em.extra ∨ em'.extra = [] := by
            unfold EntityMeta.apply at ha
            obtain ⟨fs, _, ha⟩ := bind_ok ha
            cases ha
            dsimp only
            split
            · exact .inl rfl
            · exact .inr rfl
          obtain ⟨hf, _, _⟩ := apply_ok ha
          obtain ⟨hl, hi⟩ := applyFields_ok hf
          have hget : ∀ k, AMap.get (p.known t) k = ((a :: b :: rest).filterMap (entryFor t k)).foldl (fun acc e => mergedEntry acc (some e)) none :=
            fun k => by rw [← entries_eq]; exact combineAll_get k (mergePolicies_ok hp t)
          refine ⟨m, em, rfl, hem, hex, ?_⟩
          intro i f' hf'
          have hlt : i < em.fields.length := by
            rw [← hl]
            exact (List.getElem?_eq_some_iff.mp hf').1
          obtain ⟨g, hg, hga⟩ := hi i _ (List.getElem?_eq_getElem hlt)
          rw [hf'] at hg
          cases hg
          refine ⟨_, List.getElem?_eq_getElem hlt, ?_⟩
          rcases applyField_ok hga with ⟨_, e⟩ | ⟨e, v, he, hv, g1, g2, g3, g4⟩
          · rw [e]
            exact ⟨rfl, rfl, _, .inl (.inl rfl), fun x hx => .inl hx⟩
          · refine ⟨g1.symm, g2.symm, v, ?_, ?_⟩
            · rcases g4 with ⟨g4, g5⟩ | ⟨_, g5, _⟩
              · exact .inr ⟨g4, by rw [g5, g3]⟩
              · refine .inl ?_
                rw [g5, g1]
                exact scopeJoin_held _ v
            · intro x hx
              rcases applyTo_origin hv x hx with hx | hx
              · exact .inl hx
              · rw [hget] at he
                rcases fold_origin he hx with ⟨_, h', _⟩ | ⟨e', he', op, w, k1, k2, k3⟩
                · cases h'
                · obtain ⟨s, hs, hse⟩ := List.mem_filterMap.mp he'
                  exact .inr ⟨s, hs, e', op, w, by rw [g2]; exact hse, k1, k2, k3⟩
    · rw [h2]
      cases a.metadata <;> rfl

/-- **C167**: superiors that only restrict an attribute cannot put anything into it. -/
theorem C167_restrictions (a : Stmt) (rest : Chain) (r : Metadata) (h : chainMetadata (a :: rest) = .ok (some r)) (t : EType) (em' : EntityMeta) (hk : r.known t = some em')
    (f' : Field) (hf : f' ∈ em'.fields) (hr : ∀ s ∈ a :: rest, ∀ e, entryFor t f'.tag s = some e → ∀ op ∈ ["value", "add", "default"], AMap.get e op = none) :
    ∃ m em f v, a.metadata = some m ∧ m.known t = some em ∧ f ∈ em.fields ∧ f.tag = f'.tag ∧ (HeldAs f'.name v f'.val ∨ v = .nil ∧ f'.val = Val.zeroOf f'.ty) ∧
      ∀ x ∈ v.elems, x ∈ f.val.elems := by
  obtain ⟨m, em, h1, h2, _, h3⟩ := (C167_origin a rest r h).1 t em' hk
  obtain ⟨i, hi⟩ := List.mem_iff_getElem?.mp hf
  obtain ⟨f, h4, _, h5, v, h6, h7⟩ := h3 i f' hi
  refine ⟨m, em, f, v, h1, h2, List.mem_of_getElem? h4, h5, h6, ?_⟩
  intro x hx
  rcases h7 x hx with h | ⟨s, hs, e, op, w, g1, g2, g3, _⟩
  · exact h
  · rw [hr s hs e g1 op g2] at g3
    cases g3

/-- An intermediate brings in a name and a scope and takes a scope away. -/
example : ∃ r, chainMetadata [Ex.polLeaf, Ex.polStmt [("scopes", [("add", jl ["c"]), ("subset_of", jl ["a", "b", "c"])]), ("name", [("default", .str "n")])]] = .ok (some r) ∧
    (r.known .rp).map EntityMeta.fields = some [⟨"Scopes", "scopes", .slice .str, sl ["a", "b", "c"]⟩, ⟨"Name", "name", .str, .str "n"⟩] := ⟨_, rfl, rfl⟩

/-- An intermediate that only restricts. -/
example : ∃ r em', chainMetadata [Ex.polLeaf, Ex.polStmt Ex.polIA] = .ok (some r) ∧ r.known .rp = some em' ∧ (⟨"Scopes", "scopes", .slice .str, sl ["a", "b"]⟩ : Field) ∈ em'.fields ∧
    ∀ s ∈ [Ex.polLeaf, Ex.polStmt Ex.polIA], ∀ e, entryFor .rp "scopes" s = some e → ∀ op ∈ ["value", "add", "default"], AMap.get e op = none := by
  refine ⟨_, _, rfl, rfl, List.mem_cons_self, ?_⟩
  intro s hs e he op hop
  simp only [List.mem_cons, List.not_mem_nil, or_false] at hs hop
  rcases hs with rfl | rfl
  · cases he
  · cases he
    rcases hop with rfl | rfl | rfl <;> rfl

end Oidfed
