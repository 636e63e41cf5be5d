import Verif.Spec.MemberOrder
import Verif.Props.Repeated
/-!
# C180: the order of the claims of a message does not matter
-/

namespace Oidfed
open Spec

theorem decodeKnown_perm {tags : List String} {dec : FieldDec} {l l' : JObj} (h : l.Perm l') : DistinctMembers l → ∀ f, decodeKnown tags dec l f = decodeKnown tags dec l' f := by
  induction h with
  | nil => intro _ f; rfl
  | cons a _ ih =>
    intro hd f
    have hd' := (List.nodup_cons.mp hd).2
    obtain ⟨k, v⟩ := a
    simp only [decodeKnown]
    cases fieldFor tags k with
    | none => exact ih hd' f
    | some t =>
      dsimp only
      cases dec t (f t) v with
      | none => rfl
      | some x => exact ih hd' _
  | swap a b l =>
    intro hd f
    obtain ⟨k, v⟩ := a
    obtain ⟨k', v'⟩ := b
    have hne : foldName k' ≠ foldName k := by
      have := (List.nodup_cons.mp hd).1
      simp only [List.map_cons, List.mem_cons, not_or] at this
      exact this.1
    simp only [decodeKnown]
    cases hk : fieldFor tags k with
    | none => rfl
    | some t =>
      cases hk' : fieldFor tags k' with
      | none => rfl
      | some u =>
        have htu : t ≠ u := by
          rintro rfl
          exact hne ((fieldFor_some hk').2.symm.trans (fieldFor_some hk).2)
        dsimp only
        simp only [if_neg htu, if_neg (Ne.symm htu)]
        cases dec u (f u) v' with
        | none => cases dec t (f t) v <;> rfl
        | some y =>
          cases dec t (f t) v with
          | none => rfl
          | some x =>
            dsimp only
            congr 1
            funext w
            by_cases h1 : w = t
            · subst h1
              simp [htu]
            · simp [h1]
  | trans h1 _ ih1 ih2 =>
    intro hd f
    have hd' : DistinctMembers _ := ((h1.map (fun kv : String × JV => foldName kv.1)).nodup_iff).mp hd
    rw [ih1 hd f, ih2 hd' f]

theorem objMap_of_nodup : ∀ {l : JObj}, (l.map Prod.fst).Nodup → objMap l = l
  | [], _ => rfl
  | (k, v) :: l, h => by
    have hn := List.nodup_cons.mp h
    have : l.any (fun kv => kv.1 == k) = false := by
      rw [List.any_eq_false]
      intro kv hkv he
      have he : kv.1 = k := by simpa using he
      exact hn.1 (List.mem_map.mpr ⟨kv, hkv, he⟩)
    rw [objMap, this, if_neg (by simp), objMap_of_nodup hn.2]

theorem objMap_distinct {l : JObj} (h : DistinctMembers l) : objMap l = l := by
  apply objMap_of_nodup
  have : l.map (fun kv => foldName kv.1) = (l.map Prod.fst).map foldName := by rw [List.map_map]; rfl
  unfold DistinctMembers at h
  rw [this] at h
  exact h.of_map

theorem decMembers_perm {α : Type} {f : JV → Option α} {l l' : JObj} (h : l.Perm l') : ∀ m, decMembers f l = some m → ∃ m', decMembers f l' = some m' ∧ m.Perm m' := by
  induction h with
  | nil => intro m hm; exact ⟨m, hm, .refl _⟩
  | cons a _ ih =>
    intro m hm
    obtain ⟨k, v⟩ := a
    simp only [decMembers] at hm ⊢
    cases hv : f v with
    | none => rw [hv] at hm; cases hm
    | some x =>
      rw [hv] at hm
      split at hm
      · next a r ha hr =>
        cases ha
        cases hm
        obtain ⟨m', h1, h2⟩ := ih r hr
        exact ⟨(k, x) :: m', by rw [h1], h2.cons _⟩
      · cases hm
  | swap a b l =>
    intro m hm
    obtain ⟨k, v⟩ := a
    obtain ⟨k', v'⟩ := b
    simp only [decMembers] at hm ⊢
    cases hv : f v <;> cases hv' : f v' <;> cases hl : decMembers f l <;> rw [hv, hv', hl] at hm
    all_goals first | cases hm; done | skip
    cases hm
    exact ⟨_, rfl, .swap _ _ _⟩
  | trans _ _ ih1 ih2 =>
    intro m hm
    obtain ⟨m', h1, h2⟩ := ih1 m hm
    obtain ⟨m'', h3, h4⟩ := ih2 m' h1
    exact ⟨m'', h3, h2.trans h4⟩

theorem decodeTypes_perm {opq : Opaque} {l l' : JObj} (h : l.Perm l') : DistinctMembers l → ∀ f, decodeTypes opq l f = decodeTypes opq l' f := by
  induction h with
  | nil => intro _ f; rfl
  | cons a _ ih =>
    intro hd f
    have hd' := (List.nodup_cons.mp hd).2
    obtain ⟨k, v⟩ := a
    simp only [decodeTypes]
    cases typeFor k with
    | none => exact ih hd' f
    | some t =>
      dsimp only
      cases readType opq t (f t) v with
      | none => rfl
      | some x => exact ih hd' _
  | swap a b l =>
    intro hd f
    obtain ⟨k, v⟩ := a
    obtain ⟨k', v'⟩ := b
    have hne : foldName k' ≠ foldName k := by
      have := (List.nodup_cons.mp hd).1
      simp only [List.map_cons, List.mem_cons, not_or] at this
      exact this.1
    simp only [decodeTypes]
    cases hk : typeFor k with
    | none => rfl
    | some t =>
      cases hk' : typeFor k' with
      | none => rfl
      | some u =>
        have htu : t ≠ u := by
          rintro rfl
          exact hne (((typeFor_iff _ _).mp hk').trans ((typeFor_iff _ _).mp hk).symm)
        dsimp only
        simp only [if_neg htu, if_neg (Ne.symm htu)]
        cases readType opq u (f u) v' with
        | none => cases readType opq t (f t) v <;> rfl
        | some y =>
          cases readType opq t (f t) v with
          | none => rfl
          | some x =>
            dsimp only
            congr 1
            funext w
            by_cases h1 : w = t
            · subst h1
              simp [htu]
            · simp [h1]
  | trans h1 _ ih1 ih2 =>
    intro hd f
    have hd' : DistinctMembers _ := ((h1.map (fun kv : String × JV => foldName kv.1)).nodup_iff).mp hd
    rw [ih1 hd f, ih2 hd' f]

/-- **C180** for any message: with its claims in another order it is read, with the same known claims and the same other claims (in another order), or refused, as before. -/
theorem C180_object (tags : List String) (dec : FieldDec) (l l' : JObj) (h : l.Perm l') (hd : DistinctMembers l) :
    (∀ o, unmarshalObj tags dec l = some o → ∃ o', unmarshalObj tags dec l' = some o' ∧ o'.known = o.known ∧ o.extra.Perm o'.extra) ∧
    (unmarshalObj tags dec l = none → unmarshalObj tags dec l' = none) := by
  have hd' : DistinctMembers l' := ((h.map (fun kv : String × JV => foldName kv.1)).nodup_iff).mp hd
  unfold unmarshalObj
  rw [decodeKnown_perm h hd, objMap_distinct hd, objMap_distinct hd']
  cases decodeKnown tags dec l' (fun _ => none) with
  | none => exact ⟨fun o h => (by cases h), fun _ => rfl⟩
  | some f =>
    refine ⟨fun o ho => ?_, fun h => (by cases h)⟩
    cases ho
    exact ⟨_, rfl, rfl, h.filter _⟩

/-- **C180** for entity statements: what is read is the same, except for the order of the additional claims, and the statement that takes part in resolution is the same. -/
theorem C180_statement (K : KeyCodec) (opq : Opaque) (l l' : JObj) (h : l.Perm l') (hd : DistinctMembers l) (q : ESPayload) (hq : ESPayload.read K opq l = some q) :
    ∃ x, q.extra.Perm x ∧ ESPayload.read K opq l' = some { q with extra := x } ∧ ∀ N raw, ESPayload.toStmt N { q with extra := x } raw = q.toStmt N raw := by
  unfold ESPayload.read at hq ⊢
  cases ho : unmarshalObj entityStatementTags (stmtDec K opq) l with
  | none => rw [ho] at hq; cases hq
  | some o =>
    rw [ho] at hq
    cases hq
    obtain ⟨o', h1, h2, h3⟩ := (C180_object _ _ l l' h hd).1 o ho
    refine ⟨o'.extra, h3, ?_, fun _ _ => rfl⟩
    rw [h1]
    obtain ⟨k', e'⟩ := o'
    cases h2
    rfl

/-- **C180** for trust marks and delegations. -/
theorem C180_mark (R : JWTReader) (jwt jwt' : String) (c : JWTContent) (l' : JObj) (h : c.payload.Perm l') (hd : DistinctMembers c.payload) (hc : R jwt = some c)
    (hc' : R jwt' = some { c with payload := l' }) : parseMark R jwt' = parseMark R jwt ∧ parseDelegation R jwt' = parseDelegation R jwt := by
  have same : ∀ (tags : List String) (dec : FieldDec) {α : Type} (g : JStruct → α), (∀ o o' : JStruct, o'.known = o.known → g o' = g o) →
      (unmarshalObj tags dec l').map g = (unmarshalObj tags dec c.payload).map g := by
    intro tags dec α g hg
    have hh := C180_object tags dec c.payload l' h hd
    cases ho : unmarshalObj tags dec c.payload with
    | none => rw [hh.2 ho]
    | some o =>
      obtain ⟨o', h1, h2, _⟩ := hh.1 o ho
      rw [h1, Option.map_some, Option.map_some, hg o o' h2]
  unfold parseMark parseDelegation
  rw [hc, hc']
  dsimp only
  rw [same, same]
  · exact ⟨rfl, rfl⟩
  · intro o o' ho
    unfold readDelegation
    rw [ho]
  · intro o o' ho
    unfold readMark
    rw [ho]

/-- **C180** inside a message: the order of the members of constraints, of naming constraints, and of the policies for entity types does not matter. -/
theorem C180_constraints_policies (l l' : JObj) (h : l.Perm l') (hd : DistinctMembers l) :
    decConstraints (.obj l') = decConstraints (.obj l) ∧ decNaming (.obj l') = decNaming (.obj l) ∧ decPolicies (.obj l') = decPolicies (.obj l) := by
  refine ⟨?_, ?_, ?_⟩
  · unfold decConstraints
    dsimp only
    rw [decodeKnown_perm h hd]
  · unfold decNaming
    dsimp only
    rw [decodeKnown_perm h hd]
  · unfold decPolicies unmarshalPolicies
    dsimp only
    have hh := C180_object policyTags (fun _ cur v => keepInto (· ++ ·) (fun v => (decPolicy v).isSome) cur v) l l' h hd
    cases ho : unmarshalObj policyTags (fun _ cur v => keepInto (· ++ ·) (fun v => (decPolicy v).isSome) cur v) l with
    | none => rw [hh.2 ho]
    | some o =>
      obtain ⟨o', h1, h2, h3⟩ := hh.1 o ho
      rw [h1]
      dsimp only
      have : o'.extra.isEmpty = o.extra.isEmpty := by
        rw [Bool.eq_iff_iff, List.isEmpty_iff, List.isEmpty_iff]
        exact ⟨fun e => (e ▸ h3).eq_nil, fun e => (e ▸ h3).symm.eq_nil⟩
      rw [this]
      cases o.extra.isEmpty
      · rfl
      · simp [h2]

/-- **C180** inside a message: the order of the members of a map does not matter: the maps of attributes and of operators in a policy, of trust mark issuers and of trust mark
owners are the same maps. Here names in different upper and lower case are different names. -/
theorem C180_maps {α : Type} (f : JV → Option α) (l l' : JObj) (h : l.Perm l') (hd : (l.map Prod.fst).Nodup) :
    (∀ m, decMap f (.obj l) = some m → ∃ m', decMap f (.obj l') = some m' ∧ m.Perm m') ∧
    (decMap f (.obj l) = none → decMap f (.obj l') = none) := by
  have hd' : (l'.map Prod.fst).Nodup := ((h.map Prod.fst).nodup_iff).mp hd
  have hall : l'.all (fun kv => (f kv.2).isSome) = l.all (fun kv => (f kv.2).isSome) := by
    rw [Bool.eq_iff_iff, List.all_eq_true, List.all_eq_true]
    exact ⟨fun hx x hm => hx x (h.mem_iff.mp hm), fun hx x hm => hx x (h.mem_iff.mpr hm)⟩
  unfold decMap
  dsimp only
  rw [objMap_of_nodup hd, objMap_of_nodup hd', hall]
  split
  · refine ⟨decMembers_perm h, fun hn => ?_⟩
    cases hl : decMembers f l' with
    | none => rfl
    | some m =>
      obtain ⟨m', h1, _⟩ := decMembers_perm h.symm m hl
      rw [hn] at h1
      cases h1
  · exact ⟨fun m hm => (by cases hm), fun _ => rfl⟩

/-- **C180** inside a message: the order of the entity types in metadata does not matter. -/
theorem C180_metadata (opq : Opaque) (l l' : JObj) (h : l.Perm l') (hd : DistinctMembers l) :
    (∀ m, readMetadata opq l = some m → ∃ x, m.extra.Perm x ∧ readMetadata opq l' = some { m with extra := x }) ∧
    (readMetadata opq l = none → readMetadata opq l' = none) := by
  have hd' : DistinctMembers l' := ((h.map (fun kv : String × JV => foldName kv.1)).nodup_iff).mp hd
  unfold readMetadata
  rw [decodeTypes_perm h hd, objMap_distinct hd, objMap_distinct hd']
  cases decodeTypes opq l' (fun _ => none) with
  | none => exact ⟨fun o h => (by cases h), fun _ => rfl⟩
  | some f =>
    refine ⟨fun m hm => ?_, fun h => (by cases h)⟩
    cases hm
    exact ⟨_, h.filter _, rfl⟩

/-- **C180** inside a message: the order of the attributes in the metadata for an entity type does not matter: the attributes have the same values, the same ones count
as stated, and the additional ones are the same. -/
theorem C180_attributes (opq : Opaque) (t : EType) (l l' : JObj) (h : l.Perm l') (hd : DistinctMembers l) :
    (∀ m, readType opq t none (.obj l) = some (some m) →
      ∃ m', readType opq t none (.obj l') = some (some m') ∧ m'.val = m.val ∧ m.wasSet.Perm m'.wasSet ∧ m.extra.Perm m'.extra) ∧
    (readType opq t none (.obj l) = none → readType opq t none (.obj l') = none) := by
  have hh := C180_object ((metaPtrFields t).map MField.tag) (ptrDec opq (metaPtrFields t)) l l' h hd
  unfold readType readMeta
  dsimp only
  cases ho : unmarshalObj ((metaPtrFields t).map MField.tag) (ptrDec opq (metaPtrFields t)) l with
  | none =>
    rw [hh.2 ho]
    exact ⟨fun m h => (by cases h), fun _ => rfl⟩
  | some o =>
    obtain ⟨⟨k', e'⟩, h1, h2, h3⟩ := hh.1 o ho
    rw [h1]
    refine ⟨fun m hm => ?_, fun h => (by cases h)⟩
    cases hm
    cases h2
    refine ⟨_, rfl, rfl, ?_, h3⟩
    have : e'.isEmpty = o.extra.isEmpty := by
      rw [Bool.eq_iff_iff, List.isEmpty_iff, List.isEmpty_iff]
      exact ⟨fun e => (e ▸ h3).eq_nil, fun e => (e ▸ h3).symm.eq_nil⟩
    unfold fromPtrs
    dsimp only
    rw [this]
    exact (List.Perm.refl _).append (h3.map _)

namespace ExOrder

/-- The claims of a trust mark. -/
def mark : JObj := [("iss", .str "https://ta"), ("sub", .str "https://leaf"), ("trust_mark_type", .str "https://mark"), ("iat", .num 100), ("ref", .str "https://ref")]

/-- Two messages with the same claims in opposite orders. -/
def R : JWTReader := fun s =>
  if s = "m" then some ⟨"trust-mark+jwt", mark, 7⟩ else if s = "r" then some ⟨"trust-mark+jwt", mark.reverse, 7⟩ else none

end ExOrder

/-- A mark and its reverse meet the hypotheses of `C180_mark`, and the mark is read. -/
example : DistinctMembers ExOrder.mark ∧ parseMark ExOrder.R "r" = parseMark ExOrder.R "m" ∧ (parseMark ExOrder.R "m").isSome = true :=
  have hd : DistinctMembers ExOrder.mark := by unfold DistinctMembers; decide
  ⟨hd, (C180_mark ExOrder.R "m" "r" ⟨"trust-mark+jwt", ExOrder.mark, 7⟩ _ (List.reverse_perm _).symm hd rfl rfl).1, rfl⟩

open ExRep in
set_option maxRecDepth 10000 in
/-- An entity configuration and its reverse meet the hypotheses of `C180_statement`. -/
example : ∃ q x, ESPayload.read ExS.codec ExS.opq (leaf (once "private_key_jwt")) = some q ∧
    ESPayload.read ExS.codec ExS.opq (leaf (once "private_key_jwt")).reverse = some { q with extra := x } := by
  have hd : DistinctMembers (leaf (once "private_key_jwt")) := by unfold DistinctMembers; decide
  obtain ⟨x, _, h, _⟩ := C180_statement ExS.codec ExS.opq _ _ (List.reverse_perm _).symm hd _ rfl
  exact ⟨_, x, rfl, h⟩

/-- Of a claim stated twice, in two spellings, the later counts: there the order matters. -/
example : (parseMark (fun _ => some ⟨"trust-mark+jwt", ExOrder.mark ++ [("SUB", .str "https://other")], 7⟩) "m").map (·.sub) = some "https://other" ∧
    (parseMark (fun _ => some ⟨"trust-mark+jwt", ("SUB", .str "https://other") :: ExOrder.mark, 7⟩) "m").map (·.sub) = some "https://leaf" := ⟨rfl, rfl⟩

/-- A policy for an attribute with two operators is read. -/
example : let p : JObj := [("contacts", .obj [("add", .arr [.str "a"]), ("essential", .bool true)]), ("Contacts", .obj [])]
    (p.map Prod.fst).Nodup ∧ (decPolicy (.obj p)).isSome = true := ⟨by decide, by with_unfolding_all rfl⟩

set_option maxRecDepth 10000 in
/-- Metadata for two entity types, and constraints, with distinct members, that are read. -/
example : let md : JObj := [("federation_entity", .obj [("organization_name", .str "Org"), ("contacts", .arr [.str "a"])]), ("openid_relying_party", .obj []), ("other", .obj [])]
    let att : JObj := [("organization_name", .str "Org"), ("contacts", .arr [.str "a"]), ("additional", .num 1)]
    let c : JObj := [("max_path_length", .num 2), ("allowed_entity_types", .arr [.str "openid_relying_party"])]
    DistinctMembers md ∧ DistinctMembers att ∧ DistinctMembers c ∧ (readMetadata ExS.opq md).isSome = true ∧
    (∃ m, readType ExS.opq .fed none (.obj att) = some (some m)) ∧ (decConstraints (.obj c)).isSome = true := by
  refine ⟨by unfold DistinctMembers; decide, by unfold DistinctMembers; decide, by unfold DistinctMembers; decide, by with_unfolding_all rfl,
    ⟨_, by with_unfolding_all rfl⟩, by with_unfolding_all rfl⟩

end Oidfed
