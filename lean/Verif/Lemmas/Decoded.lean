import Verif.Lemmas.MergeAlgebra
import Verif.Props.Publish
/-!
# What a statement read from JSON has: maps without repeated keys, and, if every entity type was stated at most once, zero values where nothing was stated
-/

namespace Oidfed
open Spec

/-- Holds of everything that was read from JSON in which every entity type was stated at most once. -/
structure Decoded (s : Stmt) : Prop where
  policies : ∀ P, s.policy = some P → P.extra = [] ∧ ∀ t, AMap.WF (P.known t) ∧ ∀ k e, AMap.get (P.known t) k = some e → e.WF
  flags : ∀ m, s.metadata = some m → ∀ t em, m.known t = some em → ∀ f ∈ em.fields, em.wasSet.contains f.name = false → Unset f.val
  fields : ∀ m, s.metadata = some m → ∀ t em, m.known t = some em → ∀ f ∈ em.fields,
    (f.name = "Extra" ∧ f.tag = "-" ∧ f.ty = .obj ∧ f.val.ty? = some .obj) ∨
    ∃ g ∈ metaFields t, f.name = g.name ∧ f.tag = g.tag ∧ f.ty = g.kind.ty ∧ f.val.ty? = some f.ty
  tags : ∀ m, s.metadata = some m → ∀ t em, m.known t = some em → em.fields.map Field.tag = (metaFields t).map MField.tag ++ ["-"]

theorem goVal_ty (num : JV → Nat) (k : MKind) (v : Option JV) : (k.goVal num v).ty? = some k.ty := by
  cases k <;> cases v <;> try rfl
  all_goals (rename_i v; cases v <;> rfl)

theorem decMap_wf {α : Type} {f : JV → Option α} {v : JV} {r : AMap α} (h : decMap f v = some r) : AMap.WF r := by
  unfold AMap.WF AMap.keys
  cases v <;> simp only [decMap] at h
  case null => cases h; simp
  case obj l =>
    split at h
    · rw [(decMembers_get h).2]; exact objMap_nodup l
    · cases h
  all_goals cases h

theorem decMap_get {α : Type} {f : JV → Option α} {v : JV} {r : AMap α} (h : decMap f v = some r) {k : String} {a : α} (ha : AMap.get r k = some a) :
    ∃ w, f w = some a := by
  cases v <;> simp only [decMap] at h
  case null => cases h; cases ha
  case obj l =>
    split at h
    · rw [(decMembers_get h).1] at ha
      obtain ⟨w, _, hw⟩ := Option.bind_eq_some_iff.mp ha
      exact ⟨w, hw⟩
    · cases h
  all_goals cases h

theorem wf_mapv {α β : Type} (g : α → β) {m : AMap α} (h : m.WF) : AMap.WF (m.map (fun kv => (kv.1, g kv.2)) : AMap β) := by
  unfold AMap.WF AMap.keys at *
  rw [List.map_map]
  exact h

theorem toPolicy_wf {N : Numbering} {v : JV} {p : JPolicy} (h : decPolicy v = some p) :
    AMap.WF (p.toPolicy N) ∧ ∀ k e, AMap.get (p.toPolicy N) k = some e → e.WF := by
  refine ⟨wf_mapv _ (decMap_wf h), ?_⟩
  intro k e he
  unfold JPolicy.toPolicy at he
  rw [jget_mapv] at he
  obtain ⟨a, ha, rfl⟩ := Option.map_eq_some_iff.mp he
  obtain ⟨w, hw⟩ := decMap_get h ha
  exact wf_mapv _ (decMap_wf hw)

theorem goVal_zero (num : JV → Nat) (k : MKind) : Unset (k.goVal num k.zero) := by
  cases k <;> constructor

theorem fromPtrs_flag {S : List MField} (ok : TableOk S) (o : JStruct) {f : MField} (hf : f ∈ S) (h : f.name ∉ (fromPtrs S S o).wasSet) :
    (fromPtrs S S o).val f.name = f.kind.zero := by
  rw [fromPtrs_set ok o hf] at h
  rw [fromPtrs_val ok o hf]
  cases hk : o.known f.tag with
  | none => rfl
  | some v => rw [hk] at h; exact absurd (.inl rfl) h

theorem entity_flag {opq : Opaque} {t : EType} {x : JObj} {m : MStruct} (h : readEntity opq t x = some m) {f : MField} (hf : f ∈ metaFields t)
    (hn : f.name ∉ m.wasSet) : m.val f.name = f.kind.zero := by
  unfold readEntity at h
  rw [C92_same_fields] at h
  simp only [readMeta, Option.map_eq_some_iff] at h
  obtain ⟨o, _, rfl⟩ := h
  exact fromPtrs_flag (tables_ok t) o hf hn

theorem entity_extra {opq : Opaque} {t : EType} {x : JObj} {m : MStruct} (h : readEntity opq t x = some m) (hn : "Extra" ∉ m.wasSet) : m.extra = [] := by
  unfold readEntity at h
  rw [C92_same_fields] at h
  simp only [readMeta, Option.map_eq_some_iff] at h
  obtain ⟨o, _, rfl⟩ := h
  show o.extra = []
  refine Classical.byContradiction fun hne => hn ?_
  show "Extra" ∈ _ ++ (if o.extra.isEmpty then [] else ["Extra"]) ++ o.extra.keys
  rw [if_neg (by simpa using hne)]
  simp

theorem decoded (K : KeyCodec) (opq : Opaque) (N : Numbering) (raw : Option Nat) (l : JObj) (q : ESPayload) (h : ESPayload.read K opq l = some q)
    (hfresh : ∀ m, q.metadata = some m → m.Fresh opq) : Decoded (q.toStmt N raw) := by
  simp only [ESPayload.read, Option.map_eq_some_iff] at h
  obtain ⟨o, _, rfl⟩ := h
  constructor
  · intro P hP
    have hP' : ((o.known "metadata_policy").bind decPolicies).map (JPolicies.toPolicies N) = some P := hP
    obtain ⟨J, hJ, rfl⟩ := Option.map_eq_some_iff.mp hP'
    obtain ⟨v, _, hv⟩ := Option.bind_eq_some_iff.mp hJ
    cases v <;> simp only [decPolicies] at hv
    case obj l' =>
      obtain ⟨o', _, rfl⟩ := Option.map_eq_some_iff.mp hv
      refine ⟨rfl, ?_⟩
      intro t
      show AMap.WF (JPolicy.toPolicy N (((o'.known t.tag).bind decPolicy).getD [])) ∧ ∀ k e, AMap.get (JPolicy.toPolicy N (((o'.known t.tag).bind decPolicy).getD [])) k = some e → e.WF
      cases hb : (o'.known t.tag).bind decPolicy with
      | none =>
        refine ⟨by simp [JPolicy.toPolicy, AMap.WF, AMap.keys], ?_⟩
        intro k e he; cases he
      | some p =>
        obtain ⟨w, _, hw⟩ := Option.bind_eq_some_iff.mp hb
        exact toPolicy_wf hw
    all_goals cases hv
  · intro m hm t em hem f hf hw
    have hm' : ((o.known "metadata").bind (decMetadata opq)).map (JMetadata.toMetadata N) = some m := hm
    obtain ⟨J, hJ, rfl⟩ := Option.map_eq_some_iff.mp hm'
    obtain ⟨v, _, hv⟩ := Option.bind_eq_some_iff.mp hJ
    have hem' : (J.known t).map (MStruct.toMeta N (metaFields t)) = some em := hem
    obtain ⟨ms, hms, rfl⟩ := Option.map_eq_some_iff.mp hem'
    obtain ⟨x, hx⟩ := hfresh J hJ t ms hms
    rcases List.mem_append.mp hf with hf | hf
    case inr =>
      obtain rfl := List.mem_singleton.mp hf
      have hn : "Extra" ∉ ms.wasSet := by
        intro hmem
        have : ms.wasSet.contains "Extra" = false := hw
        rw [List.contains_iff_mem.mpr hmem] at this
        cases this
      unfold extraField
      rw [entity_extra hx hn]
      exact .obj
    obtain ⟨g, hg, rfl⟩ := List.mem_map.mp hf
    have hn : g.name ∉ ms.wasSet := by
      intro hmem
      have : ms.wasSet.contains g.name = false := hw
      rw [List.contains_iff_mem.mpr hmem] at this
      cases this
    show Unset (g.kind.goVal N.obj (ms.val g.name))
    rw [entity_flag hx hg hn]
    exact goVal_zero _ _
  · intro m hm t em hem f hf
    have hm' : ((o.known "metadata").bind (decMetadata opq)).map (JMetadata.toMetadata N) = some m := hm
    obtain ⟨J, hJ, rfl⟩ := Option.map_eq_some_iff.mp hm'
    have hem' : (J.known t).map (MStruct.toMeta N (metaFields t)) = some em := hem
    obtain ⟨ms, hms, rfl⟩ := Option.map_eq_some_iff.mp hem'
    rcases List.mem_append.mp hf with hf | hf
    case inr => obtain rfl := List.mem_singleton.mp hf; exact .inl ⟨rfl, rfl, rfl, rfl⟩
    obtain ⟨g, hg, rfl⟩ := List.mem_map.mp hf
    exact .inr ⟨g, hg, rfl, rfl, rfl, goVal_ty ..⟩
  · intro m hm t em hem
    have hm' : ((o.known "metadata").bind (decMetadata opq)).map (JMetadata.toMetadata N) = some m := hm
    obtain ⟨J, hJ, rfl⟩ := Option.map_eq_some_iff.mp hm'
    have hem' : (J.known t).map (MStruct.toMeta N (metaFields t)) = some em := hem
    obtain ⟨ms, hms, rfl⟩ := Option.map_eq_some_iff.mp hem'
    unfold MStruct.toMeta
    rw [List.map_append, List.map_map]
    rfl

end Oidfed
