import Verif.Props.MetaJSON
import Verif.Model.StmtJSON
/-!
# Property C30 for the metadata structs of the library
-/

namespace Oidfed
open Spec

/-- Setting an attribute of a type that JSON values do not have. -/
theorem applyField_unsettable (N : Numbering) (f : MField) (hk : f.kind = .int ∨ f.kind = .map ∨ f.kind = .ptr) (v : JV) (hv : v ≠ .null) (x : Option JV)
    (ws : List String) :
    applyField [(f.tag, [("value", v.toVal N)])] ws ⟨f.name, f.tag, f.kind.ty, f.kind.goVal N.obj x⟩ = .error .panic := by
  have hnil : (v.toVal N).isNilIface = false := by
    cases v <;> first | exact absurd rfl hv | simp [JV.toVal, Val.isNilIface]
  have hget : AMap.get [(f.tag, ([("value", v.toVal N)] : Entry))] f.tag = some [("value", v.toVal N)] := by simp [AMap.get]
  have happ : ∀ (r : Res Val) (w : Val) (b : Bool), reflectSliceCast (v.toVal N) (slicify w) = r →
      Entry.applyTo [("value", v.toVal N)] w b = r := by
    intro r w b h
    have hs : applyStep [("value", v.toVal N)] false ⟨w, b⟩ "value" = (reflectSliceCast (v.toVal N) (slicify w)).map (fun r => ⟨r, true⟩) := by
      show applyValue ⟨w, b⟩ (v.toVal N) = _
      unfold applyValue
      rw [hnil]
      simp only [Bool.false_eq_true, if_false]
      cases reflectSliceCast (v.toVal N) (slicify w) <;> rfl
    show (applyLoop [("value", v.toVal N)] false operatorOrder ⟨w, b⟩).map Cur.v = r
    show ((applyStep [("value", v.toVal N)] false ⟨w, b⟩ "value").bind (fun c => applyLoop [("value", v.toVal N)] false
      [opAdd, opDefault, opOneOf, opSubsetOf, opSupersetOf, opEssential] c)).map Cur.v = r
    rw [hs, h]
    cases r with
    | error e => rfl
    | ok r => rfl
  have cast : ∀ s : Slc, s.e = .int ∨ s.e = .ptr → reflectSliceCast (v.toVal N) (some s) = .error .panic ∨
      ∃ r t, reflectSliceCast (v.toVal N) (some s) = .ok r ∧ r.ty? = some t ∧ t ≠ .int ∧ t ≠ .ptr ∧ t ≠ .slice .str := by
    intro s hs
    cases v with
    | null => exact absurd rfl hv
    | bool b => exact .inr ⟨.bool b, .bool, by simp [JV.toVal, reflectSliceCast], rfl, by decide, by decide, by decide⟩
    | num q => exact .inr ⟨.num (float64 q), .num, by simp [JV.toVal, reflectSliceCast], rfl, by decide, by decide, by decide⟩
    | str b => exact .inr ⟨.str b, .str, by simp [JV.toVal, reflectSliceCast], rfl, by decide, by decide, by decide⟩
    | obj l => exact .inr ⟨.obj (some (N.obj (.obj l))), .obj, by simp [JV.toVal, reflectSliceCast], rfl, by decide, by decide, by decide⟩
    | arr l =>
      rw [JV.toVal]
      show (castSlc _ _).map Slc.toVal = _ ∨ ∃ r t, (castSlc _ _).map Slc.toVal = .ok r ∧ _
      unfold castSlc
      dsimp only
      split
      · refine .inr ⟨_, .slice s.e, rfl, rfl, by simp, by simp, ?_⟩
        rcases hs with e | e <;> rw [e] <;> decide
      · exact .inl rfl
  have fin : ∀ (w : Val) (ty : Ty) (s : Slc), slicify w = some s → s.e = .int ∨ s.e = .ptr → ty = .int ∨ ty = .ptr →
      applyField [(f.tag, [("value", v.toVal N)])] ws ⟨f.name, f.tag, ty, w⟩ = .error .panic := by
    intro w ty s hw hs hty
    unfold applyField
    rw [hget]
    dsimp only
    rcases cast s hs with h | ⟨r, t, h, ht, n1, n2, n3⟩
    · rw [happ (.error .panic) _ _ (by rw [hw]; exact h)]
      rfl
    · rw [happ (.ok r) _ _ (by rw [hw]; exact h)]
      show setField _ (scopeJoin f.name r) = _
      have hj : scopeJoin f.name r = r := by
        unfold scopeJoin
        split
        · simp only [Val.ty?, Option.some.injEq] at ht
          exact absurd ht.symm n3
        · rfl
      rw [hj]
      unfold setField
      rw [ht]
      dsimp only
      rcases hty with e | e <;> subst e
      · rw [if_neg n1]
      · rw [if_neg n2]
  have hint : ∀ y, ∃ n, MKind.int.goVal N.obj y = .int n := by
    intro y
    cases y with
    | none => exact ⟨0, rfl⟩
    | some y => cases y <;> exact ⟨_, rfl⟩
  rcases hk with e | e | e <;> rw [e]
  · obtain ⟨n, hn⟩ := hint x
    rw [hn]
    exact fin _ _ ⟨.int, false, [.int n]⟩ rfl (.inl rfl) (.inl rfl)
  · exact fin _ _ ⟨.ptr, false, [.ptr (x.map N.obj)]⟩ rfl (.inr rfl) (.inr rfl)
  · exact fin _ _ ⟨.ptr, false, [.ptr (x.map N.obj)]⟩ rfl (.inr rfl) (.inr rfl)

/-- C30 is false in a way no operand of the right type helps against: for an attribute that is a number, a map or a key set (`default_max_age`, `mtls_endpoint_aliases`, `jwks`
…), a policy with nothing but a `value` for that attribute passes verification, and applying it to any metadata of that entity type panics, whatever the value is, unless it is
null. -/
theorem C30_unsettable_refuted (N : Numbering) (m : JMetadata) (t : EType) (own : MStruct) (hm : m.known t = some own) (f : MField) (hf : f ∈ metaFields t)
    (hk : f.kind = .int ∨ f.kind = .map ∨ f.kind = .ptr) (v : JV) (hv : v ≠ .null) (P : JPolicies)
    (hP : P = ⟨fun u => if u = t then [(f.tag, [("value", v)])] else [], []⟩) :
    (∀ u, Policy.verify ((P.toPolicies N).known u) = .ok ()) ∧ (m.toMetadata N).applyPolicy (some (P.toPolicies N)) = .error .panic := by
  have hone := C92_one_field t
  have hkn : ∀ u, (P.toPolicies N).known u = if u = t then [(f.tag, [("value", v.toVal N)])] else [] := by
    intro u
    subst hP
    show JPolicy.toPolicy N (if u = t then _ else _) = _
    split <;> rfl
  constructor
  · intro u
    rw [hkn]
    split <;> rfl
  · have hfields : ∀ (fs : List MField) (val : String → Option JV) (ws : List String) (last : List Field), (∀ g ∈ fs, g ∈ metaFields t) → f ∈ fs →
        applyFields [(f.tag, [("value", v.toVal N)])] ws (fs.map (fun g => ⟨g.name, g.tag, g.kind.ty, g.kind.goVal N.obj (val g.name)⟩) ++ last) = .error .panic := by
      intro fs val ws last
      induction fs with
      | nil => intro _ h; cases h
      | cons g fs ih =>
        intro hall hin
        show (do let a ← applyField _ ws _; let b ← applyFields _ ws _; .ok (a :: b) : Res (List Field)) = _
        by_cases hg : g.tag = f.tag
        · have e : g = f := ((hone g (hall g (List.mem_cons_self ..)) f hf).1 (by rw [hg]))
          subst e
          rw [applyField_unsettable N g hk v hv]
          rfl
        · have hn : applyField [(f.tag, [("value", v.toVal N)])] ws ⟨g.name, g.tag, g.kind.ty, g.kind.goVal N.obj (val g.name)⟩ =
              .ok ⟨g.name, g.tag, g.kind.ty, g.kind.goVal N.obj (val g.name)⟩ := by
            unfold applyField
            simp [AMap.get, Ne.symm hg]
          rw [hn]
          have hin' : f ∈ fs := by
            rcases List.mem_cons.mp hin with e | h
            · exact absurd (by rw [e]) hg
            · exact h
          have := ih (fun x hx => hall x (List.mem_cons_of_mem _ hx)) hin'
          show (applyFields _ ws (fs.map _ ++ last)).bind _ = _
          rw [this]
          rfl
    have hem : (own.toMeta N (metaFields t)).apply ((P.toPolicies N).known t) = .error .panic := by
      rw [hkn, if_pos rfl]
      show (applyFields _ own.wasSet ((metaFields t).map _ ++ _)).bind _ = _
      rw [hfields (metaFields t) own.val own.wasSet _ (fun _ h => h) hf]
      rfl
    have hother : ∀ u em, u ≠ t → EntityMeta.apply em ((P.toPolicies N).known u) = .ok em := by
      intro u em hu
      rw [hkn, if_neg hu]
      have : ∀ fs ws, applyFields [] ws fs = .ok fs := by
        intro fs ws
        induction fs with
        | nil => rfl
        | cons a fs ih =>
          show (applyFields [] ws fs).bind _ = _
          rw [ih]
          rfl
      show (applyFields [] em.wasSet em.fields).bind _ = _
      rw [this]
      show Except.ok (EntityMeta.mk _ _ _) = _
      rw [if_pos rfl]
    have hknown : ∀ ts, t ∈ ts → applyKnown (m.toMetadata N) (P.toPolicies N) ts = .error .panic := by
      intro ts
      induction ts with
      | nil => intro h; cases h
      | cons u ts ih =>
        intro hin
        by_cases hu : u = t
        · subst hu
          have : (m.toMetadata N).known u = some (own.toMeta N (metaFields u)) := by
            show (m.known u).map _ = _
            rw [hm]
            rfl
          rw [applyKnown, this]
          dsimp only
          rw [hem]
          rfl
        · have hin' : t ∈ ts := by
            rcases List.mem_cons.mp hin with e | h
            · exact absurd e.symm hu
            · exact h
          rw [applyKnown]
          cases hc : (m.toMetadata N).known u with
          | none =>
            dsimp only
            rw [ih hin']
            rfl
          | some em =>
            dsimp only
            rw [hother u em hu, ih hin']
            rfl
    show (applyKnown _ _ EType.all).bind _ = _
    rw [hknown EType.all (by cases t <;> decide)]
    rfl

/-- The maps of an OP's metadata, for instance, cannot be set, nor can the maximum age of an RP's. -/
example : (⟨"MTLSEndpointAliases", "mtls_endpoint_aliases", .map, true⟩ : MField) ∈ metaFields .op ∧
    (⟨"DefaultMaxAge", "default_max_age", .int, true⟩ : MField) ∈ metaFields .rp ∧ (⟨"JWKS", "jwks", .ptr, true⟩ : MField) ∈ metaFields .rp := by
  simp [metaFields, opFields, rpFields]

end Oidfed
