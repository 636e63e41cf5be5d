import Verif.Spec.Relay
import Verif.Props.ResolveJSON
import Verif.Props.OperatedMarks
import Verif.Props.ComplianceChain
import Verif.Lemmas.PolicyJSON
/-!
# Resolvers that answer others: C125
-/

namespace Oidfed
open Spec

theorem blank_or_eq {a b c : Option JV} (h1 : SameContent a c) (h2 : SameContent b c) : SameContent b a := by
  rcases h1 with rfl | ⟨h1, h1'⟩
  · exact h2
  · rcases h2 with rfl | ⟨h2, _⟩
    · exact .inr ⟨h1', h1⟩
    · exact .inr ⟨h2, h1⟩

theorem sameMap_of_decoded {N : Numbering} {m : AMap JV} {a b : AMap Val} (ha : SameMap (Spec.Decoded N) m a) (hb : SameMap (Spec.Decoded N) m b) : SameMap Eq a b := by
  intro k
  have k1 := ha k
  have k2 := hb k
  revert k1 k2
  cases AMap.get m k <;> cases AMap.get a k <;> cases AMap.get b k <;> intro k1 k2 <;> cases k1 <;> cases k2
  · exact .none
  · rename_i k1 k2
    exact .some ((decoded_eq k1).trans (decoded_eq k2).symm)

theorem sameAttributes_of_read {N : Numbering} {m : JMetadata} {a b : Metadata} (ha : ReadMetadata N m a) (hb : ReadMetadata N m b) : SameAttributes N a b where
  known := by
    intro t
    have k1 := ha.known t
    have k2 := hb.known t
    revert k1 k2
    cases m.known t <;> cases a.known t <;> cases b.known t <;> intro k1 k2 <;> cases k1 <;> cases k2
    · exact .none
    · rename_i k1 k2
      refine .some ⟨?_, sameMap_of_decoded k1.extra k2.extra⟩
      intro f hf
      obtain ⟨v, hv, hv'⟩ := k1.fields f hf
      obtain ⟨w, hw, hw'⟩ := k2.fields f hf
      exact ⟨v, w, blank_or_eq hv hw, hv', hw'⟩
  extra := sameMap_of_decoded ha.extra hb.extra

/-- **C125** (part): whoever asks a resolver that responds with what its own resolver has found has the same as that resolver. Missing: the limits of
`ResponseOk`. -/
theorem C125_relayed_partial (C : Crypto) (S : JSigner) (X : Reader) (hmap : ∀ v w, X.opq .map v = some w → ∃ l, w = .obj l) (P : String → Option Jws)
    (ser : Jws → String) (hP : ∀ j, P (ser j) = some j) (r : Payload) (body : String) (h : RespondsWith C S X P ser r body) (status : Nat) (err : String)
    (hs : status < 400) : ∃ pl, resolveAnswer P X.opq X.N X.num (some ⟨status, err, body⟩) = .body (some pl) ∧ SameFindings X.N r pl := by
  obtain ⟨resp, j, hh, hok, hj, rfl⟩ := h
  obtain ⟨q, pl, _, _, h3, h4⟩ := C113_response_partial C X hmap P ser hP S resp hok j hj status err hs
  refine ⟨pl, ?_, ⟨h4.chain.trans hh.chain, h4.marks.trans hh.marks, ?_⟩⟩
  · cases hx : resolveAnswer P X.opq X.N X.num (some ⟨status, err, ser j⟩) with
    | failed => rw [hx] at h3; cases h3
    | errorCode c => rw [hx] at h3; cases h3
    | body o =>
      rw [hx] at h3
      cases o with
      | none => cases h3
      | some r => cases h3; rfl
  · have h5 := h4.metadata
    have h6 := hh.metadata
    revert h5 h6
    cases resp.payload.metadata <;> cases r.metadata <;> cases pl.metadata <;> intro h5 h6 <;> cases h5 <;> cases h6
    · exact .none
    · rename_i h5 h6
      exact .some (sameAttributes_of_read h6 h5)

/-- **C125** (part): such a resolver gives others a valid trust chain from the entity to one of the anchors asked for, the metadata that follows from that chain, and the trust marks its own
resolver reports, whether it is asked as the configured resolver or found in the configuration of an anchor. -/
theorem C125_resolver_partial (C : Crypto) (S : JSigner) (X : Reader) (hmap : ∀ v w, X.opq .map v = some w → ∃ l, w = .obj l) (P : String → Option Jws)
    (ser : Jws → String) (hP : ∀ j, P (ser j) = some j) (E : Env) (D : Default) (fuel : Nat) (p : CallPos) (q : Req) (r : Payload)
    (hi : ∀ s, ∀ i ∈ (E.claims s).marks, InfoOk E.reader i) (hr : localPayload E (D.resolve E fuel) p q = some (.ok r))
    (body : String) (h : RespondsWith C S X P ser r body) (status : Nat) (err : String) (hs : status < 400) :
    ∃ pl c leaf top, SameFindings X.N r pl ∧ Produces (E.world p) q.resolver c ∧ c.head? = some leaf ∧ c.getLast? = some top ∧ pl.chain = c.map Stmt.raw ∧
      (∃ md, chainMetadata c = .ok md ∧ Option.Rel (SameAttributes X.N) md pl.metadata) ∧
      (∀ x ∈ pl.marks, ∃ i ∈ (E.claims leaf).marks, x.type = i.type ∧ x.jwt = i.jwt) ∧
      simplePayload (resolveAnswer P X.opq X.N X.num (some ⟨status, err, body⟩)) = .ok pl ∧
      ∀ (E' : Env) (rec' : CallPos → Req → Option (Res Payload)) (p' : CallPos) (n : Nat), EndpointSays E' p' q n (resolveAnswer P X.opq X.N X.num (some ⟨status, err, body⟩)) →
        (∀ n' x', n' < n → EndpointSays E' p' q n' x' → ∀ pl', x' ≠ .body (some pl')) → smartPayload E' rec' p' q = some (.ok pl) := by
  obtain ⟨pl, h1, h2⟩ := C125_relayed_partial C S X hmap P ser hP r body h status err hs
  obtain ⟨c, leaf, top, g1, g2, g3, g4, g5, keep, _, g6, _⟩ := C40_reported_marks_partial E D fuel p q r hr hi
  refine ⟨pl, c, leaf, top, h2, g1, g2, g3, h2.chain.trans g4, ⟨_, g5, h2.metadata⟩, ?_, by rw [h1]; rfl, ?_⟩
  · intro x hx
    have hm : (x.type, x.jwt) ∈ pl.marks.map (fun i => (i.type, i.jwt)) := List.mem_map.mpr ⟨x, hx, rfl⟩
    rw [h2.marks, g6] at hm
    obtain ⟨y, hy, e⟩ := List.mem_map.mp hm
    simp only [Prod.mk.injEq] at e
    exact ⟨y.1, (List.of_mem_zip (List.mem_filter.mp hy).1).1, e.1.symm, e.2.symm⟩
  · intro E' rec' p' n hn hb
    rw [h1] at hn
    refine (C54_first_success E' rec' p' q pl).mpr (.inl ⟨n, hn, ?_⟩)
    rintro n' hlt ⟨r', hr'⟩
    exact hb n' _ hlt hr' r' rfl

/-- What is asked for of the metadata of an entity. -/
def askedMeta (types : List String) (lp : ESPayload) : JMetadata where
  known := askedOf types lp
  extra := (lp.metadata.elim [] JMetadata.extra).filter (fun kv => types.isEmpty || types.contains kv.1)

/-- Metadata restricted to the types asked for, read from what the entity published. -/
theorem restrict_read {N : Numbering} {types : List String} {lp : ESPayload} {s0 : Stmt} (h : ReadAs N lp.asWritten s0) :
    ∀ md, md = (restrictTypes types s0).metadata.getD Metadata.empty → ReadMetadata N (askedMeta types lp) md := by
  rintro md rfl
  have h0 : Option.Rel (ReadMetadata N) lp.metadata s0.metadata := h.metadata
  cases hl : lp.metadata with
  | none =>
    rw [hl] at h0
    cases hs : s0.metadata with
    | some _ => rw [hs] at h0; cases h0
    | none =>
      have hr : (restrictTypes types s0).metadata = none := by unfold restrictTypes; split <;> simp [hs]
      rw [hr]
      refine ⟨?_, ?_⟩
      · intro t
        show Option.Rel _ (askedOf types lp t) none
        have : askedOf types lp t = none := by unfold askedOf; rw [hl]; simp
        rw [this]
        exact .none
      · intro k
        show Option.Rel _ (AMap.get (List.filter _ (lp.metadata.elim [] JMetadata.extra)) k) (AMap.get [] k)
        rw [hl]
        exact .none
  | some m =>
    rw [hl] at h0
    cases hs : s0.metadata with
    | none => rw [hs] at h0; cases h0
    | some md0 =>
      rw [hs] at h0
      cases h0
      rename_i h0
      by_cases ht : types = []
      · subst ht
        have hr : (restrictTypes [] s0).metadata = some md0 := by unfold restrictTypes; simp [hs]
        rw [hr]
        refine ⟨?_, ?_⟩
        · intro t
          show Option.Rel _ (askedOf [] lp t) (md0.known t)
          have : askedOf [] lp t = m.known t := by unfold askedOf; rw [hl]; simp
          rw [this]
          exact h0.known t
        · intro k
          show Option.Rel _ (AMap.get (List.filter (fun kv => _) (lp.metadata.elim [] JMetadata.extra)) k) (AMap.get (md0.extra.getD []) k)
          rw [hl]
          simp only [List.isEmpty_nil, Bool.true_or, List.filter_true]
          exact h0.extra k
      · have hte : types.isEmpty = false := by cases types with | nil => exact absurd rfl ht | cons _ _ => rfl
        have hr : (restrictTypes types s0).metadata = some (md0.restrict types) := by unfold restrictTypes; simp [hs, hte]
        rw [hr]
        refine ⟨?_, ?_⟩
        · intro t
          show Option.Rel _ (askedOf types lp t) (if types.contains t.tag then md0.known t else none)
          have : askedOf types lp t = if types.contains t.tag then m.known t else none := by
            unfold askedOf; rw [hl]
            by_cases hc : t.tag ∈ types <;> simp [ht, hc]
          rw [this]
          split
          · exact h0.known t
          · exact .none
        · intro k
          show Option.Rel _ (AMap.get (List.filter (fun kv => _) (lp.metadata.elim [] JMetadata.extra)) k)
            (AMap.get ((md0.extra.map (fun x => x.filter (fun kv => types.contains kv.1))).getD []) k)
          have e : (md0.extra.map (fun x => x.filter (fun kv => types.contains kv.1))).getD [] = (md0.extra.getD []).filter (fun kv => types.contains kv.1) := by
            cases md0.extra <;> rfl
          rw [e, hl, hte]
          simp only [Bool.false_or]
          show Option.Rel _ (AMap.get (List.filter (fun kv => types.contains kv.1) m.extra) k) _
          rw [get_filter _ (fun k => types.contains k), get_filter _ (fun k => types.contains k)]
          split
          · exact h0.extra k
          · exact .none

theorem toVal_fromJSON (N : Numbering) (v : JV) : JSONVal (v.toVal N) := by
  cases v <;> simp only [JV.toVal] <;> refine ⟨by simp [Val.ty?], by simp [Val.ty?], ?_⟩ <;> intro e n xs h <;> cases h
  exact ⟨by simp, by intros; rfl⟩

/-- A value a field of this kind can be given from a program and in JSON. -/
def FieldVal (opq : Opaque) (k : MKind) (o : Option JV) : Prop := (∀ w, o = some w → decMeta opq k w = some (some w)) ∧ (o = none → k.zero = none)

theorem goVal_typed {opq : Opaque} {k : MKind} {N : Numbering} {v w : Option JV} (h : FieldVal opq k w) (hs : SameContent v w) : WellTyped (k.goVal N.obj v) := by
  intro e n xs he
  cases k with
  | strs =>
    rcases hs with rfl | ⟨hb, _⟩
    · cases v with
      | none => cases he; exact ⟨fun _ => rfl, by simp⟩
      | some j =>
        have hd := h.1 j rfl
        cases j with
        | arr l =>
          simp only [decMeta, Option.map_eq_some_iff] at hd
          obtain ⟨ss, _, hss⟩ := hd
          simp only [Option.some.injEq, JV.arr.injEq] at hss
          subst hss
          cases he
          refine ⟨by simp, ?_⟩
          intro x hx
          simp only [List.map_map, List.mem_map] at hx
          obtain ⟨s, _, rfl⟩ := hx
          rfl
        | _ => simp [decMeta] at hd
    · rcases hb with rfl | rfl | rfl <;> cases he <;> exact ⟨by simp, by simp⟩
  | _ =>
    exfalso
    revert he
    cases v with
    | none => simp [MKind.goVal, Val.zeroOf, MKind.ty]
    | some j => cases j <;> simp [MKind.goVal, Val.zeroOf, MKind.ty]

/-- What a policy read from JSON makes of a field can be written as JSON and is read as it was. -/
theorem applyField_held {opq : Opaque} {N : Numbering} {p : Policy} {ws : List String} (hp : JSONEntries p) {f : MField} {v w : Option JV}
    (hw : FieldVal opq f.kind w) (hs : SameContent v w) {g : Field} (h : applyField p ws (fieldOf N f v) = .ok g) :
    ∃ w' v', FieldVal opq f.kind w' ∧ SameContent v' w' ∧ g = fieldOf N f v' := by
  rcases applyField_ok h with ⟨_, rfl⟩ | ⟨e, r, he, hr, h1, h2, h3, h4⟩
  · exact ⟨w, v, hw, hs, rfl⟩
  · have hg : ∀ v', g.val = f.kind.goVal N.obj v' → g = fieldOf N f v' := by
      intro v' hv
      obtain ⟨a, b, c, d⟩ := g
      change a = f.name at h1
      change b = f.tag at h2
      change c = f.kind.ty at h3
      change d = _ at hv
      rw [h1, h2, h3, hv]
      rfl
    have hd := applyTo_derived (hp _ (get_mem he)) (goVal_typed hw hs) hr
    change Derived (f.kind.goVal N.obj v) r at hd
    rcases h4 with ⟨_, hz⟩ | ⟨_, hj, ht⟩
    · refine ⟨f.kind.zero, f.kind.zero, ⟨?_, id⟩, .inl rfl, hg _ ?_⟩
      · intro x hx
        cases hk : f.kind <;> rw [hk] at hx <;> cases hx <;> rfl
      · rw [hz]
        show Val.zeroOf f.kind.ty = _
        cases f.kind <;> rfl
    · change g.val = scopeJoin f.name r at hj
      change g.val.ty? = some f.kind.ty at ht
      have hsame : g.val.ty? ≠ some .str → g.val = r := by
        intro hne
        rw [hj]
        unfold scopeJoin
        split
        · split
          · rename_i hname
            exfalso
            apply hne
            rw [hj]
            simp [scopeJoin, hname, Val.ty?]
          · rfl
        · rfl
      cases hk : f.kind with
      | str =>
        rw [hk] at ht
        cases hv : g.val with
        | str s =>
          refine ⟨some (.str s), some (.str s), ⟨?_, by simp⟩, .inl rfl, hg _ (by rw [hk, hv]; rfl)⟩
          intro x hx; cases hx; rfl
        | _ => rw [hv] at ht; simp [Val.ty?, MKind.ty] at ht
      | bool =>
        rw [hk] at ht
        cases hv : g.val with
        | bool s =>
          refine ⟨some (.bool s), some (.bool s), ⟨?_, by simp⟩, .inl rfl, hg _ (by rw [hk, hv]; rfl)⟩
          intro x hx; cases hx; rfl
        | _ => rw [hv] at ht; simp [Val.ty?, MKind.ty] at ht
      | strs =>
        rw [hk] at ht
        have hgr := hsame (by rw [ht]; simp [MKind.ty])
        cases hv : g.val with
        | slice e n xs =>
          rw [hv] at ht hgr
          have het : e = .str := by simpa [Val.ty?, MKind.ty] using ht
          subst het
          obtain ⟨hn, hx⟩ := hd.1 _ _ _ hgr.symm
          cases n with
          | true =>
            refine ⟨none, none, ⟨by simp, fun _ => rfl⟩, .inl rfl, hg _ ?_⟩
            rw [hk, hv, hn rfl]
            rfl
          | false =>
            have : ∃ ss : List String, xs = ss.map Val.str := by
              clear hv hgr hn ht
              induction xs with
              | nil => exact ⟨[], rfl⟩
              | cons x xs ih =>
                obtain ⟨ss, rfl⟩ := ih (fun y hy => hx y (List.mem_cons_of_mem _ hy))
                have := hx x (by simp)
                cases x with
                | str s => exact ⟨s :: ss, rfl⟩
                | _ => cases this
            obtain ⟨ss, rfl⟩ := this
            refine ⟨some (.arr (ss.map .str)), some (.arr (ss.map .str)), ⟨?_, by simp⟩, .inl rfl, hg _ ?_⟩
            · intro x hx; cases hx; simp only [decMeta, decStrings_strs, Option.map_some]
            · rw [hk, hv]
              simp [MKind.goVal]
        | _ => rw [hv] at ht; simp [Val.ty?, MKind.ty] at ht
      | int =>
        rw [hk] at ht
        have hgr := hsame (by rw [ht]; simp [MKind.ty])
        exact ⟨w, v, hk ▸ hw, hs, hg _ (hgr.trans (hd.2 (.inl (hgr ▸ ht))))⟩
      | map =>
        rw [hk] at ht
        have hgr := hsame (by rw [ht]; simp [MKind.ty])
        exact ⟨w, v, hk ▸ hw, hs, hg _ (hgr.trans (hd.2 (.inr (hgr ▸ ht))))⟩
      | ptr =>
        rw [hk] at ht
        have hgr := hsame (by rw [ht]; simp [MKind.ty])
        exact ⟨w, v, hk ▸ hw, hs, hg _ (hgr.trans (hd.2 (.inr (hgr ▸ ht))))⟩

/-- A struct with a chosen value in every field. -/
theorem struct_of {t : EType} {Q : MField → Option JV → Prop} (h : ∀ f ∈ metaFields t, ∃ w, Q f w) (ws : List String) (ex : AMap JV) :
    ∃ m : MStruct, m.extra = ex ∧ ∀ f ∈ metaFields t, Q f (m.val f.name) := by
  classical
  have hn : ((metaFields t).map MField.name).Nodup := by cases t <;> decide
  refine ⟨⟨fun n => if hf : ∃ f ∈ metaFields t, f.name = n then (h hf.choose hf.choose_spec.1).choose else none, ws, ex⟩, rfl, ?_⟩
  intro f hf
  have hx : ∃ g ∈ metaFields t, g.name = f.name := ⟨f, hf, rfl⟩
  have e : hx.choose = f := eq_of_tags hn hx.choose_spec.1 hf hx.choose_spec.2
  simp only [hx, ↓reduceDIte]
  have key : ∀ g (hg : g ∈ metaFields t), g = f → Q f (h g hg).choose := by
    rintro g hg rfl
    exact (h g hg).choose_spec
  exact key hx.choose hx.choose_spec.1 e

/-- A struct after a policy read from JSON. -/
theorem apply_held {opq : Opaque} {N : Numbering} {t : EType} {p : Policy} (hp : JSONEntries p) {a : MStruct} (ha : MetaOk opq t a) {em em' : EntityMeta}
    (hr : ReadStruct N t a em) (h : em.apply p = .ok em') : ∃ a', MetaOk opq t a' ∧ ReadStruct N t a' em' := by
  have hx : em'.extra = em.extra ∨ em'.extra = [] := by
    unfold EntityMeta.apply at h
    obtain ⟨fs, hfs, h⟩ := bind_ok h
    cases h
    dsimp only
    split
    · exact .inl rfl
    · exact .inr rfl
  obtain ⟨ex, hex, hex'⟩ : ∃ ex, ExtraOk ((metaFields t).map MField.tag) ex ∧ SameMap (Spec.Decoded N) ex em'.extra := by
    rcases hx with hx | hx
    · exact ⟨a.extra, ha.extra, hx ▸ hr.extra⟩
    · exact ⟨[], ⟨by simp [AMap.WF, AMap.keys], by simp [AMap.keys]⟩, hx ▸ fun _ => .none⟩
  obtain ⟨hf, _, _⟩ := apply_ok h
  obtain ⟨_, hf⟩ := applyFields_ok hf
  obtain ⟨a', he, ha'⟩ := struct_of (t := t) (Q := fun f w => FieldVal opq f.kind w ∧ ∃ v, SameContent v w ∧ fieldOf N f v ∈ em'.fields) (by
    intro f hm
    obtain ⟨v, hv, hmem⟩ := hr.fields f hm
    obtain ⟨i, hi⟩ := List.mem_iff_getElem?.mp hmem
    obtain ⟨g, hg, hap⟩ := hf i _ hi
    obtain ⟨w', v', h1, h2, rfl⟩ := applyField_held hp ⟨ha.typed f hm, ha.nonnil f hm⟩ hv hap
    exact ⟨w', h1, v', h2, List.mem_iff_getElem?.mpr ⟨i, hg⟩⟩) [] ex
  exact ⟨a', ⟨he ▸ hex, fun f hm => (ha' f hm).1.1, fun f hm => (ha' f hm).1.2⟩, fun f hm => (ha' f hm).2, he ▸ hex'⟩

/-- Metadata that can be written. -/
def WritableMeta (opq : Opaque) (m : JMetadata) : Prop := ExtraOk (EType.all.map EType.tag) m.extra ∧ ∀ t s, m.known t = some s → MetaOk opq t s

/-- Metadata after policies read from JSON can be put in a response. -/
theorem applyPolicy_held {opq : Opaque} {N : Numbering} {p : Policies} (hp : ∀ t, JSONEntries (p.known t)) {a : JMetadata} (ha : WritableMeta opq a) {md md' : Metadata}
    (hr : ReadMetadata N a md) (h : md.applyPolicy (some p) = .ok md') : ∃ a', WritableMeta opq a' ∧ ReadMetadata N a' md' := by
  obtain ⟨hk, hx⟩ := applyPolicy_ok h
  have key : ∀ t, ∃ s' : Option MStruct, (∀ s, s' = some s → MetaOk opq t s) ∧
      Option.Rel (ReadStruct N t) s' (md'.known t) := by
    intro t
    have h1 := hr.known t
    cases hm : md.known t with
    | none => exact ⟨none, by simp, by rw [(hk t).1 hm]; exact .none⟩
    | some em =>
      rw [hm] at h1
      cases hs : a.known t with
      | none => rw [hs] at h1; cases h1
      | some s =>
        rw [hs] at h1
        cases h1
        rename_i h1
        obtain ⟨em', he, he'⟩ := (hk t).2 em hm
        obtain ⟨s', g1, g2⟩ := apply_held (hp t) (ha.2 t s hs) h1 he
        exact ⟨some s', by intro x hx; cases hx; exact g1, by rw [he']; exact .some g2⟩
  exact ⟨⟨fun t => (key t).choose, a.extra⟩, ⟨ha.1, fun t s hs => (key t).choose_spec.1 s hs⟩, fun t => (key t).choose_spec.2, by rw [hx]; exact hr.extra⟩

theorem asked_writable {opq : Opaque} {types : List String} {lp : ESPayload} (h : PayloadOk opq lp) : WritableMeta opq (askedMeta types lp) := by
  cases hlm : lp.metadata with
  | none =>
    refine ⟨⟨?_, ?_⟩, ?_⟩
    · simp [askedMeta, hlm, AMap.WF, AMap.keys]
    · intro k hk; simp [askedMeta, hlm, AMap.keys] at hk
    · intro t s hs
      simp [askedMeta, askedOf, hlm] at hs
  | some m0 =>
    obtain ⟨⟨w1, w2⟩, w3⟩ := h.metadata m0 hlm
    have hsub : List.Sublist (AMap.keys (askedMeta types lp).extra) (AMap.keys m0.extra) := by
      simp only [askedMeta, hlm, Option.elim, AMap.keys]
      exact List.Sublist.map _ List.filter_sublist
    refine ⟨⟨List.Nodup.sublist hsub w1, fun k hk => w2 k (hsub.subset hk)⟩, ?_⟩
    intro t s hs
    simp only [askedMeta, askedOf, hlm, Option.bind_some] at hs
    split at hs
    · exact w3 t s hs
    · cases hs

/-- A statement with policies as they are read from JSON. -/
def JSONPolicies (s : Stmt) : Prop := ∀ q, s.policy = some q → ∀ t, JSONEntries (q.known t)

/-- The metadata of a chain of statements that were read can be put in a response. -/
theorem chain_held {opq : Opaque} {N : Numbering} {types : List String} {lp : ESPayload} (hlp : PayloadOk opq lp) {s0 : Stmt} {rest : Chain} (h0 : ReadAs N lp.asWritten s0)
    (hp : JSONPolicies s0) (hrest : ∀ s ∈ rest, JSONPolicies s) {o : Option Metadata} (h : chainMetadata (restrictTypes types s0 :: rest) = .ok o) :
    ∃ m, (∀ a, m = some a → WritableMeta opq a) ∧ Option.Rel (ReadMetadata N) m o := by
  cases rest with
  | nil =>
    have : o = (restrictTypes types s0).metadata := by cases h; rfl
    subst this
    cases hm : (restrictTypes types s0).metadata with
    | none => exact ⟨none, by simp, .none⟩
    | some md => exact ⟨some (askedMeta types lp), by rintro _ ⟨⟩; exact asked_writable hlp, .some (restrict_read h0 md (by rw [hm]; rfl))⟩
  | cons b rest' =>
    obtain ⟨p, md, rfl, h1, h2⟩ := chainMetadata_ok h
    have hr := restrict_read (types := types) h0 _ rfl
    obtain ⟨a, g1, g2⟩ := applyPolicy_held (opq := opq) (fun t => combineAll_fromJSON (by
      intro x hx
      obtain ⟨q, hq, rfl⟩ := List.mem_map.mp hx
      obtain ⟨y, hy, hyq⟩ := List.mem_filterMap.mp hq
      obtain ⟨s, hs, rfl⟩ := List.mem_map.mp hy
      rcases List.mem_cons.mp hs with rfl | hs
      · refine hp q ?_ t
        rw [← show s0.policy = some q from by unfold restrictTypes at hyq; split at hyq <;> exact hyq]
      · exact hrest s hs q hyq t) (mergePolicies_ok h1 t)) (asked_writable hlp) hr h2
    exact ⟨some a, by rintro _ ⟨⟩; exact g1, .some g2⟩

theorem messages_of {num : Jws → Nat} : ∀ (c : Chain), (∀ s ∈ c, ∃ j, s.raw = some (num j)) → ∃ js : List Jws, js.map (fun j => some (num j)) = c.map Stmt.raw
  | [], _ => ⟨[], rfl⟩
  | s :: c, h => by
    obtain ⟨j, hj⟩ := h s (by simp)
    obtain ⟨js, hjs⟩ := messages_of c (fun s hs => h s (List.mem_cons_of_mem _ hs))
    exact ⟨j :: js, by simp [hj, hjs]⟩

theorem json_read {C : Crypto} {X : Reader} {keyOf : Nat → JKey} {msgOf : Nat → Jws} {ks : List JKey} {js : List Jws} (hX : Faithful X keyOf msgOf ks js)
    {signer : ID → JSigner} {P : String → Option Jws} {ser : Jws → String} (hP : ∀ j, P (ser j) = some j) {p : ESPayload} {j : Jws} (h : Published C X signer p j)
    {s : Stmt} (hs : parseStmt P X.decode (ser j) = some s) : s.raw = some (X.num j) ∧ JSONPolicies s ∧ ReadAs X.N p.asWritten s := by
  obtain ⟨q, _, h2, _, _, h5⟩ := published_claims hX hP h
  obtain ⟨s', g1, g2⟩ := published_read hX hP h
  rw [hs] at h5 g1
  have e1 := Option.some.inj h5
  have e2 := Option.some.inj g1
  refine ⟨by rw [e1]; rfl, ?_, e2 ▸ g2.same⟩
  rw [e1]
  intro pol hpol t ke hke kv hkv
  obtain ⟨jp, _, rfl⟩ := Option.map_eq_some_iff.mp hpol
  obtain ⟨ae, _, rfl⟩ := List.mem_map.mp hke
  obtain ⟨ov, _, rfl⟩ := List.mem_map.mp hkv
  exact toVal_fromJSON _ _

/-- **C125** (part): a resolver in a federation whose members publish with the library can always respond: there is a response that says what its
own resolver has found, for any issuer, times and audience, and it can be signed. Missing: payloads that do not survive JSON (C110), times outside of 1823 to 2116. -/
theorem C125_can_respond_partial (C : Crypto) (S : JSigner) (kid : Nat) (hkey : S.key = some kid) (hsign : ∀ typ p, C.sign S.alg kid typ (C.thumb (C.pub kid)) p ≠ none)
    (X : Reader) (keyOf : Nat → JKey) (msgOf : Nat → Jws) (K : List JKey) (J : List Jws) (hX : Faithful X keyOf msgOf K J) (P : String → Option Jws) (ser : Jws → String)
    (hP : ∀ j, P (ser j) = some j) (signer : ID → JSigner) (E : Env) (rec : CallPos → Req → Option (Res Payload)) (p : CallPos) (q : Req) (lp : ESPayload)
    (hl : ServedPublished C X signer (fun j => parseStmt P X.decode (ser j)) (E.world p) q.subject lp) (r : Payload) (hr : localPayload E rec p q = some (.ok r))
    (iss aud : String) (iat exp : Time) (hiat : TimeOk iat) (hexp : TimeOk exp) :
    ∃ payload j, Holds X.N X.num payload r ∧ signResponse C S ⟨iss, q.subject, iat, exp, aud, payload⟩ = .ok j ∧ RespondsWith C S X P ser r (ser j) := by
  obtain ⟨lj, hpub, hstart⟩ := hl.entity
  unfold localPayload at hr
  cases hlc : localChain E p q with
  | none => rw [hlc] at hr; cases hr
  | some x =>
    rw [hlc] at hr
    cases x with
    | error f => cases hr
    | ok cm =>
      obtain ⟨c, m⟩ := cm
      obtain ⟨hp, hm⟩ := localChain_ok hlc
      obtain ⟨⟨s0, rest, hc, hs0⟩, htail⟩ := ExM.chain_answers hp
      change (E.world p).start q.subject = some s0 at hs0
      obtain ⟨g1, g2, g3⟩ := json_read hX hP hpub (hstart.symm.trans hs0)
      have hrm : r.metadata = m ∧ r.chain = c.map Stmt.raw := by
        simp only at hr
        split at hr
        · split at hr
          · cases hr
          · cases hr
          · cases hr; exact ⟨rfl, rfl⟩
        · cases hr
      have htl : ∀ s ∈ rest, JSONPolicies s ∧ ∃ j, s.raw = some (X.num j) := by
        intro s hs
        have hsv : ServedIn (E.world p) q.subject s := by
          rcases htail s (by rw [hc]; exact hs) with ⟨pos, h⟩ | ⟨pos, ep, h⟩
          · exact .inr (.inl ⟨pos, _, h⟩)
          · exact .inr (.inr ⟨pos, ep, _, _, h⟩)
        obtain ⟨pp, j, h1, h2⟩ := hl.served s hsv
        obtain ⟨k1, k2, _⟩ := json_read hX hP h1 h2
        exact ⟨k2, j, k1⟩
      obtain ⟨js, hjs⟩ := messages_of (num := X.num) c (by
        intro s hs
        rw [hc] at hs
        rcases List.mem_cons.mp hs with rfl | hs
        · refine ⟨lj, ?_⟩
          rw [← g1]
          unfold restrictTypes
          split <;> rfl
        · exact (htl s hs).2)
      rw [hc] at hm
      obtain ⟨am, hwr, hmd⟩ := chain_held (opq := X.opq) hpub.ok g3 g2 (fun s hs => (htl s hs).1) hm
      have hh : Holds X.N X.num ⟨am, some (r.marks.map (fun i => ⟨i.type, i.jwt, []⟩)),
          some (js.map (fun j => some ⟨ser j, j⟩)), []⟩ r := by
        refine ⟨?_, ?_, ?_⟩
        · rw [hrm.1]; exact hmd
        · simp [Function.comp_def]
        · rw [hrm.2, ← hjs]
          simp [Function.comp_def]
      have hok : ResponseOk P X.opq ⟨iss, q.subject, iat, exp, aud, ⟨am, some (r.marks.map (fun i => ⟨i.type, i.jwt, []⟩)),
          some (js.map (fun j => some ⟨ser j, j⟩)), []⟩⟩ := by
        refine ⟨?_, hiat, hexp, ?_, ?_, ?_, ?_, ?_⟩
        · refine .inr (.inr (.inl ?_))
          intro e
          have e' : js = [] := by simpa using e
          rw [e', hc] at hjs
          cases hjs
        · intro x hx
          obtain ⟨j, _, rfl⟩ := List.mem_map.mp hx
          exact ⟨_, rfl, hP j⟩
        · exact hwr
        · intro i hi
          obtain ⟨x, _, rfl⟩ := List.mem_map.mp hi
          exact ⟨by simp [AMap.WF, AMap.keys], by intro k hk; cases hk⟩
        · exact ⟨by simp [AMap.WF, AMap.keys], by intro k hk; cases hk⟩
        · intro k hk; cases hk
      obtain ⟨j, hj⟩ := C113_signed_partial C S P X.opq hX.maps _ hok kid hkey hsign
      exact ⟨_, j, hh, hj, _, j, hh, hok, hj, rfl⟩

/-- **C125** (part): in a federation whose entities publish with the library, whoever asks such a resolver for an entity with trust marks that the anchor accepts gets all of them. -/
theorem C125_operated_partial (C : Crypto) (hC : Scheme C) (S : JSigner) (X : Reader) (keyOf : Nat → JKey) (msgOf : Nat → Jws) (P : String → Option Jws) (ser : Jws → String)
    (hP : ∀ j, P (ser j) = some j) (num : String → Nat) (hN : Numbered P num msgOf) (signer : ID → JSigner) (K : List JKey) (J : List Jws)
    (hX : Faithful X keyOf msgOf K J) (E : Env) (hR : E.reader = readerOf P num) (hS : E.sig = jwsOracle C keyOf msgOf)
    (hW : ∀ p, (E.world p).sig = jwsOracle C keyOf msgOf) (hE : ReadsClaims E X msgOf)
    (ts : List (ESPayload × Jws)) (ht : AnchorsPublish C X (fun j => parseStmt P X.decode (ser j)) signer E K J ts)
    (p : CallPos) (types : List String) (lp : ESPayload) (lj : Jws) (as : List Authority) (top : Authority)
    (hl : ResolvesTo C X (fun j => parseStmt P X.decode (ser j)) keyOf signer E p (publishedIDs ts) types lp lj as top)
    (hk : ∀ k ∈ keysOf as, k ∈ K) (hj : ∀ j ∈ jwtsOf lj as, j ∈ J)
    (hg : ∀ t ∈ ts, ∀ k x, (lp.marks.getD [])[k]? = some x → GoodMark C X (fun j => parseStmt P X.decode (ser j)) ser keyOf signer E t.1 K J p k x.type x.jwt) (fuel : Nat) :
    ∃ r, localPayload E (Default.loc.resolve E (fuel + 1)) p ⟨lp.iss, publishedIDs ts, types⟩ = some (.ok r) ∧
      ∀ body status err, RespondsWith C S X P ser r body → status < 400 →
        ∃ pl, resolveAnswer P X.opq X.N X.num (some ⟨status, err, body⟩) = .body (some pl) ∧ SameFindings X.N r pl ∧
          pl.marks.map (fun i => (i.type, i.jwt)) = (lp.marks.getD []).map (fun x => (x.type, x.jwt)) := by
  obtain ⟨r, h1, h2⟩ := C119_resolved_partial C hC X keyOf msgOf P ser hP num hN signer K J hX E hR hS hW hE ts ht p types lp lj as top hl hk hj hg fuel
  refine ⟨r, h1, ?_⟩
  intro body status err hb hs
  obtain ⟨pl, g1, g2⟩ := C125_relayed_partial C S X hX.maps P ser hP r body hb status err hs
  exact ⟨pl, g1, g2, g2.marks.trans h2⟩

/-! ## C126: issuers looked up through a resolver -/

theorem goodVia_accepted {C : Crypto} (hC : Scheme C) {X : Reader} {keyOf : Nat → JKey} {msgOf : Nat → Jws} {P : String → Option Jws} {ser : Jws → String}
    (hP : ∀ j, P (ser j) = some j) {num : String → Nat} (hN : Numbered P num msgOf) {signer : ID → JSigner} {K : List JKey} {J : List Jws}
    (hX : Faithful X keyOf msgOf K J) {E : Env} (hR : E.reader = readerOf P num) (hS : E.sig = jwsOracle C keyOf msgOf) (hE : ReadsClaims E X msgOf)
    {tp : ESPayload} {tj : Jws} (hown : tp.sub = tp.iss) (htk : ∀ k ∈ tp.jwks.getD [], k ∈ K)
    {p : CallPos} {k : Nat} {type jwt : String} {rec : CallPos → Req → Option (Res Payload)} (hg : GoodMarkVia C X ser signer E rec tp K J p k type jwt) :
    AcceptedVia X E rec tp tj p k type jwt := by
  intro tq t2 htc
  obtain ⟨I, s, now, sub, custom, l, info, hI, hjwt, hal, hf, ho⟩ := hg
  refine good_accepted_keys hC hP hN hX hR hS t2 htc hI hjwt hal ho ?_
  have htsub : (E.anchorOf (tq.toStmt X.N (some (X.num tj)))).sub = tp.iss := t2.sub.trans hown
  have hjwks : ∀ (e q : ESPayload), SameClaims e.asWritten q → ∀ ks, e.jwks = some ks → ks ≠ [] → q.jwks.map (fun ks => ks.map X.N.key) = some (ks.map X.N.key) := by
    intro e q hs ks hks hne
    have : SameElems q.jwks e.jwks := hs.keys
    unfold SameElems at this
    rw [hks] at this
    cases hq : q.jwks with
    | none => rw [hq] at this; exact absurd this.symm hne
    | some l => rw [hq] at this; have e : l = ks := this; rw [e]; rfl
  rcases hf with ⟨e, ks, h1, h2⟩ | ⟨e, ip, ij, r, rest, e1, h0, ⟨ks, h1, h2⟩, h3, h4, h5, h6⟩
  · refine ⟨ks, h2, by simpa [h1] using htk, ?_⟩
    unfold issuerKeys
    rw [if_pos (e.trans htsub.symm)]
    show some (Except.ok (tq.jwks.map _)) = _
    rw [hjwks tp tq t2 ks h1 (keyToJWKS_ne h2)]
  · refine ⟨ks, h2, by simpa [h1] using h3, ?_⟩
    obtain ⟨q, g1, g2, g3, g4, g5⟩ := published_claims hX hP h0
    unfold issuerKeys
    rw [if_neg (fun e' => e (e'.trans htsub)), htsub, h5]
    simp only [h6]
    rw [hE.parse, hX.messages ij h4, if_pos g3, g4]
    have hq := hjwks ip q g2 ks h1 (keyToJWKS_ne h2)
    have hs : (q.toStmt X.N (some (X.num ij))).jwks = some (ks.map X.N.key) := hq
    simp only [issuerStmtKeys, hs]
    cases ks with
    | nil => exact absurd rfl (keyToJWKS_ne h2)
    | cons a b => rfl

/-- **C126** (part): a trust mark issued with the library is reported by everybody who resolves the entity to anchors of which the one at the end of the chain lets the issuer issue marks of the type, if whatever metadata resolver they
have configured for finding issuers finds the issuer's configuration. The other conditions are those of C119. -/
theorem C126_reported_partial (C : Crypto) (hC : Scheme C) (X : Reader) (keyOf : Nat → JKey) (msgOf : Nat → Jws) (P : String → Option Jws) (ser : Jws → String)
    (hP : ∀ j, P (ser j) = some j) (num : String → Nat) (hN : Numbered P num msgOf) (signer : ID → JSigner) (K : List JKey) (J : List Jws)
    (hX : Faithful X keyOf msgOf K J) (E : Env) (hR : E.reader = readerOf P num) (hS : E.sig = jwsOracle C keyOf msgOf) (hE : ReadsClaims E X msgOf)
    (ts : List (ESPayload × Jws)) (ht : AnchorsPublish C X (fun j => parseStmt P X.decode (ser j)) signer E K J ts)
    (p : CallPos) (lp : ESPayload) (lj : Jws) (hl : Published C X signer lp lj) (hlj : lj ∈ J) (hlt : lp.iss ∉ publishedIDs ts) (hlh : lp.hints.getD [] ≠ [])
    (hls : (E.world p).start lp.iss = parseStmt P X.decode (ser lj))
    (D : Default) (fuel : Nat) (types : List String) (r : Payload) (h : localPayload E (D.resolve E fuel) p ⟨lp.iss, publishedIDs ts, types⟩ = some (.ok r)) :
    ∃ t ∈ ts, r.chain.getLast? = some (some (X.num t.2)) ∧ ∀ (k : Nat) (x : MarkInfo), (lp.marks.getD [])[k]? = some x →
      GoodMarkVia C X ser signer E (D.resolve E fuel) t.1 K J p k x.type x.jwt → (x.type, x.jwt) ∈ r.marks.map (fun i => (i.type, i.jwt)) := by
  obtain ⟨t, htm, h1, h2⟩ := reported_of_accepted C X keyOf msgOf P ser hP signer K J hX E hE ts ht p lp lj hl hlj hlt hlh hls D fuel types r h
  exact ⟨t, htm, h1, fun k x hk hg => h2 k x hk (goodVia_accepted hC hP hN hX hR hS hE (ht.own t htm) (ht.keys t htm) hg)⟩

/-- **C126** (part): if all trust marks of an entity are such, and the entity and its superiors publish with the library, the entity is resolved with all of them. -/
theorem C126_resolved_partial (C : Crypto) (hC : Scheme C) (X : Reader) (keyOf : Nat → JKey) (msgOf : Nat → Jws) (P : String → Option Jws) (ser : Jws → String)
    (hP : ∀ j, P (ser j) = some j) (num : String → Nat) (hN : Numbered P num msgOf) (signer : ID → JSigner) (K : List JKey) (J : List Jws)
    (hX : Faithful X keyOf msgOf K J) (E : Env) (hR : E.reader = readerOf P num) (hS : E.sig = jwsOracle C keyOf msgOf)
    (hW : ∀ p, (E.world p).sig = jwsOracle C keyOf msgOf) (hE : ReadsClaims E X msgOf)
    (ts : List (ESPayload × Jws)) (ht : AnchorsPublish C X (fun j => parseStmt P X.decode (ser j)) signer E K J ts)
    (p : CallPos) (types : List String) (lp : ESPayload) (lj : Jws) (as : List Authority) (top : Authority)
    (hl : ResolvesTo C X (fun j => parseStmt P X.decode (ser j)) keyOf signer E p (publishedIDs ts) types lp lj as top)
    (hk : ∀ k ∈ keysOf as, k ∈ K) (hj : ∀ j ∈ jwtsOf lj as, j ∈ J) (D : Default) (fuel : Nat)
    (hg : ∀ t ∈ ts, ∀ k x, (lp.marks.getD [])[k]? = some x → GoodMarkVia C X ser signer E (D.resolve E fuel) t.1 K J p k x.type x.jwt) :
    ∃ r, localPayload E (D.resolve E fuel) p ⟨lp.iss, publishedIDs ts, types⟩ = some (.ok r) ∧
      r.marks.map (fun i => (i.type, i.jwt)) = (lp.marks.getD []).map (fun x => (x.type, x.jwt)) :=
  resolved_of_accepted C hC X keyOf msgOf P ser hP signer K J hX E hW hE ts ht p types lp lj as top hl hk hj D fuel
    (fun t htm k x hx => goodVia_accepted hC hP hN hX hR hS hE (ht.own t htm) (ht.keys t htm) (hg t htm k x hx))

/-- The chain a local resolver returns begins with the configuration of the entity. -/
theorem responds_chain {C : Crypto} {S : JSigner} {X : Reader} {keyOf : Nat → JKey} {msgOf : Nat → Jws} {P : String → Option Jws} {ser : Jws → String}
    (hP : ∀ j, P (ser j) = some j) {signer : ID → JSigner} {K : List JKey} {J : List Jws} (hX : Faithful X keyOf msgOf K J)
    {ip : ESPayload} {ij : Jws} (hi : Published C X signer ip ij) {q : Req} {body : String} (h : RespondsFor C S X P ser q ij body) (status : Nat) (err : String)
    (hs : status < 400) : ∃ pl rest, resolveAnswer P X.opq X.N X.num (some ⟨status, err, body⟩) = .body (some pl) ∧ pl.chain = some (X.num ij) :: rest := by
  obtain ⟨E, rec, p, r, h1, h2, h3⟩ := h
  obtain ⟨pl, g1, g2⟩ := C125_relayed_partial C S X hX.maps P ser hP r body h3 status err hs
  obtain ⟨q', l1, l2, l3, l4, l5⟩ := published_claims hX hP hi
  unfold localPayload at h1
  cases hl : localChain E p q with
  | none => rw [hl] at h1; cases h1
  | some x =>
    rw [hl] at h1
    cases x with
    | error f => cases h1
    | ok cm =>
      obtain ⟨c, m⟩ := cm
      obtain ⟨hp, _⟩ := localChain_ok hl
      obtain ⟨⟨s0, rest, hc, hs0⟩, _⟩ := ExM.chain_answers hp
      change (E.world p).start q.subject = some s0 at hs0
      rw [h2, l5] at hs0
      have hch : r.chain = c.map Stmt.raw := by
        simp only at h1
        split at h1
        · split at h1
          · cases h1
          · cases h1
          · cases h1; rfl
        · cases h1
      refine ⟨pl, rest.map Stmt.raw, g1, ?_⟩
      rw [g2.chain, hch, hc, List.map_cons, ← Option.some.inj hs0]
      congr 1
      unfold restrictTypes
      split <;> rfl

/-- **C126** (part): an issuer is found this way by those who use `SmartRemoteMetadataResolver`, if the anchor's configuration names a resolver that has found the issuer, and by those
who use `SimpleRemoteMetadataResolver` with such a resolver. -/
theorem C126_found_by_resolver_partial (C : Crypto) (S : JSigner) (X : Reader) (keyOf : Nat → JKey) (msgOf : Nat → Jws) (P : String → Option Jws) (ser : Jws → String)
    (hP : ∀ j, P (ser j) = some j) (signer : ID → JSigner) (K : List JKey) (J : List Jws) (hX : Faithful X keyOf msgOf K J) (E : Env) (tp : ESPayload) (p : CallPos)
    (ip : ESPayload) (ij : Jws) (hi : Published C X signer ip ij) (hij : ij ∈ J) (hne : ip.iss ≠ tp.iss) (hks : HasKeysOf C signer ip ip.iss)
    (hk : ∀ k ∈ ip.jwks.getD [], k ∈ K) (body : String) (hb : RespondsFor C S X P ser ⟨ip.iss, [tp.iss], []⟩ ij body) (status : Nat) (err : String) (hs : status < 400) (fuel : Nat) :
    (EndpointSays E p ⟨ip.iss, [tp.iss], []⟩ 0 (resolveAnswer P X.opq X.N X.num (some ⟨status, err, body⟩)) →
      IssuerSeen C X signer (Default.smart.resolve E (fuel + 1) p) tp K J ip.iss) ∧
    ∀ ep, E.http p 0 ep ⟨ip.iss, [tp.iss], []⟩ = resolveAnswer P X.opq X.N X.num (some ⟨status, err, body⟩) →
      IssuerSeen C X signer ((Default.simple ep).resolve E (fuel + 1) p) tp K J ip.iss := by
  obtain ⟨pl, rest, h1, h2⟩ := responds_chain hP hX hi hb status err hs
  rw [h1]
  constructor
  · intro hn
    refine .inr ⟨hne, ip, ij, pl, rest, rfl, hi, hks, hk, hij, ?_, h2⟩
    show smartPayload E _ p _ = _
    exact (C54_first_success E _ p _ pl).mpr (.inl ⟨0, hn, by intro n' hn'; omega⟩)
  · intro ep hn
    refine .inr ⟨hne, ip, ij, pl, rest, rfl, hi, hks, hk, hij, ?_, h2⟩
    show some (simplePayload (E.http p 0 ep _)) = _
    rw [hn]
    rfl

/-! ## A resolver in the federation of C119

`t` runs a resolver. Somebody uses it, as the only one, to find issuers of trust marks. -/

namespace ExRel
open ExS ExTM
open ExO (signer pub jwt)

theorem servedPublished (numJ : Jws → Nat) (msgOf : Nat → Jws) (ser : Jws → String) (read : Jws → Option Stmt) (id : ID) (lp : ESPayload)
    (h : id = "l" ∧ lp = lCfg ser ∨ id = "i" ∧ lp = iCfg) : ServedPublished exCrypto (X numJ) signer read (W ser msgOf read) id lp where
  served := by
    intro s hs
    obtain ⟨p, hp, hr⟩ := served msgOf ser read id s hs
    rcases hp with rfl | rfl | rfl | rfl | rfl
    · exact ⟨_, _, p_lCfg numJ ser, hr⟩
    · exact ⟨_, _, p_iCfg numJ, hr⟩
    · exact ⟨_, _, p_il numJ, hr⟩
    · exact ⟨_, _, p_tCfg numJ, hr⟩
    · exact ⟨_, _, p_ti numJ, hr⟩
  entity := by
    rcases h with ⟨rfl, rfl⟩ | ⟨rfl, rfl⟩
    · exact ⟨_, p_lCfg numJ ser, rfl⟩
    · exact ⟨_, p_iCfg numJ, rfl⟩

/-- The signer of the resolver always signs. -/
theorem signs : ∀ typ p, exCrypto.sign (signer "t").alg 3 typ (exCrypto.thumb (exCrypto.pub 3)) p ≠ none := by
  intro typ p h
  cases h

section
variable (numJ : Jws → Nat) (msgOf : Nat → Jws) (h : ∀ j, msgOf (numJ j) = j) (ser : Jws → String) (P : String → Option Jws) (hP : ∀ j, P (ser j) = some j)
  (num : String → Nat) (hN : Numbered P num msgOf)
include h hP hN

/-- C125: the resolver answers for `l`, and the answer has the mark. -/
theorem answers_l (hd : dJwt ser ≠ "") : ∃ r body pl, localPayload (E numJ msgOf ser P num) (Default.loc.resolve (E numJ msgOf ser P num) 1) [] ⟨"l", ["t"], []⟩ = some (.ok r) ∧
    RespondsWith exCrypto (signer "t") (X numJ) P ser r body ∧ simplePayload (resolveAnswer P (X numJ).opq (X numJ).N (X numJ).num (some ⟨200, "", body⟩)) = .ok pl ∧
    SameFindings (X numJ).N r pl ∧ pl.chain ≠ [] ∧ pl.marks.map (fun i => (i.type, i.jwt)) = [("tm", tmJwt ser)] := by
  obtain ⟨r, h1, h2⟩ := mark_reported numJ msgOf h ser P hP num hN hd
  obtain ⟨_, j, _, _, h3⟩ := C125_can_respond_partial exCrypto (signer "t") 3 rfl signs (X numJ) pub msgOf K (J ser) (faithful numJ msgOf h ser) P ser hP signer
    (E numJ msgOf ser P num) _ [] ⟨"l", ["t"], []⟩ (lCfg ser) (servedPublished numJ msgOf ser _ "l" _ (.inl ⟨rfl, rfl⟩)) r h1 "t" "" 1700000000000000000 1700003600000000000
    (by unfold TimeOk; decide) (by unfold TimeOk; decide)
  obtain ⟨pl, c, leaf, top, g1, g2, g3, g4, g5, _, _, g6, _⟩ := C125_resolver_partial exCrypto (signer "t") (X numJ) (faithful numJ msgOf h ser).maps P ser hP
    (E numJ msgOf ser P num) .loc 1 [] ⟨"l", ["t"], []⟩ r
    (by intro s i hi m hm; rw [(readsClaims numJ msgOf ser P num).fresh s i hi] at hm; cases hm) h1 (ser j) h3 200 "" (by decide)
  refine ⟨r, ser j, pl, h1, h3, g6, g1, ?_, g1.marks.trans h2⟩
  rw [g5]
  cases c with
  | nil => cases g3
  | cons _ _ => simp

/-- The resolver answers for `i`. -/
theorem answers_i : ∃ body, RespondsFor exCrypto (signer "t") (X numJ) P ser ⟨"i", ["t"], []⟩ (jwt iCfg) body := by
  obtain ⟨r, h1, _⟩ := C119_resolved_partial exCrypto exScheme (X numJ) pub msgOf P ser hP num hN signer K (J ser) (faithful numJ msgOf h ser) (E numJ msgOf ser P num) rfl rfl
    (fun _ => rfl) (readsClaims ..) [(tCfg, jwt tCfg)] (anchors numJ msgOf ser P num) [] [] iCfg (jwt iCfg) [at'] at' (resolves_i numJ msgOf h ser P hP num [])
    (by
      intro k hk
      change k ∈ [pub 3, pub 2] at hk
      simp only [List.mem_cons, List.not_mem_nil, or_false] at hk
      rcases hk with rfl | rfl <;> simp [K])
    (by
      intro j hj
      change j ∈ [jwt iCfg, jwt tCfg, jwt ti] at hj
      simp only [List.mem_cons, List.not_mem_nil, or_false] at hj
      rcases hj with rfl | rfl | rfl <;> simp [J])
    (by intro t ht k x hx; cases List.mem_singleton.mp ht; cases hx) 0
  obtain ⟨_, j, _, _, h3⟩ := C125_can_respond_partial exCrypto (signer "t") 3 rfl signs (X numJ) pub msgOf K (J ser) (faithful numJ msgOf h ser) P ser hP signer
    (E numJ msgOf ser P num) _ [] ⟨"i", ["t"], []⟩ iCfg (servedPublished numJ msgOf ser _ "i" _ (.inr ⟨rfl, rfl⟩)) r h1 "t" "" 1700000000000000000 1700003600000000000
    (by unfold TimeOk; decide) (by unfold TimeOk; decide)
  exact ⟨ser j, _, _, _, r, h1, rfl, h3⟩

/-- Somebody who uses the resolver to find issuers; the answer is the same for all requests. -/
def client (body : String) : Env :=
  { E numJ msgOf ser P num with http := fun _ _ _ _ => resolveAnswer P (X numJ).opq (X numJ).N (X numJ).num (some ⟨200, "", body⟩) }

/-- C126: they see the mark of `l`. -/
theorem mark_seen (hd : dJwt ser ≠ "") : ∃ body r,
    localPayload (client numJ msgOf ser P num body) ((Default.simple "t/resolve").resolve (client numJ msgOf ser P num body) 1) [] ⟨"l", ["t"], []⟩ = some (.ok r) ∧
      r.marks.map (fun i => (i.type, i.jwt)) = [("tm", tmJwt ser)] := by
  obtain ⟨body, hb⟩ := answers_i numJ msgOf h ser P hP num hN
  refine ⟨body, ?_⟩
  have hrc := readsClaims numJ msgOf ser P num
  refine C126_resolved_partial exCrypto exScheme (X numJ) pub msgOf P ser hP num hN signer K (J ser) (faithful numJ msgOf h ser) (client numJ msgOf ser P num body) rfl rfl (fun _ => rfl)
    ⟨hrc.fresh, hrc.claims, hrc.parse⟩ [(tCfg, jwt tCfg)] (by
      have ha := anchors numJ msgOf ser P num
      exact ⟨ha.published, ha.own, ha.jwts, ha.keys, ha.serves⟩) [] [] (lCfg ser) (jwt (lCfg ser)) [ai, at'] at'
    ⟨operated_l .., complies (lCfg ser) ⟨rfl, rfl⟩ _ (.inl rfl) rfl "" rfl numJ, (show "l" ≠ "" by decide), rfl, finishes numJ msgOf h ser P hP "l" (.inl rfl)⟩ ?_ ?_ (.simple "t/resolve") 1 ?_
  · intro k hk
    change k ∈ [pub 2, pub 1, pub 3, pub 2] at hk
    simp only [List.mem_cons, List.not_mem_nil, or_false] at hk
    rcases hk with rfl | rfl | rfl | rfl <;> simp [K]
  · intro j hj
    change j ∈ [jwt (lCfg ser), jwt iCfg, jwt il, jwt tCfg, jwt ti] at hj
    exact hj
  · intro t ht k x hx
    cases List.mem_singleton.mp ht
    match k with
    | k+1 => cases hx
    | 0 =>
      cases hx
      refine ⟨issuer ser, spec ser, t0, "l", [], 3600 * second, info ser, good_issued ser, rfl, good_allowed ser, ?_, good_owner ser hd⟩
      exact (C126_found_by_resolver_partial exCrypto (signer "t") (X numJ) pub msgOf P ser hP signer K (J ser) (faithful numJ msgOf h ser) (client numJ msgOf ser P num body) tCfg [0]
        iCfg (jwt iCfg) (p_iCfg numJ) (by simp [J]) (show "i" ≠ "t" by decide) ⟨_, rfl, rfl⟩
        (by intro k hk; change k ∈ [pub 2] at hk; simp [K, List.mem_singleton.mp hk]) body hb 200 "" (by decide) 0).2 "t/resolve" rfl

end

/-- There are such ways to number and to write JWTs. -/
example : ∃ numJ msgOf ser P num body r,
    localPayload (client numJ msgOf ser P num body) ((Default.simple "t/resolve").resolve (client numJ msgOf ser P num body) 1) [] ⟨"l", ["t"], []⟩ = some (.ok r) ∧
      r.marks.map (fun i => (i.type, i.jwt)) = [("tm", tmJwt ser)] := by
  have : Nonempty Jws := ⟨⟨[], []⟩⟩
  obtain ⟨numJ, msgOf, h⟩ := numbering Jws
  obtain ⟨ser, P, num, hP, hne, hN⟩ := serialization numJ msgOf h
  obtain ⟨body, r, hr⟩ := mark_seen numJ msgOf h ser P hP num hN (hne _)
  exact ⟨numJ, msgOf, ser, P, num, body, r, hr⟩

end ExRel

end Oidfed
