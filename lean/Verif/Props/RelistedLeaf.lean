import Verif.Spec.RelistedLeaf
import Verif.Props.RelistedChain
import Verif.Props.Kept
/-!
# C175: the order in which an entity lists the values of an attribute does not matter
-/

namespace Oidfed
open Spec

theorem mergeEntries_oneOf {a b m : Entry} (h : mergeEntries a b = .ok m) {x : Val} (hx : ∃ v, AMap.get m "one_of" = some v ∧ x ∈ v.elems) :
    (∃ v, AMap.get a "one_of" = some v ∧ x ∈ v.elems) ∨ ∃ v, AMap.get b "one_of" = some v ∧ x ∈ v.elems := by
  unfold mergeEntries at h
  obtain ⟨r, hr, h⟩ := bind_ok h
  obtain ⟨v, h2, h3⟩ := hx
  cases r with
  | none => cases h; cases h2
  | some out =>
    dsimp only at h
    cases h
    obtain ⟨res, e, hg⟩ := mergeLoop_some hr
    rw [List.nil_append] at e
    subst e
    rw [get_append, get_filter b (fun k => (AMap.get out k).isNone), hg "one_of"] at h2
    cases ha : a.get "one_of" with
    | none =>
      rw [ha] at h2
      have : AMap.get b "one_of" = some v := by simpa using h2
      exact .inr ⟨v, this, h3⟩
    | some va =>
      rw [ha] at h2
      cases hb : b.get "one_of" with
      | none =>
        rw [hb] at h2
        have : va = v := by simpa [mergedVal] using h2
        exact .inl ⟨va, rfl, this ▸ h3⟩
      | some vb =>
        obtain ⟨o, z, ho, hz⟩ := mergeLoop_ops hr "one_of" va vb (get_mem ha) hb
        rw [hb] at h2
        have : z = v := by simpa [mergedVal, ho, hz] using h2
        subst this
        cases operators_oneOf ho
        obtain ⟨k1, k2⟩ := mergeIntersect_ok hz
        by_cases hn : va = .nil
        · by_cases hn' : vb = .nil
          · subst hn; subst hn'
            have hz : mergeIntersect .nil .nil = .ok z := hz
            cases hz
            cases h3
          · exact .inr ⟨vb, rfl, (k2 hn').2 x h3⟩
        · exact .inl ⟨va, rfl, (k1 hn).2 x h3⟩

theorem fold_oneOf {x : Val} : ∀ {es : List Entry} {acc : Option Entry} {e : Entry}, es.foldl (fun acc e => mergedEntry acc (some e)) acc = some e →
    (∃ v, AMap.get e "one_of" = some v ∧ x ∈ v.elems) →
    (∃ a, acc = some a ∧ ∃ v, AMap.get a "one_of" = some v ∧ x ∈ v.elems) ∨ ∃ e' ∈ es, ∃ v, AMap.get e' "one_of" = some v ∧ x ∈ v.elems := by
  intro es
  induction es with
  | nil => intro acc e h hx; exact .inl ⟨e, h, hx⟩
  | cons d es ih =>
    intro acc e h hx
    rw [List.foldl_cons] at h
    rcases ih h hx with ⟨m, hm, hmx⟩ | ⟨e', he', hx'⟩
    · cases acc with
      | none =>
        cases hm
        exact .inr ⟨_, List.mem_cons_self, hmx⟩
      | some a =>
        simp only [mergedEntry] at hm
        split at hm
        · rename_i z hz
          cases hm
          rcases mergeEntries_oneOf hz hmx with h | h
          · exact .inl ⟨a, rfl, h⟩
          · exact .inr ⟨d, List.mem_cons_self, h⟩
        · cases hm
    · exact .inr ⟨e', List.mem_cons_of_mem _ he', hx'⟩

/-- Combining brings no lists into a `one_of`. -/
theorem combineAll_flat {ps : List Policy} (hf : ∀ p ∈ ps, FlatOneOf p) {m : Policy} (h : combineAll ps = .ok m) : FlatOneOf m := by
  intro k e s he hs x hx
  rw [combineAll_get k h] at he
  rcases fold_oneOf he ⟨s, hs, hx⟩ with ⟨_, h', _⟩ | ⟨e', he', v, hv, hxv⟩
  · cases h'
  · obtain ⟨p, hp, hpe⟩ := List.mem_filterMap.mp he'
    exact hf p hp k e' v hpe hv x hxv

theorem relEntry_refl (a : Entry) : RelEntry a a := by
  intro op
  cases AMap.get a op with
  | none => exact .none
  | some v => exact .some (.inl rfl)

theorem sameField_attribute {f g : Field} (h : SameField f g) : SameAttribute f g := ⟨h.1, h.2.1, h.2.2.1, .inl h.2.2.2⟩

theorem sameFields_attributes {ws : List String} {fs gs : List Field} (h : Each (fun f g => SameField f g ∧ (f.name ∉ ws → g.val = f.val)) fs gs) : Each SameAttribute fs gs := by
  induction h with
  | nil => exact .nil
  | cons h _ ih => exact .cons (sameField_attribute h.1) ih

theorem setField_ty {f g : Field} (hn : g.name = f.name) (ht : g.tag = f.tag) (hy : g.ty = f.ty) {v : Val} {g1 : Field} (h : setField f v = .ok g1) : setField g v = .ok g1 := by
  unfold setField at h ⊢
  rw [hy]
  split at h
  · cases h; simp only [hn, ht, hy]
  · split at h
    · rename_i h1
      cases h
      rw [if_pos h1]
      simp only [hn, ht, hy]
    · cases h

theorem applyField_leaf {p : Policy} (hf : FlatOneOf p) {ws : List String} {f g f1 : Field} (hfg : SameField f g) (hu : f.name ∉ ws → g.val = f.val) (hr : applyField p ws f = .ok f1) :
    ∃ g1, applyField p ws g = .ok g1 ∧ SameAttribute f1 g1 ∧ (f.ty = .obj → f.val.isSlice = false → g1.val = f1.val) := by
  obtain ⟨hn, ht, hy, hv⟩ := hfg
  unfold applyField at hr ⊢
  rw [ht, hn]
  cases hp : AMap.get p f.tag with
  | none =>
    rw [hp] at hr
    cases hr
    refine ⟨g, rfl, ⟨hn, ht, hy, .inl hv⟩, fun _ hs => ?_⟩
    rcases hv with h | ⟨e, n, n', xs, ys, h, _, _⟩
    · exact h
    · rw [h] at hs; cases hs
  | some a =>
    rw [hp] at hr
    simp only at hr ⊢
    obtain ⟨v, hav, hr⟩ := bind_ok hr
    have key : ∃ w, Entry.applyTo a g.val (ws.contains f.name) = .ok w ∧ SameValue v w := by
      unfold Entry.applyTo Entry.applyCur at hav ⊢
      cases hl : applyLoop a a.essential operatorOrder ⟨f.val, ws.contains f.name⟩ with
      | error e => rw [hl] at hav; cases hav
      | ok r =>
        rw [hl] at hav
        cases hav
        have hc : SameCur ⟨f.val, ws.contains f.name⟩ ⟨g.val, ws.contains f.name⟩ := by
          refine ⟨rfl, hv, fun h => hu ?_⟩
          intro hm
          rw [show ws.contains f.name = true from List.contains_iff_mem.mpr hm] at h
          cases h
        obtain ⟨s, hs, hc⟩ := applyLoop_rel (relEntry_refl a) (fun s hs => hf f.tag a s hp hs) hc hl
        refine ⟨s.v, ?_, hc.val⟩
        rw [hs]
        rfl
    obtain ⟨w, hw, hs⟩ := key
    have hj : SameValue (scopeJoin f.name v) (scopeJoin f.name w) ∨
        (f.name = "Scope" ∧ ∃ xs ys, SameSet xs ys ∧ scopeJoin f.name v = .str (joinScope xs) ∧ scopeJoin f.name w = .str (joinScope ys)) := by
      rcases hs with rfl | ⟨e, n, n', xs, ys, rfl, rfl, hxy⟩
      · exact .inl (.inl rfl)
      · cases e with
        | str =>
          by_cases hn : f.name = "Scope"
          · exact .inr ⟨hn, xs, ys, hxy, by simp [scopeJoin, hn], by simp [scopeJoin, hn]⟩
          · refine .inl (.inr ⟨.str, n, n', xs, ys, ?_, ?_, hxy⟩) <;> simp [scopeJoin, hn]
        | _ => exact .inl (.inr ⟨_, n, n', xs, ys, rfl, rfl, hxy⟩)
    obtain ⟨f2, h2, h3, h4⟩ := setField_rel hj hr
    refine ⟨f2, ?_, h3, fun ho _ => by rw [h4 ho]⟩
    rw [hw]
    exact setField_ty hn ht hy h2

theorem applyFields_leaf {p : Policy} (hf : FlatOneOf p) {ws : List String} : ∀ {fs gs r : List Field}, Each (fun f g => SameField f g ∧ (f.name ∉ ws → g.val = f.val)) fs gs →
    applyFields p ws fs = .ok r → ∃ s, applyFields p ws gs = .ok s ∧ Each SameAttribute r s ∧
      ((∀ f ∈ fs, f.tag = "-" → f.ty = .obj ∧ f.val.isSlice = false) → extraMap s = extraMap r ∧ extraMap gs = extraMap fs) := by
  intro fs gs r he
  induction he generalizing r with
  | nil => intro hr; cases hr; exact ⟨[], rfl, .nil, fun _ => ⟨rfl, rfl⟩⟩
  | cons hfg _ ih =>
    rename_i f g fs gs _
    intro hr
    rw [applyFields] at hr
    obtain ⟨f1, h1, hr⟩ := bind_ok hr
    obtain ⟨r1, h2, hr⟩ := bind_ok hr
    cases hr
    obtain ⟨f2, h3, h4, h5⟩ := applyField_leaf hf hfg.1 hfg.2 h1
    obtain ⟨s1, h6, h7, h8⟩ := ih h2
    refine ⟨f2 :: s1, ?_, .cons h4 h7, ?_⟩
    · rw [applyFields, h3]
      show (applyFields p ws gs >>= _) = _
      rw [h6]
      rfl
    · intro ht
      have htag : f1.tag = f.tag := by
        rcases applyField_ok h1 with ⟨_, rfl⟩ | ⟨_, _, _, _, _, h, _⟩
        · rfl
        · exact h
      obtain ⟨k1, k2⟩ := h8 fun g hg => ht g (List.mem_cons_of_mem _ hg)
      unfold extraMap at k1 k2 ⊢
      rw [List.find?_cons, List.find?_cons, List.find?_cons, List.find?_cons, h4.tag, htag, hfg.1.2.1]
      cases hb : f.tag == "-" with
      | true =>
        obtain ⟨ho, hsl⟩ := ht f List.mem_cons_self (by simpa using hb)
        refine ⟨congrArg some (h5 ho hsl), congrArg some ?_⟩
        rcases hfg.1.2.2.2 with h | ⟨e, n, n', xs, ys, h, _, _⟩
        · exact h
        · rw [h] at hsl; cases hsl
      | false => exact ⟨k1, k2⟩

/-- **C175** for one entity type: if a policy can be applied to metadata, it can be applied to metadata that lists the same values in another order, and the results have the same
values. -/
theorem C175_entity (p : Policy) (hf : FlatOneOf p) (em em' : EntityMeta) (h : RelistedMeta em em') (hx : ∀ f ∈ em.fields, f.tag = "-" → f.ty = .obj ∧ f.val.isSlice = false)
    (r : EntityMeta) (hr : em.apply p = .ok r) : ∃ s, em'.apply p = .ok s ∧ Each SameAttribute r.fields s.fields ∧ s.wasSet = r.wasSet ∧ s.extra = r.extra := by
  obtain ⟨he, hw, hex⟩ := h
  unfold EntityMeta.apply at hr ⊢
  obtain ⟨fs, h1, hr⟩ := bind_ok hr
  cases hr
  obtain ⟨gs, h2, h3, h4⟩ := applyFields_leaf hf he h1
  obtain ⟨h5, h6⟩ := h4 hx
  rw [hw, h2]
  refine ⟨_, rfl, h3, rfl, ?_⟩
  show (if extraMap gs = extraMap em'.fields then em'.extra else []) = if extraMap fs = extraMap em.fields then em.extra else []
  rw [h5, h6, hex]

theorem applyKnown_leaf {m m' : Metadata} {p : Policies} (h : ∀ t em em', m.known t = some em → m'.known t = some em' → (∃ r, em.apply (p.known t) = .ok r) → ∃ s, em'.apply (p.known t) = .ok s)
    (hs : ∀ t, (m.known t).isSome = (m'.known t).isSome) : ∀ {ts : List EType} {r : EType → Option EntityMeta}, applyKnown m p ts = .ok r → ∃ s, applyKnown m' p ts = .ok s := by
  intro ts
  induction ts with
  | nil => intro r _; exact ⟨_, rfl⟩
  | cons t ts ih =>
    intro r hr
    rw [applyKnown] at hr ⊢
    have hst := hs t
    cases hm : m.known t with
    | none =>
      rw [hm] at hr hst
      cases hm' : m'.known t with
      | some _ => rw [hm'] at hst; cases hst
      | none =>
        obtain ⟨r1, h1, _⟩ := bind_ok hr
        obtain ⟨s1, h2⟩ := ih h1
        simp only
        rw [h2]
        exact ⟨_, rfl⟩
    | some em =>
      rw [hm] at hr hst
      cases hm' : m'.known t with
      | none => rw [hm'] at hst; cases hst
      | some em' =>
        obtain ⟨e1, h0, hr⟩ := bind_ok hr
        obtain ⟨r1, h1, _⟩ := bind_ok hr
        obtain ⟨s1, h2⟩ := ih h1
        obtain ⟨e2, h3⟩ := h t em em' hm hm' ⟨e1, h0⟩
        simp only
        rw [h3]
        show ∃ s, (applyKnown m' p ts >>= _) = .ok s
        rw [h2]
        exact ⟨_, rfl⟩

/-- **C175**: whatever order a leaf lists the values of its attributes in, and whether or not it repeats some, its metadata resolves alike over a chain, and to the same values. -/
theorem C175_chain (a a' : Stmt) (c : Chain) (md md' : Metadata) (hm : a.metadata = some md) (hm' : a'.metadata = some md') (h : RelistedLeaf md md') (hp : a'.policy = a.policy)
    (hc : a'.policyCrit = a.policyCrit) (hf : PlainOneOf (a :: c)) (hx : ExtraIsMap md) :
    ∀ m, chainMetadata (a :: c) = .ok (some m) → ∃ m', chainMetadata (a' :: c) = .ok (some m') ∧ SameUpToOrder m m' := by
  obtain ⟨hk, hex⟩ := h
  cases c with
  | nil =>
    intro m hr
    have hr : Except.ok a.metadata = .ok (some m) := hr
    rw [hm] at hr
    cases hr
    refine ⟨md', by show Except.ok a'.metadata = _; rw [hm'], fun t => ?_, hex⟩
    have := hk t
    generalize md.known t = x at this
    generalize md'.known t = y at this
    cases this with
    | none => exact .none
    | some hr =>
      exact .some ⟨sameFields_attributes hr.1, hr.2.1, hr.2.2⟩
  | cons b c =>
    intro m hr
    obtain ⟨p, m0, hmd, hpol, ha⟩ := chainMetadata_ok hr
    cases hmd
    have hcr : critOk (a' :: b :: c) = critOk (a :: b :: c) := by
      simp only [critOk, List.all_cons, hc]
    have hco : critOk (a :: b :: c) = true := by
      unfold chainMetadata at hr
      dsimp only at hr
      split at hr
      · cases hr
      · rename_i hn; simpa using hn
    have hmp : mergePolicies ((a' :: b :: c).map Stmt.policy) = .ok p := by
      rw [List.map_cons, hp, ← List.map_cons]
      exact hpol
    have flat : ∀ t, FlatOneOf (p.known t) := by
      intro t
      refine combineAll_flat ?_ (mergePolicies_ok hpol t)
      intro q hq
      simp only [List.mem_map, List.mem_filterMap] at hq
      obtain ⟨P, ⟨o, ⟨s, hs, rfl⟩, ho⟩, rfl⟩ := hq
      exact hf s hs P ho t
    rw [hm] at ha
    have ha : md.applyPolicy (some p) = .ok m := ha
    have ha0 := ha
    unfold Metadata.applyPolicy at ha0
    obtain ⟨r, hr1, ha0⟩ := bind_ok ha0
    obtain ⟨y, hy, ha0⟩ := bind_ok ha0
    have rel : ∀ t em em', md.known t = some em → md'.known t = some em' → RelistedMeta em em' := by
      intro t em em' h1 h2
      have := hk t
      rw [h1, h2] at this
      cases this with
      | some h => exact h
    have some_iff : ∀ t, (md.known t).isSome = (md'.known t).isSome := by
      intro t
      have := hk t
      generalize md.known t = x at this
      generalize md'.known t = y at this
      cases this <;> rfl
    obtain ⟨s, hs⟩ := applyKnown_leaf (m' := md') (fun t em em' h1 h2 hex => by
      obtain ⟨r, hr⟩ := hex
      obtain ⟨s, hs, _⟩ := C175_entity (p.known t) (flat t) em em' (rel t em em' h1 h2) (hx t em h1) r hr
      exact ⟨s, hs⟩) some_iff hr1
    have ha' : ∃ m', md'.applyPolicy (some p) = .ok m' ∧ m'.extra = m.extra := by
      unfold Metadata.applyPolicy
      show ∃ m', (applyKnown _ _ _ >>= _) = _ ∧ _
      rw [hs]
      show ∃ m', (applyExtra p.extra (md'.extra.getD []) >>= _) = _ ∧ _
      rw [hex, hy]
      cases ha0
      exact ⟨_, rfl, rfl⟩
    obtain ⟨m', ha', hex'⟩ := ha'
    refine ⟨m', ?_, fun t => ?_, hex'⟩
    · unfold chainMetadata
      simp only
      rw [hcr, hco, hmp, hm']
      show (md'.applyPolicy (some p) >>= _) = _
      rw [ha']
      rfl
    · obtain ⟨h1, _⟩ := applyPolicy_ok ha
      obtain ⟨h2, _⟩ := applyPolicy_ok ha'
      cases hem : md.known t with
      | none =>
        have : md'.known t = none := by
          have := some_iff t
          rw [hem] at this
          cases h : md'.known t with
          | none => rfl
          | some _ => rw [h] at this; cases this
        rw [(h1 t).1 hem, (h2 t).1 this]
        exact .none
      | some em =>
        cases hem' : md'.known t with
        | none => have := some_iff t; rw [hem, hem'] at this; cases this
        | some em' =>
          obtain ⟨e1, g1, g2⟩ := (h1 t).2 em hem
          obtain ⟨e2, g3, g4⟩ := (h2 t).2 em' hem'
          rw [g2, g4]
          obtain ⟨s, k1, k2⟩ := C175_entity (p.known t) (flat t) em em' (rel t em em' hem hem') (hx t em hem) e1 g1
          cases k1.symm.trans g3
          exact .some k2

/-- A superior's policy with a `one_of`. -/
def Ex.leafSup : Policy := [("contacts", [("add", jl ["c"]), ("superset_of", jl ["b"])]), ("client_name", [("one_of", jl ["n"])])]
def Ex.listing (contacts : List String) : Stmt := { Ex.leafEC with metadata := some (ExOP.md contacts) }
def Ex.listingSup : Chain := [Ex.mk "i" "l" (some [1]) 2, { Ex.mk "t" "i" (some [2]) 3 with policy := ExOP.pol Ex.leafSup }, Ex.tEC]

/-- A leaf that lists its contacts in two ways, one of them with a repetition. -/
example : RelistedLeaf (ExOP.md ["x", "b"]) (ExOP.md ["b", "x", "b"]) ∧ PlainOneOf (Ex.listing ["x", "b"] :: Ex.listingSup) ∧ ExtraIsMap (ExOP.md ["x", "b"]) ∧
    ExOP.fields (Ex.listing ["x", "b"] :: Ex.listingSup) = some [("client_name", .str ""), ("contacts", sl ["x", "b", "c"])] ∧
    ExOP.fields (Ex.listing ["b", "x", "b"] :: Ex.listingSup) = some [("client_name", .str ""), ("contacts", sl ["b", "x", "b", "c"])] := by
  refine ⟨⟨fun t => ?_, rfl⟩, ?_, ?_, rfl, rfl⟩
  · by_cases h : t = .rp
    · subst h
      refine .some ⟨.cons ⟨⟨rfl, rfl, rfl, .inl rfl⟩, fun _ => rfl⟩ (.cons ⟨⟨rfl, rfl, rfl, .inr ⟨.str, false, false, _, _, rfl, rfl, fun x => ?_⟩⟩, fun h => absurd List.mem_cons_self h⟩ .nil), rfl, rfl⟩
      simp only [List.map_cons, List.map_nil, List.mem_cons, List.not_mem_nil, or_false]
      constructor
      · rintro (h | h)
        · exact .inr (.inl h)
        · exact .inl h
      · rintro (h | h | h)
        · exact .inr h
        · exact .inl h
        · exact .inr h
    · simp only [ExOP.md, if_neg h]
      exact .none
  · intro s hs P hP t k e o hk ho v hv
    simp only [Ex.listingSup, List.mem_cons, List.not_mem_nil, or_false] at hs
    rcases hs with rfl | rfl | rfl | rfl
    · cases hP
    · cases hP
    · cases hP
      by_cases h : t = .rp
      · subst h
        have hm : (k, e) ∈ Ex.leafSup := get_mem hk
        simp only [Ex.leafSup, List.mem_cons, List.not_mem_nil, or_false, Prod.mk.injEq] at hm
        rcases hm with ⟨_, rfl⟩ | ⟨_, rfl⟩
        · cases ho
        · cases ho
          simp only [jl, Val.elems, List.map_cons, List.map_nil, List.mem_cons, List.not_mem_nil, or_false] at hv
          subst hv
          rfl
      · simp only [if_neg h] at hk
        cases hk
    · cases hP
  · intro t em hem f hf ht
    by_cases h : t = .rp
    · subst h
      cases hem
      simp only [List.mem_cons, List.not_mem_nil, or_false] at hf
      rcases hf with rfl | rfl <;> simp at ht
    · simp only [ExOP.md, if_neg h] at hem
      cases hem

/-- With lists among the values of a `one_of` (only a policy built in Go can have a matching one) the order would matter. -/
example : (∃ r, Ex.orderMeta.apply [("contacts", [("one_of", .slice .any false [sl ["a", "b"]])])] = .ok r) ∧
    (⟨[⟨"Contacts", "contacts", .slice .str, sl ["b", "a"]⟩, ⟨"ClientName", "client_name", .str, .str "n"⟩], ["Contacts", "ClientName"], []⟩ : EntityMeta).apply
      [("contacts", [("one_of", .slice .any false [sl ["a", "b"]])])] = .error .error := ⟨⟨_, rfl⟩, rfl⟩

end Oidfed
