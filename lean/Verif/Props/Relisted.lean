import Verif.Lemmas.Relisted
import Verif.Props.AnyOrder
import Verif.Examples.Federation
/-!
# C174: neither the order of the elements in a policy nor the order of the policies matters for the metadata
-/

namespace Oidfed
open Spec

theorem entityMeta_relisted {p q : Policy} (h : Relisted p q) (hf : FlatOneOf p) {em r : EntityMeta} (hr : em.apply p = .ok r) :
    ∃ s, em.apply q = .ok s ∧ Each SameAttribute r.fields s.fields ∧ s.wasSet = r.wasSet ∧ ((∀ f ∈ em.fields, f.tag = "-" → f.ty = .obj) → s.extra = r.extra) := by
  unfold EntityMeta.apply at hr ⊢
  obtain ⟨fs, h1, hr⟩ := bind_ok hr
  cases hr
  obtain ⟨gs, h2, h3, h4⟩ := applyFields_rel h hf h1
  rw [h2]
  refine ⟨_, rfl, h3, rfl, fun ht => ?_⟩
  show (if extraMap gs = extraMap em.fields then em.extra else []) = if extraMap fs = extraMap em.fields then em.extra else []
  rw [h4 ht]

/-- **C174** (order of elements): two policies with the same operators, whose operands are the same up to the order and number of the elements of lists, can be applied to the same
metadata, and give the same attributes up to the order and number of the elements of lists. -/
theorem C174_relisted (p q : Policy) (h : Relisted p q) (hf : FlatOneOf p) (em : EntityMeta) :
    ((∃ r, em.apply p = .ok r) ↔ ∃ s, em.apply q = .ok s) ∧
    ∀ r s, em.apply p = .ok r → em.apply q = .ok s →
      Each SameAttribute r.fields s.fields ∧ s.wasSet = r.wasSet ∧ ((∀ f ∈ em.fields, f.tag = "-" → f.ty = .obj) → s.extra = r.extra) := by
  refine ⟨⟨?_, ?_⟩, ?_⟩
  · rintro ⟨r, hr⟩
    obtain ⟨s, hs, _⟩ := entityMeta_relisted h hf hr
    exact ⟨s, hs⟩
  · rintro ⟨s, hs⟩
    obtain ⟨r, hr, _⟩ := entityMeta_relisted (relisted_symm h) (flatOneOf_rel h hf) hs
    exact ⟨r, hr⟩
  · intro r s hr hs
    obtain ⟨s', hs', h'⟩ := entityMeta_relisted h hf hr
    cases hs'.symm.trans hs
    exact h'

theorem val_get {p : Policy} {k : String} {op : OpName} {v : Val} (h : p.val k op = some v) : ∃ e, AMap.get p k = some e ∧ AMap.get e op = some v := by
  unfold Policy.val at h
  cases he : AMap.get p k with
  | none => rw [he] at h; cases h
  | some e => rw [he] at h; exact ⟨e, rfl, h⟩

theorem relisted_of_same {ps : List Policy} (hk : SameKinds ps) {m m' : Policy} (hm : OrdPolicy m) (hm' : OrdPolicy m') (hs : SamePolicy m m')
    (ho : ∀ k op v, (op = "value" ∨ op = "default") → m.val k op = some v → ∃ p ∈ ps, p.val k op = some v)
    (ho' : ∀ k op v, (op = "value" ∨ op = "default") → m'.val k op = some v → ∃ p ∈ ps, p.val k op = some v) : Relisted m m' := by
  intro k
  cases ha : AMap.get m k with
  | none =>
    cases hb : AMap.get m' k with
    | none => exact .none
    | some b => have := (hs k).1; rw [ha, hb] at this; cases this
  | some a =>
    cases hb : AMap.get m' k with
    | none => have := (hs k).1; rw [ha, hb] at this; cases this
    | some b =>
      refine .some fun op => ?_
      have hop := (sameEntry_iff a b).mp ((hs k).2 a b ha hb) op
      cases hx : AMap.get a op with
      | none =>
        cases hy : AMap.get b op with
        | none => exact .none
        | some y => simp [SameOpt, hx, hy] at hop
      | some x =>
        cases hy : AMap.get b op with
        | none => simp [SameOpt, hx, hy] at hop
        | some y =>
          have hsv : SameVal x y := by simpa [SameOpt, hx, hy] using hop
          refine .some (sameVal_kind hsv fun nx ny => ?_)
          obtain ⟨o, h1, ox⟩ := hm.ord k op x (by rw [val_some ha]; exact hx)
          obtain ⟨o', h2, oy⟩ := hm'.ord k op y (by rw [val_some hb]; exact hy)
          cases h1.symm.trans h2
          have stated : (op = "value" ∨ op = "default") → ((∃ n xs, x = .slice .any n xs) ∧ ∃ n ys, y = .slice .any n ys) ∨ (x.isSlice = false ∧ y.isSlice = false) := by
            intro hop
            obtain ⟨p, hp, hpx⟩ := ho k op x hop (by rw [val_some ha]; exact hx)
            obtain ⟨q, hq, hqy⟩ := ho' k op y hop (by rw [val_some hb]; exact hy)
            obtain ⟨e, he, hex⟩ := val_get hpx
            obtain ⟨e', he', hey⟩ := val_get hqy
            exact hk p hp q hq k e e' op x y he he' hop hex hey nx ny
          have hkn : Known op := (hm.entries k a ha).2 op ⟨x, hx⟩
          unfold Known at hkn
          rcases hkn with rfl | rfl | rfl | rfl | rfl | rfl | rfl <;> cases h1
          · exact stated (.inl rfl)
          · exact .inl ⟨ox, oy⟩
          · exact stated (.inr rfl)
          · exact .inl ⟨ox, oy⟩
          · exact .inl ⟨ox, oy⟩
          · exact .inl ⟨ox, oy⟩
          · obtain ⟨_, rfl⟩ := ox
            obtain ⟨_, rfl⟩ := oy
            exact .inr ⟨rfl, rfl⟩

/-- **C174** (order of policies, part): for the policies of the superiors taken in another order, the combined policy exists alike, applies alike, and gives the same attributes up to
the order and number of the elements of lists. Missing: policies that are not ordinary (see C21), a `one_of` with lists as elements, and a `value` or `default` that one superior
states as an array and another as a single value (`C174_order_refuted`). -/
theorem C174_order_partial (ps qs : List Policy) (hp : ps.Perm qs) (hps : ∀ p ∈ ps, OrdinaryPolicy p) (hf : ∀ p ∈ ps, FlatOneOf p) (hk : SameKinds ps) (em : EntityMeta) :
    ((∃ m r, combineAll ps = .ok m ∧ em.apply m = .ok r) ↔ ∃ m s, combineAll qs = .ok m ∧ em.apply m = .ok s) ∧
    ∀ m m' r s, combineAll ps = .ok m → combineAll qs = .ok m' → em.apply m = .ok r → em.apply m' = .ok s →
      Each SameAttribute r.fields s.fields ∧ s.wasSet = r.wasSet ∧ ((∀ f ∈ em.fields, f.tag = "-" → f.ty = .obj) → s.extra = r.extra) := by
  have hop := fun p h => ordPolicy_of (hps p h)
  have hmem : ∀ p, p ∈ ps ↔ p ∈ qs := fun p => hp.mem_iff
  have hoq : ∀ q ∈ qs, OrdPolicy q := fun q h => hop q ((hmem q).mpr h)
  have rel : ∀ m m', combineAll ps = .ok m → combineAll qs = .ok m' → Relisted m m' ∧ FlatOneOf m := by
    intro m m' hm hm'
    obtain ⟨h1, h2, h3⟩ := combineAll_origin hop hf hm
    obtain ⟨h4, _, h6⟩ := combineAll_origin hoq (fun q h => hf q ((hmem q).mpr h)) hm'
    obtain ⟨m1, hm1, hs⟩ := combineAll_perm hp hop hm
    cases hm1.symm.trans hm'
    refine ⟨relisted_of_same hk h1 h4 hs h3 ?_, h2⟩
    intro k op v ho hv
    obtain ⟨p, hp, h⟩ := h6 k op v ho hv
    exact ⟨p, (hmem p).mpr hp, h⟩
  refine ⟨⟨?_, ?_⟩, ?_⟩
  · rintro ⟨m, r, hm, hr⟩
    obtain ⟨m', hm', _⟩ := combineAll_perm hp hop hm
    obtain ⟨hrel, hfl⟩ := rel m m' hm hm'
    obtain ⟨s, hs⟩ := (C174_relisted m m' hrel hfl em).1.mp ⟨r, hr⟩
    exact ⟨m', s, hm', hs⟩
  · rintro ⟨m', s, hm', hs⟩
    obtain ⟨m, hm, _⟩ := combineAll_perm hp.symm hoq hm'
    obtain ⟨hrel, hfl⟩ := rel m m' hm hm'
    obtain ⟨r, hr⟩ := (C174_relisted m m' hrel hfl em).1.mpr ⟨s, hs⟩
    exact ⟨m, r, hm, hr⟩
  · intro m m' r s hm hm' hr hs
    obtain ⟨hrel, hfl⟩ := rel m m' hm hm'
    exact (C174_relisted m m' hrel hfl em).2 r s hr hs

/-- Metadata with contacts and a name. -/
def Ex.orderMeta : EntityMeta := ⟨[⟨"Contacts", "contacts", .slice .str, .slice .str false [.str "a", .str "b"]⟩, ⟨"ClientName", "client_name", .str, .str "n"⟩], ["Contacts", "ClientName"], []⟩

/-- **C174 fails** when one superior states a `value` as an array and the other as a single value: both policies are valid and combine in both orders, but one of the combined policies
gives metadata and the other none (the process panics). -/
theorem C174_order_refuted : ∃ (p q m m' : Policy) (em : EntityMeta), Policy.verify p = .ok () ∧ Policy.verify q = .ok () ∧ combineAll [p, q] = .ok m ∧ combineAll [q, p] = .ok m' ∧
    (∃ r, em.apply m = .ok r) ∧ em.apply m' = .error .panic :=
  ⟨[("contacts", [("value", jl ["a"])])], [("contacts", [("value", .str "a")])], _, _, Ex.orderMeta, rfl, rfl, rfl, rfl, ⟨_, rfl⟩, rfl⟩

/-- Two policies with another order of elements, and what they give. -/
example : Relisted [("contacts", [("subset_of", jl ["a", "b"]), ("add", jl ["b", "c"])])] [("contacts", [("add", jl ["c", "b", "b"]), ("subset_of", jl ["b", "a"])])] ∧
    FlatOneOf [("contacts", [("subset_of", jl ["a", "b"]), ("add", jl ["b", "c"])])] ∧ FlatOneOf [("client_name", [("one_of", jl ["a", "n"])])] := by
  refine ⟨?_, ?_, ?_⟩
  · intro k
    by_cases hk : "contacts" = k
    · subst hk
      refine .some fun op => ?_
      by_cases h1 : "subset_of" = op
      · subst h1
        exact .some (.inr ⟨.any, false, false, _, _, rfl, rfl, fun x => by simp only [List.map_cons, List.map_nil, List.mem_cons, List.not_mem_nil, or_false]; exact or_comm⟩)
      · by_cases h2 : "add" = op
        · subst h2
          exact .some (.inr ⟨.any, false, false, _, _, rfl, rfl, fun x => by
            simp only [List.map_cons, List.map_nil, List.mem_cons, List.not_mem_nil, or_false]
            constructor
            · rintro (h | h)
              · exact .inr (.inl h)
              · exact .inl h
            · rintro (h | h | h)
              · exact .inr h
              · exact .inl h
              · exact .inl h⟩)
        · simp [AMap.get, h1, h2]
    · simp [AMap.get, hk]
  · intro k e s hk hs
    by_cases h : "contacts" = k
    · subst h; cases hk; cases hs
    · simp [AMap.get, h] at hk
  · intro k e s hk hs
    by_cases h : "client_name" = k
    · subst h
      cases hk
      cases hs
      intro v hv
      simp only [jl, Val.elems, List.map_cons, List.map_nil, List.mem_cons, List.not_mem_nil, or_false] at hv
      rcases hv with rfl | rfl <;> rfl
    · simp [AMap.get, h] at hk

/-- The four policies of `Ex.orderPols` in two orders: both give the contacts, listed differently. -/
example : (∀ p ∈ Ex.orderPols, OrdinaryPolicy p) ∧ (∀ p ∈ Ex.orderPols, FlatOneOf p) ∧ SameKinds Ex.orderPols ∧ Ex.orderPols.Perm Ex.orderPols.reverse := by
  have ops : ∀ p ∈ Ex.orderPols, ∀ k e op v, AMap.get p k = some e → AMap.get e op = some v → op = "add" ∨ op = "subset_of" ∨ op = "essential" := by
    intro p hp k e op v hk ho
    have hm := get_mem hk
    have hv := get_mem ho
    simp only [Ex.orderPols, List.mem_cons, List.not_mem_nil, or_false] at hp
    have fin : ∀ e' : Entry, e = e' → (∀ x ∈ e', x.1 = "add" ∨ x.1 = "subset_of" ∨ x.1 = "essential") → op = "add" ∨ op = "subset_of" ∨ op = "essential" :=
      fun e' h h' => h' _ (h ▸ hv)
    rcases hp with rfl | rfl | rfl | rfl <;> simp only [List.mem_cons, List.not_mem_nil, or_false, Prod.mk.injEq] at hm
    · exact fin _ hm.2 (by simp)
    · exact fin _ hm.2 (by simp)
    · rcases hm with hm | hm <;> exact fin _ hm.2 (by simp)
    · exact fin _ hm.2 (by simp)
  refine ⟨Ex.orderPols_ordinary, ?_, ?_, (List.reverse_perm _).symm⟩
  · intro p hp k e s hk ho
    have := ops p hp k e _ s hk ho
    simp at this
  · intro p hp q hq k a b op x y ha hb hop hx
    have := ops p hp k a op x ha hx
    rcases hop with rfl | rfl <;> simp at this

/-- A case with values and defaults in two orders. -/
example : combineAll [[("client_name", [("value", .str "m")])], [("contacts", [("value", jl ["b", "a"])])], [("contacts", [("value", jl ["a", "b"])])]] =
      .ok [("client_name", [("value", .str "m")]), ("contacts", [("value", jl ["b", "a"])])] ∧
    (Ex.orderMeta.apply [("client_name", [("value", .str "m")]), ("contacts", [("value", jl ["b", "a"])])]).map (fun r => r.fields.map Field.val) = .ok [sl ["b", "a"], .str "m"] ∧
    combineAll [[("contacts", [("value", jl ["a", "b"])])], [("contacts", [("value", jl ["b", "a"])])], [("client_name", [("value", .str "m")])]] =
      .ok [("contacts", [("value", jl ["a", "b"])]), ("client_name", [("value", .str "m")])] ∧
    (Ex.orderMeta.apply [("contacts", [("value", jl ["a", "b"])]), ("client_name", [("value", .str "m")])]).map (fun r => r.fields.map Field.val) = .ok [sl ["a", "b"], .str "m"] :=
  ⟨rfl, rfl, rfl, rfl⟩

end Oidfed
