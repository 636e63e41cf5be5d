import Verif.Lemmas.MergeOrder
import Verif.Lemmas.MetadataApply
import Verif.Props.PolicyApply
/-!
# Properties C20-C25: merging the policies of a chain
-/

namespace Oidfed
open Spec

/-! ## C20 -/

/-- C20 as stated is false: an operator that is unknown to the library and occurs in both entries makes the merge drop the
whole entry, so a subordinate can switch off a superior's `essential` (or any other restriction). -/
theorem C20_no_loosening_refuted :
    ¬ ∀ (ps : List Policy) (m : Policy) (k : String) (e : Entry) (v : Val) (isSet : Bool) (v' : Val),
      (∀ p ∈ ps, Policy.verify p = .ok ()) → combineAll ps = .ok m → AMap.get m k = some e → (isSet = false → Unset v) →
      e.applyTo v isSet = .ok v' → ∀ p ∈ ps, ∀ ep, AMap.get p k = some ep →
      Obeys ep isSet v' ∧ ((∀ e n xs, v' ≠ .slice e n xs) → EssentialOk ep v') := by
  intro h
  have := h [[("a", [("foo", .num 1)])], [("a", [("foo", .num 1), ("essential", .bool true)])]] [("a", [])] "a" []
    (.str "") false (.str "") (by intro p hp; simp at hp; rcases hp with rfl | rfl <;> rfl) rfl rfl (fun _ => .str) rfl
    [("a", [("foo", .num 1), ("essential", .bool true)])] (by simp) _ rfl
  exact this.2 (by intro e n xs h; cases h) rfl .str

/-- C20 is false also for known operators, if a `value` lists an element twice: `["a", "a"]` counts as equal to
`["a", "b"]`, and the first one is kept. -/
theorem C20_duplicates_refuted :
    ¬ ∀ (ps : List Policy) (m : Policy) (k : String) (e : Entry) (v : Val) (isSet : Bool) (v' : Val),
      (∀ p ∈ ps, Policy.verify p = .ok () ∧ KnownPolicy p) → combineAll ps = .ok m → AMap.get m k = some e →
      (isSet = false → Unset v) → e.applyTo v isSet = .ok v' → ∀ p ∈ ps, ∀ ep, AMap.get p k = some ep →
      Obeys ep isSet v' := by
  intro h
  have hk : ∀ v : Val, KnownPolicy [("a", [("value", v)])] := by
    intro v
    refine ⟨by simp [AMap.WF, AMap.keys], ?_⟩
    intro k e he
    simp only [AMap.get] at he
    split at he
    · cases he
      refine ⟨by simp [AMap.WF, AMap.keys], ?_⟩
      rintro n ⟨w, hw⟩
      simp only [AMap.get] at hw
      split at hw
      · rename_i hn; exact .inl hn.symm
      · cases hw
    · cases he
  have := (h [[("a", [("value", jl ["a", "a"])])], [("a", [("value", jl ["a", "b"])])]] [("a", [("value", jl ["a", "a"])])] "a"
    [("value", jl ["a", "a"])] (sl []) true (sl ["a", "a"])
    (by intro p hp; simp at hp; rcases hp with rfl | rfl <;> exact ⟨rfl, hk _⟩) rfl rfl (by simp) rfl
    [("a", [("value", jl ["a", "b"])])] (by simp) _ rfl).value _ rfl (.str "b")
  have := this.mpr (by decide)
  revert this
  decide

/-- C20: if verified policies (of known operators, with duplicate-free `value`s and `default`s), merge and the merged entry
applies to an attribute value, the result obeys every single policy. Missing: unknown operators and duplicates (both refuted
above); `essential` for lists (C19). -/
theorem C20_no_loosening_partial (ps : List Policy) (m : Policy) (hg : ∀ p ∈ ps, GoodPolicy p)
    (hv : (∀ p ∈ ps, Policy.verify p = .ok ()) ∨ ∃ p, ps.head? = some p ∧ p ≠ []) (hm : combineAll ps = .ok m)
    (k : String) (e : Entry) (he : AMap.get m k = some e) (v : Val) (isSet : Bool) (v' : Val)
    (hflag : isSet = false → Unset v) (ha : e.applyTo v isSet = .ok v') :
    ∀ p ∈ ps, ∀ ep, AMap.get p k = some ep →
      Obeys ep isSet v' ∧ ((∀ e n xs, v' ≠ .slice e n xs) → EssentialOk ep v') := by
  intro p hp ep hep
  have hmv := combineAll_verified hm (hv.symm)
  obtain ⟨e', he', ht⟩ := (combineAll_tightens hg hm).1 p hp k ep hep
  rw [he] at he'
  cases he'
  obtain ⟨h1, h2⟩ := C19_restrictions_partial e v isSet v' (policy_verify_get hmv he) hflag ha
  exact ⟨ht.obeys h1, fun hns hess => h2 hns (ht.essential hess)⟩

theorem joinScope_words (ws : List String) : joinScope (ws.map Val.str) = scopeOf ws := by
  induction ws with
  | nil => exact String.intercalate_nil.symm
  | cons a as ih =>
    cases as with
    | nil => exact String.intercalate_singleton.symm
    | cons b bs =>
      show a ++ " " ++ joinScope ((b :: bs).map Val.str) = String.intercalate " " (a :: b :: bs)
      rw [ih, String.intercalate_cons_cons]
      rfl

/-- What `scopeJoin` stores. -/
theorem scopeJoin_held (name : String) (v : Val) : HeldAs name v (scopeJoin name v) := by
  unfold scopeJoin
  split
  · rename_i n xs
    by_cases hs : name = "Scope"
    · rw [if_pos hs]
      exact .inr ⟨hs, n, xs, rfl, fun ws e => by rw [e, joinScope_words]⟩
    · rw [if_neg hs]
      exact .inl rfl
  · exact .inl rfl

/-- A field of a metadata struct obeys a policy entry: its value does (for `scope`, the list it is the text of), or it was removed. An essential attribute that is not a list has a value. -/
def FieldObeys (e : Entry) (isSet : Bool) (f : Field) : Prop :=
  ∃ v, (HeldAs f.name v f.val ∨ v = .nil ∧ f.val = Val.zeroOf f.ty) ∧ Obeys e isSet v ∧ ((∀ e n xs, v ≠ .slice e n xs) → EssentialOk e v)

/-- C20 for chains: the metadata resolved from a chain obeys, attribute by attribute, the policy of every single statement of
the chain. Side conditions as in `C20_no_loosening_partial`; `hflag` holds of what is decoded from JSON
(`C20_json_flags`) that states the entity type only once (`C134_stated_once_partial`). -/
theorem C20_chain_obeys_partial (a b : Stmt) (rest : Chain) (r : Option Metadata) (t : EType)
    (hg : ∀ s ∈ a :: b :: rest, ∀ P, s.policy = some P → GoodPolicy (P.known t) ∧ Policy.verify (P.known t) = .ok ())
    (md0 : Metadata) (hmd : a.metadata = some md0) (em : EntityMeta) (hem : md0.known t = some em)
    (hflag : ∀ f ∈ em.fields, em.wasSet.contains f.name = false → Unset f.val)
    (h : chainMetadata (a :: b :: rest) = .ok r) :
    ∃ md em', r = some md ∧ md.known t = some em' ∧ em'.fields.length = em.fields.length ∧
      ∀ (i : Nat) f', em'.fields[i]? = some f' →
        ∀ s ∈ a :: b :: rest, ∀ P, s.policy = some P → ∀ e, AMap.get (P.known t) f'.tag = some e →
          FieldObeys e (em.wasSet.contains f'.name) f' := by
  obtain ⟨p, md, rfl, hp, ha⟩ := chainMetadata_ok h
  rw [hmd] at ha
  obtain ⟨em', hap, hem'⟩ := ((applyPolicy_ok ha).1 t).2 em hem
  obtain ⟨hfs, _, _⟩ := apply_ok hap
  obtain ⟨hlen, hf⟩ := applyFields_ok hfs
  refine ⟨md, em', rfl, hem', hlen, ?_⟩
  intro i f' hf' s hs P hP e he
  have hc := mergePolicies_ok hp t
  have hi : i < em.fields.length := by
    rw [← hlen]
    exact (List.getElem?_eq_some_iff.mp hf').1
  obtain ⟨f'', hf'', hfa⟩ := hf i em.fields[i] (List.getElem?_eq_getElem hi)
  rw [hf'] at hf''
  cases hf''
  have hmem : P.known t ∈ (((a :: b :: rest).map Stmt.policy).filterMap id).map (fun p => p.known t) := by
    rw [List.mem_map]
    refine ⟨P, ?_, rfl⟩
    rw [List.mem_filterMap]
    exact ⟨some P, List.mem_map.mpr ⟨s, hs, hP⟩, rfl⟩
  have hall : ∀ q ∈ (((a :: b :: rest).map Stmt.policy).filterMap id).map (fun p => p.known t),
      GoodPolicy q ∧ Policy.verify q = .ok () := by
    intro q hq
    rw [List.mem_map] at hq
    obtain ⟨Q, hQ, rfl⟩ := hq
    rw [List.mem_filterMap] at hQ
    obtain ⟨oQ, hoQ, hid⟩ := hQ
    rw [List.mem_map] at hoQ
    obtain ⟨s', hs', rfl⟩ := hoQ
    exact hg s' hs' Q hid
  rcases applyField_ok hfa with ⟨hn, rfl⟩ | ⟨e', v, hge, hv, h1, h2, h3, h4⟩
  · obtain ⟨e', he', _⟩ := (combineAll_tightens (fun q hq => (hall q hq).1) hc).1 _ hmem _ e he
    rw [hn] at he'
    cases he'
  · rw [h2] at he
    have := (C20_no_loosening_partial _ _ (fun q hq => (hall q hq).1) (.inl (fun q hq => (hall q hq).2)) hc
      _ e' hge _ _ v (hflag _ (List.getElem_mem hi)) hv _ hmem e he)
    rw [h1]
    refine ⟨v, ?_, this⟩
    rcases h4 with ⟨hn, hz⟩ | ⟨hn, hz, _⟩
    · exact .inr ⟨hn, by rw [hz, h3]⟩
    · refine .inl ?_
      rw [hz, h1]
      exact scopeJoin_held ..

/-- What is decoded from JSON has the zero value wherever the attribute was absent. -/
theorem C20_json_flags (claims : AMap Val) (fs : List Field) :
    ∀ f ∈ (fromJSONFields claims fs).1, (fromJSONFields claims fs).2.contains f.name = false → Unset f.val := by
  have hz : ∀ ty, Unset (Val.zeroOf ty) := by intro ty; cases ty <;> constructor
  induction fs with
  | nil => intro f hf; cases hf
  | cons g fs ih =>
    intro f hf hc
    unfold fromJSONFields at hf hc
    dsimp only at hf hc
    cases hg : AMap.get claims g.tag with
    | none =>
      rw [hg] at hf hc
      rcases List.mem_cons.mp hf with rfl | hf
      · exact hz _
      · exact ih f hf hc
    | some v =>
      rw [hg] at hf hc
      dsimp only at hf hc
      split at hf
      · rename_i hn
        rw [if_pos hn] at hc
        rcases List.mem_cons.mp hf with rfl | hf
        · exact hz _
        · exact ih f hf hc
      · rename_i hn
        rw [if_neg hn] at hc
        rcases List.mem_cons.mp hf with rfl | hf
        · simp at hc
        · simp only [List.contains_cons, Bool.or_eq_false_iff] at hc
          exact ih f hf hc.2

namespace Ex

/-- A small policy set for the relying party type. -/
def rpPol (p : Policy) : Policies := ⟨fun t => if t = .rp then p else [], []⟩

/-- A leaf configuration with two attributes. -/
def polLeaf : Stmt := ⟨"leaf", "leaf", 0, 100, some [1], ["ia"],
  some ⟨fun t => if t = .rp then some ⟨[⟨"Scopes", "scopes", .slice .str, sl ["x", "a", "b"]⟩, ⟨"Name", "name", .str, .str ""⟩],
    ["Scopes"], []⟩ else none, none⟩, none, [], [], none, some 1⟩

/-- A subordinate statement with a policy. -/
def polStmt (p : Policy) : Stmt := ⟨"ia", "leaf", 0, 100, some [1], [], none, some (rpPol p), [], [], none, some 2⟩

/-- The intermediate's policy. -/
def polIA : Policy := [("scopes", [("subset_of", jl ["a", "b", "c"])]), ("name", [("default", .str "n")])]

/-- The anchor's policy. -/
def polTA : Policy := [("scopes", [("subset_of", jl ["b", "x"]), ("superset_of", jl ["b"])]), ("name", [("essential", .bool true)])]

/-- The resolved metadata of a chain with two policies: every restriction of both holds of it. -/
example : ((chainMetadata [polLeaf, polStmt polIA, polStmt polTA]).toOption.bind id).bind (fun m => m.known .rp) =
    some ⟨[⟨"Scopes", "scopes", .slice .str, sl ["b"]⟩, ⟨"Name", "name", .str, .str "n"⟩], ["Scopes"], []⟩ := by rfl

theorem polIA_good : GoodPolicy polIA ∧ Policy.verify polIA = .ok () := by
  refine ⟨⟨by simp [AMap.WF, AMap.keys, polIA], ?_⟩, rfl⟩
  intro k e he
  simp only [polIA, AMap.get] at he
  split at he
  · cases he
    refine ⟨by simp [AMap.WF, AMap.keys], ?_, (by intro s hs; cases hs), (by intro s hs; cases hs)⟩
    rintro n ⟨w, hw⟩
    simp only [AMap.get] at hw
    split at hw
    · rename_i hn; subst hn; unfold Known; simp
    · cases hw
  · split at he
    · cases he
      refine ⟨by simp [AMap.WF, AMap.keys], ?_, (by intro s hs; cases hs), (by intro s hs; cases hs; decide)⟩
      rintro n ⟨w, hw⟩
      simp only [AMap.get] at hw
      split at hw
      · rename_i hn; subst hn; unfold Known; simp
      · cases hw
    · cases he

theorem polTA_good : GoodPolicy polTA ∧ Policy.verify polTA = .ok () := by
  refine ⟨⟨by simp [AMap.WF, AMap.keys, polTA], ?_⟩, rfl⟩
  intro k e he
  simp only [polTA, AMap.get] at he
  split at he
  · cases he
    refine ⟨by simp [AMap.WF, AMap.keys], ?_, (by intro s hs; cases hs), (by intro s hs; cases hs)⟩
    rintro n ⟨w, hw⟩
    simp only [AMap.get] at hw
    split at hw
    · rename_i hn; subst hn; unfold Known; simp
    · split at hw
      · rename_i hn; subst hn; unfold Known; simp
      · cases hw
  · split at he
    · cases he
      refine ⟨by simp [AMap.WF, AMap.keys], ?_, (by intro s hs; cases hs), (by intro s hs; cases hs)⟩
      rintro n ⟨w, hw⟩
      simp only [AMap.get] at hw
      split at hw
      · rename_i hn; subst hn; unfold Known; simp
      · cases hw
    · cases he

end Ex

/-- The hypotheses of C20 hold of that example. -/
example : (∀ p ∈ [Ex.polIA, Ex.polTA], GoodPolicy p) ∧ (∀ p ∈ [Ex.polIA, Ex.polTA], Policy.verify p = .ok ()) ∧
    ∃ m, combineAll [Ex.polIA, Ex.polTA] = .ok m := by
  refine ⟨?_, ?_, _, rfl⟩
  · intro p hp; simp at hp; rcases hp with rfl | rfl
    · exact Ex.polIA_good.1
    · exact Ex.polTA_good.1
  · intro p hp; simp at hp; rcases hp with rfl | rfl <;> rfl

/-! ## C21 -/

/-- C21 as stated is false: a scalar `subset_of` merged with a mixed list panics in one order only. -/
theorem C21_commute_refuted :
    ¬ ∀ (a b m : Entry), KnownOps a → KnownOps b → mergeEntries a b = .ok m → ∃ m', mergeEntries b a = .ok m' := by
  intro h
  have hk : ∀ v, KnownOps [("subset_of", v)] := by
    rintro v n ⟨w, hw⟩
    simp only [AMap.get] at hw
    split at hw
    · rename_i hn; subst hn; unfold Known; simp
    · cases hw
  obtain ⟨m', hm'⟩ := h [("subset_of", .slice .any false [.str "a", .num 1])] [("subset_of", .str "a")]
    [("subset_of", .slice .any false [.str "a"])] (hk _) (hk _) rfl
  cases hm'

/-- C21 (two entries): merging in the other order succeeds alike and gives the same operators with the same sets of values.
Missing: set operators whose value is not a list (refuted), unknown operators. -/
theorem C21_commute_partial (a b m : Entry) (ha : PlainEntry a) (hb : PlainEntry b) (h : mergeEntries a b = .ok m) :
    ∃ m', mergeEntries b a = .ok m' ∧ SameEntry m m' := merge_comm ha hb h

/-- C21 (three entries): merging is associative, in both directions of success. -/
theorem C21_assoc_partial (a b c : Entry) (ha : PlainEntry a) (hb : PlainEntry b) (hc : PlainEntry c) :
    (∀ ab r, mergeEntries a b = .ok ab → mergeEntries ab c = .ok r →
      ∃ bc r', mergeEntries b c = .ok bc ∧ mergeEntries a bc = .ok r' ∧ SameEntry r r') ∧
    (∀ bc r, mergeEntries b c = .ok bc → mergeEntries a bc = .ok r →
      ∃ ab r', mergeEntries a b = .ok ab ∧ mergeEntries ab c = .ok r' ∧ SameEntry r r') :=
  ⟨fun _ _ h1 h2 => merge_assoc ha hb hc h1 h2, fun _ _ h1 h2 => merge_assoc' ha hb hc h1 h2⟩

/-- C21 for whole policies, including the final verification. -/
theorem C21_policies_commute_partial (p q m : Policy) (hp : PlainPolicy p) (hq : PlainPolicy q)
    (h : combinePolicy p q = .ok m) : ∃ m', combinePolicy q p = .ok m' ∧ SamePolicy m m' := combine_comm hp hq h

/-- Two merged orders of a non-trivial pair: the same sets in different order. -/
example : mergeEntries [("add", jl ["a", "b"]), ("essential", .bool false)] [("add", jl ["c", "a"]), ("subset_of", jl ["a"])] =
      .ok [("add", jl ["a", "b", "c"]), ("essential", .bool false), ("subset_of", jl ["a"])] ∧
    mergeEntries [("add", jl ["c", "a"]), ("subset_of", jl ["a"])] [("add", jl ["a", "b"]), ("essential", .bool false)] =
      .ok [("add", jl ["c", "a", "b"]), ("subset_of", jl ["a"]), ("essential", .bool false)] := ⟨rfl, rfl⟩

example : PlainEntry [("add", jl ["a", "b"]), ("value", jl ["a", "b", "c"])] := by
  refine ⟨⟨by simp [AMap.WF, AMap.keys], ?_, ?_, ?_⟩, ?_⟩
  · rintro n ⟨w, hw⟩
    simp only [AMap.get] at hw
    split at hw
    · rename_i hn; subst hn; unfold Known; simp
    · split at hw
      · rename_i hn; subst hn; unfold Known; simp
      · cases hw
  · intro s hs; cases hs; decide
  · intro s hs; cases hs
  · intro op s hop hs
    rcases hop with rfl | rfl | rfl | rfl <;> cases hs
    exact .inr ⟨_, _, rfl⟩

/-! ## C22 -/

/-- C22 as stated is false: with duplicates, different values count as equal. -/
theorem C22_conflict_refuted :
    ¬ ∀ (a b : Entry) (x y : Val), a.get "value" = some x → b.get "value" = some y → ¬ SameVal x y →
      ∀ m, mergeEntries a b ≠ .ok m := by
  intro h
  refine h [("value", jl ["a", "a"])] [("value", jl ["a", "b"])] _ _ rfl rfl ?_ [("value", jl ["a", "a"])] rfl
  intro hs
  have := (hs.2 (.str "b")).mpr (by decide)
  revert this
  decide

/-- C22: if two of the merged policies state different `value`s (as sets, or one null and one not), or different non-null
`default`s, for an attribute, merging fails – wherever in the list they are and whatever else they say. Missing: values with
duplicates (refuted), unknown operators. -/
theorem C22_conflict_partial (ps : List Policy) (hg : ∀ p ∈ ps, GoodPolicy p) (p q : Policy) (hp : p ∈ ps) (hq : q ∈ ps)
    (k : String) (ep eq : Entry) (hep : AMap.get p k = some ep) (heq : AMap.get q k = some eq) (x y : Val)
    (hc : (ep.get "value" = some x ∧ eq.get "value" = some y ∧ ¬ SameVal x y) ∨
      (ep.get "default" = some x ∧ eq.get "default" = some y ∧ x ≠ .nil ∧ y ≠ .nil ∧ ¬ SameVal x y)) :
    ∀ m, combineAll ps ≠ .ok m := by
  intro m hm
  obtain ⟨e1, he1, t1⟩ := (combineAll_tightens hg hm).1 p hp k ep hep
  obtain ⟨e2, he2, t2⟩ := (combineAll_tightens hg hm).1 q hq k eq heq
  rw [he1] at he2
  cases he2
  rcases hc with ⟨h1, h2, h3⟩ | ⟨h1, h2, n1, n2, h3⟩
  · obtain ⟨t, ht, hs⟩ := t1.value x h1
    obtain ⟨t', ht', hs'⟩ := t2.value y h2
    rw [ht] at ht'
    cases ht'
    exact h3 (hs.symm.trans hs')
  · obtain ⟨t, ht, hs⟩ := t1.default x h1 n1
    obtain ⟨t', ht', hs'⟩ := t2.default y h2 n2
    rw [ht] at ht'
    cases ht'
    exact h3 (hs.symm.trans hs')

/-- C22 (other half): equal values merge, and so do equal defaults; a null default gives way. -/
theorem C22_agreement (x y : Val) (hx : x.elems.Nodup) (hy : y.elems.Nodup) :
    (SameVal x y → mergeEntries [("value", x)] [("value", y)] = .ok [("value", x)]) ∧
    (SameVal x y → x ≠ .nil → mergeEntries [("default", x)] [("default", y)] = .ok [("default", x)]) ∧
    mergeEntries [("default", .nil)] [("default", y)] = .ok [("default", y)] ∧
    mergeEntries [("default", x)] [("default", .nil)] = .ok [("default", x)] := by
  have key : ∀ (op : String) (o : Op) (u v z : Val), operators op = some o → o.merge u v = .ok z →
      mergeEntries [(op, u)] [(op, v)] = .ok [(op, z)] := by
    intro op o u v z ho hz
    simp [mergeEntries, mergeLoop, AMap.get, ho, hz, bind, Except.bind]
  refine ⟨fun h => ?_, fun h hn => ?_, ?_, ?_⟩
  · exact key _ .value _ _ _ rfl ((mergeValue_iff hx hy).mpr ⟨h, rfl⟩)
  · exact key _ .default _ _ _ rfl ((mergeDefault_iff hx hy).mpr (.inr (.inr ⟨hn, fun e => hn (h.1.mpr e), h, rfl⟩)))
  · exact key _ .default _ _ _ rfl rfl
  · refine key _ .default _ _ _ rfl ((mergeDefault_iff hx (by simp [Val.elems])).mpr ?_)
    by_cases hn : x = .nil
    · exact .inl ⟨hn, hn⟩
    · exact .inr (.inl ⟨hn, rfl, rfl⟩)

example : combineAll [[("a", [("value", jl ["a", "b"])])], [("b", [])], [("a", [("value", jl ["b", "c"])])]] = .error .error ∧
    combineAll [[("a", [("value", jl ["a", "b"])])], [("b", [])], [("a", [("value", jl ["b", "a"])])]] =
      .ok [("a", [("value", jl ["a", "b"])]), ("b", [])] := ⟨rfl, rfl⟩

/-! ## C23 -/

/-- C23 is false: when the first policy of the list is empty, a later one is taken over without verification. -/
theorem C23_always_verified_refuted :
    ¬ ∀ (ps : List Policy) (m : Policy), combineAll ps = .ok m → Policy.verify m = .ok () := by
  intro h
  have := h [[], [("a", [("value", jl ["b"]), ("subset_of", jl ["a"])])]] _ rfl
  cases this

/-- C23 where it holds: the combination is verified if the first policy is not empty, or if all the policies verify. -/
theorem C23_always_verified_partial (ps : List Policy) (m : Policy) (h : combineAll ps = .ok m)
    (hs : (∃ p, ps.head? = some p ∧ p ≠ []) ∨ ∀ p ∈ ps, Policy.verify p = .ok ()) : Policy.verify m = .ok () :=
  combineAll_verified h hs

/-- A later policy that contradicts the first is detected. -/
example : combineAll [[("a", [("subset_of", jl ["a"])])], [], [("a", [("value", jl ["b"])])]] = .error .error := rfl

/-! ## C24 -/

/-- C24 is false: an unknown operator beside a known one with a combination list makes verification fail. -/
theorem C24_unknown_ignored_refuted :
    ¬ ∀ (p : Entry), Entry.verify (p.filter (fun kv => (operators kv.1).isSome)) = .ok () → p.verify = .ok () := by
  intro h
  have := h [("value", jl ["a"]), ("foo", .num 1)] rfl
  cases this

/-- C24 is false also for merging: an unknown operator in both entries erases the known ones. -/
theorem C24_unknown_merge_refuted :
    ¬ ∀ (a b m : Entry), mergeEntries a b = .ok m → ∀ op, Known op → Has a op → Has m op := by
  intro h
  obtain ⟨v, hv⟩ := h [("foo", .num 1), ("value", jl ["a"])] [("foo", .num 1)] [] rfl "value" (.inl rfl) ⟨_, rfl⟩
  cases hv

/-- C24 where it holds (application): unknown operators have no influence on applying an entry. -/
theorem C24_apply_ignores_unknown_partial (p : Entry) (v : Val) (isSet : Bool) :
    p.applyTo v isSet = Entry.applyTo (p.filter (fun kv => (operators kv.1).isSome)) v isSet := by
  have hg : ∀ n, (operators n).isSome = true →
      AMap.get (p.filter (fun kv => (operators kv.1).isSome)) n = p.get n := by
    intro n hn
    rw [get_filter p (fun k => (operators k).isSome) n, hn]
    rfl
  have he : Entry.essential (p.filter (fun kv => (operators kv.1).isSome)) = p.essential := by
    unfold Entry.essential
    rw [hg _ rfl]
  have hl : ∀ (ns : List OpName), (∀ n ∈ ns, (operators n).isSome = true) → ∀ c,
      applyLoop p p.essential ns c = applyLoop (p.filter (fun kv => (operators kv.1).isSome)) p.essential ns c := by
    intro ns
    induction ns with
    | nil => intro _ c; rfl
    | cons n ns ih =>
      intro hns c
      have hs : applyStep p p.essential c n =
          applyStep (p.filter (fun kv => (operators kv.1).isSome)) p.essential c n := by
        unfold applyStep
        rw [hg n (hns n (by simp))]
      rw [applyLoop, applyLoop, ← hs]
      cases applyStep p p.essential c n with
      | error f => rfl
      | ok c' => exact ih (fun n hn => hns n (by simp [hn])) c'
  unfold Entry.applyTo Entry.applyCur
  rw [he, hl operatorOrder (by decide)]

/-- C24 where it holds (merging): as long as the two entries do not share an unknown operator, the known operators of the
merge are those of merging the known parts. -/
theorem C24_merge_ignores_unknown_partial (a b m : Entry) (ha : a.WF) (hn : NoSharedUnknown a b)
    (h : mergeEntries a b = .ok m) :
    ∃ m', mergeEntries (a.filter (fun kv => (operators kv.1).isSome)) (b.filter (fun kv => (operators kv.1).isSome)) = .ok m' ∧
      ∀ op, Known op → m'.get op = m.get op := by
  have hf : ∀ (e : Entry) op, AMap.get (e.filter (fun kv => (operators kv.1).isSome)) op =
      if (operators op).isSome then e.get op else none := fun e op => get_filter e (fun k => (operators k).isSome) op
  have hw : AMap.WF (a.filter (fun kv => (operators kv.1).isSome)) := filter_keys_wf ha _
  have hk : KnownOps (a.filter (fun kv => (operators kv.1).isSome)) := by
    rintro n ⟨v, hv⟩
    rw [hf] at hv
    split at hv
    · rename_i h; exact operators_known.mp h
    · cases hv
  have hall := (mergeEntries_ok_iff hn ha).mp ⟨m, h⟩
  obtain ⟨m', hm'⟩ := (mergeEntries_ok_iff (b := b.filter (fun kv => (operators kv.1).isSome))
    (noShared_of_known hk) hw).mpr (by
      intro op x y hx hy
      rw [hf] at hx hy
      split at hx
      · rename_i ho
        rw [if_pos ho] at hy
        exact hall op x y hx hy
      · cases hx)
  refine ⟨m', hm', ?_⟩
  intro op hop
  have ho := operators_known.mpr hop
  rw [mergeEntries_get hm' (noShared_of_known hk) hw, mergeEntries_get h hn ha, hf, hf, if_pos ho, if_pos ho]

example : mergeEntries [("foo", .num 1), ("value", jl ["a"])] [("bar", .num 1), ("subset_of", jl ["a", "b"])] =
    .ok [("foo", .num 1), ("value", jl ["a"]), ("bar", .num 1), ("subset_of", jl ["a", "b"])] := rfl

/-! ## C25 -/

/-- C25 is false: with an unknown operator in both entries the outcome depends on which operator is visited first. The two
left arguments are the same map, listed in two iteration orders. -/
theorem C25_deterministic_refuted :
    ¬ ∀ (a a' b : Entry), EqEntry a a' → (∃ m, mergeEntries a b = .ok m) → ∃ m, mergeEntries a' b = .ok m := by
  intro h
  obtain ⟨m, hm⟩ := h [("foo", .num 1), ("value", .str "x")] [("value", .str "x"), ("foo", .num 1)]
    [("foo", .num 1), ("value", .str "y")] (by
      intro op
      simp only [AMap.get]
      split
      · rename_i h1
        subst h1
        simp
      · rfl) ⟨_, rfl⟩
  cases hm

/-- C25: for policies of known operators, the result of combining any list of policies – whether it succeeds, and the merged
policy as a map – is the same for all iteration orders of all the maps involved. Missing: unknown operators (refuted); which
of several errors is reported. -/
theorem C25_deterministic_partial (ps ps' : List Policy) (he : Each EqPolicy ps ps') (hk : ∀ p ∈ ps, KnownPolicy p)
    (hk' : ∀ p ∈ ps', KnownPolicy p) (m : Policy) (h : combineAll ps = .ok m) :
    ∃ m', combineAll ps' = .ok m' ∧ EqPolicy m m' := eq_combineAll he hk hk' h

/-- C25 (application): the result of applying a policy does not depend on the iteration order at all. -/
theorem C25_apply_deterministic (p p' : Policy) (h : EqPolicy p p') (em : EntityMeta) : em.apply p = em.apply p' := by
  unfold EntityMeta.apply
  rw [eq_applyFields h]

/-- Two iteration orders of one policy. -/
example : EqPolicy [("a", [("value", .num 1), ("essential", .bool true)]), ("b", [])]
    [("b", []), ("a", [("essential", .bool true), ("value", .num 1)])] := by
  intro k
  simp only [AMap.get]
  by_cases h1 : "a" = k
  · subst h1
    refine ⟨rfl, ?_⟩
    intro a b ha hb
    simp at ha hb
    subst ha; subst hb
    intro op
    simp only [AMap.get]
    by_cases h2 : "value" = op
    · subst h2; simp
    · simp [h2]
  · by_cases h2 : "b" = k
    · subst h2
      refine ⟨rfl, ?_⟩
      intro a b ha hb
      simp at ha hb
      subst ha; subst hb
      exact fun _ => rfl
    · simp [h1, h2]

end Oidfed
