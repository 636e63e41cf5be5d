import Verif.Spec.Relaxed
import Verif.Lemmas.Relaxed
/-!
# C176: checks only accept or refuse
-/

namespace Oidfed
open Spec

/-- **C176** for one policy: metadata (with values of the right types) to which a policy can be applied gives the same result, exactly, if checks of the policy are dropped or relaxed. -/
theorem C176_entity (p' p : Policy) (h : RelaxedPolicy p' p) (em r : EntityMeta) (hf : ∀ f ∈ em.fields, FieldOk f) (hr : em.apply p = .ok r) : em.apply p' = .ok r := by
  unfold EntityMeta.apply at hr ⊢
  obtain ⟨fs, h1, hr⟩ := bind_ok hr
  rw [applyFields_relaxed h hf h1]
  exact hr

theorem applyKnown_relaxed {m : Metadata} {p p' : Policies} (h : ∀ t, RelaxedPolicy (p'.known t) (p.known t)) (hf : ∀ t, ∀ f ∈ fieldsOf (some m) t, FieldOk f) :
    ∀ {ts : List EType} {r : EType → Option EntityMeta}, applyKnown m p ts = .ok r → applyKnown m p' ts = .ok r := by
  intro ts
  induction ts with
  | nil => intro r hr; exact hr
  | cons t ts ih =>
    intro r hr
    rw [applyKnown] at hr ⊢
    cases hm : m.known t with
    | none =>
      rw [hm] at hr
      obtain ⟨r1, h1, hr⟩ := bind_ok hr
      simp only
      rw [ih h1]
      exact hr
    | some em =>
      rw [hm] at hr
      obtain ⟨e1, h0, hr⟩ := bind_ok hr
      obtain ⟨r1, h1, hr⟩ := bind_ok hr
      simp only
      rw [C176_entity _ _ (h t) em e1 (fun f hm1 => hf t f (by unfold fieldsOf; simp only [hm]; exact hm1)) h0]
      show (applyKnown m p' ts >>= _) = _
      rw [ih h1]
      exact hr

theorem extraTypes_same : ∀ {ps qs : List Policies}, Each RelaxedPolicies qs ps → extraTypes qs = extraTypes ps
  | _, _, .nil => rfl
  | _, _, .cons h hs => by
    rw [extraTypes, extraTypes, h.2, extraTypes_same hs]

theorem extra_filterMap {k : String} : ∀ {ps qs : List Policies}, Each RelaxedPolicies qs ps → qs.filterMap (fun p => AMap.get p.extra k) = ps.filterMap (fun p => AMap.get p.extra k)
  | _, _, .nil => rfl
  | _, _, .cons h hs => by
    rw [List.filterMap_cons, List.filterMap_cons, h.2, extra_filterMap hs]

theorem mergeExtra_same {ps qs : List Policies} (h : Each RelaxedPolicies qs ps) : ∀ ks, mergeExtra qs ks = mergeExtra ps ks
  | [] => rfl
  | k :: ks => by rw [mergeExtra, mergeExtra, extra_filterMap h, mergeExtra_same h ks]

theorem each_map {α β α' β' : Type} {R : α → β → Prop} {S : α' → β' → Prop} {f : α → α'} {g : β → β'} (h : ∀ a b, R a b → S (f a) (g b)) :
    ∀ {as : List α} {bs : List β}, Each R as bs → Each S (as.map f) (bs.map g)
  | _, _, .nil => .nil
  | _, _, .cons h1 h2 => .cons (h _ _ h1) (each_map h h2)

theorem mergeKnown_congr {ps qs : List Policies} (h : ∀ t, combineAll (ps.map (fun p => p.known t)) = combineAll (qs.map (fun p => p.known t))) : ∀ ts, mergeKnown ps ts = mergeKnown qs ts
  | [] => rfl
  | t :: ts => by rw [mergeKnown, mergeKnown, h t, mergeKnown_congr h ts]

theorem extraTypes_full : ∀ c : Chain, extraTypes (c.filterMap Stmt.policy) = extraTypes (c.map prescribed)
  | [] => rfl
  | s :: c => by
    have ih := extraTypes_full c
    rw [List.map_cons, extraTypes, List.filterMap_cons]
    unfold prescribed at ih ⊢
    cases s.policy with
    | none =>
      show extraTypes (c.filterMap Stmt.policy) = [] ++ _
      rw [ih]
      simp [AMap.keys]
    | some P =>
      show extraTypes (P :: _) = _
      rw [extraTypes, ih]
      rfl

theorem extra_full (k : String) : ∀ c : Chain, (c.filterMap Stmt.policy).filterMap (fun p => AMap.get p.extra k) = (c.map prescribed).filterMap (fun p => AMap.get p.extra k)
  | [] => rfl
  | s :: c => by
    have ih := extra_full k c
    rw [List.map_cons, List.filterMap_cons, List.filterMap_cons]
    unfold prescribed at ih ⊢
    cases s.policy with
    | none => exact ih
    | some P =>
      show List.filterMap _ (P :: _) = _
      rw [List.filterMap_cons, ih]
      rfl

theorem mergeExtra_full (c : Chain) : ∀ ks, mergeExtra (c.filterMap Stmt.policy) ks = mergeExtra (c.map prescribed) ks
  | [] => rfl
  | k :: ks => by rw [mergeExtra, mergeExtra, extra_full k c, mergeExtra_full c ks]

/-- For ordinary policies it makes no difference whether a statement has none or an empty one. -/
theorem mergePolicies_full {c : Chain} (ho : OrdinaryKnown c) :
    mergePolicies (c.map Stmt.policy) = (mergeKnown (c.map prescribed) EType.all >>= fun k => mergeExtra (c.map prescribed) (extraTypes (c.map prescribed)) >>= fun x => .ok ⟨k, x⟩) := by
  unfold mergePolicies
  have e : (c.map Stmt.policy).filterMap id = c.filterMap Stmt.policy := by rw [List.filterMap_map]; rfl
  have hk : ∀ t, combineAll ((c.filterMap Stmt.policy).map (fun p => p.known t)) = combineAll ((c.map prescribed).map (fun p => p.known t)) := by
    intro t
    rw [combineAll_drop (f := Stmt.policy) (fun s hs P hP => (ordPolicy_of (ho s hs P hP t)).valid), List.map_map]
    rfl
  simp only [e]
  rw [mergeKnown_congr hk, extraTypes_full, mergeExtra_full]

theorem relaxedChain_crit : ∀ {c' c : Chain}, RelaxedChain c' c → critOk c' = critOk c
  | _, _, .nil => rfl
  | _, _, .cons h hs => by
    have ih := relaxedChain_crit hs
    unfold critOk at ih ⊢
    rw [List.all_cons, List.all_cons, h.2.1, ih]

/-- **C176** (part): metadata that resolves over a chain resolves over a chain with the same statements, in whose policies checks are dropped or relaxed, and to the same metadata, exactly. So to
introduce or tighten a check can lead to a refusal, but never to other metadata. What is missing: policies for known entity types that are not ordinary ones. -/
theorem C176_chain_partial (c' c : Chain) (h : RelaxedChain c' c) (ho : OrdinaryKnown c) (ho' : OrdinaryKnown c') (hf : ∀ l, c.head? = some l → ∀ t, ∀ f ∈ fieldsOf l.metadata t, FieldOk f) (m : Metadata)
    (hr : chainMetadata c = .ok (some m)) : chainMetadata c' = .ok (some m) := by
  have hfm : ∀ (d : Chain), OrdinaryKnown d → ∀ t, ∀ p ∈ (d.map prescribed).map (fun P => P.known t), OrdPolicy p := by
    intro d hd t p hp
    simp only [List.mem_map] at hp
    obtain ⟨P, ⟨s, hs, rfl⟩, rfl⟩ := hp
    unfold prescribed
    cases hP : s.policy with
    | none => exact ordPolicy_of ordinary_nil
    | some P => exact ordPolicy_of (hd s hs P hP t)
  have hpol : Each RelaxedPolicies (c'.map prescribed) (c.map prescribed) := each_map (fun _ _ h => h.2.2) h
  have hfull := mergePolicies_full ho
  have hfull' := mergePolicies_full ho'
  have hcrit := relaxedChain_crit h
  cases h with
  | nil => exact hr
  | cons h1 h2 =>
    rename_i a' a d' d
    cases h2 with
    | nil =>
      have hr : Except.ok a.metadata = .ok (some m) := hr
      show Except.ok a'.metadata = .ok (some m)
      rw [h1.1]
      exact hr
    | cons h3 h4 =>
      rename_i b' b e' e
      obtain ⟨p, md, hmd, hp, ha⟩ := chainMetadata_ok hr
      cases hmd
      have hcr : critOk (a' :: b' :: e') = true := by
        rw [hcrit]
        unfold chainMetadata at hr
        dsimp only at hr
        split at hr
        · cases hr
        · rename_i hn; simpa using hn
      rw [hfull] at hp
      obtain ⟨k, hk, hp⟩ := bind_ok hp
      obtain ⟨x, hx, hp⟩ := bind_ok hp
      cases hp
      have A := fun t => combineAll_relaxed (each_map (f := fun P : Policies => P.known t) (g := fun P : Policies => P.known t) (fun _ _ h => h.1 t) hpol) (hfm _ ho t) (hfm _ ho' t)
        (mergeKnown_ok hk t (mem_all t))
      obtain ⟨k', hk'⟩ := mergeKnown_of (fun t => (A t).imp fun _ h => h.1) EType.all
      have hmerge : mergePolicies ((a' :: b' :: e').map Stmt.policy) = .ok ⟨k', x⟩ := by
        rw [hfull', hk']
        show (mergeExtra _ (extraTypes _) >>= _) = _
        rw [extraTypes_same hpol, mergeExtra_same hpol, hx]
        rfl
      have rel : ∀ t, RelaxedPolicy (k' t) (k t) := by
        intro t
        obtain ⟨m1, h5, h6⟩ := A t
        cases h5.symm.trans (mergeKnown_ok hk' t (mem_all t))
        exact h6
      have ha' : (a'.metadata.getD Metadata.empty).applyPolicy (some ⟨k', x⟩) = .ok m := by
        rw [h1.1]
        unfold Metadata.applyPolicy at ha ⊢
        obtain ⟨r, hr1, ha⟩ := bind_ok ha
        show (applyKnown _ _ _ >>= _) = _
        have hfa : ∀ t, ∀ f ∈ fieldsOf (some (a.metadata.getD Metadata.empty)) t, FieldOk f := by
          intro t f hm
          cases hmd : a.metadata with
          | none =>
            rw [hmd] at hm
            cases hm
          | some md =>
            rw [hmd] at hm
            exact hf a rfl t f (by rw [hmd]; exact hm)
        rw [applyKnown_relaxed (p := ⟨k, x⟩) rel hfa hr1]
        exact ha
      unfold chainMetadata
      simp only
      rw [hcr, hmerge]
      show ((a'.metadata.getD Metadata.empty).applyPolicy (some ⟨k', x⟩) >>= _) = _
      rw [ha']
      rfl

/-- **C176 fails** for policies with a single value where the specification has an array: a superior allows one client name as a string, another one as an array; when the latter also allows a
number, combining the policies panics. -/
theorem C176_chain_refuted : ∃ (c' c : Chain) (m : Metadata), RelaxedChain c' c ∧ chainMetadata c = .ok (some m) ∧ chainMetadata c' = .error .panic := by
  refine ⟨ExOP.chain none (ExOP.pol [("client_name", [("one_of", .str "a")])]) (ExOP.pol [("client_name", [("one_of", .slice .any false [.str "a", .num 5])])]),
    ExOP.chain none (ExOP.pol [("client_name", [("one_of", .str "a")])]) (ExOP.pol [("client_name", [("one_of", .slice .any false [.str "a"])])]), _, ?_, rfl, rfl⟩
  have refl : ∀ p : Policy, RelaxedPolicy p p := fun p _ _ => .inl rfl
  refine .cons ⟨rfl, rfl, fun t => refl _, rfl⟩ (.cons ⟨rfl, rfl, fun t => refl _, rfl⟩ (.cons ⟨rfl, rfl, fun t => refl _, rfl⟩ (.cons ⟨rfl, rfl, fun t => ?_, rfl⟩ .nil)))
  by_cases h : t = .rp
  · subst h
    intro k op
    by_cases hk : "client_name" = k
    · subst hk
      by_cases ho : "one_of" = op
      · subst ho
        exact .inr (.inr (.inl ⟨rfl, _, _, rfl, rfl, by simp, by simp [Val.elems]⟩))
      · refine .inl ?_
        simp [operand, prescribed, ExOP.pol, AMap.get, ho]
    · refine .inl ?_
      simp [operand, prescribed, ExOP.pol, AMap.get, hk]
  · refine fun k op => .inl ?_
    simp [operand, prescribed, ExOP.pol, h]

/-- A superior's policy with two checks, and without them. -/
def Ex.checking : Policy := [("contacts", [("add", jl ["c"]), ("superset_of", jl ["x", "c"]), ("essential", .bool true)])]
def Ex.lenient : Policy := [("contacts", [("add", jl ["c"]), ("superset_of", jl ["c"])])]

/-- The policy of another superior, which only checks. -/
def Ex.onlyChecks : Policy := [("contacts", [("essential", .bool true)])]

theorem Ex.checking_ordinary : OrdinaryPolicy Ex.checking ∧ OrdinaryPolicy Ex.lenient ∧ OrdinaryPolicy Ex.onlyChecks := by
  have entry : ∀ e : Entry, e.keys.Nodup → (∀ kv ∈ e, (kv.1 ∈ ["add", "superset_of"] ∧ ∃ n xs, kv.2 = .slice .any n xs) ∨ (kv.1 = "essential" ∧ ∃ b, kv.2 = .bool b)) →
      PlainEntry e ∧ (∀ op v, op ∈ ["add", "one_of", "subset_of", "superset_of"] → e.get op = some v → ∃ n xs, v = .slice .any n xs) ∧
        ∀ v, e.get "essential" = some v → ∃ b, v = .bool b := by
    intro e hn he
    have get : ∀ op v, e.get op = some v → (op ∈ ["add", "superset_of"] ∧ ∃ n xs, v = .slice .any n xs) ∨ (op = "essential" ∧ ∃ b, v = .bool b) := fun op v hv => he _ (get_mem hv)
    have lists : ∀ op v, op ∈ ["add", "one_of", "subset_of", "superset_of"] → e.get op = some v → ∃ n xs, v = .slice .any n xs := by
      intro op v hop hv
      rcases get op v hv with ⟨_, h⟩ | ⟨rfl, _⟩
      · exact h
      · simp at hop
    have no : ∀ op v, op = "value" ∨ op = "default" → e.get op ≠ some v := by
      rintro op v (rfl | rfl) hv <;> (rcases get _ v hv with ⟨h, _⟩ | ⟨h, _⟩ <;> simp at h)
    refine ⟨⟨⟨hn, ?_, fun s hs => absurd hs (no _ s (.inl rfl)), fun s hs => absurd hs (no _ s (.inr rfl))⟩, ?_⟩, lists, ?_⟩
    · rintro n ⟨v, hv⟩
      rcases get n v hv with ⟨h, _⟩ | ⟨rfl, _⟩
      · unfold Known
        simp only [List.mem_cons, List.not_mem_nil, or_false] at h
        rcases h with rfl | rfl <;> simp
      · unfold Known; simp
    · intro op s hop hs
      exact .inr (lists op s (by simpa using hop) hs)
    · intro v hv
      rcases get _ v hv with ⟨h, _⟩ | ⟨_, h⟩
      · simp at h
      · exact h
  have pol : ∀ p : Policy, AMap.WF p → Policy.verify p = .ok () →
      (∀ kv ∈ p, kv.2.keys.Nodup ∧ ∀ x ∈ kv.2, (x.1 ∈ ["add", "superset_of"] ∧ ∃ n xs, x.2 = .slice .any n xs) ∨ (x.1 = "essential" ∧ ∃ b, x.2 = .bool b)) → OrdinaryPolicy p := by
    intro p hw hv he
    have all := fun k e (h : AMap.get p k = some e) => entry e (he _ (get_mem h)).1 (he _ (get_mem h)).2
    exact ⟨⟨hw, fun k e h => (all k e h).1⟩, hv, fun k e op v h => (all k e h).2.1 op v, fun k e v h => (all k e h).2.2 v⟩
  refine ⟨pol _ (by unfold AMap.WF; decide) rfl ?_, pol _ (by unfold AMap.WF; decide) rfl ?_, pol _ (by unfold AMap.WF; decide) rfl ?_⟩
  · simp [Ex.checking, AMap.keys, jl]
    rintro a b (⟨rfl, rfl⟩ | ⟨rfl, rfl⟩ | ⟨rfl, rfl⟩) <;> simp
  · simp [Ex.lenient, AMap.keys, jl]
    rintro a b (⟨rfl, rfl⟩ | ⟨rfl, rfl⟩) <;> simp
  · simp [Ex.onlyChecks, AMap.keys]

/-- A chain whose superiors check more, one of them only that, so that the other chain has no policy there, and what both give. -/
example : RelaxedChain (ExOP.chain none (ExOP.pol Ex.lenient) none) (ExOP.chain none (ExOP.pol Ex.checking) (ExOP.pol Ex.onlyChecks)) ∧
    OrdinaryKnown (ExOP.chain none (ExOP.pol Ex.checking) (ExOP.pol Ex.onlyChecks)) ∧ OrdinaryKnown (ExOP.chain none (ExOP.pol Ex.lenient) none) ∧
    (∀ l, (ExOP.chain none (ExOP.pol Ex.checking) (ExOP.pol Ex.onlyChecks)).head? = some l → ∀ t, ∀ f ∈ fieldsOf l.metadata t, FieldOk f) ∧
    ExOP.fields (ExOP.chain none (ExOP.pol Ex.checking) (ExOP.pol Ex.onlyChecks)) = some [("client_name", .str ""), ("contacts", sl ["x", "c"])] := by
  have one : ∀ (p : Policy) (P : Policies), OrdinaryPolicy p → ExOP.pol p = some P → ∀ t, OrdinaryPolicy (P.known t) := by
    intro p P hp hP t
    cases hP
    by_cases h : t = .rp
    · simp only [h, if_true]; exact hp
    · simp only [h, if_false]; exact ordinary_nil
  refine ⟨.cons ⟨rfl, rfl, fun t _ _ => .inl rfl, rfl⟩ (.cons ⟨rfl, rfl, fun t _ _ => .inl rfl, rfl⟩ (.cons ⟨rfl, rfl, fun t k op => ?_, rfl⟩ (.cons ⟨rfl, rfl, fun t k op => ?_, rfl⟩ .nil))),
    ?_, ?_, ?_, rfl⟩
  · by_cases h : t = .rp
    · subst h
      by_cases hk : "contacts" = k
      · subst hk
        by_cases h1 : "superset_of" = op
        · subst h1
          exact .inr (.inr (.inr (.inl ⟨rfl, _, _, rfl, rfl, by simp [jl], by simp [jl], by simp [Val.elems, jl]⟩)))
        · by_cases h2 : "essential" = op
          · subst h2
            exact .inr (.inl ⟨by simp [checks], rfl⟩)
          · refine .inl ?_
            simp [operand, prescribed, ExOP.pol, Ex.lenient, Ex.checking, AMap.get, h1, h2]
      · refine .inl ?_
        simp [operand, prescribed, ExOP.pol, Ex.lenient, Ex.checking, AMap.get, hk]
    · refine .inl ?_
      simp [operand, prescribed, ExOP.pol, h]
  · by_cases h2 : "essential" = op
    · subst h2
      exact .inr (.inl ⟨by simp [checks], rfl⟩)
    · refine .inl ?_
      by_cases h : t = .rp
      · by_cases hk : "contacts" = k <;> simp [operand, prescribed, ExOP.pol, Ex.onlyChecks, AMap.get, h, hk, h2]
      · simp [operand, prescribed, ExOP.pol, AMap.get, h]
  · intro s hs P hP
    simp only [ExOP.chain, List.mem_cons, List.not_mem_nil, or_false] at hs
    rcases hs with rfl | rfl | rfl | rfl
    · cases hP
    · cases hP
    · exact one _ P Ex.checking_ordinary.1 hP
    · exact one _ P Ex.checking_ordinary.2.2 hP
  · intro s hs P hP
    simp only [ExOP.chain, List.mem_cons, List.not_mem_nil, or_false] at hs
    rcases hs with rfl | rfl | rfl | rfl
    · cases hP
    · cases hP
    · exact one _ P Ex.checking_ordinary.2.1 hP
    · cases hP
  · intro s hs t f hf
    cases hs
    cases t <;> first | (cases hf; done) | skip
    simp only [ExOP.leaf, ExOP.md, fieldsOf, if_true, List.mem_cons, List.not_mem_nil, or_false] at hf
    rcases hf with rfl | rfl <;> exact ⟨rfl, by simp, by simp⟩

/-- `subset_of` is not a check: it removes values. -/
example : ExOP.fields (ExOP.chain none (ExOP.pol [("contacts", [("subset_of", jl ["y"])])]) none) = some [("client_name", .str ""), ("contacts", .slice .str true [])] ∧
    ExOP.fields (ExOP.chain none none none) = some [("client_name", .str ""), ("contacts", sl ["x"])] := ⟨rfl, rfl⟩

end Oidfed
