import Verif.Spec.TrustMark
/-!
# Facts about verifying trust marks
-/

namespace Oidfed
open Spec

theorem valid_iff (now iat : Time) (exp : Option Time) : verifyTime now (some iat) exp = true ↔ ValidAt now iat exp := by
  unfold verifyTime ValidAt
  have h1 : ∀ t : Time, t.isZero = true ↔ t = Time.zero := by intro t; simp [Time.isZero]
  have key : ∀ a b : Bool, (if a then false else if b then false else true) = true ↔ a = false ∧ b = false := by
    intro a b; cases a <;> cases b <;> simp
  rw [key]
  have hi : ∀ x y : Time, (!x.isZero && decide (y < x)) = false ↔ (x = Time.zero ∨ x ≤ y) := by
    intro x y
    by_cases hz : x = Time.zero
    · rw [(h1 x).mpr hz]; simp [hz]
    · have : x.isZero = false := by simpa [Time.isZero] using hz
      simp [this, hz]
  cases exp with
  | none => simp [hi]
  | some e =>
    simp only [hi]
    constructor
    · rintro ⟨a, b⟩
      refine ⟨a, ?_⟩
      intro e' he
      cases he
      by_cases hz : e = Time.zero
      · exact .inl hz
      · right
        have : e.isZero = false := by simpa [Time.isZero] using hz
        simpa [this] using b
    · rintro ⟨a, b⟩
      refine ⟨a, ?_⟩
      rcases b e rfl with hz | hz
      · simp [(h1 e).mpr hz]
      · simp only [Bool.and_eq_false_imp, decide_eq_false_iff_not]
        intro _ hc
        exact absurd hc (Int.not_lt.mpr hz)

theorem signedRaw_iff (sig : SigOracle) (keys : Keys) (raw : Option Nat) : verifyRaw sig keys raw = true ↔ SignedRaw sig keys raw := by
  unfold verifyRaw SignedRaw
  cases raw with
  | none => simp
  | some r =>
    cases keys with
    | none => simp
    | some ks => simp

theorem delegation_iff (sig : SigOracle) (now : Time) (keys : Keys) (d : Delegation) :
    d.verifyExternal sig now keys = true ↔ ValidAt now d.iat d.exp ∧ SignedRaw sig keys d.raw := by
  unfold Delegation.verifyExternal
  rw [Bool.and_eq_true, valid_iff, signedRaw_iff]

theorem getDelegation_spec {R : JWTReader} {m : Mark} (hc : CacheOk R m) :
    CacheOk R (m.getDelegation R).2 ∧ { (m.getDelegation R).2 with deleg := none } = { m with deleg := none } ∧
    ((m.getDelegation R).1 = if m.delegationJWT = "" then some none else (parseDelegation R m.delegationJWT).map some) := by
  unfold Mark.getDelegation
  cases hd : m.deleg with
  | some d =>
    rcases hc with h | ⟨h1, h2⟩
    · rw [hd] at h; cases h
    · simp only
      refine ⟨.inr ⟨h1, h2⟩, trivial, ?_⟩
      rw [if_neg h1, ← h2, hd]
      rfl
  | none =>
    simp only
    split
    · rename_i h
      exact ⟨.inl hd, rfl, rfl⟩
    · rename_i h
      split
      · rename_i hp
        exact ⟨.inl hd, rfl, by simp [hp]⟩
      · rename_i d hp
        exact ⟨.inr ⟨h, hp.symm⟩, rfl, by simp [hp]⟩

theorem verifyExternal_spec {R : JWTReader} {sig : SigOracle} {nowM nowD : Time} {keys : Keys} {owners : List Owner} {m : Mark}
    (hc : CacheOk R m) :
    ((m.verifyExternal R sig nowM nowD keys owners).1 = true ↔ MarkOk R sig nowM nowD keys owners.head? m) ∧
    CacheOk R (m.verifyExternal R sig nowM nowD keys owners).2 ∧
    { (m.verifyExternal R sig nowM nowD keys owners).2 with deleg := none } = { m with deleg := none } := by
  have hd := getDelegation_spec hc
  unfold Mark.verifyExternal
  by_cases ht : verifyTime nowM (some m.iat) m.exp = true
  · by_cases hs : verifyRaw sig keys m.raw = true
    · simp only [ht, hs, Bool.not_true, Bool.false_eq_true, if_false]
      have htv := (valid_iff _ _ _).mp ht
      have hsv := (signedRaw_iff _ _ _).mp hs
      cases owners with
      | nil =>
        refine ⟨⟨fun _ => ⟨htv, hsv, by simp⟩, fun _ => rfl⟩, hc, rfl⟩
      | cons o os =>
        simp only [List.head?_cons]
        have hm : ∀ P : Prop, (P ↔ DelegatedBy R sig nowD o m) → (P ↔ MarkOk R sig nowM nowD keys (some o) m) := by
          intro P h
          rw [h]
          unfold MarkOk
          constructor
          · intro h; exact ⟨htv, hsv, by rintro _ ⟨⟩; exact h⟩
          · intro h; exact h.2.2 o rfl
        revert hd
        cases hg : m.getDelegation R with
        | mk r m' =>
          simp only
          rintro ⟨h1, h2, h3⟩
          split
          · rename_i heq
            cases heq
            refine ⟨hm _ ?_, h1, h2⟩
            simp only [Bool.false_eq_true, false_iff]
            rintro ⟨a, d, b, _⟩
            simp [a, b] at h3
          · rename_i heq
            cases heq
            refine ⟨hm _ ?_, h1, h2⟩
            simp only [Bool.false_eq_true, false_iff]
            rintro ⟨a, d, b, _⟩
            simp [a, b] at h3
          · rename_i d m'' heq
            cases heq
            have hne : m.delegationJWT ≠ "" := by intro h; simp [h] at h3
            have hp : parseDelegation R m.delegationJWT = some d := by
              rw [if_neg hne] at h3
              cases hpd : parseDelegation R m.delegationJWT with
              | none => rw [hpd] at h3; cases h3
              | some d' => rw [hpd] at h3; simp only [Option.map_some, Option.some.injEq] at h3; rw [h3]
            have hdel : DelegatedBy R sig nowD o m ↔ d.type = m.type ∧ d.sub = m.iss ∧ d.iss = o.id ∧
                d.verifyExternal sig nowD o.jwks = true := by
              rw [delegation_iff]
              constructor
              · rintro ⟨_, d', h1, h2, h3, h4, h5⟩
                rw [hp] at h1; cases h1
                exact ⟨h2, h4, h3, h5⟩
              · rintro ⟨h2, h4, h3, h5⟩
                exact ⟨hne, d, hp, h2, h3, h4, h5⟩
            by_cases a1 : d.type = m.type
            · by_cases a2 : d.sub = m.iss
              · by_cases a3 : d.iss = o.id
                · simp only [a1, a2, a3, ne_eq, not_true, if_false]
                  exact ⟨hm _ (by rw [hdel]; simp [a1, a2, a3]), h1, h2⟩
                · simp only [a1, a2, a3, ne_eq, not_true, not_false_eq_true, if_true, if_false]
                  exact ⟨hm _ (by rw [hdel]; simp [a3]), h1, h2⟩
              · simp only [a1, a2, ne_eq, not_true, not_false_eq_true, if_true, if_false]
                exact ⟨hm _ (by rw [hdel]; simp [a2]), h1, h2⟩
            · simp only [a1, ne_eq, not_false_eq_true, if_true]
              exact ⟨hm _ (by rw [hdel]; simp [a1]), h1, h2⟩
    · simp only [ht, hs, Bool.not_true, Bool.false_eq_true, if_false, Bool.not_false, if_true]
      refine ⟨?_, hc, trivial⟩
      simp only [false_iff]
      intro h
      exact hs ((signedRaw_iff _ _ _).mpr h.2.1)
  · simp only [ht, Bool.not_false, if_true]
    refine ⟨?_, hc, trivial⟩
    simp only [Bool.false_eq_true, false_iff]
    intro h
    exact ht ((valid_iff _ _ _).mpr h.1)

theorem markOk_congr {R : JWTReader} {sig : SigOracle} {nowM nowD : Time} {keys : Keys} {o : Option Owner} {m m' : Mark}
    (h : { m with deleg := none } = { m' with deleg := none }) :
    MarkOk R sig nowM nowD keys o m ↔ MarkOk R sig nowM nowD keys o m' := by
  obtain ⟨a, b, c, d, e, f, g, x⟩ := m
  obtain ⟨a', b', c', d', e', f', g', x'⟩ := m'
  simp only [Mark.mk.injEq] at h
  obtain ⟨rfl, rfl, rfl, rfl, rfl, rfl, rfl, _⟩ := h
  rfl

theorem parseMark_raw {R : JWTReader} {jwt : String} {m : Mark} (h : parseMark R jwt = some m) : m.raw ≠ none ∧ m.deleg = none := by
  unfold parseMark at h
  split at h
  · cases h
  · split at h
    · cases h
    · cases hu : unmarshalObj markTags tmDec _ with
      | none => rw [hu] at h; cases h
      | some o => rw [hu] at h; cases h; exact ⟨by simp [readMark], rfl⟩

theorem deleg_none_eta {m : Mark} (h : m.deleg = none) : { m with deleg := none } = m := by
  obtain ⟨a, b, c, d, e, f, g, x⟩ := m
  simp only at h
  subst h
  rfl

/-- Parsing on demand gives the mark in the JWT, and keeps the object in order. -/
theorem trustMark_spec {R : JWTReader} {i : Info} (hi : InfoOk R i) :
    ((i.trustMark R).1 = none ∧ parseMark R i.jwt = none ∧ (i.trustMark R).2 = i) ∨
    ∃ m p, (i.trustMark R).1 = some m ∧ parseMark R i.jwt = some p ∧ p = { m with deleg := none } ∧ CacheOk R m ∧
      (i.trustMark R).2 = { i with cached := some m } := by
  have fresh : (match parseMark R i.jwt with
      | none => (none, i)
      | some m => (some m, { i with cached := some m })) = i.trustMark R →
    ((i.trustMark R).1 = none ∧ parseMark R i.jwt = none ∧ (i.trustMark R).2 = i) ∨
    ∃ m p, (i.trustMark R).1 = some m ∧ parseMark R i.jwt = some p ∧ p = { m with deleg := none } ∧ CacheOk R m ∧
      (i.trustMark R).2 = { i with cached := some m } := by
    intro h
    cases hp : parseMark R i.jwt with
    | none => rw [hp] at h; left; rw [← h]; exact ⟨rfl, rfl, rfl⟩
    | some m =>
      rw [hp] at h
      right
      rw [← h]
      have := (parseMark_raw hp).2
      exact ⟨m, m, rfl, rfl, (deleg_none_eta this).symm, .inl this, rfl⟩
  cases hc : i.cached with
  | none =>
    apply fresh
    unfold Info.trustMark
    rw [hc]
    cases parseMark R i.jwt <;> rfl
  | some m =>
    cases hr : m.raw with
    | none =>
      apply fresh
      unfold Info.trustMark
      simp [hc, hr]
      cases parseMark R i.jwt <;> rfl
    | some r =>
      right
      obtain ⟨h1, h2⟩ := hi m hc (by simp [hr])
      refine ⟨m, _, ?_, h1, rfl, h2, ?_⟩
      · unfold Info.trustMark; simp [hc, hr]
      · unfold Info.trustMark
        simp only [hc, hr, Option.isSome_some, if_true]
        obtain ⟨a, b, c, d⟩ := i
        simp only at hc
        subst hc
        rfl

theorem infoOk_set {R : JWTReader} {i : Info} {m p : Mark} (hp : parseMark R i.jwt = some p)
    (h : p = { m with deleg := none }) (hc : CacheOk R m) : InfoOk R { i with cached := some m } := by
  intro m' hm' _
  cases hm'
  exact ⟨by rw [hp, h], hc⟩

theorem infoExternal_spec {R : JWTReader} {sig : SigOracle} {nowM nowD : Time} {keys : Keys} {owners : List Owner} {i : Info}
    (hi : InfoOk R i) :
    ((i.verifyExternal R sig nowM nowD keys owners).1 = true ↔ InfoAccepted R sig nowM nowD keys owners.head? i) ∧
    InfoOk R (i.verifyExternal R sig nowM nowD keys owners).2 ∧
    (i.verifyExternal R sig nowM nowD keys owners).2.jwt = i.jwt ∧
    (i.verifyExternal R sig nowM nowD keys owners).2.type = i.type ∧
    (i.verifyExternal R sig nowM nowD keys owners).2.extra = i.extra := by
  unfold Info.verifyExternal
  rcases trustMark_spec hi with ⟨h1, h2, h3⟩ | ⟨m, p, h1, h2, h3, h4, h5⟩
  · cases ht : i.trustMark R with
    | mk a b =>
      rw [ht] at h1 h3
      simp only at h1 h3
      subst h1 h3
      refine ⟨?_, hi, rfl, rfl, rfl⟩
      simp only [Bool.false_eq_true, false_iff]
      rintro ⟨m, hm, _⟩
      rw [h2] at hm; cases hm
  · cases ht : i.trustMark R with
    | mk a b =>
      rw [ht] at h1 h5
      simp only at h1 h5
      subst h1 h5
      simp only
      have hpt : p.type = m.type := by rw [h3]
      split
      · rename_i hne
        refine ⟨?_, infoOk_set h2 h3 h4, rfl, rfl, rfl⟩
        simp only [Bool.false_eq_true, false_iff]
        rintro ⟨q, hq, hqt, _⟩
        rw [h2] at hq; cases hq
        exact hne (hpt ▸ hqt)
      · rename_i he
        have he : m.type = i.type := by simpa using he
        have hv := verifyExternal_spec (sig := sig) (nowM := nowM) (nowD := nowD) (keys := keys) (owners := owners) h4
        cases hve : m.verifyExternal R sig nowM nowD keys owners with
        | mk bb m' =>
          rw [hve] at hv
          simp only at hv ⊢
          obtain ⟨hv1, hv2, hv3⟩ := hv
          refine ⟨?_, infoOk_set (i := { i with cached := some m }) h2 (by rw [h3, hv3]) hv2, trivial, trivial, trivial⟩
          rw [hv1]
          constructor
          · intro h
            exact ⟨p, h2, hpt.trans he, (markOk_congr (by rw [h3])).mpr h⟩
          · rintro ⟨q, hq, _, hqm⟩
            rw [h2] at hq; cases hq
            exact (markOk_congr (by rw [h3])).mp hqm

theorem allowed_iff (ta : MarkAnchor) (type : String) (iss : ID) : issuerAllowed ta type iss = true ↔ IssuerAllowed ta type iss := by
  unfold issuerAllowed IssuerAllowed
  cases h : ta.issuers with
  | none => simp
  | some m =>
    simp only
    cases hg : AMap.get m type with
    | none =>
      simp only [true_iff]
      rintro m' l ⟨⟩ hl
      rw [hg] at hl; cases hl
    | some l =>
      simp only [List.contains_eq_mem, decide_eq_true_eq]
      constructor
      · rintro h m' l' ⟨⟩ hl
        rw [hg] at hl; cases hl
        exact h
      · intro h
        exact h m l rfl hg

theorem ownersFor_head (ta : MarkAnchor) (type : String) : (ownersFor ta type).head? = AMap.get ta.owners type := by
  unfold ownersFor
  cases AMap.get ta.owners type <;> rfl

/-- Verification through an anchor, in terms of the keys found for the issuer. -/
theorem infoFederation_spec {R : JWTReader} {sig : SigOracle} {nowM nowD : Time} {keysFor : ID → Option (Res Keys)} {ta : MarkAnchor}
    {i i' : Info} {b : Bool} (hi : InfoOk R i) (h : i.verifyFederation R sig nowM nowD keysFor ta = some (.ok (b, i'))) :
    (b = true ↔ ∃ m keys, parseMark R i.jwt = some m ∧ m.type = i.type ∧ IssuerAllowed ta m.type m.iss ∧
      keysFor m.iss = some (.ok keys) ∧ MarkOk R sig nowM nowD keys (AMap.get ta.owners m.type) m) ∧
    InfoOk R i' ∧ i'.jwt = i.jwt ∧ i'.type = i.type ∧ i'.extra = i.extra := by
  unfold Info.verifyFederation at h
  rcases trustMark_spec hi with ⟨h1, h2, h3⟩ | ⟨m, p, h1, h2, h3, h4, h5⟩
  · cases ht : i.trustMark R with
    | mk x y =>
      rw [ht] at h h1 h3
      simp only at h1 h3
      subst h1 h3
      simp only [Option.some.injEq, Except.ok.injEq, Prod.mk.injEq] at h
      obtain ⟨rfl, rfl⟩ := h
      refine ⟨?_, hi, rfl, rfl, rfl⟩
      simp only [Bool.false_eq_true, false_iff]
      rintro ⟨m, _, hm, _⟩
      rw [h2] at hm; cases hm
  · cases ht : i.trustMark R with
    | mk x y =>
      rw [ht] at h h1 h5
      simp only at h1 h5
      subst h1 h5
      simp only at h
      have hpt : p.type = m.type := by rw [h3]
      have hpi : p.iss = m.iss := by rw [h3]
      split at h
      · rename_i hne
        simp only [Option.some.injEq, Except.ok.injEq, Prod.mk.injEq] at h
        obtain ⟨rfl, rfl⟩ := h
        refine ⟨?_, infoOk_set h2 h3 h4, rfl, rfl, rfl⟩
        simp only [Bool.false_eq_true, false_iff]
        rintro ⟨q, _, hq, hqt, _⟩
        rw [h2] at hq; cases hq
        exact hne (hpt ▸ hqt)
      · rename_i he
        have he : m.type = i.type := by simpa using he
        split at h
        · cases h
        · cases h
        · rename_i b' m' hm'
          simp only [Option.some.injEq, Except.ok.injEq, Prod.mk.injEq] at h
          obtain ⟨rfl, rfl⟩ := h
          unfold Mark.verifyFederation at hm'
          have back : ∀ P : Prop, (P ↔ IssuerAllowed ta m.type m.iss ∧ ∃ keys, keysFor m.iss = some (.ok keys) ∧
              MarkOk R sig nowM nowD keys (AMap.get ta.owners m.type) m) → (P ↔ ∃ m keys, parseMark R i.jwt = some m ∧ m.type = i.type ∧
              IssuerAllowed ta m.type m.iss ∧ keysFor m.iss = some (.ok keys) ∧ MarkOk R sig nowM nowD keys (AMap.get ta.owners m.type) m) := by
            intro P hP
            rw [hP]
            constructor
            · rintro ⟨a, keys, b, c⟩
              refine ⟨p, keys, h2, hpt.trans he, ?_, ?_, ?_⟩
              · rw [hpt, hpi]; exact a
              · rw [hpi]; exact b
              · rw [hpt]; exact (markOk_congr (by rw [h3])).mpr c
            · rintro ⟨q, keys, hq, _, a, b, c⟩
              rw [h2] at hq; cases hq
              rw [hpt, hpi] at a
              rw [hpi] at b
              rw [hpt] at c
              exact ⟨a, keys, b, (markOk_congr (by rw [h3])).mp c⟩
          split at hm'
          · rename_i hna
            simp only [Option.some.injEq, Except.ok.injEq, Prod.mk.injEq] at hm'
            obtain ⟨rfl, rfl⟩ := hm'
            refine ⟨back _ ?_, infoOk_set (i := { i with cached := some m }) h2 h3 h4, rfl, rfl, rfl⟩
            simp only [Bool.false_eq_true, false_iff]
            rintro ⟨a, _⟩
            rw [← allowed_iff] at a
            simp [a] at hna
          · rename_i ha
            have ha : issuerAllowed ta m.type m.iss = true := by simpa using ha
            rw [allowed_iff] at ha
            split at hm'
            · cases hm'
            · cases hm'
            · rename_i hk
              simp only [Option.some.injEq, Except.ok.injEq, Prod.mk.injEq] at hm'
              obtain ⟨rfl, rfl⟩ := hm'
              refine ⟨back _ ?_, infoOk_set (i := { i with cached := some m }) h2 h3 h4, rfl, rfl, rfl⟩
              simp only [Bool.false_eq_true, false_iff]
              rintro ⟨_, keys, b, _⟩
              rw [hk] at b; cases b
            · rename_i keys hk
              simp only [Option.some.injEq, Except.ok.injEq] at hm'
              have hv := verifyExternal_spec (sig := sig) (nowM := nowM) (nowD := nowD) (keys := keys)
                (owners := ownersFor ta m.type) h4
              rw [hm'] at hv
              simp only at hv
              obtain ⟨hv1, hv2, hv3⟩ := hv
              refine ⟨back _ ?_, infoOk_set (i := { i with cached := some m }) h2 (by rw [h3, hv3]) hv2, rfl, rfl, rfl⟩
              rw [hv1, ownersFor_head]
              constructor
              · intro h; exact ⟨ha, keys, hk, h⟩
              · rintro ⟨_, keys', hk', c⟩
                rw [hk] at hk'; cases hk'
                exact c

end Oidfed
