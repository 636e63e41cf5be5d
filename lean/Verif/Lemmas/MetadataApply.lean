import Verif.Model.Statement
import Verif.Lemmas.Policy
/-! What the loops over fields and entity types do. -/

namespace Oidfed

theorem applyFields_ok {p : Policy} {ws : List String} : ∀ {fs fs' : List Field}, applyFields p ws fs = .ok fs' →
    fs'.length = fs.length ∧ ∀ (i : Nat) f, fs[i]? = some f → ∃ f', fs'[i]? = some f' ∧ applyField p ws f = .ok f' := by
  intro fs
  induction fs with
  | nil => intro fs' h; cases h; simp
  | cons g fs ih =>
    intro fs' h
    rw [applyFields] at h
    obtain ⟨g', hg, h⟩ := bind_ok h
    obtain ⟨gs, hgs, h⟩ := bind_ok h
    cases h
    obtain ⟨h1, h2⟩ := ih hgs
    refine ⟨by simp [h1], ?_⟩
    intro i f hf
    cases i with
    | zero => simp at hf; subst hf; exact ⟨g', by simp, hg⟩
    | succ i => simp at hf ⊢; exact h2 i f hf

/-- The field with the resulting attribute value: `setField` and `scopeJoin`. -/
theorem applyField_ok {p : Policy} {ws : List String} {f f' : Field} (h : applyField p ws f = .ok f') :
    (AMap.get p f.tag = none ∧ f' = f) ∨
    ∃ e v, AMap.get p f.tag = some e ∧ e.applyTo f.val (ws.contains f.name) = .ok v ∧
      f'.name = f.name ∧ f'.tag = f.tag ∧ f'.ty = f.ty ∧
      ((v = .nil ∧ f'.val = Val.zeroOf f.ty) ∨ (v ≠ .nil ∧ f'.val = scopeJoin f.name v ∧ f'.val.ty? = some f.ty)) := by
  unfold applyField at h
  cases hg : AMap.get p f.tag with
  | none => rw [hg] at h; cases h; exact .inl ⟨rfl, rfl⟩
  | some e =>
    rw [hg] at h
    dsimp only at h
    obtain ⟨v, hv, h⟩ := bind_ok h
    refine .inr ⟨e, v, rfl, hv, ?_⟩
    unfold setField at h
    cases hn : (scopeJoin f.name v).ty? with
    | none =>
      rw [hn] at h
      cases h
      refine ⟨rfl, rfl, rfl, .inl ⟨?_, rfl⟩⟩
      unfold scopeJoin at hn
      split at hn
      · split at hn <;> simp [Val.ty?] at hn
      · cases v <;> simp [Val.ty?] at hn ⊢
    | some t =>
      rw [hn] at h
      dsimp only at h
      split at h
      · rename_i ht
        cases h
        refine ⟨rfl, rfl, rfl, .inr ⟨?_, rfl, by rw [hn, ht]⟩⟩
        rintro rfl
        simp [scopeJoin, Val.ty?] at hn
      · cases h

theorem extraMap_kept {p : Policy} {ws : List String} (hp : AMap.get p "-" = none) : ∀ {fs fs' : List Field}, applyFields p ws fs = .ok fs' →
    extraMap fs' = extraMap fs := by
  intro fs
  induction fs with
  | nil => intro fs' h; cases h; rfl
  | cons g fs ih =>
    intro fs' h
    rw [applyFields] at h
    obtain ⟨g', hg, h⟩ := bind_ok h
    obtain ⟨gs, hgs, h⟩ := bind_ok h
    cases h
    have ht : g'.tag = g.tag ∧ (g.tag = "-" → g' = g) := by
      rcases applyField_ok hg with ⟨_, rfl⟩ | ⟨e, _, he, _, _, h2, _⟩
      · exact ⟨rfl, fun _ => rfl⟩
      · refine ⟨h2, fun h => ?_⟩
        rw [h, hp] at he
        cases he
    unfold extraMap
    by_cases hc : g.tag = "-"
    · rw [ht.2 hc, List.find?_cons_of_pos (by simp [hc]), List.find?_cons_of_pos (by simp [hc])]
    · rw [List.find?_cons_of_neg (by simp [ht.1, hc]), List.find?_cons_of_neg (by simp [hc])]
      exact ih hgs

theorem apply_ok {m m' : EntityMeta} {p : Policy} (h : m.apply p = .ok m') :
    applyFields p m.wasSet m.fields = .ok m'.fields ∧ m'.wasSet = m.wasSet ∧ (AMap.get p "-" = none → m'.extra = m.extra) := by
  unfold EntityMeta.apply at h
  obtain ⟨fs, hfs, h⟩ := bind_ok h
  cases h
  exact ⟨hfs, rfl, fun hp => if_pos (extraMap_kept hp hfs)⟩

theorem applyKnown_ok {m : Metadata} {p : Policies} : ∀ {ts : List EType} {r : EType → Option EntityMeta},
    applyKnown m p ts = .ok r → ∀ t ∈ ts,
      (m.known t = none → r t = none) ∧
      (∀ em, m.known t = some em → ∃ em', em.apply (p.known t) = .ok em' ∧ r t = some em') := by
  intro ts
  induction ts with
  | nil => intro r _ t ht; cases ht
  | cons u ts ih =>
    intro r h t ht
    rw [applyKnown] at h
    cases hu : m.known u with
    | none =>
      rw [hu] at h
      dsimp only at h
      obtain ⟨q, hq, h⟩ := bind_ok h
      cases h
      by_cases htu : t = u
      · subst htu
        simp [hu]
      · simp only [htu, if_false]
        exact ih hq t (by simpa [htu] using ht)
    | some eu =>
      rw [hu] at h
      dsimp only at h
      obtain ⟨eu', heu, h⟩ := bind_ok h
      obtain ⟨q, hq, h⟩ := bind_ok h
      cases h
      by_cases htu : t = u
      · subst htu
        simp only [if_true, hu]
        refine ⟨by simp, ?_⟩
        intro em hem
        cases hem
        exact ⟨eu', heu, rfl⟩
      · simp only [htu, if_false]
        exact ih hq t (by simpa [htu] using ht)

theorem mem_all (t : EType) : t ∈ EType.all := by cases t <;> decide

theorem applyExtra_ok {p : AMap (Option Policy)} : ∀ {xs r : AMap Val}, applyExtra p xs = .ok r → r = xs := by
  intro xs
  induction xs with
  | nil => intro r h; cases h; rfl
  | cons kv xs ih =>
    intro r h
    obtain ⟨k, v⟩ := kv
    rw [applyExtra] at h
    cases hg : AMap.get p k with
    | none =>
      rw [hg] at h
      dsimp only at h
      obtain ⟨q, hq, h⟩ := bind_ok h
      cases h
      rw [ih hq]
    | some q =>
      rw [hg] at h
      cases q with
      | some _ => cases h
      | none =>
        dsimp only at h
        obtain ⟨q, hq, h⟩ := bind_ok h
        cases h
        rw [ih hq]

theorem applyPolicy_ok {m m' : Metadata} {p : Policies} (h : m.applyPolicy (some p) = .ok m') :
    (∀ t, (m.known t = none → m'.known t = none) ∧
      ∀ em, m.known t = some em → ∃ em', em.apply (p.known t) = .ok em' ∧ m'.known t = some em') ∧
    m'.extra.getD [] = m.extra.getD [] := by
  unfold Metadata.applyPolicy at h
  obtain ⟨k, hk, h⟩ := bind_ok h
  obtain ⟨x, hx, h⟩ := bind_ok h
  cases h
  refine ⟨fun t => applyKnown_ok hk t (mem_all t), ?_⟩
  have := applyExtra_ok hx
  subst this
  dsimp only
  split
  · rename_i he
    simpa using he.symm
  · rfl

theorem mergeKnown_ok {ps : List Policies} : ∀ {ts : List EType} {r : EType → Policy}, mergeKnown ps ts = .ok r →
    ∀ t ∈ ts, combineAll (ps.map (fun p => p.known t)) = .ok (r t) := by
  intro ts
  induction ts with
  | nil => intro r _ t ht; cases ht
  | cons u ts ih =>
    intro r h t ht
    rw [mergeKnown] at h
    obtain ⟨c, hc, h⟩ := bind_ok h
    obtain ⟨q, hq, h⟩ := bind_ok h
    cases h
    by_cases htu : t = u
    · subst htu; simpa using hc
    · simp only [htu, if_false]
      exact ih hq t (by simpa [htu] using ht)

theorem mergePolicies_ok {ps : List (Option Policies)} {p : Policies} (h : mergePolicies ps = .ok p) (t : EType) :
    combineAll ((ps.filterMap id).map (fun p => p.known t)) = .ok (p.known t) := by
  unfold mergePolicies at h
  obtain ⟨k, hk, h⟩ := bind_ok h
  obtain ⟨x, hx, h⟩ := bind_ok h
  cases h
  exact mergeKnown_ok hk t (mem_all t)

theorem chainMetadata_ok {a b : Stmt} {rest : Chain} {r : Option Metadata} (h : chainMetadata (a :: b :: rest) = .ok r) :
    ∃ p md, r = some md ∧ mergePolicies ((a :: b :: rest).map Stmt.policy) = .ok p ∧
      (a.metadata.getD Metadata.empty).applyPolicy (some p) = .ok md := by
  unfold chainMetadata at h
  dsimp only at h
  split at h
  · cases h
  · obtain ⟨p, hp, h⟩ := bind_ok h
    obtain ⟨md, hmd, h⟩ := bind_ok h
    cases h
    exact ⟨p, md, rfl, hp, hmd⟩

end Oidfed
