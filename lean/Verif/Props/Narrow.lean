import Verif.Spec.Narrow
import Verif.Props.Collector
import Verif.Lemmas.Discovery
/-!
# C151: how the criteria of a collection work together
-/

namespace Oidfed
open Spec

theorem collected_iff {E : CollectEnv} {q : CollectReq} {out : List ID} (h : Collects E q out) (x : ID) :
    x ∈ out ↔ Member (Lists E) q.anchor x ∧ Passes E q x := by
  obtain ⟨s0, s, r, h0, h1, h2, h3, rfl⟩ := h
  exact C46_exact E q h0 h1 h2 h3 x

/-- C151 (narrower requests): with further criteria, a collection returns nothing that is not also returned without them. -/
theorem C151_narrower (E : CollectEnv) (q q' : CollectReq) (hn : Narrower q' q) (out out' : List ID)
    (h : Collects E q out) (h' : Collects E q' out') (x : ID) (hx : x ∈ out') : x ∈ out := by
  obtain ⟨hm, st, m, h1, h2, h3, h4, h5⟩ := (collected_iff h' x).mp hx
  refine (collected_iff h x).mpr ⟨by rw [← hn.anchor]; exact hm, st, m, h1, h2, ?_, ?_, ?_⟩
  · intro ts hts
    obtain ⟨ts', ht', hsub⟩ := hn.types ts hts
    obtain ⟨t, ht, hk⟩ := h3 ts' ht'
    exact ⟨t, hsub t ht, hk⟩
  · intro hne
    rcases hn.name with he | he
    · exact absurd he hne
    · rw [NamePass, he] at h4
      exact h4 hne
  · intro t ht
    have := h5 t (hn.marks t ht)
    rwa [hn.anchor] at this

/-- C151 (each criterion on its own): a collection returns exactly what collections with only its entity types, only its name query, and only its trust mark
types all return. -/
theorem C151_criteria (E : CollectEnv) (q : CollectReq) (out byType byName byMark : List ID) (h : Collects E q out)
    (ht : Collects E { q with name := "", markTypes := [] } byType) (hn : Collects E { q with types := none, markTypes := [] } byName)
    (hm : Collects E { q with types := none, name := "" } byMark) (x : ID) :
    x ∈ out ↔ x ∈ byType ∧ x ∈ byName ∧ x ∈ byMark := by
  rw [collected_iff h, collected_iff ht, collected_iff hn, collected_iff hm]
  constructor
  · rintro ⟨hM, st, m, h1, h2, h3, h4, h5⟩
    exact ⟨⟨hM, st, m, h1, h2, h3, fun h => absurd rfl h, fun t ht => absurd ht List.not_mem_nil⟩,
      ⟨hM, st, m, h1, h2, (fun ts hts => by cases hts), h4, fun t ht => absurd ht List.not_mem_nil⟩,
      ⟨hM, st, m, h1, h2, (fun ts hts => by cases hts), fun h => absurd rfl h, h5⟩⟩
  · rintro ⟨⟨hM, st, m, h1, h2, h3, _, _⟩, ⟨_, st', m', h1', h2', _, h4, _⟩, ⟨_, st'', m'', h1'', h2'', _, _, h5⟩⟩
    rw [h1] at h1' h1''
    cases h1'; cases h1''
    rw [h2] at h2'
    cases h2'
    exact ⟨hM, st, m, h1, h2, h3, h4, h5⟩

/-- C151 (several entity types): asking for several entity types returns what asking for some of them and asking for the others return together. -/
theorem C151_types (E : CollectEnv) (q : CollectReq) (ts ts' : List String) (out out1 out2 : List ID)
    (h : Collects E { q with types := some (ts ++ ts') } out) (h1 : Collects E { q with types := some ts } out1)
    (h2 : Collects E { q with types := some ts' } out2) (x : ID) : x ∈ out ↔ x ∈ out1 ∨ x ∈ out2 := by
  rw [collected_iff h, collected_iff h1, collected_iff h2]
  constructor
  · rintro ⟨hM, st, m, e1, e2, e3, e4, e5⟩
    obtain ⟨t, ht, hk⟩ := e3 _ rfl
    rcases List.mem_append.mp ht with ht | ht
    · exact .inl ⟨hM, st, m, e1, e2, (fun _ hts => by cases hts; exact ⟨t, ht, hk⟩), e4, e5⟩
    · exact .inr ⟨hM, st, m, e1, e2, (fun _ hts => by cases hts; exact ⟨t, ht, hk⟩), e4, e5⟩
  · rintro (⟨hM, st, m, e1, e2, e3, e4, e5⟩ | ⟨hM, st, m, e1, e2, e3, e4, e5⟩)
    · obtain ⟨t, ht, hk⟩ := e3 _ rfl
      exact ⟨hM, st, m, e1, e2, (fun _ hts => by cases hts; exact ⟨t, List.mem_append_left _ ht, hk⟩), e4, e5⟩
    · obtain ⟨t, ht, hk⟩ := e3 _ rfl
      exact ⟨hM, st, m, e1, e2, (fun _ hts => by cases hts; exact ⟨t, List.mem_append_right _ ht, hk⟩), e4, e5⟩

/-- C151 (failures): if fewer configurations and listings can be obtained, and fewer trust marks are verified, a collection returns nothing that it does not
return otherwise. -/
theorem C151_failures (E E' : CollectEnv) (hE : FewerAnswers E' E) (q : CollectReq) (out out' : List ID)
    (h : Collects E q out) (h' : Collects E' q out') (x : ID) (hx : x ∈ out') : x ∈ out := by
  obtain ⟨hm, st, m, h1, h2, h3, h4, h5⟩ := (collected_iff h' x).mp hx
  refine (collected_iff h x).mpr ⟨member_congr ?_ hm, st, m, hE.ec _ _ h1, h2, h3, ?_, ?_⟩
  · rintro a y ⟨st, m, f, l, e1, e2, e3, e4, e5, e6⟩
    exact ⟨st, m, f, l, hE.ec _ _ e1, e2, e3, e4, hE.listAt _ _ e5, e6⟩
  · intro hne
    rw [← hE.fuzzy]
    exact h4 hne
  · intro t ht
    obtain ⟨ta, pre, i, post, e1, e2, e3, e4, e5⟩ := h5 t ht
    exact ⟨ta, pre, i, post, hE.ec _ _ e1, by rw [← hE.marks]; exact e2, e3, e4, hE.verifies _ _ e5⟩

/-- in the example, every request to "t" finishes -/
theorem narrowFinishes (q : CollectReq) (hq : q.anchor = "t") : ∃ out, Collects Ex.cenv2 q out := by
  have hfin : ∃ U : List ID, ∀ x, Below (Lists Ex.cenv2) q.anchor x → x ∈ U := by
    refine ⟨["t", "b", "d"], fun x hx => ?_⟩
    induction hx with
    | anchor => rw [hq]; decide
    | @sub a x _ hl _ =>
      obtain ⟨st, m, f, l, _, _, _, _, h, hm⟩ := hl
      simp only [Ex.cenv2] at h
      split at h
      · cases h; revert hm; simp; rintro (rfl | rfl) <;> simp
      · split at h
        · cases h; simp at hm; simp [hm]
        · cases h
  obtain ⟨s, r, h1, h2, h3⟩ := C76_returns Ex.cenv2 q hfin (idle_new maxCollectWorkers)
  exact ⟨r.out, _, s, r, idle_new _, h1, h2, h3, rfl⟩

/-- a request for federation entities is narrower than one without criteria, both return "b"; one for providers returns nothing -/
example : ∃ out out' out'', Collects Ex.cenv2 (Ex.creq "t") out ∧ Collects Ex.cenv2 { Ex.creq "t" with types := some ["federation_entity"] } out' ∧
    Collects Ex.cenv2 { Ex.creq "t" with types := some ["openid_provider"] } out'' ∧
    Narrower { Ex.creq "t" with types := some ["federation_entity"] } (Ex.creq "t") ∧
    Narrower { Ex.creq "t" with types := some ["openid_provider"] } (Ex.creq "t") ∧ "b" ∈ out ∧ "b" ∈ out' ∧ "b" ∉ out'' := by
  obtain ⟨out, h⟩ := narrowFinishes (Ex.creq "t") rfl
  obtain ⟨out', h'⟩ := narrowFinishes { Ex.creq "t" with types := some ["federation_entity"] } rfl
  obtain ⟨out'', h''⟩ := narrowFinishes { Ex.creq "t" with types := some ["openid_provider"] } rfl
  have hmem : Member (Lists Ex.cenv2) "t" "b" := ⟨"t", .anchor, _, _, _, _, rfl, rfl, rfl, by decide, rfl, by decide⟩
  refine ⟨out, out', out'', h, h', h'', ⟨rfl, (fun _ h => by cases h), .inl rfl, fun _ h => h⟩,
    ⟨rfl, (fun _ h => by cases h), .inl rfl, fun _ h => h⟩, ?_, ?_, ?_⟩
  · exact (collected_iff h "b").mpr ⟨hmem, _, _, rfl, rfl, (fun _ h => by cases h), fun h => absurd rfl h, fun t ht => absurd ht List.not_mem_nil⟩
  · refine (collected_iff h' "b").mpr ⟨hmem, _, _, rfl, rfl, ?_, fun h => absurd rfl h, fun t ht => absurd ht List.not_mem_nil⟩
    intro ts hts
    cases hts
    exact ⟨_, List.mem_singleton.mpr rfl, .fed, rfl, rfl⟩
  · intro hb
    obtain ⟨_, st, m, h1, h2, h3, _⟩ := (collected_iff h'' "b").mp hb
    obtain ⟨t, ht, k, hk, hs⟩ := h3 _ rfl
    cases List.mem_singleton.mp ht
    have : k = .op := etype_tag_inj hk
    subst this
    cases h1; cases h2
    cases hs

/-- if "b" does not answer, "t" is no longer found -/
example : ∃ E', FewerAnswers E' Ex.cenv2 ∧ ¬ Member (Lists E') "t" "t" ∧ Member (Lists Ex.cenv2) "t" "t" := by
  refine ⟨{ Ex.cenv2 with listAt := fun e => if e = "t/list" then some ["b", "d"] else none }, ⟨fun _ _ h => h, ?_, rfl, fun _ _ h => h, rfl⟩, ?_,
    "b", .sub .anchor ⟨_, _, _, _, rfl, rfl, rfl, by decide, rfl, by decide⟩, _, _, _, _, rfl, rfl, rfl, by decide, rfl, by decide⟩
  · intro e l h
    simp only at h
    split at h
    · cases h; simp [Ex.cenv2, *]
    · cases h
  · rintro ⟨a, _, st, m, f, l, _, _, _, _, h, hm⟩
    simp only at h
    split at h
    · cases h; revert hm; decide
    · cases h

end Oidfed
