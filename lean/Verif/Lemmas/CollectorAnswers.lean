import Verif.Lemmas.CollectorTerm
/-!
# What the outside answers, in the vocabulary of the specification
-/

namespace Oidfed
open Oidfed.Spec

theorem mem_listing {E : CollectEnv} {a x : ID} : x ∈ E.listing a ↔ Lists E a x := by
  unfold CollectEnv.listing Lists Stmt.listEndpoint
  constructor
  · intro h
    cases he : E.ec a with
    | none => rw [he] at h; simp at h
    | some st =>
      rw [he] at h
      cases hm : st.metadata with
      | none => simp [hm] at h
      | some m =>
        cases hf : m.known .fed with
        | none => simp [hm, hf] at h
        | some f =>
          simp only [hm, hf] at h
          split at h
          · simp at h
          · rename_i hne
            cases hl : E.listAt (f.str "federation_list_endpoint") with
            | none => rw [hl] at h; simp at h
            | some l => rw [hl] at h; exact ⟨st, m, f, l, rfl, hm, hf, hne, hl, h⟩
  · rintro ⟨st, m, f, l, he, hm, hf, hne, hl, hx⟩
    simp only [he, hm, hf, if_neg hne, hl]
    exact hx

theorem listing_endpoint {E : CollectEnv} {q : CollectReq} {x : ID} (h : E.listing x ≠ []) : ∃ b, E.info q x = some (b, true) := by
  obtain ⟨y, hy⟩ := List.exists_mem_of_ne_nil _ h
  obtain ⟨st, m, f, l, he, hm, hf, hne, hl, _⟩ := mem_listing.mp hy
  refine ⟨includeEntity E q st m, ?_⟩
  simp [CollectEnv.info, he, hm, Stmt.listEndpoint, hf, hne]

theorem mem_etypes (k : EType) : k ∈ EType.all := by cases k <;> decide

theorem types_pass {q : CollectReq} {m : Metadata} : (match q.types with
    | none => true
    | some ts => (m.entityTypes.filter (fun t => ts.contains t)).length != 0) = true ↔ TypesPass q m := by
  unfold TypesPass
  cases q.types with
  | none => simp
  | some ts =>
    simp only [Metadata.entityTypes, bne_iff_ne, ne_eq, List.length_eq_zero_iff, Option.some.injEq]
    constructor
    · intro h ts' hts
      subst hts
      obtain ⟨t, ht⟩ := List.exists_mem_of_ne_nil _ h
      obtain ⟨ht, hc⟩ := List.mem_filter.mp ht
      obtain ⟨k, hk, rfl⟩ := List.mem_map.mp ht
      exact ⟨k.tag, by simpa using hc, k, rfl, (List.mem_filter.mp hk).2⟩
    · intro h he
      obtain ⟨t, ht, k, rfl, hk⟩ := h ts rfl
      have : k.tag ∈ (((EType.all.filter (fun t => (m.known t).isSome)).map EType.tag).filter (fun t => ts.contains t)) :=
        List.mem_filter.mpr ⟨List.mem_map.mpr ⟨k, List.mem_filter.mpr ⟨mem_etypes k, hk⟩, rfl⟩, by simpa using ht⟩
      rw [he] at this
      simp at this

theorem nameTag_eq (t : EType) : t.nameTag = nameClaim t := by cases t <;> rfl

theorem name_in : guessDisplayName = nameIn := by
  funext t em
  unfold guessDisplayName nameIn
  rw [nameTag_eq]
  simp only [ne_eq, ite_not]

theorem name_pass {E : CollectEnv} {q : CollectReq} {m : Metadata} :
    (q.name == "" || E.fuzzy q.name (m.displayNames.map (fun kv => kv.2))) = true ↔ NamePass E q m := by
  have e : m.displayNames.map (fun kv => kv.2) = EType.all.filterMap (fun t => (m.known t).map (nameIn t)) := by
    simp only [Metadata.displayNames, List.map_filterMap, Option.map_map]
    rw [← name_in]
    rfl
  unfold NamePass
  rw [e]
  simp only [Bool.or_eq_true, beq_iff_eq, ne_eq]
  constructor
  · rintro (h | h) hn
    · exact absurd h hn
    · exact h
  · intro h
    by_cases hn : q.name = ""
    · exact .inl hn
    · exact .inr (h hn)

theorem find_first {α : Type} (p : α → Bool) (l : List α) (x : α) : l.find? p = some x ↔
    ∃ pre post, l = pre ++ x :: post ∧ p x = true ∧ ∀ y ∈ pre, p y ≠ true := by
  rw [List.find?_eq_some_iff_append]
  constructor
  · rintro ⟨h, as, bs, e, ha⟩
    exact ⟨as, bs, e, h, fun y hy => by simpa using ha y hy⟩
  · rintro ⟨as, bs, e, h, ha⟩
    exact ⟨h, as, bs, e, fun y hy => by simpa using ha y hy⟩

theorem marks_pass {E : CollectEnv} {anchor : ID} {marks : List Info} {ts : List String} : marksIncluded E anchor marks ts = true ↔
    ∀ t ∈ ts, ∃ ta pre i post, E.ec anchor = some ta ∧ marks = pre ++ i :: post ∧ i.type = t ∧ (∀ i' ∈ pre, i'.type ≠ t) ∧
      E.verifies ta i = true := by
  induction ts with
  | nil => simp [marksIncluded]
  | cons t ts ih =>
    simp only [marksIncluded, List.forall_mem_cons]
    rw [← ih]
    cases hfind : marks.find? (fun i => i.type == t) with
    | none =>
      simp only [Bool.false_eq_true, false_iff, not_and]
      rintro ⟨ta, pre, i, post, _, e, ht, _⟩
      have := List.find?_eq_none.mp hfind i (by rw [e]; simp)
      simp [ht] at this
    | some i =>
      obtain ⟨pre, post, e, ht, hpre⟩ := (find_first _ _ _).mp hfind
      cases hta : E.ec anchor with
      | none => simp
      | some ta =>
        simp only [Bool.and_eq_true]
        refine and_congr ?_ Iff.rfl
        constructor
        · intro h
          exact ⟨ta, pre, i, post, rfl, e, by simpa using ht, fun i' hi' => by simpa using hpre i' hi', h⟩
        · rintro ⟨ta', pre', i', post', hta', e', ht', hpre', h⟩
          have : marks.find? (fun i => i.type == t) = some i' := (find_first _ _ _).mpr ⟨pre', post', e', by simpa using ht', fun y hy => by simpa using hpre' y hy⟩
          rw [hfind] at this
          cases this
          cases hta'
          exact h

theorem include_iff {E : CollectEnv} {q : CollectReq} {st : Stmt} {m : Metadata} :
    includeEntity E q st m = true ↔ TypesPass q m ∧ NamePass E q m ∧ MarksPass E q st := by
  unfold includeEntity MarksPass
  rw [Bool.and_eq_true, Bool.and_eq_true, name_pass, marks_pass, and_assoc]
  exact and_congr types_pass Iff.rfl

theorem info_iff {E : CollectEnv} {q : CollectReq} {x : ID} : (∃ l, E.info q x = some (true, l)) ↔ Passes E q x := by
  unfold CollectEnv.info Passes
  cases he : E.ec x with
  | none => simp
  | some st =>
    cases hm : st.metadata with
    | none => simp [hm]
    | some m =>
      simp only [hm, Option.some.injEq, Prod.mk.injEq, exists_and_left, exists_eq', and_true]
      rw [include_iff]
      constructor
      · exact fun h => ⟨st, rfl, m, hm, h⟩
      · rintro ⟨st', rfl, m', hm', h⟩
        rw [hm] at hm'
        cases hm'
        exact h

theorem world_stable (E : CollectEnv) (q : CollectReq) : Stable (E.world q) E.listing (E.info q) := ⟨fun _ _ h => h, fun _ _ h => h⟩

theorem canList_iff {E : CollectEnv} {q : CollectReq} {a x : ID} : CanList (E.world q) a x ↔ Lists E a x := by
  rw [← mem_listing]
  constructor
  · rintro ⟨l, rfl, hx⟩; exact hx
  · exact fun h => ⟨_, rfl, h⟩

theorem below_congr {R S : ID → ID → Prop} (h : ∀ a x, R a x → S a x) {anchor x : ID} (hb : Below R anchor x) : Below S anchor x := by
  induction hb with
  | anchor => exact .anchor
  | sub _ hl ih => exact .sub ih (h _ _ hl)

theorem member_congr {R S : ID → ID → Prop} (h : ∀ a x, R a x → S a x) {anchor x : ID} (hb : Member R anchor x) : Member S anchor x := by
  obtain ⟨a, ha, hl⟩ := hb
  exact ⟨a, below_congr h ha, h _ _ hl⟩

/-- The worker may yet make a nested call. -/
def SubPC.mayNest : SubPC → Bool
  | .send l | .nest l => l
  | .wait _ => true
  | _ => false

theorem flat_run {cap : Nat} (hcap : 0 < cap) {W : CWorld} {anchor : ID} (hflat : ∀ x, CanList W anchor x → ∀ b, ¬ W.info x (some (b, true))) {s0 s : CState} (h0 : CIdle cap s0)
    (h : CRun cap W s0 anchor s) : s.frames.length = s0.frames.length + 1 ∧
      ∀ i f, s0.frames.length ≤ i → s.frames[i]? = some f → f.auth = anchor ∧ ∀ x ∈ f.subs, x.2.mayNest = false := by
  induction h with
  | init =>
    refine ⟨by simp [CState.collect], fun i f hi hf => ?_⟩
    obtain ⟨_, rfl⟩ := init_get hi hf
    exact ⟨rfl, by simp [CFrame.start]⟩
  | @step s s' hr hstep ih =>
    obtain ⟨hlen, hsub⟩ := ih
    have hinv := runs_inv hcap (hr.runs h0)
    obtain ⟨i, f, f', add, new, hf, he, rfl⟩ := cstep_eff hstep hinv.not_closed
    have hy := hr.young hcap h0 hf he
    obtain ⟨hau, hs⟩ := hsub i f hy hf
    have hlist := (run_sound hcap h0 hr i f hy hf).listed
    rw [hau] at hlist
    have hnew : new = [] := by
      cases he <;> try rfl
      rename_i j id hj
      have := hs _ (List.mem_of_getElem? hj)
      cases this
    subst hnew
    refine ⟨by simp [CState.after, hlen], ?_⟩
    intro k g hk hg
    have move : ∀ (j : Nat) (id : ID) (pc : SubPC), pc.mayNest = false → ∀ x ∈ (f.setSub j id pc).subs, x.2.mayNest = false := by
      intro j id pc hpc x hx
      rcases List.mem_or_eq_of_mem_set (by simpa [CFrame.setSub] using hx) with h | rfl
      · exact hs x h
      · exact hpc
    rcases after_get hf hg with ⟨_, rfl⟩ | ⟨_, hg⟩ | ⟨m, _, hg2⟩
    · refine ⟨(eff_auth he).trans hau, ?_⟩
      cases he with
      | checkSeen h hv => exact hs
      | checkNew h hv => exact hs
      | add h => exact hs
      | list l h hl => exact hs
      | spawn id rest h _ =>
        intro x hx
        rcases List.mem_append.mp hx with h | h
        · exact hs x h
        · rw [List.mem_singleton.mp h]; rfl
      | spawnEnd h => exact hs
      | authRelease h => exact hs
      | authDone h => exact hs
      | fetchNone j id hj _ => exact move j id _ rfl
      | fetchIn j id l hj hw =>
        refine move j id _ ?_
        cases l with
        | false => rfl
        | true => exact absurd hw (hflat _ (hlist _ _ (List.mem_of_getElem? hj)) _)
      | fetchOut j id l hj hw =>
        refine move j id _ ?_
        cases l with
        | false => rfl
        | true => exact absurd hw (hflat _ (hlist _ _ (List.mem_of_getElem? hj)) _)
      | send j id l hj _ =>
        have := hs _ (List.mem_of_getElem? hj)
        have hm := move j id (.nest l) this
        intro x hx
        exact hm x (by simpa using hx)
      | nestNo j id hj => exact move j id _ rfl
      | join j id c g hj hg _ =>
        have := hs _ (List.mem_of_getElem? hj)
        cases this
      | fwd j id x rest hj _ =>
        have hm := move j id (.fwd rest) rfl
        intro x hx
        exact hm x (by simpa using hx)
      | fwdEnd j id hj => exact move j id _ rfl
      | subRelease j id hj => exact move j id .released rfl
      | subDone j id hj => exact move j id .gone rfl
      | close h hw => exact hs
      | ret h => exact hs
    · exact hsub k g hk hg
    · simp at hg2

end Oidfed
