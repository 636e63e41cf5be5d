import Verif.Props.Compliance
import Verif.Props.OperatedMeta
import Verif.Lemmas.MergeAlgebra
import Verif.Spec.ComplianceChain
/-!
# Property C131: a leaf that complies with all policies is resolved as it is
-/

namespace Oidfed
open Spec

/-! ## Entries that can be met together -/

/-- The invariant of merging: an entry that `v` complies with, with the default `d`, with `one_of` only if `s`, and silent if `q`; `n` is a fact about the attribute. -/
structure Fits (v d : Val) (s q n : Prop) (e : Entry) : Prop where
  plain : PlainEntry e
  typed : TypedEntry .unknown e
  comp : Complies e v
  dflt : ∀ x, e.get "default" = some x → SameVal x d
  one : Has e "one_of" → s
  sets : s → ¬ Has e "add" ∧ ¬ Has e "subset_of" ∧ ¬ Has e "superset_of"
  silent : q → Silent e
  named : n

theorem mo_cases {op : OpName} {x y : Option Val} {z : Val} (h : mo op x y = .ok (some z)) :
    x = some z ∨ y = some z ∨ ∃ a b o, x = some a ∧ y = some b ∧ operators op = some o ∧ o.merge a b = .ok z := by
  cases x with
  | none => cases h; exact .inr (.inl rfl)
  | some x =>
    cases y with
    | none => cases h; exact .inl rfl
    | some y =>
      obtain ⟨o, w, h1, h2, h3⟩ := mo_some h
      cases h3
      exact .inr (.inr ⟨x, y, o, rfl, rfl, h1, h2⟩)

theorem mo_has {a b m : Entry} (ha : PlainEntry a) (h : mergeEntries a b = .ok m) {op : String} (hm : Has m op) : Has a op ∨ Has b op := by
  obtain ⟨z, hz⟩ := hm
  have hg := entry_get ha.known ha.wf h op
  rw [show AMap.get m op = some z from hz] at hg
  rcases mo_cases hg with h | h | ⟨x, y, o, h1, h2, _⟩
  · exact .inl ⟨_, h⟩
  · exact .inr ⟨_, h⟩
  · exact .inl ⟨_, h1⟩

theorem essential_of {a b m : Entry} (ha : PlainEntry a) (h : mergeEntries a b = .ok m) (hm : Essential m) : Essential a ∨ Essential b := by
  have hg := entry_get ha.known ha.wf h "essential"
  rw [show AMap.get m "essential" = some (.bool true) from hm] at hg
  rcases mo_cases hg with h | h | ⟨x, y, o, h1, h2, ho, h3⟩
  · exact .inl h
  · exact .inr h
  · cases ho
    have h3 : mergeEssential x y = .ok (.bool true) := h3
    rw [essential_merge] at h3
    have h3 := Val.bool.inj (Except.ok.inj h3)
    have key : ∀ w : Val, w.asBool.getD false = true → w = .bool true := by
      intro w hw
      cases w <;> simp_all [Val.asBool]
    rcases Bool.or_eq_true_iff.mp h3 with h | h
    · exact .inl (by unfold Essential; rw [← key x h]; exact h1)
    · exact .inr (by unfold Essential; rw [← key y h]; exact h2)

/-- Entries that can be met together can be merged. -/
theorem fits_merge {v d : Val} {s q n : Prop} (hv : v ≠ .nil) {a b : Entry} (ha : Fits v d s q n a) (hb : Fits v d s q n b) :
    ∃ m, mergeEntries a b = .ok m ∧ Fits v d s q n m := by
  have hpres : Present true v := ⟨hv, .inl rfl⟩
  have hok : ∃ m, mergeEntries a b = .ok m := by
    refine (entry_ok_iff ha.plain.known ha.plain.wf).mpr (fun op => ?_)
    cases hx : a.get op with
    | none => exact ⟨_, rfl⟩
    | some x =>
      cases hy : b.get op with
      | none => exact ⟨_, rfl⟩
      | some y =>
        have hnx := (typed_get ha.typed hx).notNull
        have hny := (typed_get hb.typed hy).notNull
        have lx := fun h => ha.plain.lists op x h hx
        have ly := fun h => hb.plain.lists op y h hy
        rcases ha.plain.known op ⟨x, hx⟩ with rfl | rfl | rfl | rfl | rfl | rfl | rfl
        · have h1 := ha.comp.value x hx
          have h2 := hb.comp.value y hy
          refine ⟨_, mo_of (o := .value) rfl ((mergeValue_iff (ha.plain.nodup x hx) (hb.plain.nodup y hy)).mpr ⟨⟨?_, ?_⟩, rfl⟩)⟩
          · exact iff_of_false hnx hny
          · exact fun z => (h1 z).symm.trans (h2 z)
        · obtain ⟨z, hz, _⟩ := mergeUnion_plain (lx (by simp)) (ly (by simp))
          exact ⟨_, mo_of (o := .add) rfl hz⟩
        · have h1 := ha.dflt x hx
          have h2 := hb.dflt y hy
          exact ⟨_, mo_of (o := .default) rfl ((mergeDefault_iff (ha.plain.nodupDefault x hx) (hb.plain.nodupDefault y hy)).mpr
            (.inr (.inr ⟨hnx, hny, h1.trans h2.symm, rfl⟩)))⟩
        · obtain ⟨z, hz, _⟩ := mergeIntersect_plain (lx (by simp)) (ly (by simp))
          exact ⟨_, mo_of (o := .oneOf) rfl hz⟩
        · obtain ⟨z, hz, _⟩ := mergeIntersect_plain (lx (by simp)) (ly (by simp))
          exact ⟨_, mo_of (o := .subsetOf) rfl hz⟩
        · obtain ⟨z, hz, _⟩ := mergeUnion_plain (lx (by simp)) (ly (by simp))
          exact ⟨_, mo_of (o := .supersetOf) rfl hz⟩
        · exact ⟨_, mo_of (o := .essential) rfl (essential_merge x y)⟩
  obtain ⟨m, hm⟩ := hok
  have hg := entry_get ha.plain.known ha.plain.wf hm
  have hty : TypedEntry .unknown m :=
    (mergeEntries_typed (shs := [.unknown]) (by simp) (by simpa using ha.typed) (by simpa using hb.typed)).2 m hm _ (by simp)
  have hhas := fun {op} (h : Has m op) => mo_has ha.plain hm h
  refine ⟨m, hm, merge_plain ha.plain hb.plain hm, hty, ⟨⟨?_, ?_, ?_, ?_⟩, ?_, ?_⟩, ?_, ?_, ?_, ?_, ha.named⟩
  · intro _ w hw hn x hx
    have hgo := hg "subset_of"
    rw [show AMap.get m "subset_of" = some w from hw] at hgo
    rcases mo_cases hgo with h | h | ⟨y, z, o, h1, h2, ho, h3⟩
    · exact ha.comp.subset (.inl hpres) w h hn x hx
    · exact hb.comp.subset (.inl hpres) w h hn x hx
    · cases ho
      obtain ⟨w', k1, _, _, k2⟩ := mergeIntersect_plain (ha.plain.lists _ y (by simp) h1) (hb.plain.lists _ z (by simp) h2)
      cases k1.symm.trans h3
      exact (k2 x).mpr ⟨.inl (typed_get ha.typed h1).notNull, fun hn => ha.comp.subset (.inl hpres) y h1 hn x hx,
        fun hn => hb.comp.subset (.inl hpres) z h2 hn x hx⟩
  · intro _ w hw hn x hx
    have hgo := hg "superset_of"
    rw [show AMap.get m "superset_of" = some w from hw] at hgo
    rcases mo_cases hgo with h | h | ⟨y, z, o, h1, h2, ho, h3⟩
    · exact ha.comp.superset (.inl hpres) w h hn x hx
    · exact hb.comp.superset (.inl hpres) w h hn x hx
    · cases ho
      obtain ⟨w', k1, _, _, k2⟩ := mergeUnion_plain (ha.plain.lists _ y (by simp) h1) (hb.plain.lists _ z (by simp) h2)
      cases k1.symm.trans h3
      rcases (k2 x).mp hx with hx | hx
      · exact ha.comp.superset (.inl hpres) y h1 (typed_get ha.typed h1).notNull x hx
      · exact hb.comp.superset (.inl hpres) z h2 (typed_get hb.typed h2).notNull x hx
  · intro _ w hw hn
    have hgo := hg "one_of"
    rw [show AMap.get m "one_of" = some w from hw] at hgo
    rcases mo_cases hgo with h | h | ⟨y, z, o, h1, h2, ho, h3⟩
    · exact ha.comp.oneOf (.inl hpres) w h hn
    · exact hb.comp.oneOf (.inl hpres) w h hn
    · cases ho
      obtain ⟨w', k1, _, _, k2⟩ := mergeIntersect_plain (ha.plain.lists _ y (by simp) h1) (hb.plain.lists _ z (by simp) h2)
      cases k1.symm.trans h3
      exact (k2 v).mpr ⟨.inl (typed_get ha.typed h1).notNull, fun hn => ha.comp.oneOf (.inl hpres) y h1 hn,
        fun hn => hb.comp.oneOf (.inl hpres) z h2 hn⟩
  · intro w hw
    have hgo := hg "value"
    rw [show AMap.get m "value" = some w from hw] at hgo
    rcases mo_cases hgo with h | h | ⟨y, z, o, h1, h2, ho, h3⟩
    · exact ha.comp.value w h
    · exact hb.comp.value w h
    · cases ho
      obtain ⟨_, rfl⟩ := (mergeValue_iff (ha.plain.nodup y h1) (hb.plain.nodup z h2)).mp h3
      exact ha.comp.value _ h1
  · intro w hw x hx
    have hgo := hg "add"
    rw [show AMap.get m "add" = some w from hw] at hgo
    rcases mo_cases hgo with h | h | ⟨y, z, o, h1, h2, ho, h3⟩
    · exact ha.comp.add w h x hx
    · exact hb.comp.add w h x hx
    · cases ho
      obtain ⟨w', k1, _, _, k2⟩ := mergeUnion_plain (ha.plain.lists _ y (by simp) h1) (hb.plain.lists _ z (by simp) h2)
      cases k1.symm.trans h3
      rcases (k2 x).mp hx with hx | hx
      · exact ha.comp.add y h1 x hx
      · exact hb.comp.add z h2 x hx
  · intro h
    rcases essential_of ha.plain hm h with h | h
    · exact ha.comp.essential h
    · exact hb.comp.essential h
  · intro w hw
    have hgo := hg "default"
    rw [show AMap.get m "default" = some w from hw] at hgo
    rcases mo_cases hgo with h | h | ⟨y, z, o, h1, h2, ho, h3⟩
    · exact ha.dflt w h
    · exact hb.dflt w h
    · cases ho
      rcases (mergeDefault_iff (ha.plain.nodupDefault y h1) (hb.plain.nodupDefault z h2)).mp h3 with ⟨_, rfl⟩ | ⟨_, _, rfl⟩ | ⟨_, _, _, rfl⟩
      · exact hb.dflt _ h2
      · exact ha.dflt _ h1
      · exact ha.dflt _ h1
  · intro h
    rcases hhas h with h | h
    · exact ha.one h
    · exact hb.one h
  · intro hs
    obtain ⟨a1, a2, a3⟩ := ha.sets hs
    obtain ⟨b1, b2, b3⟩ := hb.sets hs
    exact ⟨fun h => (hhas h).elim a1 b1, fun h => (hhas h).elim a2 b2, fun h => (hhas h).elim a3 b3⟩
  · intro hq
    obtain ⟨a1, a2, a3, a4⟩ := ha.silent hq
    obtain ⟨b1, b2, b3, b4⟩ := hb.silent hq
    exact ⟨fun h => (hhas h).elim a1 b1, fun h => (hhas h).elim a2 b2, fun h => (hhas h).elim a3 b3,
      fun h => (essential_of ha.plain hm h).elim a4 b4⟩

/-- An entry that a value complies with passes the checks on combinations of operators. -/
theorem fits_verify {v d : Val} {s q n : Prop} (hv : v ≠ .nil) {e : Entry} (he : Fits v d s q n e) : e.verify = .ok () := by
  have hpres : Present true v := ⟨hv, .inl rfl⟩
  have nn : ∀ {op}, e.get op ≠ some .nil := fun h => (typed_get he.typed h).notNull rfl
  refine (verify_iff_allowed he.plain.known).mpr ⟨⟨?_, ?_, ?_, ?_, ?_, ?_, ?_⟩, ⟨?_, ?_, ?_, ?_⟩⟩
  · exact fun h => he.sets (he.one h)
  · intro w hw h
    have := he.comp.oneOf (.inl hpres) w hw (typed_get he.typed hw).notNull
    rw [h] at this
    cases this
  · intro x y hx hy z hz
    exact he.comp.subset (.inl hpres) y hy (typed_get he.typed hy).notNull z
      (he.comp.superset (.inl hpres) x hx (typed_get he.typed hx).notNull z hz)
  · intro x y hx hy z hz
    exact he.comp.subset (.inl hpres) y hy (typed_get he.typed hy).notNull z (he.comp.add x hx z hz)
  · intro x y hx hy z hz
    exact (he.comp.value y hy z).mp (he.comp.add x hx z hz)
  · intro x y hx hy z hz
    exact he.comp.subset (.inl hpres) y hy (typed_get he.typed hy).notNull z ((he.comp.value x hx z).mpr hz)
  · exact fun _ => nn
  · exact fun _ => nn
  · exact fun _ => nn
  · exact fun _ => nn
  · exact fun _ => nn

/-! ## Policies that can be met together -/

/-- Every entry of the policy fits, with a value, default and flags for each attribute. -/
structure FitsAll (v d : String → Val) (s q n : String → Prop) (p : Policy) : Prop where
  wf : AMap.WF p
  entries : ∀ k e, AMap.get p k = some e → Fits (v k) (d k) (s k) (q k) (n k) e

theorem fitsAll_verify {v d : String → Val} {s q n : String → Prop} (hv : ∀ k, v k ≠ .nil) {p : Policy} (hp : FitsAll v d s q n p) :
    Policy.verify p = .ok () := policy_verify_of_get hp.wf (fun k e he => fits_verify (hv k) (hp.entries k e he))

theorem fitsAll_combine {v d : String → Val} {s q n : String → Prop} (hv : ∀ k, v k ≠ .nil) {p p' : Policy} (hp : FitsAll v d s q n p)
    (hp' : FitsAll v d s q n p') : ∃ m, combinePolicy p p' = .ok m ∧ FitsAll v d s q n m := by
  by_cases h1 : p = []
  · subst h1
    by_cases h2 : p' = []
    · subst h2; exact ⟨[], rfl, hp⟩
    · refine ⟨p', ?_, hp'⟩
      unfold combinePolicy
      rw [if_neg (by simpa using h2), if_pos (by simp)]
  by_cases h2 : p' = []
  · subst h2
    refine ⟨p, ?_, hp⟩
    unfold combinePolicy
    rw [if_pos (by simp)]
  obtain ⟨m, hg, hw, hvm⟩ := combinePolicy_of h1 h2 (fun k x y hx hy => by
    obtain ⟨z, hz, _⟩ := fits_merge (hv k) (hp.entries k x (mem_get hp.wf hx)) (hp'.entries k y hy)
    exact ⟨z, hz⟩)
  have hfit : FitsAll v d s q n m := by
    refine ⟨hw hp.wf hp'.wf, ?_⟩
    intro k e he
    rw [hg k] at he
    unfold mergedEntry at he
    cases hx : AMap.get p k with
    | none => rw [hx] at he; exact hp'.entries k e he
    | some x =>
      rw [hx] at he
      cases hy : AMap.get p' k with
      | none => rw [hy] at he; cases he; exact hp.entries k _ hx
      | some y =>
        rw [hy] at he
        obtain ⟨z, hz, hf⟩ := fits_merge (hv k) (hp.entries k x hx) (hp'.entries k y hy)
        simp only [hz] at he
        cases he
        exact hf
  exact ⟨m, hvm (fitsAll_verify hv hfit), hfit⟩

theorem fitsAll_rest {v d : String → Val} {s q n : String → Prop} (hv : ∀ k, v k ≠ .nil) : ∀ (ps : List Policy) {p : Policy}, FitsAll v d s q n p →
    (∀ p' ∈ ps, FitsAll v d s q n p') → ∃ m, combineRest p ps = .ok m ∧ FitsAll v d s q n m
  | [], p, hp, _ => ⟨p, rfl, hp⟩
  | p' :: ps, p, hp, h => by
    obtain ⟨m, h1, h2⟩ := fitsAll_combine hv hp (h p' (by simp))
    obtain ⟨r, h3, h4⟩ := fitsAll_rest hv ps h2 (fun x hx => h x (by simp [hx]))
    refine ⟨r, ?_, h4⟩
    rw [combineRest, h1]
    exact h3

theorem fitsAll_all {v d : String → Val} {s q n : String → Prop} (hv : ∀ k, v k ≠ .nil) {ps : List Policy}
    (h : ∀ p ∈ ps, FitsAll v d s q n p) : ∃ m, combineAll ps = .ok m ∧ FitsAll v d s q n m := by
  cases ps with
  | nil => exact ⟨[], rfl, List.nodup_nil, fun k e he => by cases he⟩
  | cons p ps =>
    obtain ⟨m, h1, h2⟩ := fitsAll_rest hv ps (h p (by simp)) (fun x hx => h x (by simp [hx]))
    refine ⟨m, ?_, h2⟩
    rw [combineAll, fitsAll_verify hv (h p (by simp))]
    exact h1

open Classical in
/-- Policies that agree fit. -/
theorem agree_fits {ps : List Policy} {v : String → Val} (ha : Agree ps v) (hp : ∀ p ∈ ps, PlainPolicy p ∧ ∀ ke ∈ p, TypedEntry .unknown ke.2)
    (q : String → Prop) (hq : ∀ p ∈ ps, ∀ k e, AMap.get p k = some e → q k → Silent e) :
    ∃ d, ∀ p ∈ ps, FitsAll v d (fun k => ∃ p ∈ ps, ∃ e, AMap.get p k = some e ∧ Has e "one_of") q (fun k => ∃ p ∈ ps, ∃ e, AMap.get p k = some e) p := by
  have hd : ∀ k, ∃ d, ∀ p ∈ ps, ∀ e, AMap.get p k = some e → ∀ x, e.get "default" = some x → SameVal x d := by
    intro k
    by_cases h : ∃ p ∈ ps, ∃ e d, AMap.get p k = some e ∧ e.get "default" = some d
    · obtain ⟨p, hp, e, d, he, hd⟩ := h
      exact ⟨d, fun p' hp' e' he' x hx => ha.default p' hp' p hp k e' e x d he' he hx hd⟩
    · exact ⟨.nil, fun p' hp' e' he' x hx => absurd ⟨p', hp', e', x, he', hx⟩ h⟩
  refine ⟨fun k => Classical.choose (hd k), ?_⟩
  intro p hpm
  refine ⟨(hp p hpm).1.wf, fun k e he => ⟨(hp p hpm).1.entries k e he, (hp p hpm).2 _ (get_mem he), ha.complies p hpm k e he, ?_, ?_, ?_, ?_, p, hpm, e, he⟩⟩
  · exact fun x hx => Classical.choose_spec (hd k) p hpm e he x hx
  · exact fun h => ⟨p, hpm, e, he, h⟩
  · rintro ⟨p', hp', e', he', h⟩
    exact ha.alone p' hp' p hpm k e' e he' he h
  · exact hq p hpm k e he


/-! ## Chains -/

theorem applyKnown_of {m : Metadata} {p : Policies} (h : ∀ t em, m.known t = some em → ∃ em', em.apply (p.known t) = .ok em') :
    ∀ ts, ∃ r, applyKnown m p ts = .ok r
  | [] => ⟨_, rfl⟩
  | t :: ts => by
    obtain ⟨r, hr⟩ := applyKnown_of h ts
    unfold applyKnown
    cases hm : m.known t with
    | none => dsimp only; rw [hr]; exact ⟨_, rfl⟩
    | some em =>
      obtain ⟨em', he⟩ := h t em hm
      dsimp only
      rw [he]
      dsimp only [bind, Except.bind]
      rw [hr]
      exact ⟨_, rfl⟩

theorem mergeKnown_of {ps : List Policies} (h : ∀ t, ∃ m, combineAll (ps.map (fun p => p.known t)) = .ok m) :
    ∀ ts, ∃ r, mergeKnown ps ts = .ok r
  | [] => ⟨_, rfl⟩
  | t :: ts => by
    obtain ⟨r, hr⟩ := mergeKnown_of h ts
    obtain ⟨m, hm⟩ := h t
    unfold mergeKnown
    rw [hm]
    dsimp only [bind, Except.bind]
    rw [hr]
    exact ⟨_, rfl⟩

theorem extraTypes_nil : ∀ {ps : List Policies}, (∀ P ∈ ps, P.extra = []) → extraTypes ps = []
  | [], _ => rfl
  | p :: ps, h => by
    unfold extraTypes
    rw [h p (by simp), extraTypes_nil (fun P hP => h P (by simp [hP]))]
    rfl

theorem filterMap_policy (c : Chain) : (c.map Stmt.policy).filterMap id = c.filterMap Stmt.policy := by
  rw [List.filterMap_map]; rfl

/-- **C131**: a leaf that complies with every policy of its chain is resolved, with its metadata unchanged (lists up to the order of their elements), if the
policies can be met together. Missing: policies for entity types unknown to the library, `scope`, lists of objects and keys, `one_of` for lists, and operator
values that are of another type than the attribute or list an element twice. -/
theorem C131_unchanged_partial (a b : Stmt) (rest : Chain) (v : EType → String → Val) (h : Follows a (a :: b :: rest) v) :
    ∃ md, chainMetadata (a :: b :: rest) = .ok (some md) ∧ md.extra.getD [] = (a.metadata.getD Metadata.empty).extra.getD [] ∧
      ∀ t, Option.Rel KeptMeta ((a.metadata.getD Metadata.empty).known t) (md.known t) := by
  have hcrit : critOk (a :: b :: rest) = true := by
    unfold critOk
    simp only [List.all_eq_true]
    intro s hs n hn
    exact List.contains_iff_mem.mpr ((show ∀ n ∈ supportedOperators, n ∈ operatorOrder by decide) n (h.crit s hs n hn))
  let qs := (a :: b :: rest).filterMap Stmt.policy
  have hq : ∀ P ∈ qs, ∃ s ∈ a :: b :: rest, s.policy = some P := fun P hP => List.mem_filterMap.mp hP
  have hx : ∀ P ∈ qs, P.extra = [] := fun P hP => by obtain ⟨s, hs, hsp⟩ := hq P hP; exact h.known s hs P hsp
  have hall : ∀ t (q : String → Prop), (∀ p ∈ qs.map (fun P => P.known t), ∀ k e, AMap.get p k = some e → q k → Silent e) →
      ∃ d, ∀ p ∈ qs.map (fun P => P.known t), FitsAll (v t) d (fun k => ∃ p ∈ qs.map (fun P => P.known t), ∃ e, AMap.get p k = some e ∧ Has e "one_of") q
        (fun k => ∃ p ∈ qs.map (fun P => P.known t), ∃ e, AMap.get p k = some e) p := by
    intro t q hsil
    refine agree_fits (h.agree t) ?_ q hsil
    intro p hp
    obtain ⟨P, hP, rfl⟩ := List.mem_map.mp hp
    obtain ⟨s, hs, hsp⟩ := hq P hP
    obtain ⟨h1, h2⟩ := h.plain s hs P hsp t
    exact ⟨h1, fun ke hke => (h2 ke hke).1⟩
  have hcomb : ∀ t, ∃ m, combineAll (qs.map (fun p => p.known t)) = .ok m := by
    intro t
    obtain ⟨d, hf⟩ := hall t (fun _ => False) (fun _ _ _ _ _ hF => hF.elim)
    obtain ⟨m, h1, _⟩ := fitsAll_all (h.agree t).notNull hf
    exact ⟨m, h1⟩
  obtain ⟨k, hk⟩ := mergeKnown_of hcomb EType.all
  have hmp : mergePolicies ((a :: b :: rest).map Stmt.policy) = .ok ⟨k, []⟩ := by
    unfold mergePolicies
    rw [filterMap_policy]
    dsimp only
    rw [show mergeKnown (List.filterMap Stmt.policy (a :: b :: rest)) EType.all = .ok k from hk,
      show extraTypes (List.filterMap Stmt.policy (a :: b :: rest)) = [] from extraTypes_nil hx]
    rfl
  have happ : ∀ t em, (a.metadata.getD Metadata.empty).known t = some em →
      ∃ em', em.apply (k t) = .ok em' ∧ KeptMeta em em' := by
    intro t em hem
    cases hmd : a.metadata with
    | none => rw [hmd] at hem; cases hem
    | some md0 =>
      rw [hmd] at hem
      have hem : md0.known t = some em := hem
      have hfo : fieldsOf a.metadata t = em.fields := by
        unfold fieldsOf
        rw [hmd]
        dsimp only
        rw [hem]
      have hc := h.complies md0 t em hmd hem
      let q : String → Prop := fun k => ∃ f ∈ em.fields, f.tag = k ∧ f.name ∉ em.wasSet
      have hsil : ∀ p ∈ qs.map (fun P => P.known t), ∀ k e, AMap.get p k = some e → q k → Silent e := by
        rintro p hp k e he ⟨f, hf, rfl, hns⟩
        obtain ⟨P, hP, rfl⟩ := List.mem_map.mp hp
        obtain ⟨s, hs, hsp⟩ := hq P hP
        rcases ((hc f hf).2 s hs P hsp).2.1 e he with ⟨h1, _⟩ | ⟨_, h2⟩
        · exact absurd h1 hns
        · exact h2
      obtain ⟨d, hf⟩ := hall t q hsil
      obtain ⟨m, h1, h2⟩ := fitsAll_all (h.agree t).notNull hf
      have hkt : combineAll (qs.map (fun p => p.known t)) = .ok (k t) := mergeKnown_ok hk t (mem_all t)
      cases h1.symm.trans hkt
      have hall' : ∀ p ∈ qs.map (fun P => P.known t), TypedPolicy em.fields p := by
        intro p hp
        obtain ⟨P, hP, rfl⟩ := List.mem_map.mp hp
        obtain ⟨s, hs, hsp⟩ := hq P hP
        rw [← hfo]
        exact (h.plain s hs P hsp t).2
      obtain ⟨em', k1, k2, k3, k4⟩ := C129_metadata_partial (k t) em ((combineAll_typed hall').2 _ hkt) (fun f hf => (hc f hf).1)
        (by
          intro f hf e he
          have hfit := h2.entries f.tag e he
          obtain ⟨p, hp, e', he'⟩ := hfit.named
          obtain ⟨P, hP, rfl⟩ := List.mem_map.mp hp
          obtain ⟨s, hs, hsp⟩ := hq P hP
          obtain ⟨p1, p2, p3, _⟩ := ((hc f hf).2 s hs P hsp).1 e' he'
          refine ⟨p1, p2, p3, fun ty hty hone => ?_⟩
          obtain ⟨p, hp, e', he', ho⟩ := hfit.one hone
          obtain ⟨P, hP, rfl⟩ := List.mem_map.mp hp
          obtain ⟨s, hs, hsp⟩ := hq P hP
          exact (((hc f hf).2 s hs P hsp).1 e' he').2.2.2 ty hty ho)
        (by
          intro f hf e he
          have hfit := h2.entries f.tag e he
          by_cases hset : f.name ∈ em.wasSet
          · refine .inl ⟨hset, ?_⟩
            obtain ⟨p, hp, e', he'⟩ := hfit.named
            obtain ⟨P, hP, rfl⟩ := List.mem_map.mp hp
            obtain ⟨s, hs, hsp⟩ := hq P hP
            rw [((hc f hf).2 s hs P hsp).2.2 e' he' hset]
            exact hfit.comp
          · exact .inr ⟨hset, hfit.silent ⟨f, hf, rfl, hset⟩⟩)
      exact ⟨em', k1, k2, k3, k4⟩
  obtain ⟨kn, hkn⟩ := applyKnown_of (p := ⟨k, []⟩) (fun t em hem => by obtain ⟨em', h1, _⟩ := happ t em hem; exact ⟨em', h1⟩) EType.all
  have hap : (a.metadata.getD Metadata.empty).applyPolicy (some ⟨k, []⟩) =
      .ok ⟨kn, if ((a.metadata.getD Metadata.empty).extra.getD []).isEmpty then none else some ((a.metadata.getD Metadata.empty).extra.getD [])⟩ := by
    unfold Metadata.applyPolicy
    dsimp only
    rw [hkn]
    dsimp only [bind, Except.bind]
    rw [applyExtra_nil]
  refine ⟨_, ?_, (applyPolicy_ok hap).2, ?_⟩
  · unfold chainMetadata
    dsimp only
    rw [hcrit, hmp]
    dsimp only [bind, Except.bind]
    rw [hap]
    rfl
  · intro t
    obtain ⟨g1, g2⟩ := (applyPolicy_ok hap).1 t
    cases hm : (a.metadata.getD Metadata.empty).known t with
    | none => rw [g1 hm]; exact .none
    | some em =>
      obtain ⟨em', e1, e2⟩ := g2 em hm
      obtain ⟨em2, e3, e4⟩ := happ t em hm
      have e1 : em.apply (k t) = .ok em' := e1
      cases e1.symm.trans e3
      rw [e2]
      exact .some e4

namespace ExF

/-- A relying party that states its grant types but no name. -/
def md : Metadata := ⟨fun t => if t = .rp then some ⟨[⟨"GrantTypes", "grant_types", .slice .str, sl ["refresh", "code"]⟩,
  ⟨"ClientName", "client_name", .str, .str ""⟩], ["GrantTypes"], []⟩ else none, none⟩
def p1 : Policy := [("grant_types", [("subset_of", jl ["code", "refresh", "implicit"])]), ("client_name", [("one_of", jl ["n", "m"])])]
def p2 : Policy := [("grant_types", [("superset_of", jl ["code"]), ("add", jl ["code"]), ("default", jl ["code"])]),
  ("client_name", [("one_of", jl ["n", "o"])])]
def leaf : Stmt := ⟨"l", "l", 0, 100, some [1], ["i"], some md, none, [], [], none, some 1⟩
def s1 : Stmt := ⟨"i", "l", 0, 100, some [1], [], none, some ⟨fun t => if t = .rp then p1 else [], []⟩, ["subset_of"], [], none, some 2⟩
def s2 : Stmt := ⟨"t", "i", 0, 100, some [2], [], none, some ⟨fun t => if t = .rp then p2 else [], []⟩, [], [], none, some 3⟩
def v (_ : EType) (k : String) : Val := if k = "grant_types" then sl ["refresh", "code"] else .str "n"

theorem entry_of {p : Policy} {k : String} {e : Entry} (hp : p = p1 ∨ p = p2) (h : AMap.get p k = some e) :
    (k = "grant_types" ∧ (e = [("subset_of", jl ["code", "refresh", "implicit"])] ∨
      e = [("superset_of", jl ["code"]), ("add", jl ["code"]), ("default", jl ["code"])])) ∨
    (k = "client_name" ∧ (e = [("one_of", jl ["n", "m"])] ∨ e = [("one_of", jl ["n", "o"])])) := by
  have hm := get_mem h
  rcases hp with rfl | rfl
  · simp only [p1, List.mem_cons, List.not_mem_nil, or_false, Prod.mk.injEq] at hm
    rcases hm with ⟨rfl, rfl⟩ | ⟨rfl, rfl⟩ <;> simp
  · simp only [p2, List.mem_cons, List.not_mem_nil, or_false, Prod.mk.injEq] at hm
    rcases hm with ⟨rfl, rfl⟩ | ⟨rfl, rfl⟩ <;> simp

theorem comp {p : Policy} {k : String} {e : Entry} (hp : p = p1 ∨ p = p2) (h : AMap.get p k = some e) (t : EType) : Complies e (v t k) := by
  show Complies e (v .rp k)
  rcases entry_of hp h with ⟨rfl, rfl | rfl⟩ | ⟨rfl, rfl | rfl⟩
  · refine ⟨⟨?_, ?_, ?_, ?_⟩, ?_, ?_⟩
    · intro _ s h _; cases h; decide
    · intro _ s h; cases h
    · intro _ s h; cases h
    · intro s h; cases h
    · intro s h; cases h
    · intro h; cases h
  · refine ⟨⟨?_, ?_, ?_, ?_⟩, ?_, ?_⟩
    · intro _ s h; cases h
    · intro _ s h _; cases h; decide
    · intro _ s h; cases h
    · intro s h; cases h
    · intro s h; cases h; decide
    · intro h; cases h
  · refine ⟨⟨?_, ?_, ?_, ?_⟩, ?_, ?_⟩
    · intro _ s h; cases h
    · intro _ s h; cases h
    · intro _ s h _; cases h; decide
    · intro s h; cases h
    · intro s h; cases h
    · intro h; cases h
  · refine ⟨⟨?_, ?_, ?_, ?_⟩, ?_, ?_⟩
    · intro _ s h; cases h
    · intro _ s h; cases h
    · intro _ s h _; cases h; decide
    · intro s h; cases h
    · intro s h; cases h
    · intro h; cases h

theorem plain {p : Policy} (hp : p = p1 ∨ p = p2 ∨ p = []) : PlainPolicy p := by
  refine ⟨by rcases hp with rfl | rfl | rfl <;> (show List.Nodup _; decide), fun k e h => ?_⟩
  have hp' : p = p1 ∨ p = p2 := by
    rcases hp with h' | h' | rfl
    · exact .inl h'
    · exact .inr h'
    · cases h
  rcases entry_of hp' h with ⟨rfl, rfl | rfl⟩ | ⟨rfl, rfl | rfl⟩
  all_goals
    refine ⟨⟨by show List.Nodup _; decide, ?_, ?_, ?_⟩, ?_⟩
  all_goals first
    | (rintro n ⟨w, hw⟩
       have hm := List.mem_map_of_mem (f := Prod.fst) (get_mem hw)
       simp only [List.map_cons, List.map_nil, List.mem_cons, List.not_mem_nil, or_false] at hm
       rcases hm with rfl | rfl | rfl <;> simp [Known])
    | (intro s hs; cases hs; done)
    | (intro s hs; cases hs; decide)
    | (intro op s ho hs
       have hm := get_mem hs
       simp only [List.mem_cons, List.not_mem_nil, or_false, Prod.mk.injEq] at hm
       first
         | (rcases hm with ⟨rfl, rfl⟩ | ⟨rfl, rfl⟩ | ⟨rfl, rfl⟩ <;> exact .inr ⟨_, _, rfl⟩)
         | (obtain ⟨rfl, rfl⟩ := hm; exact .inr ⟨_, _, rfl⟩))

theorem typed {p : Policy} (hp : p = p1 ∨ p = p2 ∨ p = []) (t : EType) : TypedPolicy (fieldsOf (some md) t) p := by
  rcases hp with rfl | rfl | rfl
  · intro ke hke
    simp only [p1, List.mem_cons, List.not_mem_nil, or_false] at hke
    rcases hke with rfl | rfl
    · constructor
      · intro kv hkv
        cases List.mem_singleton.mp hkv
        exact ⟨by simp [jl], fun _ => ⟨_, _, rfl⟩, fun _ => trivial, fun _ => trivial⟩
      · intro f hf ht kv hkv
        cases List.mem_singleton.mp hkv
        cases t <;> simp [fieldsOf, md] at hf
        rcases hf with rfl | rfl
        · exact ⟨by simp [jl], fun _ => ⟨_, _, rfl⟩, fun _ => by show ∀ x ∈ _, _; decide, by simp⟩
        · simp at ht
    · constructor
      · intro kv hkv
        cases List.mem_singleton.mp hkv
        exact ⟨by simp [jl], fun _ => ⟨_, _, rfl⟩, fun _ => trivial, fun _ => trivial⟩
      · intro f hf ht kv hkv
        cases List.mem_singleton.mp hkv
        exact ⟨by simp [jl], fun _ => ⟨_, _, rfl⟩, by simp, by simp⟩
  · intro ke hke
    simp only [p2, List.mem_cons, List.not_mem_nil, or_false] at hke
    rcases hke with rfl | rfl
    · constructor
      · intro kv hkv
        simp only [List.mem_cons, List.not_mem_nil, or_false] at hkv
        rcases hkv with rfl | rfl | rfl
        all_goals exact ⟨by simp [jl], fun _ => ⟨_, _, rfl⟩, fun _ => trivial, fun _ => trivial⟩
      · intro f hf ht kv hkv
        cases t <;> simp [fieldsOf, md] at hf
        rcases hf with rfl | rfl
        · simp only [List.mem_cons, List.not_mem_nil, or_false] at hkv
          rcases hkv with rfl | rfl | rfl
          · exact ⟨by simp [jl], fun _ => ⟨_, _, rfl⟩, by simp, by simp⟩
          · exact ⟨by simp [jl], fun _ => ⟨_, _, rfl⟩, fun _ => by show ∀ x ∈ _, _; decide, by simp⟩
          · exact ⟨by simp [jl], by simp, by simp, fun _ => ⟨_, _, rfl, by decide⟩⟩
        · simp at ht
    · constructor
      · intro kv hkv
        cases List.mem_singleton.mp hkv
        exact ⟨by simp [jl], fun _ => ⟨_, _, rfl⟩, fun _ => trivial, fun _ => trivial⟩
      · intro f hf ht kv hkv
        cases List.mem_singleton.mp hkv
        exact ⟨by simp [jl], fun _ => ⟨_, _, rfl⟩, by simp, by simp⟩
  · intro ke hke; cases hke

theorem policy_of {s : Stmt} (hs : s ∈ [leaf, s1, s2]) {P : Policies} (hP : s.policy = some P) :
    P.extra = [] ∧ ∀ t, P.known t = p1 ∨ P.known t = p2 ∨ P.known t = [] := by
  simp only [List.mem_cons, List.not_mem_nil, or_false] at hs
  rcases hs with rfl | rfl | rfl
  · cases hP
  · cases hP; exact ⟨rfl, fun t => by by_cases h : t = .rp <;> simp [h]⟩
  · cases hP; exact ⟨rfl, fun t => by by_cases h : t = .rp <;> simp [h]⟩

theorem follows : Follows leaf [leaf, s1, s2] v := by
  refine ⟨?_, fun s hs P hP => (policy_of hs hP).1, ?_, ?_, ?_⟩
  · intro s hs
    simp only [List.mem_cons, List.not_mem_nil, or_false] at hs
    rcases hs with rfl | rfl | rfl <;> decide
  · exact fun s hs P hP t => ⟨plain ((policy_of hs hP).2 t), typed ((policy_of hs hP).2 t) t⟩
  · intro t
    have hin : ∀ p ∈ ([leaf, s1, s2].filterMap Stmt.policy).map (fun P => P.known t), ∀ k e, AMap.get p k = some e → p = p1 ∨ p = p2 := by
      intro p hp k e he
      obtain ⟨P, hP, rfl⟩ := List.mem_map.mp hp
      obtain ⟨s, hs, hsp⟩ := List.mem_filterMap.mp hP
      rcases (policy_of hs hsp).2 t with h | h | h
      · exact .inl h
      · exact .inr h
      · rw [h] at he; cases he
    refine ⟨fun k => by unfold v; split <;> simp [sl], fun p hp k e he => comp (hin p hp k e he) he t, ?_, ?_⟩
    · intro p hp q hq k a b x y ha hb hx hy
      rcases entry_of (hin p hp k a ha) ha with ⟨rfl, rfl | rfl⟩ | ⟨rfl, rfl | rfl⟩ <;> cases hx
      rcases entry_of (hin q hq _ b hb) hb with ⟨_, rfl | rfl⟩ | ⟨_, rfl | rfl⟩ <;> cases hy
      exact SameVal.refl _
    · intro p hp q hq k a b ha hb ho
      rcases entry_of (hin p hp k a ha) ha with ⟨rfl, rfl | rfl⟩ | ⟨rfl, rfl | rfl⟩
      · obtain ⟨w, hw⟩ := ho; cases hw
      · obtain ⟨w, hw⟩ := ho; cases hw
      all_goals
        rcases entry_of (hin q hq _ b hb) hb with ⟨h, _⟩ | ⟨_, rfl | rfl⟩
        · simp at h
        all_goals exact ⟨(fun ⟨w, hw⟩ => by cases hw), (fun ⟨w, hw⟩ => by cases hw), (fun ⟨w, hw⟩ => by cases hw)⟩
  · intro m t em hm hem f hf
    cases hm
    cases t <;> simp [md] at hem
    subst hem
    simp only [List.mem_cons, List.not_mem_nil, or_false] at hf
    rcases hf with rfl | rfl
    · refine ⟨⟨rfl, by simp⟩, fun s hs P hP => ?_⟩
      have hk : ∀ e, AMap.get (P.known .rp) "grant_types" = some e → P.known .rp = p1 ∨ P.known .rp = p2 := by
        intro e he
        rcases (policy_of hs hP).2 .rp with h | h | h
        · exact .inl h
        · exact .inr h
        · rw [h] at he; cases he
      refine ⟨fun e he => ⟨by simp, by simp, by simp, fun _ _ => ?_⟩, fun e he => .inl ⟨by simp, comp (hk e he) he .rp⟩, fun _ _ _ => rfl⟩
      rcases entry_of (hk e he) he with ⟨_, rfl | rfl⟩ | ⟨h, _⟩
      · rintro ⟨w, hw⟩; cases hw
      · rintro ⟨w, hw⟩; cases hw
      · simp at h
    · refine ⟨⟨rfl, by simp⟩, fun s hs P hP => ?_⟩
      refine ⟨fun e he => ⟨by simp, by simp, by simp, by simp⟩, fun e he => .inr ⟨by simp, ?_⟩, by simp⟩
      have hk : P.known .rp = p1 ∨ P.known .rp = p2 := by
        rcases (policy_of hs hP).2 .rp with h | h | h
        · exact .inl h
        · exact .inr h
        · rw [h] at he; cases he
      rcases entry_of hk he with ⟨h, _⟩ | ⟨_, rfl | rfl⟩
      · simp at h
      all_goals exact ⟨(fun ⟨w, hw⟩ => by cases hw), (fun ⟨w, hw⟩ => by cases hw), (fun ⟨w, hw⟩ => by cases hw), (fun h => by cases h)⟩

end ExF

/-- The relying party above, which states the required grant types and no name, is resolved as it is. -/
example : ∃ m, chainMetadata [ExF.leaf, ExF.s1, ExF.s2] = .ok (some m) ∧ (m.known .rp).map EntityMeta.wasSet = some ["GrantTypes"] := by
  obtain ⟨m, h1, _, h2⟩ := C131_unchanged_partial _ _ _ _ ExF.follows
  refine ⟨m, h1, ?_⟩
  have := h2 .rp
  have hk : (ExF.leaf.metadata.getD Metadata.empty).known .rp = some ⟨[⟨"GrantTypes", "grant_types", .slice .str, sl ["refresh", "code"]⟩,
    ⟨"ClientName", "client_name", .str, .str ""⟩], ["GrantTypes"], []⟩ := rfl
  rw [hk] at this
  cases hm : m.known .rp with
  | none => rw [hm] at this; cases this
  | some em => rw [hm] at this; cases this with | some h => rw [Option.map_some, h.2.1]

/-! ## What can go wrong although the leaf complies -/

/-- Metadata that complies with each of the policies, each of which is fine by itself. -/
def CompliesWithEach (ps : List Policy) (m : EntityMeta) : Prop :=
  ∀ p ∈ ps, Policy.verify p = .ok () ∧ TypedPolicy m.fields p ∧ ∀ f ∈ m.fields, FieldOk f ∧ PlainFor p f ∧ FieldComplies p m.wasSet f

/-- C131: two superiors with different defaults for an attribute that the leaf states. -/
theorem C131_defaults_refuted : ¬ ∀ (ps : List Policy) (m : EntityMeta), CompliesWithEach ps m → ∃ q m', combineAll ps = .ok q ∧ m.apply q = .ok m' := by
  intro h
  obtain ⟨q, m', h1, _⟩ := h [[("client_name", [("default", .str "a")])], [("client_name", [("default", .str "b")])]]
    ⟨[⟨"ClientName", "client_name", .str, .str "n"⟩], ["ClientName"], []⟩ (by
      intro p hp
      have hty : ∀ sh s, ValueOk sh (.str s) → TypedEntry sh [("default", .str s)] := by
        intro sh s h kv hkv
        cases List.mem_singleton.mp hkv
        exact ⟨by simp, by simp, by simp, fun _ => h⟩
      have hco : ∀ s : String, Complies [("default", .str s)] (.str "n") := fun s =>
        ⟨⟨(fun _ s h => by cases h), (fun _ s h => by cases h), (fun _ s h => by cases h), (fun s h => by cases h)⟩, (fun s h => by cases h), (fun h => by cases h)⟩
      simp only [List.mem_cons, List.not_mem_nil, or_false] at hp
      rcases hp with rfl | rfl
      all_goals
        refine ⟨rfl, ?_, ?_⟩
        · intro ke hke
          cases List.mem_singleton.mp hke
          refine ⟨hty _ _ trivial, fun f hf _ => ?_⟩
          cases List.mem_singleton.mp hf
          exact hty _ _ ⟨rfl, rfl⟩
        · intro f hf
          cases List.mem_singleton.mp hf
          refine ⟨⟨rfl, by simp⟩, fun e he => ⟨by simp, by simp, by simp, by simp⟩, fun e he => .inl ⟨by simp, ?_⟩⟩
          cases he
          exact hco _)
  cases h1

/-- C131: one superior asks for one of several values, another for a value that includes some. -/
theorem C131_one_of_refuted : ¬ ∀ (ps : List Policy) (m : EntityMeta), (∀ p ∈ ps, ∀ k e, AMap.get p k = some e → ¬ Has e "default") →
    CompliesWithEach ps m → ∃ q m', combineAll ps = .ok q ∧ m.apply q = .ok m' := by
  intro h
  obtain ⟨q, m', h1, _⟩ := h [[("client_name", [("one_of", jl ["n"])])], [("client_name", [("superset_of", jl ["n"])])]]
    ⟨[⟨"ClientName", "client_name", .str, .str "n"⟩], ["ClientName"], []⟩ (by
      intro p hp k e he
      simp only [List.mem_cons, List.not_mem_nil, or_false] at hp
      rcases hp with rfl | rfl
      all_goals
        have hm := get_mem he
        cases List.mem_singleton.mp hm
        rintro ⟨w, hw⟩
        cases hw) (by
      intro p hp
      simp only [List.mem_cons, List.not_mem_nil, or_false] at hp
      rcases hp with rfl | rfl
      all_goals
        refine ⟨rfl, ?_, ?_⟩
        · intro ke hke
          cases List.mem_singleton.mp hke
          refine ⟨?_, fun f hf _ => ?_⟩
          all_goals
            intro kv hkv
            cases List.mem_singleton.mp hkv
            exact ⟨by simp [jl], fun _ => ⟨_, _, rfl⟩, by simp, by simp⟩
        · intro f hf
          cases List.mem_singleton.mp hf
          refine ⟨⟨rfl, by simp⟩, fun e he => ⟨by simp, by simp, by simp, by simp⟩, fun e he => .inl ⟨by simp, ?_⟩⟩
          cases he
          refine ⟨⟨(fun _ s h => by cases h), ?_, ?_, (fun s h => by cases h)⟩, (fun s h => by cases h), (fun h => by cases h)⟩
          all_goals
            intro _ s h _
            cases h
            first | decide | skip)
  cases h1

/-- C131: policies for another entity type than the leaf's that cannot be met together. -/
theorem C131_other_type_refuted : ¬ ∀ (a b c : Stmt), (∀ s ∈ [a, b, c], ∀ P, s.policy = some P → P.extra = [] ∧ s.policyCrit = [] ∧
      ∀ t, Policy.verify (P.known t) = .ok () ∧ ∀ md, a.metadata = some md → (md.known t).isSome → P.known t = []) →
    ∃ md, chainMetadata [a, b, c] = .ok md := by
  intro h
  obtain ⟨md, hmd⟩ := h ExF.leaf
    { ExF.s1 with policy := some ⟨fun t => if t = .op then [("issuer", [("value", .str "a")])] else [], []⟩, policyCrit := [] }
    { ExF.s2 with policy := some ⟨fun t => if t = .op then [("issuer", [("value", .str "b")])] else [], []⟩, policyCrit := [] } (by
      intro s hs P hP
      simp only [List.mem_cons, List.not_mem_nil, or_false] at hs
      rcases hs with rfl | rfl | rfl
      · cases hP
      all_goals
        cases hP
        refine ⟨rfl, rfl, fun t => ⟨?_, ?_⟩⟩
        · by_cases h : t = .op
          · subst h; rfl
          · simp [h]; rfl
        · intro md hm hs
          cases hm
          cases t <;> simp [ExF.md] at hs ⊢)
  cases hmd

/-! ## From what was configured to what is read -/

theorem policyVals_get (N : Numbering) (p : JPolicy) (k : String) : AMap.get (policyVals N p) k = (AMap.get p k).map (entryVals N) := jget_mapv _ p k

theorem has_congr {a b : Entry} (h : EqEntry a b) (n : String) : Has a n ↔ Has b n := by
  unfold Has
  rw [show AMap.get a n = AMap.get b n from h n]

theorem complies_congr {a b : Entry} (h : EqEntry a b) {v : Val} (hc : Complies a v) : Complies b v := by
  have h' : ∀ op, AMap.get b op = AMap.get a op := fun op => (h op).symm
  have he : Essential b ↔ Essential a := by unfold Essential; rw [h']
  refine ⟨obeys_congr (fun op => (h op).symm) hc.toObeys, ?_, ?_⟩
  · rw [show AMap.get b "add" = AMap.get a "add" from h' _]; exact hc.add
  · unfold EssentialOk; rw [he]; exact hc.essential

theorem plain_congr {a b : Entry} (h : EqEntry a b) (hw : b.WF) (hp : PlainEntry a) : PlainEntry b := by
  have h' : ∀ op, AMap.get b op = AMap.get a op := fun op => (h op).symm
  refine ⟨⟨hw, fun n hn => hp.known n ((has_congr h n).mpr hn), ?_, ?_⟩, ?_⟩
  · rw [show AMap.get b "value" = AMap.get a "value" from h' _]; exact hp.nodup
  · rw [show AMap.get b "default" = AMap.get a "default" from h' _]; exact hp.nodupDefault
  · intro op s ho hs
    rw [show AMap.get b op = AMap.get a op from h' _] at hs
    exact hp.lists op s ho hs

theorem tags_nodup (t : EType) : ((metaFields t).map MField.tag).Nodup := by
  cases t <;> decide

theorem eq_of_tags {α β : Type} {f : α → β} : ∀ {l : List α}, (l.map f).Nodup → ∀ {x y}, x ∈ l → y ∈ l → f x = f y → x = y
  | [], _, _, _, hx, _, _ => by cases hx
  | a :: l, hn, x, y, hx, hy, h => by
    rw [List.map_cons, List.nodup_cons] at hn
    rcases List.mem_cons.mp hx with rfl | hx' <;> rcases List.mem_cons.mp hy with rfl | hy'
    · rfl
    · exact absurd (by rw [h]; exact List.mem_map_of_mem hy') hn.1
    · exact absurd (by rw [← h]; exact List.mem_map_of_mem hx') hn.1
    · exact eq_of_tags hn.2 hx' hy' h

theorem all_tags_nodup (t : EType) : ((metaFields t).map MField.tag ++ ["-"]).Nodup := by
  rw [List.nodup_append]
  refine ⟨tags_nodup t, by simp, ?_⟩
  intro a ha b hb e
  obtain ⟨g, hg, rfl⟩ := List.mem_map.mp ha
  exact no_dash t g hg (e.trans (List.mem_singleton.mp hb))

/-- What the restricted statement has for an entity type. -/
theorem restricted_known {types : List String} {s0 : Stmt} {m0 : Metadata} {t : EType} {em : EntityMeta} (hm : (restrictTypes types s0).metadata = some m0)
    (hk : m0.known t = some em) : (types = [] ∨ t.tag ∈ types) ∧ ∃ m1, s0.metadata = some m1 ∧ m1.known t = some em := by
  unfold restrictTypes at hm
  split at hm
  · rename_i he
    exact ⟨.inl (List.isEmpty_iff.mp he), m0, hm, hk⟩
  · cases h1 : s0.metadata with
    | none => rw [h1] at hm; cases hm
    | some m =>
      rw [h1] at hm
      cases hm
      have hk' : (if types.contains t.tag then m.known t else none) = some em := hk
      split at hk'
      · rename_i hc
        exact ⟨.inr (List.contains_iff_mem.mp hc), m, rfl, hk'⟩
      · cases hk'

/-- The fields of a statement that was read, against what was configured. -/
theorem read_field {N : Numbering} {types : List String} {leaf : ESPayload} {s0 : Stmt} (h0 : ReadFrom N leaf s0) {m0 : Metadata} {t : EType} {em : EntityMeta}
    (hm : (restrictTypes types s0).metadata = some m0) (hk : m0.known t = some em) :
    ∃ own, askedOf types leaf t = some own ∧ (∀ f ∈ em.fields, (f.tag = "-" ∧ FieldOk f) ∨ ∃ g ∈ metaFields t, ∃ w, SameContent w (own.val g.name) ∧
      f = ⟨g.name, g.tag, g.kind.ty, g.kind.goVal N.obj w⟩) ∧
      ∀ g ∈ metaFields t, ∃ w, SameContent w (own.val g.name) ∧ (⟨g.name, g.tag, g.kind.ty, g.kind.goVal N.obj w⟩ : Field) ∈ em.fields := by
  obtain ⟨hc, m1, hm1, hk1⟩ := restricted_known hm hk
  have hrel := h0.readMetadata
  rw [hm1] at hrel
  cases hl : leaf.metadata with
  | none => rw [hl] at hrel; cases hrel
  | some lm =>
    rw [hl] at hrel
    cases hrel
    rename_i hr
    have hkn := hr.known t
    rw [hk1] at hkn
    cases ho : lm.known t with
    | none => rw [ho] at hkn; cases hkn
    | some own =>
      rw [ho] at hkn
      cases hkn
      rename_i hf
      refine ⟨own, ?_, ?_, hf.fields⟩
      · unfold askedOf
        rw [if_pos hc, hl]
        exact ho
      · intro f hfm
        rcases h0.decoded.fields m1 hm1 t em hk1 f hfm with ⟨n1, n2, n3, n4⟩ | ⟨g, hg, n1, n2, n3, n4⟩
        · exact .inl ⟨n2, decoded_fieldOk (h0.decoded.fields m1 hm1 t em hk1 f hfm)⟩
        obtain ⟨w, hw, hin⟩ := hf.fields g hg
        refine .inr ⟨g, hg, w, hw, ?_⟩
        have hnd : (em.fields.map Field.tag).Nodup := by
          rw [h0.decoded.tags m1 hm1 t em hk1]
          exact all_tags_nodup t
        exact eq_of_tags hnd hfm hin n2

/-- Nothing was configured for an entity type if nothing is read for it. -/
theorem asked_none {N : Numbering} {types : List String} {leaf : ESPayload} {s0 : Stmt} (h0 : ReadFrom N leaf s0) {t : EType}
    (h : ((restrictTypes types s0).metadata.getD Metadata.empty).known t = none) : askedOf types leaf t = none := by
  unfold askedOf
  by_cases hc : types = [] ∨ t.tag ∈ types
  · rw [if_pos hc]
    have hrel := h0.readMetadata
    cases hl : leaf.metadata with
    | none => rfl
    | some lm =>
      rw [hl] at hrel
      cases hs : s0.metadata with
      | none => rw [hs] at hrel; cases hrel
      | some m =>
        rw [hs] at hrel
        cases hrel
        rename_i hr
        have hmt : m.known t = none := by
          unfold restrictTypes at h
          split at h
          · rw [hs] at h; exact h
          · rename_i he
            rw [hs] at h
            have h : (if types.contains t.tag then m.known t else none) = none := h
            rcases hc with hc | hc
            · rw [hc] at he; exact absurd rfl he
            · rw [if_pos (List.contains_iff_mem.mpr hc)] at h; exact h
        have hk := hr.known t
        rw [hmt] at hk
        show lm.known t = none
        cases ho : lm.known t with
        | none => rfl
        | some o => rw [ho] at hk; cases hk
  · rw [if_neg hc]

theorem restrict_policy (types : List String) (s : Stmt) : (restrictTypes types s).policy = s.policy ∧ (restrictTypes types s).policyCrit = s.policyCrit := by
  unfold restrictTypes
  split <;> exact ⟨rfl, rfl⟩

/-- The metadata that a leaf has configured complies, as it is read, with the policies as they are read. -/
theorem follows_of_configured {N : Numbering} {types : List String} {opq : Opaque} {leaf : ESPayload} {ps : List ESPayload} {s0 : Stmt} {rest : Chain}
    (h0 : ReadFrom N leaf s0) (hrest : ∀ s ∈ rest, ∃ p ∈ ps, ReadFrom N p s) (hok : PayloadOk opq leaf) {v : EType → String → Val}
    (hf : FollowsConfigured N types leaf (leaf :: ps) v) : Follows (restrictTypes types s0) (restrictTypes types s0 :: rest) v := by
  have hsrc : ∀ s ∈ restrictTypes types s0 :: rest, ∃ p ∈ leaf :: ps, ∃ s', ReadFrom N p s' ∧ s.policy = s'.policy ∧ s.policyCrit = s'.policyCrit := by
    intro s hs
    rcases List.mem_cons.mp hs with rfl | hs
    · exact ⟨leaf, by simp, s0, h0, (restrict_policy types s0).1, (restrict_policy types s0).2⟩
    · obtain ⟨p, hp, hr⟩ := hrest s hs
      exact ⟨p, by simp [hp], s, hr, rfl, rfl⟩
  -- an entry as read comes from an entry as configured
  have hent : ∀ s ∈ restrictTypes types s0 :: rest, ∀ P, s.policy = some P → ∀ t, AMap.WF (P.known t) ∧ ∀ k e, AMap.get (P.known t) k = some e →
      e.WF ∧ ∃ p ∈ leaf :: ps, ∃ Q e0, p.policy = some Q ∧ AMap.get (Q.known t) k = some e0 ∧ EqEntry (entryVals N e0) e := by
    intro s hs P hP t
    obtain ⟨p, hp, s', hr, e1, _⟩ := hsrc s hs
    rw [e1] at hP
    obtain ⟨_, hw⟩ := hr.decoded.policies P hP
    refine ⟨(hw t).1, fun k e he => ⟨(hw t).2 k e he, p, hp, ?_⟩⟩
    have hs := hr.readPolicy
    rw [hP] at hs
    cases hq : p.policy with
    | none => rw [hq] at hs; cases hs
    | some Q =>
      rw [hq] at hs
      cases hs
      rename_i hrp
      obtain ⟨e0, h1, h2⟩ := readPolicy_entry (hrp.known t) he
      exact ⟨Q, e0, rfl, h1, h2⟩
  have hval : ∀ t k e, (∃ s ∈ restrictTypes types s0 :: rest, ∃ P, s.policy = some P ∧ AMap.get (P.known t) k = some e) →
      ∃ p ∈ ((leaf :: ps).filterMap ESPayload.policy).map (fun P => policyVals N (P.known t)), ∃ e', AMap.get p k = some e' ∧ EqEntry e' e := by
    rintro t k e ⟨s, hs, P, hP, he⟩
    obtain ⟨_, p, hp, Q, e0, h1, h2, h3⟩ := (hent s hs P hP t).2 k e he
    refine ⟨policyVals N (Q.known t), List.mem_map.mpr ⟨Q, List.mem_filterMap.mpr ⟨p, hp, h1⟩, rfl⟩, entryVals N e0, ?_, h3⟩
    rw [policyVals_get, h2]
    rfl
  refine ⟨?_, ?_, ?_, ?_, ?_⟩
  · intro s hs n hn
    obtain ⟨p, hp, s', hr, _, e2⟩ := hsrc s hs
    rw [e2, hr.readPolicyCrit] at hn
    exact hf.crit p hp n hn
  · intro s hs P hP
    obtain ⟨p, hp, s', hr, e1, _⟩ := hsrc s hs
    rw [e1] at hP
    exact (hr.decoded.policies P hP).1
  · intro s hs P hP t
    constructor
    · refine ⟨(hent s hs P hP t).1, fun k e he => ?_⟩
      obtain ⟨hw, p, hp, Q, e0, h1, h2, h3⟩ := (hent s hs P hP t).2 k e he
      exact plain_congr h3 hw (hf.plain p hp Q h1 t k e0 h2)
    · obtain ⟨p, hp, s', hr, e1, _⟩ := hsrc s hs
      rw [e1] at hP
      exact (read_policy_typed hr (hf.fit p hp) P hP t _ (restrict_fields h0.decoded t)).2
  · intro t
    have hin : ∀ p ∈ ((restrictTypes types s0 :: rest).filterMap Stmt.policy).map (fun P => P.known t), ∀ k e, AMap.get p k = some e →
        ∃ p ∈ ((leaf :: ps).filterMap ESPayload.policy).map (fun P => policyVals N (P.known t)), ∃ e', AMap.get p k = some e' ∧ EqEntry e' e := by
      intro p hp k e he
      obtain ⟨P, hP, rfl⟩ := List.mem_map.mp hp
      obtain ⟨s, hs, hsp⟩ := List.mem_filterMap.mp hP
      exact hval t k e ⟨s, hs, P, hsp, he⟩
    have A := hf.agree t
    refine ⟨A.notNull, ?_, ?_, ?_⟩
    · intro p hp k e he
      obtain ⟨q, hq, e', h1, h2⟩ := hin p hp k e he
      exact complies_congr h2 (A.complies q hq k e' h1)
    · intro p hp q hq k a b x y ha hb hx hy
      obtain ⟨p', hp', a', a1, a2⟩ := hin p hp k a ha
      obtain ⟨q', hq', b', b1, b2⟩ := hin q hq k b hb
      exact A.default p' hp' q' hq' k a' b' x y a1 b1 ((a2 _).trans hx) ((b2 _).trans hy)
    · intro p hp q hq k a b ha hb ho
      obtain ⟨p', hp', a', a1, a2⟩ := hin p hp k a ha
      obtain ⟨q', hq', b', b1, b2⟩ := hin q hq k b hb
      obtain ⟨c1, c2, c3⟩ := A.alone p' hp' q' hq' k a' b' a1 b1 ((has_congr a2 _).mpr ho)
      exact ⟨fun h => c1 ((has_congr b2 _).mpr h), fun h => c2 ((has_congr b2 _).mpr h), fun h => c3 ((has_congr b2 _).mpr h)⟩
  · intro m0 t em hm hk f hfm
    obtain ⟨own, hown, hfs, _⟩ := read_field h0 hm hk
    rcases hfs f hfm with ⟨hd, hfok⟩ | ⟨g, hg, w, hw, rfl⟩
    · refine ⟨hfok, fun s hs P hP => ?_⟩
      have key : ∀ e, AMap.get (P.known t) f.tag = some e → False := by
        intro e he
        obtain ⟨_, p, hp, Q, e0, h1, h2, _⟩ := (hent s hs P hP t).2 f.tag e he
        rw [hd, hf.named p hp Q h1 t] at h2
        cases h2
      exact ⟨fun e he => (key e he).elim, fun e he => (key e he).elim, fun e he => (key e he).elim⟩
    refine ⟨⟨goVal_ty _ _ _, fun h => by rw [scope_str t g hg h]; rfl, fun h => absurd h (no_dash t g hg)⟩, fun s hs P hP => ?_⟩
    have key : ∀ e, AMap.get (P.known t) g.tag = some e → g.name ≠ "Scope" ∧ (g.kind = .strs → ¬ Has e "one_of") ∧
        g.kind.goVal N.obj w = v t g.tag ∧ g.name ∈ em.wasSet := by
      intro e he
      obtain ⟨_, p, hp, Q, e0, h1, h2, h3⟩ := (hent s hs P hP t).2 g.tag e he
      obtain ⟨k1, k2, w', k3, k4, k5⟩ := hf.states t own hown g hg p hp Q e0 h1 h2
      have hww : w = some w' := by
        rcases hw with e | ⟨_, e⟩
        · rw [e, k3]
        · rw [k3] at e
          obtain ⟨_, _, _, i4, i5⟩ := k4
          rcases e with e | e | e
          · cases e
          · cases e; exact absurd rfl i4
          · cases e; exact absurd rfl i5
      refine ⟨k1, fun h => fun hh => k2 h ((has_congr h3 _).mpr hh), by rw [hww]; exact k5, ?_⟩
      obtain ⟨_, m1, hm1, hk1⟩ := restricted_known hm hk
      cases hset : em.wasSet.contains g.name with
      | true => exact List.contains_iff_mem.mp hset
      | false =>
        have hu := h0.decoded.flags m1 hm1 t em hk1 _ hfm hset
        obtain ⟨ml, hml, hkl⟩ : ∃ ml, leaf.metadata = some ml ∧ ml.known t = some own := by
          unfold askedOf at hown
          by_cases hc : types = [] ∨ t.tag ∈ types
          · rw [if_pos hc] at hown; exact Option.bind_eq_some_iff.mp hown
          · rw [if_neg hc] at hown; cases hown
        have ht := ((hok.metadata ml hml).2 t own hkl).typed g hg w' k3
        rw [hww] at hu
        exact absurd hu (goVal_set ht k4)
    refine ⟨fun e he => ⟨(key e he).1, ?_, ?_, ?_⟩, fun e he => .inl ⟨(key e he).2.2.2, ?_⟩, fun e he _ => (key e he).2.2.1⟩
    · cases g.kind <;> simp [MKind.ty]
    · cases g.kind <;> simp [MKind.ty]
    · intro ty hty
      refine (key e he).2.1 ?_
      cases hgk : g.kind <;> rw [hgk] at hty <;> first | rfl | cases hty
    · show Complies e (g.kind.goVal N.obj w)
      rw [(key e he).2.2.1]
      obtain ⟨q, hq, e', h1, h2⟩ := hval t g.tag e ⟨s, hs, P, hP, he⟩
      exact complies_congr h2 ((hf.agree t).complies q hq _ e' h1)

/-- **C131** (operated federations): in a federation that publishes what its members configured, the chain of a leaf that complies with the policies configured on
the way is returned by the resolver, and gives the metadata that the leaf configured. Missing: as in `C131_unchanged_partial` and `C112_operated_resolves_partial`,
and attributes that the policies are for but the leaf does not state. -/
theorem C131_operated_partial (C : Crypto) (hC : Scheme C) (X : Reader) (keyOf : Nat → JKey) (msgOf : Nat → Jws) (P : String → Option Jws)
    (ser : Jws → String) (hP : ∀ j, P (ser j) = some j) (signer : ID → JSigner) (W : World) (hW : W.sig = jwsOracle C keyOf msgOf) (r : Resolver)
    (leaf : ESPayload) (leafJwt : Jws) (as : List Authority) (top : Authority)
    (hX : Faithful X keyOf msgOf (keysOf as) (jwtsOf leafJwt as))
    (ho : OperatedWith C X (fun j => parseStmt P X.decode (ser j)) keyOf signer W r.anchors r.types leaf leafJwt as top)
    (v : EType → String → Val) (hv : FollowsConfigured X.N r.types leaf (onTheWay leaf as top) v)
    (hst : r.start ≠ "") (hs : W.start r.start = parseStmt P X.decode (ser leafJwt))
    (fuel : Nat) (cs : List Chain) (h : r.validChains W fuel = .ok (some cs)) :
    ∃ c ∈ cs, ∃ md, c.length = as.length + 2 ∧ chainMetadata c = .ok (some md) ∧
      ∀ t, Option.Rel (fun own em => ∀ g ∈ metaFields t, ∃ w, SameContent w (own.val g.name) ∧
        ∃ f ∈ em.fields, SameField ⟨g.name, g.tag, g.kind.ty, g.kind.goVal X.N.obj w⟩ f) (askedOf r.types leaf t) (md.known t) := by
  obtain ⟨cs0, h1, h2⟩ := validChains_eq h
  obtain ⟨s0, rest, e1, e2, e3⟩ := C112_operated_resolves_partial C hC X keyOf msgOf P ser hP signer W hW r leaf leafJwt as top hX ho hst hs fuel cs0 h1
  obtain ⟨g1, g2, g3, g4⟩ := read_on_the_way hX hP ho e1 e2
  obtain ⟨b, rest', rfl⟩ := List.exists_cons_of_ne_nil g1
  have hfol := follows_of_configured (opq := X.opq) (types := r.types) g2 g3 ho.leaf_published.ok hv
  obtain ⟨md, k1, _, k2⟩ := C131_unchanged_partial _ _ _ v hfol
  refine ⟨restrictTypes r.types s0 :: b :: rest', ?_, md, ?_, k1, ?_⟩
  · rw [filterValidMetadata_mem _ _ h2]
    exact ⟨e3, _, k1⟩
  · have := congrArg List.length e2
    simp only [List.length_map, List.length_append, List.length_cons, List.length_nil] at this ⊢
    omega
  · intro t
    have hk := k2 t
    cases hkn : ((restrictTypes r.types s0).metadata.getD Metadata.empty).known t with
    | none =>
      rw [asked_none g2 hkn]
      rw [hkn] at hk
      cases hkd : md.known t with
      | none => exact .none
      | some em' => rw [hkd] at hk; cases hk
    | some em =>
      cases hm : (restrictTypes r.types s0).metadata with
      | none => rw [hm] at hkn; cases hkn
      | some m0 =>
        have hkn' : m0.known t = some em := by rw [hm] at hkn; exact hkn
        obtain ⟨own, hown, _, hfs⟩ := read_field g2 hm hkn'
        rw [hkn] at hk
        cases hkd : md.known t with
        | none => rw [hkd] at hk; cases hk
        | some em' =>
          rw [hkd] at hk
          cases hk
          rename_i hkept
          rw [hown]
          refine .some ?_
          intro g hg
          obtain ⟨w, hw, hin⟩ := hfs g hg
          refine ⟨w, hw, ?_⟩
          have : ∀ {l l' : List Field}, Each SameField l l' → ∀ f ∈ l, ∃ f' ∈ l', SameField f f' := by
            intro l l' he
            induction he with
            | nil => intro f hf; cases hf
            | cons hab _ ih =>
              intro f hf
              rcases List.mem_cons.mp hf with rfl | hf
              · exact ⟨_, List.mem_cons_self .., hab⟩
              · obtain ⟨f', hf', hs⟩ := ih f hf
                exact ⟨f', List.mem_cons_of_mem _ hf', hs⟩
          exact this hkept.1 _ hin

/-- Where there are no policies, there is nothing to comply with. -/
theorem follows_none (N : Numbering) (types : List String) (leaf : ESPayload) (ps : List ESPayload)
    (h : ∀ p ∈ ps, p.policy = none ∧ ∀ n ∈ p.policyCrit.getD [], n ∈ supportedOperators) : FollowsConfigured N types leaf ps (fun _ _ => .str "") := by
  have he : ps.filterMap ESPayload.policy = [] := by
    rw [List.filterMap_eq_nil_iff]
    exact fun p hp => (h p hp).1
  refine ⟨fun p hp => (h p hp).2, ?_, ?_, ?_, ?_, ?_⟩
  · intro p hp P hP; rw [(h p hp).1] at hP; cases hP
  · intro p hp P hP; rw [(h p hp).1] at hP; cases hP
  · intro p hp P hP; rw [(h p hp).1] at hP; cases hP
  · intro t
    rw [he]
    exact ⟨by simp, (by intro p hp; cases hp), (by intro p hp; cases hp), (by intro p hp; cases hp)⟩
  · intro t own _ f _ p hp P e hP; rw [(h p hp).1] at hP; cases hP

namespace ExO
open ExS

theorem vals_comp : ∀ e, (e = [("essential", .bool true)] ∨
      e = [("default", .str "Org"), ("one_of", .slice .any false [.str "Org", .str "Other"]), ("essential", .bool true)]) →
    Complies e (.str "Other") ∧ PlainEntry e ∧ ¬ Has e "add" ∧ ¬ Has e "subset_of" ∧ ¬ Has e "superset_of" := by
  have hne : ¬ Unset (.str "Other") := fun h => absurd ((isZero_iff _).mpr h) (by decide)
  rintro e (rfl | rfl)
  · refine ⟨⟨⟨?_, ?_, ?_, ?_⟩, ?_, fun _ => hne⟩, ⟨⟨by simp [AMap.WF, AMap.keys], ?_, ?_, ?_⟩, ?_⟩, ?_, ?_, ?_⟩
    · intro _ s h; cases h
    · intro _ s h; cases h
    · intro _ s h; cases h
    · intro s h; cases h
    · intro s h; cases h
    · rintro n ⟨w, hw⟩
      have := get_mem hw
      simp only [List.mem_singleton, Prod.mk.injEq] at this
      simp [Known, this.1]
    · intro s h; cases h
    · intro s h; cases h
    · intro op s ho hs
      have := get_mem hs
      simp only [List.mem_singleton, Prod.mk.injEq] at this
      obtain ⟨rfl, _⟩ := this
      simp at ho
    · rintro ⟨w, hw⟩; cases hw
    · rintro ⟨w, hw⟩; cases hw
    · rintro ⟨w, hw⟩; cases hw
  · refine ⟨⟨⟨?_, ?_, ?_, ?_⟩, ?_, fun _ => hne⟩, ⟨⟨by simp [AMap.WF, AMap.keys], ?_, ?_, ?_⟩, ?_⟩, ?_, ?_, ?_⟩
    · intro _ s h; cases h
    · intro _ s h; cases h
    · intro _ s h _; cases h; decide
    · intro s h; cases h
    · intro s h; cases h
    · rintro n ⟨w, hw⟩
      have := get_mem hw
      simp only [List.mem_cons, List.not_mem_nil, or_false, Prod.mk.injEq] at this
      rcases this with h | h | h <;> simp [Known, h.1]
    · intro s h; cases h
    · intro s h; cases h; decide
    · intro op s ho hs
      have := get_mem hs
      simp only [List.mem_cons, List.not_mem_nil, or_false, Prod.mk.injEq] at this
      rcases this with ⟨rfl, rfl⟩ | ⟨rfl, rfl⟩ | ⟨rfl, rfl⟩
      · simp at ho
      · exact .inr ⟨_, _, rfl⟩
      · simp at ho
    · rintro ⟨w, hw⟩; cases hw
    · rintro ⟨w, hw⟩; cases hw
    · rintro ⟨w, hw⟩; cases hw

/-- A leaf which calls itself "Other" complies with the policies of any statements like those of this federation. -/
theorem follows_of (types : List String) (leaf : ESPayload) (ps : List ESPayload)
    (hps : ∀ p ∈ ps, p.policy = (payload ⟨none, none, none⟩).policy ∧ p.policyCrit = none) (hrp : askedOf types leaf .rp = none) (ep : String)
    (hfed : askedOf types leaf .fed = some (fed ep)) : FollowsConfigured X.N types leaf ps (fun _ _ => .str "Other") := by
  have hent : ∀ p ∈ ps, ∀ P, p.policy = some P → ∀ t k e, AMap.get (P.known t) k = some e →
      (t = .rp ∧ k = "scope" ∧ entryVals X.N e = [("essential", .bool true)]) ∨ (t = .fed ∧ k = "organization_name" ∧
        entryVals X.N e = [("default", .str "Org"), ("one_of", .slice .any false [.str "Org", .str "Other"]), ("essential", .bool true)]) := by
    intro p hp P hP t k e he
    rw [(hps p hp).1] at hP
    rcases one_policy (Option.some.inj hP).symm he with ⟨h1, h2, rfl⟩ | ⟨h1, h2, rfl⟩
    · exact .inl ⟨h1, h2, vals1⟩
    · exact .inr ⟨h1, h2, vals2⟩
  have hval : ∀ t, ∀ p ∈ ((ps.filterMap ESPayload.policy).map (fun P => policyVals X.N (P.known t))),
      ∀ k e, AMap.get p k = some e → (k = "scope" ∧ e = [("essential", .bool true)]) ∨ (k = "organization_name" ∧
        e = [("default", .str "Org"), ("one_of", .slice .any false [.str "Org", .str "Other"]), ("essential", .bool true)]) := by
    intro t p hp k e he
    obtain ⟨P, hP, rfl⟩ := List.mem_map.mp hp
    obtain ⟨q, hq, hqp⟩ := List.mem_filterMap.mp hP
    rw [policyVals_get] at he
    cases hg : AMap.get (P.known t) k with
    | none => rw [hg] at he; cases he
    | some e0 =>
      rw [hg] at he
      cases he
      rcases hent q hq P hqp t k e0 hg with ⟨_, h2, h3⟩ | ⟨_, h2, h3⟩
      · exact .inl ⟨h2, h3⟩
      · exact .inr ⟨h2, h3⟩
  refine ⟨?_, fun p hp => fit_of p (.inr (hps p hp).1), ?_, ?_, ?_, ?_⟩
  · intro p hp
    rw [(hps p hp).2]
    intro n hn; cases hn
  · intro p hp P hP t k e he
    rcases hent p hp P hP t k e he with ⟨_, _, h⟩ | ⟨_, _, h⟩
    · exact (vals_comp _ (.inl h)).2.1
    · exact (vals_comp _ (.inr h)).2.1
  · intro p hp P hP t
    cases hg : AMap.get (P.known t) "-" with
    | none => rfl
    | some e => rcases hent p hp P hP t "-" e hg with ⟨_, h, _⟩ | ⟨_, h, _⟩ <;> exact absurd h (by decide)
  · intro t
    have hcomp : ∀ k (e : Entry), ((k = "scope" ∧ e = [("essential", .bool true)]) ∨ (k = "organization_name" ∧
        e = [("default", .str "Org"), ("one_of", .slice .any false [.str "Org", .str "Other"]), ("essential", .bool true)])) →
        (e = [("essential", .bool true)] ∨ e = [("default", .str "Org"), ("one_of", .slice .any false [.str "Org", .str "Other"]), ("essential", .bool true)]) := by
      rintro k e (⟨_, h⟩ | ⟨_, h⟩)
      · exact .inl h
      · exact .inr h
    refine ⟨fun _ => by simp, ?_, ?_, ?_⟩
    · intro p hp k e he
      exact (vals_comp _ (hcomp k e (hval t p hp k e he))).1
    · intro p hp q hq k a b x y ha hb hx hy
      rcases hval t p hp k a ha with ⟨_, rfl⟩ | ⟨_, rfl⟩ <;> cases hx
      rcases hval t q hq k b hb with ⟨_, rfl⟩ | ⟨_, rfl⟩ <;> cases hy
      exact SameVal.refl _
    · intro p hp q hq k a b ha hb _
      exact (vals_comp _ (hcomp k b (hval t q hq k b hb))).2.2
  · intro t own hown f hf p hp P e hP he
    rcases hent p hp P hP t f.tag e he with ⟨rfl, _, _⟩ | ⟨rfl, h2, h3⟩
    · rw [hrp] at hown; cases hown
    · rw [hfed] at hown
      cases hown
      have hn : ∀ f ∈ metaFields .fed, f.tag = "organization_name" → f.name = "OrganizationName" ∧ f.kind = .str := by decide
      obtain ⟨n1, n2⟩ := hn f hf h2
      rw [n1, n2]
      exact ⟨by decide, by simp, .str "Other", rfl, by simp [Informative], rfl⟩

/-- The leaf, which calls itself "Other", complies with the four policies on the way. -/
theorem follows_configured : FollowsConfigured X.N R.types (leaf true) [leaf true, il true, ti true, tCfg true] (fun _ _ => .str "Other") :=
  follows_of R.types (leaf true) _ (by
    intro p hp
    simp only [List.mem_cons, List.not_mem_nil, or_false] at hp
    rcases hp with rfl | rfl | rfl | rfl <;> exact ⟨rfl, rfl⟩) rfl "" rfl

/-- The leaf's chain is found, with the metadata that the leaf configured. -/
example (ser : Jws → String) (P : String → Option Jws) (hP : ∀ j, P (ser j) = some j) :
    let read := fun j => parseStmt P X.decode (ser j)
    ∃ cs, R.validChains (W true read) 4 = .ok (some cs) ∧ ∃ c ∈ cs, ∃ md em, c.length = 4 ∧ chainMetadata c = .ok (some md) ∧ md.known .fed = some em ∧
      ∃ f ∈ em.fields, f.tag = "organization_name" ∧ f.val = .str "Other" := by
  intro read
  obtain ⟨cs, h⟩ := resolves_valid true ser P hP
  obtain ⟨c, hc, md, h1, h2, h3⟩ := C131_operated_partial exCrypto exScheme X pub (msgOf true) P ser hP signer (W true read) rfl R (leaf true) (jwt (leaf true))
    [ai true, at' true] (at' true) (faithful true) (operated true read) (fun _ _ => .str "Other") follows_configured (by decide) rfl 4 cs h
  have hf := h3 .fed
  have ha : askedOf R.types (leaf true) .fed = some (fed "") := rfl
  rw [ha] at hf
  cases hm : md.known .fed with
  | none => rw [hm] at hf; cases hf
  | some em =>
    rw [hm] at hf
    cases hf
    rename_i hf
    obtain ⟨w, hw, f, hfm, n1, n2, n3, n4⟩ := hf ⟨"OrganizationName", "organization_name", .str, true⟩ (by decide)
    refine ⟨cs, h, c, hc, md, em, h1, h2, hm, f, hfm, n2, ?_⟩
    have hw : w = some (.str "Other") := by
      rcases hw with e | ⟨_, e⟩
      · exact e
      · rcases e with e | e | e <;> cases e
    rcases n4 with h | ⟨_, _, _, _, _, h, _⟩
    · rw [h, hw]; rfl
    · rw [hw] at h; cases h

end ExO

end Oidfed
