import Verif.Lemmas.ChainsExact
import Verif.Lemmas.Merge
import Verif.Spec.Monotone
import Verif.Examples.Federation
/-!
# How the chains of two resolutions are related: C146 – C148
-/

namespace Oidfed
open Spec

/-! ## C146: other trust anchors -/

theorem firstAnchor_find (A : List Anchor) (id : ID) (ta : Anchor) :
    FirstAnchor A id ta ↔ A.find? (fun a => a.id == id) = some ta := by
  constructor
  · rintro ⟨pre, post, rfl, h1, h2⟩
    rw [List.find?_append, List.find?_eq_none.mpr (by simpa using h2)]
    simp [h1]
  · intro h
    obtain ⟨h1, pre, post, h2, h3⟩ := List.find?_eq_some_iff_append.mp h
    exact ⟨pre, post, h2, by simpa using h1, fun x hx => by simpa using h3 x hx⟩

/-- A valid path stays one with other anchors if no entity below its top is one of them, and they have the same keys for the
top. -/
theorem validPath_anchors {W : World} {A A' : List Anchor} {leaf : Stmt} {steps : List Step} (hv : ValidPath W A leaf steps)
    (hb : ∀ (k : Nat) (e : Stmt) (s : Step), (entities leaf steps)[k]? = some e → steps[k]? = some s → e.iss ∉ A'.map Anchor.id)
    (ht : ∀ s ta, steps.getLast? = some s → FirstAnchor A s.ec.iss ta → FirstAnchor A' s.ec.iss ta) :
    ValidPath W A' leaf steps := by
  refine ⟨?_, hv.leaf_signed, hv.mid_signed, ?_⟩
  · intro k e s he hs
    exact { hv.steps_ok k e s he hs with below_not_anchor := hb k e s he hs }
  · obtain ⟨s, ta, keys, h1, h2, h3⟩ := hv.top
    exact ⟨s, ta, keys, h1, ht s ta h1 h2, h3⟩

/-- The issuers of the statements of a chain, all but the last two, are the entities below the top. -/
theorem below_issuers {W : World} {A : List Anchor} {leaf : Stmt} {steps : List Step} {c : Chain}
    (hv : ValidPath W A leaf steps) (hc : IsChainOf leaf steps c) (k : Nat) (e : Stmt) (s : Step)
    (he : (entities leaf steps)[k]? = some e) (hs : steps[k]? = some s) :
    ∃ x ∈ c.dropLast.dropLast, x.iss = e.iss := by
  obtain ⟨st, _, rfl⟩ := hc
  have hd : (leaf :: (steps.map Step.sub ++ [st.ec])).dropLast = leaf :: steps.map Step.sub := by
    rw [show leaf :: (steps.map Step.sub ++ [st.ec]) = (leaf :: steps.map Step.sub) ++ [st.ec] from rfl]
    exact List.dropLast_concat
  rw [hd]
  have hlen : k < steps.length := (List.getElem?_eq_some_iff.mp hs).1
  cases k with
  | zero =>
    have h0 : leaf = e := by simpa [entities] using he
    subst h0
    refine ⟨leaf, ?_, rfl⟩
    cases steps with
    | nil => simp at hlen
    | cons a rest => simp
  | succ j =>
    simp only [entities, List.getElem?_cons_succ, List.getElem?_map, Option.map_eq_some_iff] at he
    obtain ⟨a, ha, rfl⟩ := he
    obtain ⟨_, ok, _⟩ := step_ok hv j a ha
    refine ⟨a.sub, ?_, ok.sub_iss⟩
    have : (leaf :: steps.map Step.sub).dropLast[j+1]? = some a.sub := by
      rw [List.getElem?_dropLast]
      simp [ha]
      omega
    exact List.mem_of_getElem? this

/-- C146 (nothing but the new anchors): with further anchors, every returned chain is one that is returned without them, or
its last statement is the configuration of one of the new anchors. -/
theorem C146_only_new_anchors (W : World) (r : Resolver) (B : List Anchor) (fuel fuel' : Nat) (cs cs' : List Chain)
    (h : r.chainsNoMeta W fuel = .ok (some cs))
    (h' : ({ r with anchors := r.anchors ++ B } : Resolver).chainsNoMeta W fuel' = .ok (some cs'))
    (c : Chain) (hc : c ∈ cs') :
    c ∈ cs ∨ ∃ top, c.getLast? = some top ∧ top.iss ∈ B.map Anchor.id ∧ top.iss ∉ r.anchors.map Anchor.id := by
  obtain ⟨hst, s0, hs0, hm, hcase⟩ := (mem_run_iff h' c).mp hc
  rcases hcase with ⟨hd, rfl⟩ | ⟨steps, hv, hch⟩
  · by_cases ho : s0.iss ∈ r.anchors.map Anchor.id ∨ s0.hints = []
    · exact .inl ((mem_run_iff h _).mpr ⟨hst, s0, hs0, hm, .inl ⟨ho, rfl⟩⟩)
    · right
      have hi : (restrictTypes r.types s0).iss = s0.iss := by unfold restrictTypes; split <;> rfl
      refine ⟨restrictTypes r.types s0, rfl, ?_, ?_⟩
      · rw [hi]
        rcases hd with hd | hd
        · rw [List.map_append, List.mem_append] at hd
          exact hd.resolve_left (fun h => ho (.inl h))
        · exact absurd (.inr hd) ho
      · rw [hi]; exact fun h => ho (.inl h)
  · obtain ⟨st, hlast, hceq⟩ := hch
    by_cases ht : st.ec.iss ∈ r.anchors.map Anchor.id
    · left
      refine (mem_run_iff h _).mpr ⟨hst, s0, hs0, hm, .inr ⟨steps, validPath_anchors hv ?_ ?_, st, hlast, hceq⟩⟩
      · intro k e s he hs hmem
        refine (hv.steps_ok k e s he hs).below_not_anchor ?_
        simp only [List.map_append, List.mem_append]
        exact .inl hmem
      · intro s ta hs hf
        rw [hlast] at hs; cases hs
        rw [firstAnchor_find] at hf ⊢
        simp only [List.find?_append] at hf
        cases hfa : r.anchors.find? (fun a => a.id == st.ec.iss) with
        | some x => rw [hfa] at hf; simpa using hf
        | none =>
          obtain ⟨a, ha, ha'⟩ := List.mem_map.mp ht
          have := List.find?_eq_none.mp hfa a ha
          simp [ha'] at this
    · right
      refine ⟨st.ec, ?_, ?_, ht⟩
      · rw [hceq, show restrictTypes r.types s0 :: (steps.map Step.sub ++ [st.ec]) =
          (restrictTypes r.types s0 :: steps.map Step.sub) ++ [st.ec] from rfl]
        exact List.getLast?_concat
      · obtain ⟨s, ta, _, h1, ⟨pre, post, h2, h3, _⟩, _⟩ := hv.top
        rw [hlast] at h1; cases h1
        have : ta.id ∈ (r.anchors ++ B).map Anchor.id := by
          rw [show r.anchors ++ B = pre ++ ta :: post from h2]; simp
        rw [h3, List.map_append, List.mem_append] at this
        exact this.resolve_left ht

/-- C146 (chains kept), partial: with further anchors, a chain is still returned if none of the entities below its top is a
new anchor. Missing: chains through a new anchor are lost (`C146_lost_refuted`). -/
theorem C146_kept_partial (W : World) (r : Resolver) (B : List Anchor) (fuel fuel' : Nat) (cs cs' : List Chain)
    (h : r.chainsNoMeta W fuel = .ok (some cs))
    (h' : ({ r with anchors := r.anchors ++ B } : Resolver).chainsNoMeta W fuel' = .ok (some cs'))
    (c : Chain) (hc : c ∈ cs) (hb : ∀ s ∈ c.dropLast.dropLast, s.iss ∉ B.map Anchor.id) : c ∈ cs' := by
  obtain ⟨hst, s0, hs0, hm, hcase⟩ := (mem_run_iff h c).mp hc
  refine (mem_run_iff h' c).mpr ⟨hst, s0, hs0, hm, ?_⟩
  rcases hcase with ⟨hd, rfl⟩ | ⟨steps, hv, hch⟩
  · left
    refine ⟨hd.imp (fun h => ?_) id, rfl⟩
    simp only [List.map_append, List.mem_append]
    exact .inl h
  · right
    refine ⟨steps, validPath_anchors hv ?_ ?_, hch⟩
    · intro k e s he hs hmem
      rw [List.map_append, List.mem_append] at hmem
      rcases hmem with hmem | hmem
      · exact (hv.steps_ok k e s he hs).below_not_anchor hmem
      · obtain ⟨x, hx, hxe⟩ := below_issuers hv hch k e s he hs
        exact hb x hx (by rw [hxe]; exact hmem)
    · intro s ta _ hf
      rw [firstAnchor_find] at hf ⊢
      simp only [List.find?_append, hf, Option.some_or]

/-- C146 (chains lost): making the intermediate `i` an anchor as well ends resolution there: the chain from `l` over `i` to the
anchor `t` is no longer returned. -/
theorem C146_lost_refuted : ¬ ∀ (W : World) (r : Resolver) (B : List Anchor) (fuel fuel' : Nat) (cs cs' : List Chain),
    r.chainsNoMeta W fuel = .ok (some cs) →
    ({ r with anchors := r.anchors ++ B } : Resolver).chainsNoMeta W fuel' = .ok (some cs') →
    ∀ c ∈ cs, c ∈ cs' := by
  intro H
  have h2 : ({ Ex.R with anchors := Ex.R.anchors ++ [⟨"i", some [2]⟩] } : Resolver).chainsNoMeta Ex.W 5 =
      .ok (some [[Ex.leafEC, Ex.mk "i" "l" (some [1]) 2, Ex.iEC], Ex.chainJ]) := rfl
  have := H Ex.W Ex.R [⟨"i", some [2]⟩] 5 5 _ _ Ex.run h2 Ex.chainI (by simp)
  rw [List.mem_cons, List.mem_singleton] at this
  rcases this with h | h
  · have := congrArg List.length h
    revert this; decide
  · have : Ex.chainI.map Stmt.iss = Ex.chainJ.map Stmt.iss := by rw [h]
    revert this; decide

/-- C146 (order): the order in which the anchors are configured does not matter if no two have the same id. -/
theorem C146_order (W : World) (r : Resolver) (A' : List Anchor) (hp : r.anchors.Perm A')
    (hn : (r.anchors.map Anchor.id).Nodup) (fuel fuel' : Nat) (cs cs' : List Chain)
    (h : r.chainsNoMeta W fuel = .ok (some cs))
    (h' : ({ r with anchors := A' } : Resolver).chainsNoMeta W fuel' = .ok (some cs')) (c : Chain) :
    c ∈ cs ↔ c ∈ cs' := by
  have hids : ∀ id, id ∈ r.anchors.map Anchor.id ↔ id ∈ A'.map Anchor.id := fun id => (hp.map Anchor.id).mem_iff
  have uniq : ∀ {A : List Anchor} {id : ID} {ta : Anchor}, (A.map Anchor.id).Nodup → ta ∈ A → ta.id = id → FirstAnchor A id ta := by
    intro A id ta hA hm hid
    obtain ⟨pre, post, rfl⟩ := List.append_of_mem hm
    refine ⟨pre, post, rfl, hid, ?_⟩
    intro x hx he
    rw [List.map_append, List.nodup_append] at hA
    exact hA.2.2 x.id (List.mem_map_of_mem hx) ta.id (by simp) (by rw [he, hid])
  have hn' : (A'.map Anchor.id).Nodup := (hp.map Anchor.id).nodup_iff.mp hn
  have hfa : ∀ id ta, FirstAnchor r.anchors id ta ↔ FirstAnchor A' id ta := by
    intro id ta
    constructor
    · rintro ⟨pre, post, he, hid, _⟩
      exact uniq hn' (hp.mem_iff.mp (by rw [he]; simp)) hid
    · rintro ⟨pre, post, he, hid, _⟩
      exact uniq hn (hp.mem_iff.mpr (by rw [he]; simp)) hid
  rw [mem_run_iff h, mem_run_iff h']
  constructor
  · rintro ⟨hst, s0, hs0, hm, hd⟩
    refine ⟨hst, s0, hs0, hm, hd.imp ?_ ?_⟩
    · rintro ⟨h1, h2⟩; exact ⟨h1.imp (hids _).mp id, h2⟩
    · rintro ⟨steps, hv, hch⟩
      exact ⟨steps, validPath_anchors hv
        (fun k e s he hs hmem => (hv.steps_ok k e s he hs).below_not_anchor ((hids _).mpr hmem))
        (fun s ta _ hf => (hfa _ _).mp hf), hch⟩
  · rintro ⟨hst, s0, hs0, hm, hd⟩
    refine ⟨hst, s0, hs0, hm, hd.imp ?_ ?_⟩
    · rintro ⟨h1, h2⟩; exact ⟨h1.imp (hids _).mpr id, h2⟩
    · rintro ⟨steps, hv, hch⟩
      exact ⟨steps, validPath_anchors hv
        (fun k e s he hs hmem => (hv.steps_ok k e s he hs).below_not_anchor ((hids _).mp hmem))
        (fun s ta _ hf => (hfa _ _).mpr hf), hch⟩

/-- the example with the intermediate `j` as second anchor: the chain over `i` is kept, that over `j` ends at `j` now -/
example : ({ Ex.R with anchors := Ex.R.anchors ++ [⟨"j", some [2]⟩] } : Resolver).chainsNoMeta Ex.W 5 =
      .ok (some [Ex.chainI, [Ex.leafEC, Ex.mk "j" "l" (some [1]) 2, Ex.jEC]]) ∧
    (∀ s ∈ Ex.chainI.dropLast.dropLast, s.iss ∉ ([⟨"j", some [2]⟩] : List Anchor).map Anchor.id) :=
  ⟨rfl, by decide⟩

/-- two anchors in the other order -/
example : ([⟨"t", some [3]⟩, ⟨"j", some [2]⟩] : List Anchor).Perm [⟨"j", some [2]⟩, ⟨"t", some [3]⟩] ∧
    (([⟨"t", some [3]⟩, ⟨"j", some [2]⟩] : List Anchor).map Anchor.id).Nodup ∧
    ({ Ex.R with anchors := [⟨"j", some [2]⟩, ⟨"t", some [3]⟩] } : Resolver).chainsNoMeta Ex.W 5 =
      .ok (some [Ex.chainI, [Ex.leafEC, Ex.mk "j" "l" (some [1]) 2, Ex.jEC]]) :=
  ⟨List.Perm.swap _ _ _, by decide, rfl⟩

/-! ## C147: failures and time -/

/-- C147 (failures): with more failing requests and signatures, no chain is returned that would not be returned without
them. -/
theorem C147_failures (W W' : World) (hW : MoreFailures W W') (r : Resolver) (fuel fuel' : Nat) (cs cs' : List Chain)
    (h : r.chainsNoMeta W fuel = .ok (some cs)) (h' : r.chainsNoMeta W' fuel' = .ok (some cs'))
    (c : Chain) (hc : c ∈ cs') : c ∈ cs := by
  obtain ⟨hst, s0, hs0, hm, hd⟩ := (mem_run_iff h' c).mp hc
  have some_of : ∀ {α : Type} {x y : Option α} {a : α}, (x = y ∨ x = none) → x = some a → y = some a := by
    intro α x y a h1 h2
    rcases h1 with h1 | h1
    · rw [← h1]; exact h2
    · rw [h1] at h2; cases h2
  have hsig : ∀ k s, Signed W'.sig k s → Signed W.sig k s := by
    rintro k s ⟨ks, r, h1, h2, h3, h4⟩
    exact ⟨ks, r, h1, h2, h3, hW.sig _ _ h4⟩
  refine (mem_run_iff h c).mpr ⟨hst, s0, some_of (hW.start _) hs0, hm, hd.imp id ?_⟩
  rintro ⟨steps, hv, hch⟩
  refine ⟨steps, ⟨?_, ?_, ?_, ?_⟩, hch⟩
  · intro k e s he hs
    have ok := hv.steps_ok k e s he hs
    exact { ok with
      served := some_of (hW.ec _ _) ok.served
      ec_time := by rw [← hW.clocks.1]; exact ok.ec_time
      fetched := some_of (hW.fetch _ _ _ _) ok.fetched
      sub_time := by rw [← hW.clocks.2]; exact ok.sub_time
      constraints := by rw [← hW.host]; exact ok.constraints }
  · exact fun s hs => hsig _ _ (hv.leaf_signed s hs)
  · exact fun k s n hs hn => ⟨hsig _ _ (hv.mid_signed k s n hs hn).1, hsig _ _ (hv.mid_signed k s n hs hn).2⟩
  · obtain ⟨s, ta, keys, h1, h2, h3, h4, h5⟩ := hv.top
    exact ⟨s, ta, keys, h1, h2, h3, hsig _ _ h4, hsig _ _ h5⟩

/-- C147 (time): at a later time, no chain is returned that was not returned before, if nothing was issued in the future. -/
theorem C147_time (W W' : World) (hW : Later W W') (hf : NotFromFuture W) (r : Resolver) (fuel fuel' : Nat)
    (cs cs' : List Chain) (h : r.chainsNoMeta W fuel = .ok (some cs)) (h' : r.chainsNoMeta W' fuel' = .ok (some cs'))
    (c : Chain) (hc : c ∈ cs') : c ∈ cs := by
  obtain ⟨hst, s0, hs0, hm, hd⟩ := (mem_run_iff h' c).mp hc
  refine (mem_run_iff h c).mpr ⟨hst, s0, by rw [← hW.start]; exact hs0, hm, hd.imp id ?_⟩
  have win : ∀ {n n' : Time} {s : Stmt}, n ≤ n' → s.iat ≤ n → InWindow n' s → InWindow n s := by
    rintro n n' s h1 h2 ⟨_, h3⟩
    exact ⟨.inr h2, h3.imp id (fun h => Int.le_trans h1 h)⟩
  rintro ⟨steps, hv, hch⟩
  refine ⟨steps, ⟨?_, ?_, ?_, ?_⟩, hch⟩
  · intro k e s he hs
    have ok := hv.steps_ok k e s he hs
    have h1 := ok.served
    have h2 := ok.fetched
    rw [hW.ec] at h1
    rw [hW.fetch] at h2
    exact { ok with
      served := h1
      ec_time := win (hW.nowEC _) (hf.1 _ _ _ h1) ok.ec_time
      fetched := h2
      sub_time := win (hW.nowSub _) (hf.2 _ _ _ _ _ h2) ok.sub_time
      constraints := by rw [← hW.host]; exact ok.constraints }
  · rw [← hW.sig]; exact hv.leaf_signed
  · rw [← hW.sig]; exact hv.mid_signed
  · rw [← hW.sig]; exact hv.top

/-- C147 for `ResolveToValidChains`, failures. -/
theorem C147_failures_valid (W W' : World) (hW : MoreFailures W W') (r : Resolver) (fuel fuel' : Nat) (cs cs' : List Chain)
    (h : r.validChains W fuel = .ok (some cs)) (h' : r.validChains W' fuel' = .ok (some cs'))
    (c : Chain) (hc : c ∈ cs') : c ∈ cs := by
  obtain ⟨cs0, h1, h2⟩ := validChains_eq h
  obtain ⟨cs1, h3, h4⟩ := validChains_eq h'
  have hm := (filterValidMetadata_mem _ _ h4 c).mp hc
  exact (filterValidMetadata_mem _ _ h2 c).mpr ⟨C147_failures W W' hW r _ _ _ _ h1 h3 c hm.1, hm.2⟩

/-- C147 for `ResolveToValidChains`, time. -/
theorem C147_time_valid (W W' : World) (hW : Later W W') (hf : NotFromFuture W) (r : Resolver) (fuel fuel' : Nat)
    (cs cs' : List Chain) (h : r.validChains W fuel = .ok (some cs)) (h' : r.validChains W' fuel' = .ok (some cs'))
    (c : Chain) (hc : c ∈ cs') : c ∈ cs := by
  obtain ⟨cs0, h1, h2⟩ := validChains_eq h
  obtain ⟨cs1, h3, h4⟩ := validChains_eq h'
  have hm := (filterValidMetadata_mem _ _ h4 c).mp hc
  exact (filterValidMetadata_mem _ _ h2 c).mpr ⟨C147_time W W' hW hf r _ _ _ _ h1 h3 c hm.1, hm.2⟩

/-- the example federation with `i` down -/
def monoFail : World := { Ex.W with ec := fun _ id => if id = "i" then none else Ex.ecOf id }

example : MoreFailures Ex.W monoFail ∧ Ex.R.chainsNoMeta monoFail 5 = .ok (some [Ex.chainJ]) := by
  refine ⟨⟨fun _ => .inl rfl, ?_, fun _ _ _ _ => .inl rfl, fun _ _ h => h, ⟨rfl, rfl⟩, rfl⟩, rfl⟩
  intro p id
  by_cases h : id = "i"
  · exact .inr (by simp [monoFail, h])
  · exact .inl (by simp [monoFail, h, Ex.W])

/-- the example federation when everything has expired -/
def monoLate : World := { Ex.W with nowEC := fun _ => 101, nowSub := fun _ => 101 }

example : Later Ex.W monoLate ∧ NotFromFuture Ex.W ∧ Ex.R.chainsNoMeta monoLate 5 = .ok (some []) := by
  refine ⟨⟨rfl, rfl, rfl, rfl, rfl, fun _ => (by decide : (50 : Int) ≤ 101), fun _ => (by decide : (50 : Int) ≤ 101)⟩, ⟨?_, ?_⟩, rfl⟩
  · intro p id s h
    have h : Ex.ecOf id = some s := h
    unfold Ex.ecOf at h
    split at h <;> first | (cases h; exact (by decide : (0 : Int) ≤ 50)) | cases h
  · intro p ep sub iss s h
    have h : Ex.fetchOf ep sub = some s := h
    unfold Ex.fetchOf at h
    split at h <;> first | (cases h; exact (by decide : (0 : Int) ≤ 50)) | cases h

/-! ## C148: fewer entity types -/

theorem contains_iff (ts : List String) (x : String) : ts.contains x = decide (x ∈ ts) := by
  by_cases h : x ∈ ts <;> simp [h]

/-- `restrict` does what `ReducedTo` says. -/
theorem restrict_reduced (m : Metadata) (ts : List String) : ReducedTo ts m (m.restrict ts) := by
  refine ⟨fun t => ?_, fun k => ?_⟩
  · simp only [Metadata.restrict, contains_iff, decide_eq_true_eq]
  · unfold Metadata.restrict
    cases hx : m.extra with
    | none => simp [AMap.get]
    | some x =>
      simp only [Option.map_some, Option.getD_some]
      rw [get_filter x (fun k => ts.contains k) k]
      simp only [contains_iff, decide_eq_true_eq]

theorem entityTypes_restrict (m : Metadata) (ts : List String) : ∀ x ∈ (m.restrict ts).entityTypes, x ∈ m.entityTypes := by
  intro x hx
  simp only [Metadata.entityTypes, List.mem_map, List.mem_filter] at hx ⊢
  obtain ⟨t, ⟨h1, h2⟩, h3⟩ := hx
  refine ⟨t, ⟨h1, ?_⟩, h3⟩
  simp only [Metadata.restrict] at h2
  split at h2
  · exact h2
  · simp at h2

theorem restrict_restrict (m : Metadata) (ts us : List String) (h : ∀ x ∈ us, x ∈ ts) :
    (m.restrict ts).restrict us = m.restrict us := by
  unfold Metadata.restrict
  congr 1
  · funext t
    simp only [contains_iff, decide_eq_true_eq]
    by_cases h1 : t.tag ∈ us
    · simp [h1, h _ h1]
    · simp [h1]
  · cases m.extra with
    | none => rfl
    | some x =>
      simp only [Option.map_some, List.filter_filter]
      congr 1
      apply List.filter_congr
      intro kv _
      simp only [contains_iff]
      by_cases h1 : kv.1 ∈ us
      · simp [h1, h _ h1]
      · simp [h1]

/-- Lemma for C148: the leaf of the restricted run is the leaf of the wider run, reduced. -/
theorem leaf_again (s0 : Stmt) (ts us : List String) (hu : us ≠ []) (h : ts = [] ∨ ∀ x ∈ us, x ∈ ts) :
    restrictTypes us s0 = { restrictTypes ts s0 with metadata := (restrictTypes ts s0).metadata.map (·.restrict us) } := by
  have hue : us.isEmpty = false := by cases us <;> simp_all
  unfold restrictTypes
  rw [if_neg (by simp [hue])]
  by_cases ht : ts = []
  · simp [ht]
  · rw [if_neg (by simpa using ht)]
    have h := h.resolve_left ht
    cases hm : s0.metadata with
    | none => simp
    | some m => simp [restrict_restrict m ts us h]

theorem validPath_reduced {W : World} {A : List Anchor} {leaf leaf' : Stmt} {steps : List Step}
    (hl : leaf' = { leaf with metadata := leaf'.metadata }) (ht : ∀ x ∈ leaf'.entityTypes, x ∈ leaf.entityTypes)
    (hv : ValidPath W A leaf steps) : ValidPath W A leaf' steps := by
  have e1 : leaf'.iss = leaf.iss := by rw [hl]
  have e2 : leaf'.sub = leaf.sub := by rw [hl]
  have e3 : leaf'.hints = leaf.hints := by rw [hl]
  have e4 : leaf'.raw = leaf.raw := by rw [hl]
  have hids : ∀ k, idsBelow leaf' steps k = idsBelow leaf steps k := by intro k; simp [idsBelow, e2]
  have hty : ∀ k, ∀ x ∈ typesBelow leaf' steps k, x ∈ typesBelow leaf steps k := by
    intro k x hx
    simp only [typesBelow, List.mem_append] at hx ⊢
    exact hx.imp (ht x) id
  refine ⟨?_, ?_, hv.mid_signed, hv.top⟩
  · intro k e s he hs
    have main : ∀ e0, e.iss = e0.iss → e.hints = e0.hints → StepOk W A leaf steps k e0 s → StepOk W A leaf' steps k e s := by
      intro e0 h1 h2 ok
      exact { ok with
        below_not_anchor := by rw [h1]; exact ok.below_not_anchor
        hinted := by rw [h2]; exact ok.hinted
        not_visited := by rw [hids]; exact ok.not_visited
        fetched := by rw [h1]; exact ok.fetched
        sub_sub := by rw [h1]; exact ok.sub_sub
        constraints := by
          intro c hc
          obtain ⟨h3, h4, h5⟩ := ok.constraints c hc
          exact ⟨h3, by rw [hids]; exact h4, fun ty hty' => h5 ty (hty k ty hty')⟩ }
    cases k with
    | zero =>
      have h0 : leaf' = e := by simpa [entities] using he
      subst h0
      exact main leaf e1 e3 (hv.steps_ok 0 leaf s (by simp [entities]) hs)
    | succ j =>
      exact main e rfl rfl (hv.steps_ok (j+1) e s (by simpa [entities] using he) hs)
  · intro s hs
    obtain ⟨ks, r, h1, h2, h3, h4⟩ := hv.leaf_signed s hs
    exact ⟨ks, r, h1, h2, by rw [e4]; exact h3, h4⟩

/-- C148 with the leaf spelt out. -/
theorem fewer_types_leaf (W : World) (r : Resolver) (us : List String) (hu : us ≠ [])
    (ht : r.types = [] ∨ ∀ x ∈ us, x ∈ r.types) (fuel fuel' : Nat) (cs cs' : List Chain)
    (h : r.chainsNoMeta W fuel = .ok (some cs))
    (h' : ({ r with types := us } : Resolver).chainsNoMeta W fuel' = .ok (some cs'))
    (leaf : Stmt) (rest : Chain) (hc : leaf :: rest ∈ cs) :
    ∃ m, leaf.metadata = some m ∧ { leaf with metadata := some (m.restrict us) } :: rest ∈ cs' := by
  obtain ⟨hst, s0, hs0, hm, hd⟩ := (mem_run_iff h _).mp hc
  have hleaf : leaf = restrictTypes r.types s0 := by
    rcases hd with ⟨_, h1⟩ | ⟨steps, _, st, _, h1⟩
    · exact (List.cons.inj h1).1
    · exact (List.cons.inj h1).1
  have hl := leaf_again s0 r.types us hu ht
  rw [← hleaf] at hl
  have hms : ∃ m, leaf.metadata = some m := by
    rw [hleaf]
    unfold restrictTypes
    obtain ⟨m, hm⟩ := Option.isSome_iff_exists.mp hm
    split
    · exact ⟨m, hm⟩
    · exact ⟨m.restrict r.types, by simp [hm]⟩
  obtain ⟨m, hmm⟩ := hms
  rw [hmm, Option.map_some] at hl
  refine ⟨m, hmm, ?_⟩
  refine (mem_run_iff h' _).mpr ⟨hst, s0, hs0, hm, ?_⟩
  show _ ∨ _
  rw [show ({ r with types := us } : Resolver).types = us from rfl, hl]
  rcases hd with ⟨h1, h2⟩ | ⟨steps, hv, st, hlast, h1⟩
  · exact .inl ⟨h1, by rw [(List.cons.inj h2).2]⟩
  · rw [← hleaf] at hv h1
    refine .inr ⟨steps, validPath_reduced rfl ?_ hv, st, hlast, by rw [(List.cons.inj h1).2]⟩
    intro x hx
    simp only [Stmt.entityTypes, hmm] at hx ⊢
    exact entityTypes_restrict m us x hx

/-- C148 (chains): asking for fewer entity types loses no chain: for every chain returned for a wider choice of types, the same
chain with the leaf's metadata reduced to the requested types is returned. -/
theorem C148_fewer_types (W : World) (r : Resolver) (us : List String) (hu : us ≠ [])
    (ht : r.types = [] ∨ ∀ x ∈ us, x ∈ r.types) (fuel fuel' : Nat) (cs cs' : List Chain)
    (h : r.chainsNoMeta W fuel = .ok (some cs))
    (h' : ({ r with types := us } : Resolver).chainsNoMeta W fuel' = .ok (some cs'))
    (leaf : Stmt) (rest : Chain) (hc : leaf :: rest ∈ cs) :
    ∃ leaf', LeafReducedTo us leaf leaf' ∧ leaf' :: rest ∈ cs' := by
  obtain ⟨m, hm, hc'⟩ := fewer_types_leaf W r us hu ht fuel fuel' cs cs' h h' leaf rest hc
  exact ⟨_, ⟨rfl, m, _, hm, rfl, restrict_reduced m us⟩, hc'⟩

theorem applyKnown_reduced {m m' : Metadata} {p : Policies} {us : List String}
    (hm : ∀ t, m'.known t = if t.tag ∈ us then m.known t else none) :
    ∀ (ts : List EType) (r : EType → Option EntityMeta), applyKnown m p ts = .ok r →
      ∃ r', applyKnown m' p ts = .ok r' ∧ ∀ t, r' t = if t.tag ∈ us then r t else none := by
  intro ts
  induction ts with
  | nil =>
    intro r h
    simp only [applyKnown, Except.ok.injEq] at h
    subst h
    exact ⟨_, rfl, fun t => by simp⟩
  | cons a ts ih =>
    intro r h
    simp only [applyKnown] at h
    by_cases ha : a.tag ∈ us
    · cases hk : m.known a with
      | none =>
        rw [hk] at h
        simp only [bind, Except.bind] at h
        split at h
        · cases h
        · rename_i r0 hr0
          obtain ⟨r', h1, h2⟩ := ih r0 hr0
          simp only [Except.ok.injEq] at h
          subst h
          refine ⟨fun u => if u = a then none else r' u, ?_, ?_⟩
          · simp only [applyKnown, hm a, if_pos ha, hk, bind, Except.bind, h1]
          · intro t; by_cases hta : t = a <;> simp [hta, h2]
      | some em =>
        rw [hk] at h
        simp only [bind, Except.bind] at h
        split at h
        · cases h
        · rename_i em' hem
          split at h
          · cases h
          · rename_i r0 hr0
            obtain ⟨r', h1, h2⟩ := ih r0 hr0
            simp only [Except.ok.injEq] at h
            subst h
            refine ⟨fun u => if u = a then some em' else r' u, ?_, ?_⟩
            · simp only [applyKnown, hm a, if_pos ha, hk, bind, Except.bind, hem, h1]
            · intro t
              by_cases hta : t = a
              · subst hta; simp [ha]
              · simp [hta, h2]
    · have hk' : m'.known a = none := by rw [hm a, if_neg ha]
      have : ∃ r0, applyKnown m p ts = .ok r0 ∧ ∀ t, t ≠ a → r t = r0 t := by
        cases hk : m.known a with
        | none =>
          rw [hk] at h
          simp only [bind, Except.bind] at h
          split at h
          · cases h
          · rename_i r0 hr0
            simp only [Except.ok.injEq] at h
            subst h
            exact ⟨r0, hr0, fun t ht => by simp [ht]⟩
        | some em =>
          rw [hk] at h
          simp only [bind, Except.bind] at h
          split at h
          · cases h
          · split at h
            · cases h
            · rename_i r0 hr0
              simp only [Except.ok.injEq] at h
              subst h
              exact ⟨r0, hr0, fun t ht => by simp [ht]⟩
      obtain ⟨r0, hr0, hr⟩ := this
      obtain ⟨r', h1, h2⟩ := ih r0 hr0
      refine ⟨fun u => if u = a then none else r' u, ?_, ?_⟩
      · simp only [applyKnown, hk', bind, Except.bind, h1]
      · intro t
        by_cases hta : t = a
        · subst hta; simp [ha]
        · simp [hta, h2, hr t hta]

theorem applyExtra_same {p : AMap (Option Policy)} : ∀ {x r : AMap Val}, applyExtra p x = .ok r → r = x := by
  intro x
  induction x with
  | nil => intro r h; simp only [applyExtra, Except.ok.injEq] at h; exact h.symm
  | cons kv x ih =>
    intro r h
    simp only [applyExtra] at h
    split at h
    · cases h
    · simp only [bind, Except.bind] at h
      split at h
      · cases h
      · rename_i r0 hr0
        simp only [Except.ok.injEq] at h
        rw [← h, ih hr0]

theorem applyExtra_filter {p : AMap (Option Policy)} (f : String → Bool) : ∀ {x r : AMap Val}, applyExtra p x = .ok r →
    applyExtra p (x.filter (fun kv => f kv.1)) = .ok (x.filter (fun kv => f kv.1)) := by
  intro x
  induction x with
  | nil => intro r _; rfl
  | cons kv x ih =>
    intro r h
    simp only [applyExtra] at h
    split at h
    · cases h
    · rename_i hp
      simp only [bind, Except.bind] at h
      split at h
      · cases h
      · rename_i r0 hr0
        have := ih hr0
        by_cases hf : f kv.1 = true
        · rw [List.filter_cons_of_pos (by simpa using hf)]
          simp only [applyExtra]
          simp only [bind, Except.bind, this]
        · rw [List.filter_cons_of_neg (by simpa using hf)]
          exact this

theorem applyPolicy_reduced (m : Metadata) (us : List String) (p : Policies) (r : Metadata)
    (h : m.applyPolicy (some p) = .ok r) : ∃ r', (m.restrict us).applyPolicy (some p) = .ok r' ∧ ReducedTo us r r' := by
  simp only [Metadata.applyPolicy, bind, Except.bind] at h
  split at h
  · cases h
  · rename_i k hk
    split at h
    · cases h
    · rename_i x hx
      simp only [Except.ok.injEq] at h
      obtain ⟨k', h1, h2⟩ := applyKnown_reduced (restrict_reduced m us).1 _ _ hk
      have hx0 := applyExtra_same hx
      have hxr : (m.restrict us).extra.getD [] = (m.extra.getD []).filter (fun kv => us.contains kv.1) := by
        unfold Metadata.restrict
        cases m.extra <;> simp
      have h3 := applyExtra_filter (fun k => us.contains k) hx
      rw [← hxr] at h3
      refine ⟨_, by simp only [Metadata.applyPolicy, bind, Except.bind, h1, h3]; rfl, ?_, ?_⟩
      · subst h; exact h2
      · have emp : ∀ y : AMap Val, ((if y.isEmpty then none else some y).getD []) = y := by
          intro y; cases y <;> simp
        subst h
        intro key
        simp only [emp, hx0]
        exact (restrict_reduced m us).2 key

theorem metadata_reduced (leaf : Stmt) (m : Metadata) (rest : Chain) (us : List String) (hm : leaf.metadata = some m)
    (r : Metadata) (h : chainMetadata (leaf :: rest) = .ok (some r)) :
    ∃ r', chainMetadata ({ leaf with metadata := some (m.restrict us) } :: rest) = .ok (some r') ∧ ReducedTo us r r' := by
  cases rest with
  | nil =>
    simp only [chainMetadata, Except.ok.injEq] at h ⊢
    rw [hm] at h; cases h
    exact ⟨_, rfl, restrict_reduced m us⟩
  | cons b rest =>
    simp only [chainMetadata] at h ⊢
    split at h
    · cases h
    · rename_i hcr
      rw [if_neg (by simpa [critOk] using hcr)]
      simp only [bind, Except.bind, List.map_cons] at h ⊢
      split at h
      · cases h
      · rename_i p hp
        split at h
        · cases h
        · rename_i q hq
          simp only [Except.ok.injEq, Option.some.injEq] at h
          subst h
          rw [hm, Option.getD_some] at hq
          obtain ⟨r', h1, h2⟩ := applyPolicy_reduced m us p _ hq
          exact ⟨r', by simp only [Option.getD_some, h1], h2⟩

/-- C148 (metadata): the metadata resolved from a chain for fewer types is the metadata resolved for all, reduced to these
types: what other entity types the leaf has does not influence what is resolved for the requested ones. -/
theorem C148_same_metadata (W : World) (r : Resolver) (us : List String) (hu : us ≠ [])
    (ht : r.types = [] ∨ ∀ x ∈ us, x ∈ r.types) (fuel fuel' : Nat) (cs cs' : List Chain)
    (h : r.validChains W fuel = .ok (some cs))
    (h' : ({ r with types := us } : Resolver).validChains W fuel' = .ok (some cs'))
    (leaf : Stmt) (rest : Chain) (hc : leaf :: rest ∈ cs) :
    ∃ leaf' m m', LeafReducedTo us leaf leaf' ∧ leaf' :: rest ∈ cs' ∧
      chainMetadata (leaf :: rest) = .ok (some m) ∧ chainMetadata (leaf' :: rest) = .ok (some m') ∧ ReducedTo us m m' := by
  obtain ⟨cs0, h1, h2⟩ := validChains_eq h
  obtain ⟨cs1, h3, h4⟩ := validChains_eq h'
  obtain ⟨hc0, o, ho⟩ := (filterValidMetadata_mem _ _ h2 _).mp hc
  obtain ⟨m, hm, hc'⟩ := fewer_types_leaf W r us hu ht _ _ _ _ h1 h3 leaf rest hc0
  have hsome : ∃ x, o = some x := by
    cases rest with
    | nil =>
      simp only [chainMetadata, Except.ok.injEq] at ho
      exact ⟨m, by rw [← ho, hm]⟩
    | cons b rest =>
      simp only [chainMetadata] at ho
      split at ho
      · cases ho
      · simp only [bind, Except.bind] at ho
        split at ho
        · cases ho
        · split at ho
          · cases ho
          · simp only [Except.ok.injEq] at ho
            exact ⟨_, ho.symm⟩
  obtain ⟨x, rfl⟩ := hsome
  obtain ⟨x', hx', hred⟩ := metadata_reduced leaf m rest us hm x ho
  exact ⟨_, x, x', ⟨rfl, m, _, hm, rfl, restrict_reduced m us⟩,
    (filterValidMetadata_mem _ _ h4 _).mpr ⟨hc', _, hx'⟩, ho, hx', hred⟩

/-- a federation whose leaf is a provider and a relying party, below an anchor that allows only relying parties -/
def monoTwoTypes : World :=
  let m : Metadata := ⟨fun t => match t with
    | .op => some ⟨[⟨"Issuer", "issuer", .str, .str "l"⟩], ["Issuer"], []⟩
    | t => Ex.rpMeta.known t, Ex.rpMeta.extra⟩
  { Ex.W with start := fun id => if id = "l" then some { Ex.leafEC with metadata := some m } else Ex.ecOf id }

/-- asking for all types finds nothing (the anchor allows no providers), asking for the relying party finds both chains -/
example : Ex.R.validChains monoTwoTypes 5 = .ok (some []) ∧
    (match ({ Ex.R with types := ["openid_relying_party"] } : Resolver).validChains monoTwoTypes 5 with
      | .ok (some cs) => cs.length | _ => 0) = 2 := ⟨rfl, rfl⟩

/-- both runs find the two chains, the second with the unknown entity type removed from the leaf -/
example : Ex.R.validChains Ex.W 5 = .ok (some [Ex.chainI, Ex.chainJ]) ∧
    (match ({ Ex.R with types := ["openid_relying_party"] } : Resolver).validChains Ex.W 5 with
      | .ok (some (c :: _)) => (match chainMetadata c with | .ok (some m) => (m.known .rp).isSome && m.extra.isNone | _ => false)
      | _ => false) = true ∧
    (match chainMetadata Ex.chainI with | .ok (some m) => m.extra.isSome | _ => false) = true := ⟨rfl, rfl, rfl⟩

end Oidfed
