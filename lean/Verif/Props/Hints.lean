import Verif.Spec.Hints
import Verif.Lemmas.ChainsExact
import Verif.Props.Narrow
/-!
# C162: authority hints
-/

namespace Oidfed
open Spec

theorem entities_shift {x y : Stmt} {a a' : Step} {rest : List Step} (h : a'.ec = a.ec) : ∀ k e, (entities y (a' :: rest))[k+1]? = some e → (entities x (a :: rest))[k+1]? = some e := by
  intro k e he
  unfold entities at he ⊢
  rw [List.getElem?_cons_succ, List.map_cons] at he ⊢
  rw [← h]
  exact he

theorem take_ec {a a' : Step} {rest : List Step} {α : Type} (f : Stmt → α) (h : a'.ec = a.ec) : ∀ k, ((a' :: rest).take k).map (fun s => f s.ec) = ((a :: rest).take k).map (fun s => f s.ec) := by
  intro k
  cases k with
  | zero => rfl
  | succ k => simp [h]

/-- A path from `x` is one from `y`, with another position of the first hint. -/
theorem path_other_hints {W : World} (hT : Timeless W) {A : List Anchor} {x y : Stmt} (hs : SameButHints W.sig x y) {a : Step} {rest : List Step} {i : Nat}
    (hi : y.hints[i]? = some a.ec.iss) (hv : ValidPath W A x (a :: rest)) : ValidPath W A y ({ a with hint := i } :: rest) := by
  have hids : ∀ k, idsBelow y ({ a with hint := i } :: rest) k = idsBelow x (a :: rest) k := by
    intro k
    unfold idsBelow
    rw [hs.sub]
    exact congrArg (x.sub :: ·) (take_ec (a := a) (a' := { a with hint := i }) (rest := rest) Stmt.iss rfl k)
  have hty : ∀ k, typesBelow y ({ a with hint := i } :: rest) k = typesBelow x (a :: rest) k := by
    intro k
    have e : y.entityTypes = x.entityTypes := by unfold Stmt.entityTypes; rw [hs.metadata]
    have t := take_ec (a := a) (a' := { a with hint := i }) (rest := rest) Stmt.entityTypes rfl k
    unfold typesBelow
    simp only [e, t]
  have move : ∀ (k : Nat) (e e' : Stmt) (s s' : Step), s'.ec = s.ec → s'.sub = s.sub → e'.iss = e.iss → e'.hints[s'.hint]? = some s.ec.iss →
      StepOk W A x (a :: rest) k e s → StepOk W A y ({ a with hint := i } :: rest) k e' s' := by
    intro k e e' s s' h1 h2 h3 h4 ok
    have hp := ok.served
    have hf := ok.fetched
    have ht := ok.ec_time
    have ht2 := ok.sub_time
    rw [hT.ec] at hp
    rw [hT.fetch] at hf
    rw [hT.nowEC] at ht
    rw [hT.nowSub] at ht2
    constructor
    · rw [h3]; exact ok.below_not_anchor
    · rw [h1]; exact h4
    · rw [h1, hids]; exact ok.not_visited
    · rw [hT.ec, h1]; exact hp
    · rw [h1]; exact ok.self_issued
    · rw [hT.nowEC, h1]; exact ht
    · rw [h1]; exact ok.has_fetch
    · rw [hT.fetch, h1, h2, h3]; exact hf
    · rw [h1, h2]; exact ok.sub_iss
    · rw [h2, h3]; exact ok.sub_sub
    · rw [hT.nowSub, h2]; exact ht2
    · rw [hids, hty, h2]; exact ok.constraints
  constructor
  · intro k e s he hk
    cases k with
    | zero =>
      cases he
      cases hk
      exact move 0 x y a _ rfl rfl hs.iss hi (hv.steps_ok 0 x a rfl rfl)
    | succ k =>
      have he' := entities_shift (x := x) (a := a) rfl k e he
      have ok := hv.steps_ok (k+1) e s he' hk
      exact move (k+1) e e s s rfl rfl rfl ok.hinted ok
  · intro s hk
    cases hk
    exact (hs.signed _).mp (hv.leaf_signed a rfl)
  · intro k s next hk hn
    cases k with
    | zero =>
      cases hk
      exact hv.mid_signed 0 a next rfl hn
    | succ k => exact hv.mid_signed (k+1) s next hk hn
  · obtain ⟨s, ta, keys, hl, h1, h2, h3, h4⟩ := hv.top
    cases rest with
    | nil => cases hl; exact ⟨_, ta, keys, rfl, h1, h2, h3, h4⟩
    | cons b rest => exact ⟨s, ta, keys, by simpa using hl, h1, h2, h3, h4⟩

theorem restrict_same {sig : SigOracle} {x y : Stmt} (h : SameButHints sig x y) (types : List String) : SameButHints sig (restrictTypes types x) (restrictTypes types y) := by
  unfold restrictTypes
  split
  · exact h
  · exact ⟨h.iss, h.sub, by show y.metadata.map _ = x.metadata.map _; rw [h.metadata], h.policy, h.policyCrit, h.signed⟩

theorem restrict_hints (types : List String) (x : Stmt) : (restrictTypes types x).hints = x.hints := by unfold restrictTypes; split <;> rfl

theorem moves {W : World} (hT : Timeless W) {A : List Anchor} {start : ID} {types : List String} {x y : Stmt} (hs : SameButHints W.sig x y)
    {fuel fuel' : Nat} {cs cs' : List Chain} (hx : W.start start = some x)
    (h : (⟨A, start, types⟩ : Resolver).chainsNoMeta W fuel = .ok (some cs)) (h' : (⟨A, start, types⟩ : Resolver).chainsNoMeta { W with start := fun _ => some y } fuel' = .ok (some cs'))
    {s : Stmt} {up : Chain} (hi : s.iss ∈ y.hints) (hc : restrictTypes types x :: s :: up ∈ cs) : restrictTypes types y :: s :: up ∈ cs' := by
  obtain ⟨hne, s0, hs0, hm, hd⟩ := (mem_run_iff h _).mp hc
  have hs0' : W.start start = some s0 := hs0
  rw [hx] at hs0'
  cases hs0'
  rcases hd with ⟨_, h1⟩ | ⟨steps, hv, last, hlast, he⟩
  · cases h1
  · refine (mem_run_iff h' _).mpr ⟨hne, y, rfl, by rw [hs.metadata]; exact hm, .inr ?_⟩
    cases steps with
    | nil => cases hlast
    | cons a rest =>
      have hv : ValidPath W A (restrictTypes types x) (a :: rest) := hv
      have he : restrictTypes types x :: s :: up = restrictTypes types x :: ((a :: rest).map Step.sub ++ [last.ec]) := he
      have hsa : s = a.sub ∧ up = rest.map Step.sub ++ [last.ec] := by
        have := (List.cons.inj he).2
        rw [List.map_cons, List.cons_append] at this
        exact List.cons.inj this
      have ok := hv.steps_ok 0 _ a rfl rfl
      have hi' : a.ec.iss ∈ (restrictTypes types y).hints := by
        rw [restrict_hints, ← ok.sub_iss, ← hsa.1]
        exact hi
      obtain ⟨i, hi'⟩ := List.getElem?_of_mem hi'
      have hv' : ValidPath { W with start := fun _ => some y } A (restrictTypes types y) ({ a with hint := i } :: rest) := by
        have := path_other_hints hT (restrict_same hs types) hi' hv
        exact ⟨fun k e s he hk => by
          have ok := this.steps_ok k e s he hk
          exact ⟨ok.below_not_anchor, ok.hinted, ok.not_visited, ok.served, ok.self_issued, ok.ec_time, ok.has_fetch, ok.fetched, ok.sub_iss, ok.sub_sub, ok.sub_time, ok.constraints⟩,
          this.leaf_signed, this.mid_signed, this.top⟩
      refine ⟨{ a with hint := i } :: rest, hv', ?_⟩
      cases rest with
      | nil =>
        cases hlast
        exact ⟨{ a with hint := i }, rfl, by rw [hsa.1, hsa.2]; rfl⟩
      | cons b rest => exact ⟨last, by simpa using hlast, by rw [hsa.1, hsa.2]; rfl⟩

/-- **C162**: if the authority hints of an entity are changed, the chains over authorities hinted at before and after remain as they are. -/
theorem C162_hints (W : World) (hT : Timeless W) (A : List Anchor) (start : ID) (types : List String) (x y : Stmt) (hs : SameButHints W.sig x y) (hx : W.start start = some x)
    (fuel fuel' : Nat) (cs cs' : List Chain) (h : (⟨A, start, types⟩ : Resolver).chainsNoMeta W fuel = .ok (some cs))
    (h' : (⟨A, start, types⟩ : Resolver).chainsNoMeta { W with start := fun _ => some y } fuel' = .ok (some cs'))
    (s : Stmt) (up : Chain) (h1 : s.iss ∈ x.hints) (h2 : s.iss ∈ y.hints) : restrictTypes types x :: s :: up ∈ cs ↔ restrictTypes types y :: s :: up ∈ cs' := by
  constructor
  · exact moves hT hs hx h h' h2
  · intro hc
    have hs' : SameButHints W.sig y x := ⟨hs.iss.symm, hs.sub.symm, hs.metadata.symm, hs.policy.symm, hs.policyCrit.symm, fun ks => (hs.signed ks).symm⟩
    have hT' : Timeless { W with start := fun _ => some y } := ⟨hT.ec, hT.fetch, hT.nowEC, hT.nowSub⟩
    have h3 : (⟨A, start, types⟩ : Resolver).chainsNoMeta { W with start := fun _ => some x } fuel = .ok (some cs) := by
      rw [← h]
      unfold Resolver.chainsNoMeta Resolver.resolveTree
      simp only [hx]
      have : ∀ (f : Nat) (p : Pos) (t : Pending), resolve { W with start := fun _ => some x } A f p t = resolve W A f p t := by
        intro f
        induction f with
        | zero => intro p t; rfl
        | succ f ih =>
          intro p t
          have key : ∀ (l : List ID) (i : Nat) (e : Time), resolveHints { W with start := fun _ => some x } (resolve { W with start := fun _ => some x } A f) t p i l e = resolveHints W (resolve W A f) t p i l e := by
            intro l
            induction l with
            | nil => intro i e; rfl
            | cons a l ih2 =>
              intro i e
              unfold resolveHints
              have : hintStmts { W with start := fun _ => some x } t (p ++ [i]) a = hintStmts W t (p ++ [i]) a := rfl
              rw [this]
              cases hintStmts W t (p ++ [i]) a with
              | none => simp only [ih2]
              | some as => simp only [ih2, ih]
          unfold resolve
          simp only [key]
      simp only [this]
    exact moves (W := { W with start := fun _ => some y }) hT' hs' rfl h' h3 h1 hc

/-- **C162** (order): the order of the hints, and how often they are repeated, is of no importance for which chains there are. -/
theorem C162_order (W : World) (hT : Timeless W) (A : List Anchor) (start : ID) (types : List String) (x y : Stmt) (hs : SameButHints W.sig x y) (hx : W.start start = some x)
    (fuel fuel' : Nat) (cs cs' : List Chain) (h : (⟨A, start, types⟩ : Resolver).chainsNoMeta W fuel = .ok (some cs))
    (h' : (⟨A, start, types⟩ : Resolver).chainsNoMeta { W with start := fun _ => some y } fuel' = .ok (some cs'))
    (hh : ∀ id, id ∈ x.hints ↔ id ∈ y.hints) (s : Stmt) (up : Chain) : restrictTypes types x :: s :: up ∈ cs ↔ restrictTypes types y :: s :: up ∈ cs' := by
  have first : ∀ (W : World) (z : Stmt) (fuel : Nat) (cs : List Chain), W.start start = some z → (⟨A, start, types⟩ : Resolver).chainsNoMeta W fuel = .ok (some cs) →
      restrictTypes types z :: s :: up ∈ cs → s.iss ∈ z.hints := by
    intro W z fuel cs hz h hc
    obtain ⟨_, s0, hs0, _, hd⟩ := (mem_run_iff h _).mp hc
    have hs0' : W.start start = some s0 := hs0
    rw [hz] at hs0'
    cases hs0'
    rcases hd with ⟨_, h1⟩ | ⟨steps, hv, last, hlast, he⟩
    · cases h1
    · cases steps with
      | nil => cases hlast
      | cons a rest =>
        have hv : ValidPath W A (restrictTypes types z) (a :: rest) := hv
        have hsa : s = a.sub := by
          have := (List.cons.inj he).2
          rw [List.map_cons, List.cons_append] at this
          exact (List.cons.inj this).1
        have ok := hv.steps_ok 0 _ a rfl rfl
        rw [hsa, ok.sub_iss, ← restrict_hints types z]
        exact List.mem_of_getElem? ok.hinted
  constructor
  · intro hc
    have := first W x fuel cs hx h hc
    exact (C162_hints W hT A start types x y hs hx fuel fuel' cs cs' h h' s up this ((hh _).mp this)).mp hc
  · intro hc
    have := first _ y fuel' cs' rfl h' hc
    exact (C162_hints W hT A start types x y hs hx fuel fuel' cs cs' h h' s up ((hh _).mpr this) this).mpr hc

theorem metadata_same {sig : SigOracle} {x y : Stmt} (h : SameButHints sig x y) (s : Stmt) (up : Chain) : chainMetadata (y :: s :: up) = chainMetadata (x :: s :: up) := by
  unfold chainMetadata critOk
  simp only [List.all_cons, List.map_cons, h.policy, h.policyCrit, h.metadata]

/-- **C162** (with metadata): the same for the chains whose metadata can be resolved, and their metadata is the same. -/
theorem C162_valid (W : World) (hT : Timeless W) (A : List Anchor) (start : ID) (types : List String) (x y : Stmt) (hs : SameButHints W.sig x y) (hx : W.start start = some x)
    (fuel fuel' : Nat) (cs cs' : List Chain) (h : (⟨A, start, types⟩ : Resolver).validChains W fuel = .ok (some cs))
    (h' : (⟨A, start, types⟩ : Resolver).validChains { W with start := fun _ => some y } fuel' = .ok (some cs'))
    (s : Stmt) (up : Chain) (hb : s.iss ∈ x.hints ∧ s.iss ∈ y.hints ∨ ∀ id, id ∈ x.hints ↔ id ∈ y.hints) :
    (restrictTypes types x :: s :: up ∈ cs ↔ restrictTypes types y :: s :: up ∈ cs') ∧
      chainMetadata (restrictTypes types x :: s :: up) = chainMetadata (restrictTypes types y :: s :: up) := by
  obtain ⟨c0, h0, hf⟩ := validChains_eq h
  obtain ⟨c0', h0', hf'⟩ := validChains_eq h'
  have e := metadata_same (restrict_same hs types) s up
  refine ⟨?_, e.symm⟩
  rw [filterValidMetadata_mem _ _ hf, filterValidMetadata_mem _ _ hf', e]
  rcases hb with ⟨h1, h2⟩ | hh
  · rw [C162_hints W hT A start types x y hs hx fuel fuel' c0 c0' h0 h0' s up h1 h2]
  · rw [C162_order W hT A start types x y hs hx fuel fuel' c0 c0' h0 h0' hh s up]

/-- The leaf of the example federation hints at `i` and `j`; with the hints exchanged there are the same two chains in the other order. -/
example : Timeless Ex.W ∧ SameButHints Ex.W.sig Ex.leafEC { Ex.leafEC with hints := ["j", "i"] } ∧ Ex.W.start "l" = some Ex.leafEC ∧
    (∃ a b, Ex.R.chainsNoMeta Ex.W 5 = .ok (some [Ex.leafEC :: a, Ex.leafEC :: b]) ∧
      Ex.R.chainsNoMeta { Ex.W with start := fun _ => some { Ex.leafEC with hints := ["j", "i"] } } 5 =
        .ok (some [{ Ex.leafEC with hints := ["j", "i"] } :: b, { Ex.leafEC with hints := ["j", "i"] } :: a])) :=
  ⟨⟨fun _ => rfl, fun _ => rfl, fun _ => rfl, fun _ => rfl⟩, ⟨rfl, rfl, rfl, rfl, rfl, fun _ => Iff.rfl⟩, rfl, _, _, rfl, rfl⟩

/-- With metadata, too, both configurations of the leaf have chains. -/
example : ∃ a b, Ex.R.validChains Ex.W 5 = .ok (some [Ex.leafEC :: a, Ex.leafEC :: b]) ∧
      Ex.R.validChains { Ex.W with start := fun _ => some { Ex.leafEC with hints := ["j", "i"] } } 5 =
        .ok (some [{ Ex.leafEC with hints := ["j", "i"] } :: b, { Ex.leafEC with hints := ["j", "i"] } :: a]) := ⟨_, _, rfl, rfl⟩

end Oidfed
