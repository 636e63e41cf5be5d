import Verif.Spec.Superiors
import Verif.Props.Endpoints
/-!
# C160: only superiors have influence
-/

namespace Oidfed
open Spec

section
variable {W : World} {G : Pos → ID → Option Stmt} {F : Pos → String → ID → ID → Option Stmt} {A : List Anchor} {s0 : Stmt}

theorem hintStmts_superior (hG : ∀ p id, Superior W A s0 id → G p id = W.ec p id) (hF : ∀ p u sub id, Superior W A s0 id → F p u sub id = W.fetch p u sub id)
    (t : Pending) (p : Pos) (aID : ID) (h : Superior W A s0 aID) : hintStmts { W with ec := G, fetch := F } t p aID = hintStmts W t p aID := by
  unfold hintStmts
  simp only [hG p aID h]
  cases W.ec p aID with
  | none => rfl
  | some a => simp only [hF _ _ _ _ h]

theorem hintStmts_config {t : Pending} {p : Pos} {aID : ID} {a s : Stmt} (h : hintStmts W t p aID = some (a, s)) : W.ec p aID = some a ∧ a.iss = aID := by
  unfold hintStmts at h
  split at h
  · cases h
  · split at h
    · cases h
    · rename_i a' ha
      split at h
      · cases h
      · rename_i hv
        have hv' : (a'.iss = a'.sub ∧ a'.iss = aID) ∧ a'.timeValid (W.nowEC p) = true := by simpa using hv
        split at h
        · cases h
        · split at h
          · cases h
          · split at h
            · cases h
            · split at h
              · cases h
              · cases h
                exact ⟨ha, hv'.1.2⟩

theorem resolve_superior (hG : ∀ p id, Superior W A s0 id → G p id = W.ec p id) (hF : ∀ p u sub id, Superior W A s0 id → F p u sub id = W.fetch p u sub id) :
    ∀ (fuel : Nat) (p : Pos) (t : Pending), (t.entity.iss ∉ A.map Anchor.id → ∀ id ∈ t.entity.hints, Superior W A s0 id) →
    resolve { W with ec := G, fetch := F } A fuel p t = resolve W A fuel p t := by
  intro fuel
  induction fuel with
  | zero => intro p t _; rfl
  | succ fuel ih =>
    intro p t ht
    unfold resolve
    by_cases hA : (anchorIDs A).contains t.entity.iss = true
    · simp only [if_pos hA]
    · have hA' : t.entity.iss ∉ A.map Anchor.id := by
        intro hm
        exact hA (List.contains_iff_mem.mpr hm)
      have key : ∀ (hs : List ID), (∀ id ∈ hs, Superior W A s0 id) → ∀ (i : Nat) (e : Time),
          resolveHints { W with ec := G, fetch := F } (resolve { W with ec := G, fetch := F } A fuel) t p i hs e = resolveHints W (resolve W A fuel) t p i hs e := by
        intro hs
        induction hs with
        | nil => intro _ i e; rfl
        | cons a hs ih2 =>
          intro hsup i e
          have ih3 := ih2 (fun id hid => hsup id (List.mem_cons_of_mem _ hid))
          have hs' := hsup a List.mem_cons_self
          unfold resolveHints
          rw [hintStmts_superior hG hF t (p ++ [i]) a hs']
          cases hh : hintStmts W t (p ++ [i]) a with
          | none => simp only [ih3]
          | some as =>
            obtain ⟨x, s⟩ := as
            obtain ⟨hx, hxi⟩ := hintStmts_config hh
            have hr : resolve { W with ec := G, fetch := F } A fuel (p ++ [i]) (childOf t a x s) = resolve W A fuel (p ++ [i]) (childOf t a x s) := by
              apply ih
              intro hna id hid
              exact .further hs' hx hxi (by rw [← hxi]; exact hna) hid
            simp only [ih3, hr]
      simp only [if_neg hA, key t.entity.hints (ht hA')]

end

/-- **C160**: the chains only depend on what the superiors on the way to the anchors serve: whatever all other entities publish about themselves, and whatever anyone
serves as statements of theirs, has no influence. -/
theorem C160_superiors_only (W : World) (r : Resolver) (G : Pos → ID → Option Stmt) (F : Pos → String → ID → ID → Option Stmt) (s0 : Stmt)
    (h0 : W.start r.start = some s0) (hG : ∀ p id, Superior W r.anchors s0 id → G p id = W.ec p id)
    (hF : ∀ p u sub id, Superior W r.anchors s0 id → F p u sub id = W.fetch p u sub id) (fuel : Nat) :
    r.chainsNoMeta { W with ec := G, fetch := F } fuel = r.chainsNoMeta W fuel ∧ r.validChains { W with ec := G, fetch := F } fuel = r.validChains W fuel := by
  have hi : (restrictTypes r.types s0).iss = s0.iss := by unfold restrictTypes; split <;> rfl
  have hh : (restrictTypes r.types s0).hints = s0.hints := by unfold restrictTypes; split <;> rfl
  have h : r.chainsNoMeta { W with ec := G, fetch := F } fuel = r.chainsNoMeta W fuel := by
    unfold Resolver.chainsNoMeta Resolver.resolveTree
    simp only [h0]
    rw [resolve_superior hG hF fuel [] (rootPending (restrictTypes r.types s0)) (by
      show (restrictTypes r.types s0).iss ∉ _ → ∀ id ∈ (restrictTypes r.types s0).hints, _
      rw [hi, hh]
      exact fun hn id hid => .hinted hn hid)]
  exact ⟨h, by unfold Resolver.validChains; rw [h]⟩

namespace ExSup

/-- In the example federation only `i`, `j`, `l` and `t` are superiors (`j` hints at `l`). -/
theorem known {id : ID} (h : Superior Ex.W Ex.R.anchors Ex.leafEC id) : id ∈ ["i", "j", "l", "t"] := by
  induction h with
  | hinted _ hid =>
    have : ∀ x ∈ Ex.leafEC.hints, x ∈ ["i", "j", "l", "t"] := by decide
    exact this _ hid
  | further _ he _ _ hid _ =>
    have k : ∀ x, (x ∈ Ex.leafEC.hints ∨ x ∈ Ex.iEC.hints ∨ x ∈ Ex.jEC.hints ∨ x ∈ Ex.tEC.hints) → x ∈ ["i", "j", "l", "t"] := by
      rintro x (h | h | h | h) <;> revert x <;> decide
    rcases ExEp.known he with rfl | rfl | rfl | rfl
    · exact k _ (.inl hid)
    · exact k _ (.inr (.inl hid))
    · exact k _ (.inr (.inr (.inl hid)))
    · exact k _ (.inr (.inr (.inr hid)))

end ExSup

/-- An entity `e` that is no superior may publish anything. -/
example : Ex.R.validChains { Ex.W with ec := fun p id => if id = "e" then some (Ex.mk "e" "e" none 9) else Ex.W.ec p id, fetch := fun p u sub id => if id = "e" then none else Ex.W.fetch p u sub id } 5 =
    Ex.R.validChains Ex.W 5 := by
  have hne : ∀ id, Superior Ex.W Ex.R.anchors Ex.leafEC id → id ≠ "e" := by
    rintro id h rfl
    exact absurd (ExSup.known h) (by decide)
  exact (C160_superiors_only Ex.W Ex.R _ _ Ex.leafEC rfl (fun p id h => if_neg (hne id h)) (fun p u sub id h => if_neg (hne id h)) 5).2

end Oidfed
