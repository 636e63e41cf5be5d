import Verif.Lemmas.Chains
/-!
# Termination of the tree construction
-/

namespace Oidfed
open Spec (Step)

mutual
/-- Number of entities on the longest path of a tree; the placeholders for unusable authorities hold no entity. -/
def Tree.height : Tree → Nat
  | .node none _ _ _ _ _ _ _ _ => 0
  | .node (some _) _ _ as _ _ _ _ _ => Tree.maxHeight as + 1
def Tree.maxHeight : List Tree → Nat
  | [] => 0
  | t :: ts => max t.height (Tree.maxHeight ts)
end

theorem maxHeight_le {n : Nat} : ∀ {ts : List Tree}, (∀ t ∈ ts, t.height ≤ n) → Tree.maxHeight ts ≤ n
  | [], _ => by simp [Tree.maxHeight]
  | t :: ts, h => by
      have h1 := h t (by simp)
      have h2 := maxHeight_le (ts := ts) (fun x hx => h x (by simp [hx]))
      simp only [Tree.maxHeight]
      omega

theorem resolveHints_mono (W : World) (r1 r2 : Pos → Pending → Option Tree) (t : Pending) (p : Pos) :
    ∀ (hs : List ID) (i : Nat) (e : Time) (x : List Tree × Time),
      (∀ j a ec sb T, hs[j]? = some a → hintStmts W t (p ++ [i+j]) a = some (ec, sb) →
        r1 (p ++ [i+j]) (childOf t a ec sb) = some T → r2 (p ++ [i+j]) (childOf t a ec sb) = some T) →
      resolveHints W r1 t p i hs e = some x → resolveHints W r2 t p i hs e = some x := by
  intro hs
  induction hs with
  | nil => intro i e x _ h; simpa [resolveHints] using h
  | cons a hs ih =>
    intro i e x hr h
    have ih' := fun e x => ih (i+1) e x (fun j a' ec sb T h1 h2 h3 => by
      have := hr (j+1) a' ec sb T (by simpa using h1)
      rw [show i + 1 + j = i + (j+1) by omega] at h2 h3 ⊢
      exact this h2 h3)
    unfold resolveHints at h ⊢
    split at h
    · rename_i hn
      simp only [Option.bind_eq_bind, Option.bind_eq_some_iff] at h ⊢
      obtain ⟨y, h1, h2⟩ := h
      exact ⟨y, ih' _ _ h1, h2⟩
    · rename_i ec sb hn
      simp only [Option.bind_eq_bind, Option.bind_eq_some_iff] at h ⊢
      obtain ⟨tt, h1, y, h2, h3⟩ := h
      have := hr 0 a ec sb tt (by simp) (by simpa using hn) (by simpa using h1)
      exact ⟨tt, by simpa using this, y, ih' _ _ h2, h3⟩

theorem resolve_mono (W : World) (A : List Anchor) : ∀ (f : Nat) (p : Pos) (t : Pending) (T : Tree),
    resolve W A f p t = some T → resolve W A (f+1) p t = some T := by
  intro f
  induction f with
  | zero => intro p t T h; simp [resolve] at h
  | succ f ih =>
    intro p t T h
    unfold resolve at h ⊢
    simp only at h ⊢
    split
    · rename_i ha; rw [if_pos ha] at h; exact h
    · rename_i ha
      rw [if_neg ha] at h
      simp only [Option.bind_eq_bind, Option.bind_eq_some_iff] at h ⊢
      obtain ⟨x, h1, h2⟩ := h
      exact ⟨x, resolveHints_mono W _ _ t p _ _ _ _ (fun j a ec sb T _ _ h => ih _ _ _ h) h1, h2⟩

theorem resolve_mono_le {W A f f' p t T} (h : resolve W A f p t = some T) (hle : f ≤ f') :
    resolve W A f' p t = some T := by
  induction hle with
  | refl => exact h
  | step _ ih => exact resolve_mono W A _ p t T ih

theorem resolveHints_some (W : World) (rec : Pos → Pending → Option Tree) (t : Pending) (p : Pos) :
    ∀ (hs : List ID) (i : Nat) (e : Time),
      (∀ j a ec sb, hs[j]? = some a → hintStmts W t (p ++ [i+j]) a = some (ec, sb) →
        ∃ T, rec (p ++ [i+j]) (childOf t a ec sb) = some T) →
      ∃ x, resolveHints W rec t p i hs e = some x := by
  intro hs
  induction hs with
  | nil => intro i e _; exact ⟨_, rfl⟩
  | cons a hs ih =>
    intro i e hr
    have ih' := fun e => ih (i+1) e (fun j a' ec sb h1 h2 => by
      rw [show i + 1 + j = i + (j+1) by omega] at h2 ⊢
      exact hr (j+1) a' ec sb (by simpa using h1) h2)
    unfold resolveHints
    cases hn : hintStmts W t (p ++ [i]) a with
    | none =>
      obtain ⟨x, hx⟩ := ih' e
      exact ⟨(Tree.zero :: x.1, x.2), by simp [hx]⟩
    | some es =>
      obtain ⟨ec, sb⟩ := es
      obtain ⟨T, hT⟩ := hr 0 a ec sb (by simp) (by simpa using hn)
      obtain ⟨x, hx⟩ := ih' (if sb.exp < e then sb.exp else e)
      exact ⟨(T :: x.1, x.2), by simp at hT; simp [hT, hx]⟩

/-- ids of `U` not yet visited -/
def fresh (U : List ID) (ids : List ID) : List ID := U.filter (fun u => !ids.contains u)

theorem fresh_length_le (U ids : List ID) (a : ID) : (fresh U (ids ++ [a])).length ≤ (fresh U ids).length := by
  induction U with
  | nil => simp [fresh]
  | cons u U ih =>
    simp only [fresh, List.filter_cons] at *
    by_cases h : u ∈ ids <;> by_cases h2 : u = a <;> simp_all <;> omega

theorem fresh_lt {U ids : List ID} {a : ID} (ha : a ∈ U) (hn : a ∉ ids) :
    (fresh U (ids ++ [a])).length < (fresh U ids).length := by
  induction U with
  | nil => simp at ha
  | cons u U ih =>
    have hle := fresh_length_le U ids a
    simp only [fresh, List.filter_cons] at *
    by_cases h : a = u
    · subst h; simp [hn] at *; omega
    · have := ih (by simpa [h] using ha)
      by_cases h2 : u ∈ ids <;> simp_all [Ne.symm h]
      

/-- All authority hints served anywhere lie in `U`. -/
def HintsIn (W : World) (U : List ID) : Prop := ∀ p id s, W.ec p id = some s → ∀ h ∈ s.hints, h ∈ U

theorem resolve_terminates (W : World) (A : List Anchor) (U : List ID) (hU : HintsIn W U) :
    ∀ (f : Nat) (p : Pos) (t : Pending), (∀ h ∈ t.entity.hints, h ∈ U) → (fresh U t.ids).length < f →
      ∃ T, resolve W A f p t = some T ∧ T.height ≤ (fresh U t.ids).length + 1 := by
  intro f
  induction f with
  | zero => intro p t _ h; omega
  | succ f ih =>
    intro p t ht hf
    unfold resolve
    simp only
    split
    · exact ⟨_, rfl, by simp [Tree.height, Tree.maxHeight]⟩
    · have hrec : ∀ j a ec sb, t.entity.hints[j]? = some a → hintStmts W t (p ++ [0+j]) a = some (ec, sb) →
          ∃ T, resolve W A f (p ++ [0+j]) (childOf t a ec sb) = some T ∧
            T.height ≤ (fresh U t.ids).length := by
        intro j a ec sb hj hh
        obtain ⟨i1, i2, i3, i4⟩ := hintStmts_iss hh
        have hh' := (hintStmts_iff ..).mp hh
        have ha : a ∈ U := ht a (List.mem_of_getElem? hj)
        have hna : a ∉ t.ids := hh'.1
        have hlt := fresh_lt (ids := t.ids) ha hna
        have hec : W.ec (p ++ [0+j]) a = some ec := hh'.2.1
        obtain ⟨T, h1, h2⟩ := ih (p ++ [0+j]) (childOf t a ec sb)
          (fun h hm => hU _ _ _ hec h (by simpa [childOf] using hm))
          (by simp only [childOf]; omega)
        refine ⟨T, h1, ?_⟩
        simp only [childOf] at h2
        omega
      obtain ⟨⟨ts, e⟩, hx⟩ := resolveHints_some W (resolve W A f) t p t.entity.hints 0
        (if t.entity.exp < Time.zero then t.entity.exp else Time.zero)
        (fun j a ec sb h1 h2 => (hrec j a ec sb h1 h2).imp (fun T h => h.1))
      rw [hx]
      refine ⟨_, rfl, ?_⟩
      simp only [Tree.height, Nat.add_le_add_iff_right]
      apply maxHeight_le
      obtain ⟨hlen, hspec⟩ := resolveHints_spec W _ t p _ _ _ _ _ hx
      intro tt htt
      obtain ⟨j, hj⟩ := List.mem_iff_getElem?.mp htt
      have hjl : j < t.entity.hints.length := by
        rw [← hlen]; exact (List.getElem?_eq_some_iff.mp hj).1
      have ha : t.entity.hints[j]? = some t.entity.hints[j] := by simp [hjl]
      obtain ⟨hz, hg⟩ := hspec j _ ha
      cases hh : hintStmts W t (p ++ [0+j]) t.entity.hints[j] with
      | none => have := hz hh; rw [hj] at this; cases this; simp [Tree.zero, Tree.height]
      | some es =>
        obtain ⟨ec, sb⟩ := es
        obtain ⟨tt', ht1, ht2⟩ := hg ec sb hh
        rw [hj] at ht1; cases ht1
        obtain ⟨T, h1, h2⟩ := hrec j _ ec sb ha hh
        rw [h1] at ht2; cases ht2
        exact h2

end Oidfed
