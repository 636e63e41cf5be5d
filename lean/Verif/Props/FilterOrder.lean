import Verif.Spec.FilterOrder
import Verif.Props.Discovery
/-!
# C169: filters of a collector work independently of each other
-/

namespace Oidfed
open Spec

theorem approveLoop_iff {e : Option Collected} : ∀ {fs : List EFilter} {a b : Bool}, (fs = [] → a = true) → approveLoop e a fs = .ok b →
    (b = true ↔ ∀ f ∈ fs, f e = .ok true) := by
  intro fs
  induction fs with
  | nil =>
    intro a b ha h
    cases h
    simp [ha rfl]
  | cons f fs ih =>
    intro a b _ h
    unfold approveLoop at h
    split at h
    · cases h
    · rename_i hf
      rw [ih (fun _ => rfl) h]
      simp [hf]
    · rename_i hf
      cases h
      simp [hf]

theorem filterCollected_sublist {fs : List EFilter} : ∀ {es out : List (Option Collected)}, filterCollected fs es = .ok out → out.Sublist es := by
  intro es
  induction es with
  | nil => intro out h; cases h; exact .slnil
  | cons e es ih =>
    intro out h
    unfold filterCollected at h
    split at h
    · cases h
    · split at h
      · cases h
      · rename_i b _ _ o ho
        cases h
        cases b
        · exact (ih ho).cons e
        · exact (ih ho).cons_cons e

/-- What a collector returns is determined by which entities pass. -/
theorem filterCollected_eq {fs gs : List EFilter} (hf : fs ≠ []) (hg : gs ≠ []) : ∀ {es x y : List (Option Collected)},
    (∀ e ∈ es, (∀ f ∈ fs, f e = .ok true) ↔ ∀ f ∈ gs, f e = .ok true) → filterCollected fs es = .ok x → filterCollected gs es = .ok y → x = y := by
  intro es
  induction es with
  | nil => intro x y _ h1 h2; cases h1; cases h2; rfl
  | cons e es ih =>
    intro x y h h1 h2
    unfold filterCollected at h1 h2
    split at h1
    · cases h1
    · split at h1
      · cases h1
      · rename_i b hb _ o ho
        split at h2
        · cases h2
        · split at h2
          · cases h2
          · rename_i b' hb' _ o' ho'
            cases h1
            cases h2
            have hbb : b = b' := by
              have e1 := approveLoop_iff (fun h => absurd h hf) hb
              have e2 := approveLoop_iff (fun h => absurd h hg) hb'
              have := e1.trans ((h e List.mem_cons_self).trans e2.symm)
              cases b <;> cases b' <;> simp_all
            rw [hbb, ih (fun e he => h e (List.mem_cons_of_mem _ he)) ho ho']

theorem filterCollected_mem {fs : List EFilter} (hf : fs ≠ []) : ∀ {es x : List (Option Collected)}, filterCollected fs es = .ok x →
    ∀ e, e ∈ x ↔ e ∈ es ∧ ∀ f ∈ fs, f e = .ok true := by
  intro es
  induction es with
  | nil => intro x h e; cases h; simp
  | cons d es ih =>
    intro x h e
    unfold filterCollected at h
    split at h
    · cases h
    · split at h
      · cases h
      · rename_i b hb _ o ho
        cases h
        have e1 := approveLoop_iff (fun h => absurd h hf) hb
        have e2 := ih ho e
        cases b
        · simp only [Bool.false_eq_true, false_iff, if_false] at e1 ⊢
          rw [e2, List.mem_cons]
          constructor
          · exact fun h => ⟨.inr h.1, h.2⟩
          · rintro ⟨rfl | h, hp⟩
            · exact absurd hp e1
            · exact ⟨h, hp⟩
        · simp only [true_iff, if_true] at e1 ⊢
          rw [List.mem_cons, List.mem_cons, e2]
          constructor
          · rintro (rfl | h)
            · exact ⟨.inl rfl, e1⟩
            · exact ⟨.inr h.1, h.2⟩
          · rintro ⟨rfl | h, hp⟩
            · exact .inl rfl
            · exact .inr ⟨h, hp⟩

theorem passesAll_iff {R : DResolver} {anchor : ID} {fs : List EFilter} {e : Option Collected} :
    (∀ f ∈ verifiedChains R [anchor] :: fs, f e = .ok true) ↔ PassesAll R anchor fs e := by
  unfold PassesAll
  rw [List.forall_mem_cons]
  refine and_congr_left fun _ => ?_
  cases e with
  | none => simp [verifiedChains]
  | some c => simp [verifiedChains]

/-- **C169**: whatever the filters do and whatever was collected, if the collector returns, it returns exactly the collected entities that have a valid chain to the anchor
and that every filter accepts, in the order in which they were collected. -/
theorem C169_exact (R : DResolver) (anchor : ID) (fs : List EFilter) (es x : List (Option Collected)) (h : verifiedCollect R anchor fs es = .ok x) :
    x.Sublist es ∧ ∀ e, e ∈ x ↔ e ∈ es ∧ PassesAll R anchor fs e :=
  ⟨filterCollected_sublist h, fun e => (filterCollected_mem (List.cons_ne_nil _ _) h e).trans (and_congr_right fun _ => passesAll_iff)⟩

/-- **C169**: the order of the filters does not matter, nor does repeating one. -/
theorem C169_order (R : DResolver) (anchor : ID) (fs gs : List EFilter) (hfg : ∀ f, f ∈ fs ↔ f ∈ gs) (es x y : List (Option Collected))
    (hx : verifiedCollect R anchor fs es = .ok x) (hy : verifiedCollect R anchor gs es = .ok y) : x = y :=
  filterCollected_eq (List.cons_ne_nil _ _) (List.cons_ne_nil _ _)
    (fun e _ => by rw [passesAll_iff, passesAll_iff]; simp only [PassesAll, hfg]) hx hy

/-- **C169**: using the filters at once gives the same as using some of them first and the others on what that returned. -/
theorem C169_stages (R : DResolver) (anchor : ID) (fs gs : List EFilter) (es x y z : List (Option Collected))
    (hx : verifiedCollect R anchor (fs ++ gs) es = .ok x) (hy : verifiedCollect R anchor fs es = .ok y) (hz : verifiedCollect R anchor gs y = .ok z) : x = z := by
  induction es generalizing x y z with
  | nil => cases hx; cases hy; cases hz; rfl
  | cons e es ih =>
    unfold verifiedCollect filterCollected at hx hy
    split at hx
    · cases hx
    · split at hx
      · cases hx
      · rename_i b1 hb1 _ o1 ho1
        split at hy
        · cases hy
        · split at hy
          · cases hy
          · rename_i b2 hb2 _ o2 ho2
            cases hx
            cases hy
            have e1 := (approveLoop_iff (fun h => by cases h) hb1).trans passesAll_iff
            have e2 := (approveLoop_iff (fun h => by cases h) hb2).trans passesAll_iff
            cases b2 with
            | false =>
              have : b1 = false := by
                cases b1
                · rfl
                · have := e1.mp rfl
                  exact absurd (e2.mpr ⟨this.1, fun f hf => this.2 f (List.mem_append_left _ hf)⟩) (by simp)
              subst this
              exact ih _ _ _ ho1 ho2 hz
            | true =>
              simp only [if_true] at hz
              unfold verifiedCollect filterCollected at hz
              split at hz
              · cases hz
              · split at hz
                · cases hz
                · rename_i b3 hb3 _ o3 ho3
                  cases hz
                  have e3 := (approveLoop_iff (fun h => by cases h) hb3).trans passesAll_iff
                  have hp := e2.mp rfl
                  have : b1 = b3 := by
                    have : b1 = true ↔ b3 = true := e1.trans (Iff.trans
                      ⟨fun h => ⟨h.1, fun f hf => h.2 f (List.mem_append_right _ hf)⟩,
                        fun h => ⟨h.1, fun f hf => (List.mem_append.mp hf).elim (hp.2 f) (h.2 f)⟩⟩ e3.symm)
                    cases b1 <;> cases b3 <;> simp_all
                  rw [this, ih _ _ _ ho1 ho2 ho3]

/-- **C169**: whether an entity is returned does not depend on what else was collected. -/
theorem C169_entities (R : DResolver) (anchor : ID) (fs : List EFilter) (es ds x : List (Option Collected)) (hx : verifiedCollect R anchor fs (es ++ ds) = .ok x) :
    ∃ y z, verifiedCollect R anchor fs es = .ok y ∧ verifiedCollect R anchor fs ds = .ok z ∧ x = y ++ z := by
  induction es generalizing x with
  | nil => exact ⟨[], x, rfl, hx, rfl⟩
  | cons e es ih =>
    rw [List.cons_append] at hx
    unfold verifiedCollect filterCollected at hx
    split at hx
    · cases hx
    · split at hx
      · cases hx
      · rename_i b hb _ o ho
        cases hx
        obtain ⟨y, z, h1, h2, rfl⟩ := ih o ho
        refine ⟨if b then e :: y else y, z, ?_, h2, ?_⟩
        · unfold verifiedCollect filterCollected
          rw [hb]
          unfold verifiedCollect at h1
          simp only [h1]
        · cases b <;> rfl

/-- A resolver that knows the entities "a" and "b", and filters by the length of the identifier and by the claimed type. -/
def Ex.ordR : DResolver := ⟨fun i _ => .ok (i == "a" || i == "b" || i == "ccc"), fun _ _ => .ok none⟩

def Ex.shortID : EFilter
  | none => .error .panic
  | some c => .ok (c.id.length == 1)

def Ex.typed : EFilter
  | none => .error .panic
  | some c => .ok (c.types.contains "openid_provider")

def Ex.ordEs : List (Option Collected) := [some ⟨"a", ["openid_provider"], none⟩, some ⟨"b", [], none⟩, some ⟨"ccc", ["openid_provider"], none⟩, some ⟨"d", ["openid_provider"], none⟩]

example : verifiedCollect Ex.ordR "ta" [Ex.shortID, Ex.typed] Ex.ordEs = .ok [some ⟨"a", ["openid_provider"], none⟩] ∧
    verifiedCollect Ex.ordR "ta" [Ex.typed, Ex.shortID] Ex.ordEs = .ok [some ⟨"a", ["openid_provider"], none⟩] ∧
    verifiedCollect Ex.ordR "ta" [Ex.typed] Ex.ordEs = .ok [some ⟨"a", ["openid_provider"], none⟩, some ⟨"ccc", ["openid_provider"], none⟩] ∧
    verifiedCollect Ex.ordR "ta" [Ex.shortID] [some ⟨"a", ["openid_provider"], none⟩, some ⟨"ccc", ["openid_provider"], none⟩] = .ok [some ⟨"a", ["openid_provider"], none⟩] :=
  ⟨rfl, rfl, rfl, rfl⟩

end Oidfed
