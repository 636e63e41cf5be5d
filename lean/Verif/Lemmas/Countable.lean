import Verif.Model.Jws
import Mathlib.Data.Set.Countable
import Mathlib.Data.Rat.Denumerable
import Mathlib.Logic.Equiv.List
/-!
# JWTs and keys can be numbered and written as text

Several theorems take as given that a JWT written as text is parsed to the same JWT, and that JWTs and keys have numbers. This is possible for all JWTs and keys
at once.
-/

namespace Oidfed

instance : Countable Char := Function.Injective.countable (f := Char.toNat) (fun _ _ h => Char.toNat_inj.mp h)

instance : Countable String := Function.Injective.countable (f := String.toList) (fun _ _ h => String.toList_injective h)

mutual
/-- The depth of a value. -/
def JV.depth : JV → Nat
  | .arr l => JV.depthL l + 1
  | .obj l => JV.depthO l + 1
  | _ => 0
def JV.depthL : List JV → Nat
  | [] => 0
  | v :: l => max v.depth (JV.depthL l)
def JV.depthO : List (String × JV) → Nat
  | [] => 0
  | kv :: l => max kv.2.depth (JV.depthO l)
end

theorem depthL_mem : ∀ {l : List JV} {v : JV}, v ∈ l → v.depth ≤ JV.depthL l
  | w :: l, v, h => by
    unfold JV.depthL
    rcases List.mem_cons.mp h with rfl | h
    · omega
    · have := depthL_mem h; omega

theorem depthO_mem : ∀ {l : List (String × JV)} {kv : String × JV}, kv ∈ l → kv.2.depth ≤ JV.depthO l
  | w :: l, v, h => by
    unfold JV.depthO
    rcases List.mem_cons.mp h with rfl | h
    · omega
    · have := depthO_mem h; omega

theorem depth_countable (n : Nat) : Set.Countable {v : JV | v.depth ≤ n} := by
  have scal : Set.Countable ({JV.null} ∪ Set.range JV.bool ∪ Set.range JV.num ∪ Set.range JV.str) :=
    (((Set.countable_singleton _).union (Set.countable_range _)).union (Set.countable_range _)).union (Set.countable_range _)
  induction n with
  | zero =>
    refine scal.mono ?_
    rintro v hv
    cases v with
    | null => simp
    | bool b => simp
    | num q => simp
    | str s => simp
    | arr l => exact absurd hv (by simp [JV.depth])
    | obj l => exact absurd hv (by simp [JV.depth])
  | succ n ih =>
    have : Countable {v : JV | v.depth ≤ n} := ih.to_subtype
    refine (scal.union ((Set.countable_range (fun l : List {v : JV | v.depth ≤ n} => JV.arr (l.map Subtype.val))).union
      (Set.countable_range (fun l : List (String × {v : JV | v.depth ≤ n}) => JV.obj (l.map (fun kv => (kv.1, kv.2.1))))))).mono ?_
    rintro v hv
    cases v with
    | null => simp
    | bool b => simp
    | num q => simp
    | str s => simp
    | arr l =>
      refine .inr (.inl ⟨l.attach.map (fun x => ⟨x.1, ?_⟩), ?_⟩)
      · have := depthL_mem x.2
        simp only [Set.mem_ofPred_eq, JV.depth] at hv ⊢
        omega
      · simp
    | obj l =>
      refine .inr (.inr ⟨l.attach.map (fun x => (x.1.1, ⟨x.1.2, ?_⟩)), ?_⟩)
      · have := depthO_mem x.2
        simp only [Set.mem_ofPred_eq, JV.depth] at hv ⊢
        omega
      · show JV.obj (List.map _ (List.map _ _)) = _
        rw [List.map_map]
        exact congrArg JV.obj (List.attach_map_subtype_val l)

instance : Countable JV := by
  rw [← Set.countable_univ_iff]
  refine (Set.countable_iUnion depth_countable).mono ?_
  intro v _
  exact Set.mem_iUnion.mpr ⟨v.depth, Nat.le_refl _⟩

instance : Countable JSig := Function.Injective.countable (f := fun s : JSig => (s.typ, s.kid, s.alg, s.sig)) (by
  rintro ⟨⟩ ⟨⟩ h; simp_all)

instance : Countable JKey := Function.Injective.countable (f := fun s : JKey => (s.kid, s.use, s.alg, s.key)) (by
  rintro ⟨⟩ ⟨⟩ h; simp_all)

instance : Countable Jws := Function.Injective.countable (f := fun s : Jws => (s.payload, s.sigs)) (by
  rintro ⟨⟩ ⟨⟩ h; simp_all)

/-- What is countable can be numbered. -/
theorem numbering (α : Type) [Countable α] [Nonempty α] : ∃ (num : α → Nat) (of : Nat → α), ∀ a, of (num a) = a := by
  obtain ⟨f, hf⟩ := exists_injective_nat α
  exact ⟨f, Function.invFun f, Function.leftInverse_invFun hf⟩

/-- A way to write JWTs as (not empty) text and to number texts. -/
theorem serialization (num : Jws → Nat) (msgOf : Nat → Jws) (h : ∀ j, msgOf (num j) = j) :
    ∃ (ser : Jws → String) (P : String → Option Jws) (n : String → Nat), (∀ j, P (ser j) = some j) ∧ (∀ j, ser j ≠ "") ∧ ∀ s j, P s = some j → msgOf (n s) = j := by
  refine ⟨fun j => String.ofList (List.replicate (num j + 1) 'a'), fun s => some (msgOf (s.length - 1)), fun s => s.length - 1, ?_, ?_, ?_⟩
  · intro j
    simp [h]
  · intro j hj
    have := congrArg String.length hj
    simp at this
  · intro s j hj
    exact Option.some.inj hj

end Oidfed
