import Verif.Model.CustomOps
/-!
# What is said about registered operators
-/

namespace Oidfed.Spec

/-- The policy uses operator `n` for some attribute. -/
def Uses (p : Policy) (n : OpName) : Prop := ∃ k e, (k, e) ∈ p ∧ n ∈ e.keys

/-- Every operator that the policy uses is registered. -/
def Registered (R : Registry) (p : Policy) : Prop := ∀ n, Uses p n → ∃ o, R.ops n = some o

/-- Going through operator names in order and applying the operators that the entry contains takes one value to another. -/
inductive Runs (R : Registry) (e : Entry) : List OpName → Cur → Cur → Prop where
  | done (c : Cur) : Runs R e [] c c
  | skip {n : OpName} {ns : List OpName} {c d : Cur} : e.get n = none → Runs R e ns c d → Runs R e (n :: ns) c d
  | use {n : OpName} {ns : List OpName} {c c' d : Cur} {pv : Val} {o : OpImpl} : e.get n = some pv → R.ops n = some o →
      o.apply c pv (e.get "essential" == some (.bool true)) = .ok c' → Runs R e ns c' d → Runs R e (n :: ns) c d

/-- The operator's merge tightens the restriction `Sat` (policy value, attribute value). -/
def Tightens (o : OpImpl) (Sat : Val → Val → Prop) : Prop := ∀ a b c v, o.merge a b = .ok c → Sat c v → Sat a v ∧ Sat b v

/-- Two operators may be combined: each of them allows the other one. -/
def MayCombine (R : Registry) (m n : OpName) : Prop :=
  m = n ∨ ∀ x y, (x = m ∧ y = n ∨ x = n ∧ y = m) → ∀ o l, R.ops x = some o → o.combine = some l → y ∈ l

/-- Operators are registered under their own names, as `RegisterPolicyOperator` does. -/
def OwnNames (R : Registry) : Prop := ∀ n o, R.ops n = some o → o.name = n

end Oidfed.Spec
