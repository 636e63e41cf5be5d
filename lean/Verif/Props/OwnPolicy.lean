import Verif.Props.PolicyMerge
import Verif.Examples.Federation
/-!
# C153: metadata policies in an entity's own configuration
-/

namespace Oidfed
open Spec

namespace ExOP

/-- a relying party with contacts -/
def md (contacts : List String) : Metadata :=
  ⟨fun t => if t = .rp then some ⟨[⟨"ClientName", "client_name", .str, .str ""⟩, ⟨"Contacts", "contacts", .slice .str, sl contacts⟩], ["Contacts"], []⟩ else none, none⟩

/-- a policy for relying parties -/
def pol (p : Policy) : Option Policies := some ⟨fun t => if t = .rp then p else [], []⟩

/-- The example federation, where the leaf states the policy `own` in its configuration, the anchor `sup` in its statements about `i` and `j`, and `top` in its own
configuration. -/
def leaf (own : Option Policies) : Stmt := { Ex.leafEC with metadata := some (md ["x"]), policy := own }
def world (own sup top : Option Policies) : World :=
  { Ex.W with
    start := fun id => if id = "l" then some (leaf own) else none
    ec := fun _ id => if id = "t" then some { Ex.tEC with policy := top } else Ex.ecOf id
    fetch := fun _ ep sub _ => (Ex.fetchOf ep sub).map (fun s => if s.iss = "t" then { s with policy := sup, constraints := none } else s) }

/-- the chain over `i` -/
def chain (own sup top : Option Policies) : Chain :=
  [leaf own, Ex.mk "i" "l" (some [1]) 2, { Ex.mk "t" "i" (some [2]) 3 with policy := sup }, { Ex.tEC with policy := top }]

/-- the resolved attributes of the relying party -/
def fields (c : Chain) : Option (List (String × Val)) :=
  match chainMetadata c with
  | .ok (some m) => (m.known .rp).map (fun e => e.fields.map (fun f => (f.tag, f.val)))
  | _ => none

/-- the resolver returns this chain (first of two) -/
theorem returned (own sup top : Option Policies) : ∃ c', Ex.R.chainsNoMeta (world own sup top) 5 = .ok (some [chain own sup top, c']) :=
  ⟨_, rfl⟩

end ExOP

/-- **C153 fails**: a leaf's own policy takes part in the resolution. Here it gives the leaf a name that its metadata does not state. -/
theorem C153_influence_refuted : ¬ ∀ (W : World) (r : Resolver) (fuel : Nat) (s : Stmt) (own : Option Policies) (c c' : Chain) (cs cs' : List Chain),
    W.start r.start = some { s with policy := none } → r.validChains W fuel = .ok (some (c :: cs)) →
    r.validChains { W with start := fun id => if id = r.start then some { s with policy := own } else W.start id } fuel = .ok (some (c' :: cs')) →
    chainMetadata c' = chainMetadata c := by
  intro h
  have := h (ExOP.world none none none) Ex.R 5 (ExOP.leaf none) (ExOP.pol [("client_name", [("value", .str "n")])]) _ _ _ _ rfl rfl rfl
  have h2 : ExOP.fields (ExOP.chain (ExOP.pol [("client_name", [("value", .str "n")])]) none none) = ExOP.fields (ExOP.chain none none none) := by
    unfold ExOP.fields
    rw [show chainMetadata (ExOP.chain (ExOP.pol [("client_name", [("value", .str "n")])]) none none) = chainMetadata (ExOP.chain none none none) from this]
  revert h2
  decide

/-- **C153 fails** for what superiors prescribe: the anchor prescribes the contacts `a` and `b`, the leaf `a` twice in its own configuration. The chain is returned and
its metadata has what the leaf wants. Without the leaf's own policy it has what the anchor prescribes. -/
theorem C153_override_refuted : ∃ (own sup : Option Policies) (c c' d d' : Chain),
    Ex.R.validChains (ExOP.world own sup none) 5 = .ok (some [c, c']) ∧ Ex.R.validChains (ExOP.world none sup none) 5 = .ok (some [d, d']) ∧
    sup = ExOP.pol [("contacts", [("value", jl ["a", "b"])])] ∧
    ExOP.fields c = some [("client_name", .str ""), ("contacts", sl ["a", "a"])] ∧
    ExOP.fields d = some [("client_name", .str ""), ("contacts", sl ["a", "b"])] := by
  refine ⟨ExOP.pol [("contacts", [("value", jl ["a", "a"])])], ExOP.pol [("contacts", [("value", jl ["a", "b"])])], _, _, _, _, rfl, rfl, rfl, ?_, ?_⟩
  · rfl
  · rfl

/-- **C153 fails** for the anchor as well: the policy in its configuration, which is not about any subordinate in particular, is applied to the leaf. -/
theorem C153_anchor_configuration_refuted : ∃ (top : Option Policies) (c c' d d' : Chain),
    Ex.R.validChains (ExOP.world none none top) 5 = .ok (some [c, c']) ∧ Ex.R.validChains (ExOP.world none none none) 5 = .ok (some [d, d']) ∧
    ExOP.fields c ≠ ExOP.fields d := by
  refine ⟨ExOP.pol [("client_name", [("value", .str "n")])], _, _, _, _, rfl, rfl, ?_⟩
  decide

/-- **C153** (part): whatever well-formed policy the leaf states in its own configuration, the resolved metadata obeys the policies of all statements above it. Missing: policies of
the leaf with repeated or unknown elements (`C153_override_refuted`, C20), and that the leaf's policy has no other influence either (`C153_influence_refuted`). -/
theorem C153_superiors_obeyed_partial (leaf b : Stmt) (rest : Chain) (own : Policies) (hown : leaf.policy = some own) (r : Option Metadata) (t : EType)
    (hgo : GoodPolicy (own.known t) ∧ Policy.verify (own.known t) = .ok ())
    (hg : ∀ s ∈ b :: rest, ∀ P, s.policy = some P → GoodPolicy (P.known t) ∧ Policy.verify (P.known t) = .ok ())
    (md0 : Metadata) (hmd : leaf.metadata = some md0) (em : EntityMeta) (hem : md0.known t = some em)
    (hflag : ∀ f ∈ em.fields, em.wasSet.contains f.name = false → Unset f.val)
    (h : chainMetadata (leaf :: b :: rest) = .ok r) :
    ∃ md em', r = some md ∧ md.known t = some em' ∧ em'.fields.length = em.fields.length ∧
      ∀ (i : Nat) f', em'.fields[i]? = some f' →
        ∀ s ∈ b :: rest, ∀ P, s.policy = some P → ∀ e, AMap.get (P.known t) f'.tag = some e →
          FieldObeys e (em.wasSet.contains f'.name) f' := by
  have hall : ∀ s ∈ leaf :: b :: rest, ∀ P, s.policy = some P → GoodPolicy (P.known t) ∧ Policy.verify (P.known t) = .ok () := by
    intro s hs P hP
    rcases List.mem_cons.mp hs with rfl | hs
    · rw [hown] at hP; cases hP; exact hgo
    · exact hg s hs P hP
  obtain ⟨md, em', h1, h2, h3, h4⟩ := C20_chain_obeys_partial leaf b rest r t hall md0 hmd em hem hflag h
  exact ⟨md, em', h1, h2, h3, fun i f' hi s hs => h4 i f' hi s (List.mem_cons_of_mem _ hs)⟩

/-- the policy of the intermediate in the example of C20, stated by the leaf itself: the hypotheses hold, and the result obeys the anchor's policy -/
example : ∃ (leaf : Stmt) (r : Option Metadata), leaf = { Ex.polLeaf with policy := some (Ex.rpPol Ex.polIA) } ∧
    chainMetadata [leaf, Ex.polStmt Ex.polTA] = .ok r ∧
    (r.bind (fun m => m.known .rp)) = some ⟨[⟨"Scopes", "scopes", .slice .str, sl ["b"]⟩, ⟨"Name", "name", .str, .str "n"⟩], ["Scopes"], []⟩ ∧
    (GoodPolicy Ex.polIA ∧ Policy.verify Ex.polIA = .ok ()) ∧ GoodPolicy Ex.polTA ∧ Policy.verify Ex.polTA = .ok () :=
  ⟨_, _, rfl, rfl, rfl, Ex.polIA_good, Ex.polTA_good⟩

end Oidfed
