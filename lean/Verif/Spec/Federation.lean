import Verif.Model.Resolver
/-!
# Specification of valid trust paths

Written without reference to the trust tree.  A *path* from a leaf configuration is a list of steps; each step says which
authority hint was followed, the configuration the authority served and the statement it issued about the entity below.
-/

namespace Oidfed.Spec
open Oidfed

/-- One step upwards: index of the authority hint, the authority's configuration, its statement about the entity below. -/
structure Step where
  hint : Nat
  ec : Stmt
  sub : Stmt

/-- The moment `now` is within the statement's validity window. A zero iat/exp counts as "not given". -/
def InWindow (now : Time) (s : Stmt) : Prop :=
  (s.iat = Time.zero ∨ s.iat ≤ now) ∧ (s.exp = Time.zero ∨ now ≤ s.exp)

/-- The statement's JWT verifies under a non-empty key set according to the signature oracle. -/
def Signed (sig : SigOracle) (keys : Keys) (s : Stmt) : Prop :=
  ∃ ks r, keys = some ks ∧ ks ≠ [] ∧ s.raw = some r ∧ sig ks r = true

/-- Host name match: a constraint starting with a dot matches the hosts ending with it, any other only itself. -/
def HostMatches (host : ID → Option String) (constraint : String) (id : ID) : Prop :=
  ∃ h, host id = some h ∧
    ((∃ rest, constraint.toList = '.' :: rest) ∧ (∃ pre, h.toList = pre ++ constraint.toList)
      ∨ (¬ ∃ rest, constraint.toList = '.' :: rest) ∧ h = constraint)

/-- `max_path_length` allows `k` intermediates. -/
def PathLenOk (k : Nat) (c : Constraints) : Prop := ∀ n, c.maxPath = some n → (k : Int) ≤ n

/-- The naming constraints allow the id. -/
def NamingOk (host : ID → Option String) (c : Constraints) (id : ID) : Prop :=
  ∀ n, c.naming = some n →
    (∀ x ∈ n.excluded, ¬ HostMatches host x id) ∧
    (∀ ps, n.permitted = some ps → ∃ x ∈ ps, HostMatches host x id)

/-- `allowed_entity_types` allows the type. -/
def TypeOk (c : Constraints) (ty : String) : Prop :=
  ∀ ts, c.allowedTypes = some ts → ty ∈ ts ∨ ty = "federation_entity"

/-- The constraints of a statement hold for `k` intermediates and the given ids and entity types below its issuer. -/
def ConstraintsOk (host : ID → Option String) (k : Nat) (ids : List ID) (types : List String) (s : Stmt) : Prop :=
  ∀ c, s.constraints = some c →
    PathLenOk k c ∧ (∀ id ∈ ids, NamingOk host c id) ∧ (∀ ty ∈ types, TypeOk c ty)

/-- The entities on a path, leaf first. -/
def entities (leaf : Stmt) (steps : List Step) : List Stmt := leaf :: steps.map Step.ec

/-- Position reached after the first `k` steps. -/
def posAt (steps : List Step) (k : Nat) : Pos := (steps.take k).map Step.hint

/-- The ids of the leaf and the first `k` authorities. -/
def idsBelow (leaf : Stmt) (steps : List Step) (k : Nat) : List ID :=
  leaf.sub :: (steps.take k).map (fun s => s.ec.iss)

/-- The entity types declared by the leaf and the first `k` authorities. -/
def typesBelow (leaf : Stmt) (steps : List Step) (k : Nat) : List String :=
  leaf.entityTypes ++ ((steps.take k).map (fun s => s.ec.entityTypes)).flatten

/-- The `k`-th step, from entity `e`, is in order: what was hinted, served, issued, valid and allowed. -/
structure StepOk (W : World) (A : List Anchor) (leaf : Stmt) (steps : List Step) (k : Nat) (e : Stmt) (s : Step) :
    Prop where
  below_not_anchor : e.iss ∉ A.map Anchor.id
  hinted : e.hints[s.hint]? = some s.ec.iss
  not_visited : s.ec.iss ∉ idsBelow leaf steps k
  served : W.ec (posAt steps (k+1)) s.ec.iss = some s.ec
  self_issued : s.ec.sub = s.ec.iss
  ec_time : InWindow (W.nowEC (posAt steps (k+1))) s.ec
  has_fetch : s.ec.fetchEndpoint ≠ ""
  fetched : W.fetch (posAt steps (k+1)) s.ec.fetchEndpoint e.iss s.ec.iss = some s.sub
  sub_iss : s.sub.iss = s.ec.iss
  sub_sub : s.sub.sub = e.iss
  sub_time : InWindow (W.nowSub (posAt steps (k+1))) s.sub
  constraints : ConstraintsOk W.host k (idsBelow leaf steps k) (typesBelow leaf steps k) s.sub

/-- The keys authoritative for an anchor: the configured ones, or else those of its own configuration. -/
def AnchorKeys (ta : Anchor) (ec : Stmt) (keys : Keys) : Prop :=
  (∃ ks, ta.jwks = some ks ∧ keys = some ks) ∨ (ta.jwks = none ∧ keys = ec.jwks)

/-- `ta` is the first configured anchor with this id. -/
def FirstAnchor (A : List Anchor) (id : ID) (ta : Anchor) : Prop :=
  ∃ pre post, A = pre ++ ta :: post ∧ ta.id = id ∧ ∀ x ∈ pre, x.id ≠ id

/-- A valid path: every step is in order, the last authority is an anchor whose authoritative keys verify its
configuration and its statement, and everything below is signed with the keys the superior published for it. -/
structure ValidPath (W : World) (A : List Anchor) (leaf : Stmt) (steps : List Step) : Prop where
  steps_ok : ∀ k e s, (entities leaf steps)[k]? = some e → steps[k]? = some s → StepOk W A leaf steps k e s
  leaf_signed : ∀ s, steps[0]? = some s → Signed W.sig s.sub.jwks leaf
  mid_signed : ∀ k s next, steps[k]? = some s → steps[k+1]? = some next →
    Signed W.sig next.sub.jwks s.ec ∧ Signed W.sig next.sub.jwks s.sub
  top : ∃ s ta keys, steps.getLast? = some s ∧ FirstAnchor A s.ec.iss ta ∧ AnchorKeys ta s.ec keys ∧
    Signed W.sig keys s.ec ∧ Signed W.sig keys s.sub

/-- A path from the root of a tree upwards passes the authorities with these ids. -/
inductive PassesIDs : Tree → List ID → Prop where
  | here (T : Tree) : PassesIDs T []
  | up (e s : Option Stmt) (n : Bool) (as : List Tree) (v : Bool) (x : Time) (d : Nat) (ty : List String) (ids : List ID) (a : Stmt) (s' : Option Stmt) (n' : Bool)
      (as' : List Tree) (v' : Bool) (x' : Time) (d' : Nat) (ty' : List String) (ids' : List ID) (l : List ID) :
      Tree.node (some a) s' n' as' v' x' d' ty' ids' ∈ as → PassesIDs (.node (some a) s' n' as' v' x' d' ty' ids') l → PassesIDs (.node e s n as v x d ty ids) (a.iss :: l)

/-- The chain of a path: leaf configuration, subordinate statements upwards, the anchor's configuration. -/
def IsChainOf (leaf : Stmt) (steps : List Step) (c : Chain) : Prop :=
  ∃ s, steps.getLast? = some s ∧ c = leaf :: (steps.map Step.sub ++ [s.ec])

end Oidfed.Spec
