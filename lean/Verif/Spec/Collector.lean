import Verif.Model.Collector
/-!
# Vocabulary for collecting entities
-/

namespace Oidfed.Spec
open Oidfed

/-- The worker has not given back its token. -/
def AuthRunning : AuthPC → Bool
  | .released | .gone => false
  | _ => true

/-- The worker has not given back its token. -/
def SubRunning : SubPC → Bool
  | .released | .gone => false
  | _ => true

/-- The number of workers of a call that are running. -/
def workers (f : CFrame) : Nat := (if AuthRunning f.apc then 1 else 0) + f.subs.countP (fun x => SubRunning x.2)

/-- The number of workers of all calls that are running. -/
def allWorkers (s : CState) : Nat := (s.frames.map workers).sum

/-- `a` lists `x` as a subordinate (in one of its possible answers). -/
def CanList (W : CWorld) (a x : ID) : Prop := ∃ l, W.lists a l ∧ x ∈ l

/-- Reachable from the anchor through subordinate listings. -/
inductive Below (lists : ID → ID → Prop) (anchor : ID) : ID → Prop where
  | anchor : Below lists anchor anchor
  | sub {a x : ID} : Below lists anchor a → lists a x → Below lists anchor x

/-- Listed by some entity reachable from the anchor. -/
def Member (lists : ID → ID → Prop) (anchor x : ID) : Prop := ∃ a, Below lists anchor a ∧ lists a x

/-- `x` is a subordinate in the listing published by `a`. -/
def Lists (E : CollectEnv) (a x : ID) : Prop :=
  ∃ st m f l, E.ec a = some st ∧ st.metadata = some m ∧ m.known .fed = some f ∧ f.str "federation_list_endpoint" ≠ "" ∧
    E.listAt (f.str "federation_list_endpoint") = some l ∧ x ∈ l

/-- The entity has one of the requested types. -/
def TypesPass (q : CollectReq) (m : Metadata) : Prop := ∀ ts, q.types = some ts → ∃ t ∈ ts, ∃ k : EType, k.tag = t ∧ (m.known k).isSome

/-- The claim that has the name of an entity of this type. -/
def nameClaim : EType → String
  | .op => "organization_name"
  | .as => "organization_name"
  | .fed => "organization_name"
  | .rp => "client_name"
  | .client => "client_name"
  | .resource => "resource_name"

/-- The name of an entity according to its metadata for a type: its display name, or else the name that belongs to the type. -/
def nameIn (t : EType) (em : EntityMeta) : String := if em.str "display_name" = "" then em.str (nameClaim t) else em.str "display_name"

/-- One of the entity's names matches the query, if there is one. -/
def NamePass (E : CollectEnv) (q : CollectReq) (m : Metadata) : Prop :=
  q.name ≠ "" → E.fuzzy q.name (EType.all.filterMap (fun t => (m.known t).map (nameIn t))) = true

/-- For each requested trust mark type the entity's (first) trust mark of this type verifies with the anchor's configuration. -/
def MarksPass (E : CollectEnv) (q : CollectReq) (st : Stmt) : Prop :=
  ∀ t ∈ q.markTypes, ∃ ta pre i post, E.ec q.anchor = some ta ∧ E.marks st = pre ++ i :: post ∧ i.type = t ∧ (∀ i' ∈ pre, i'.type ≠ t) ∧
    E.verifies ta i = true

/-- The entity's configuration can be obtained, has metadata, and passes the filters of the request. -/
def Passes (E : CollectEnv) (q : CollectReq) (x : ID) : Prop :=
  ∃ st m, E.ec x = some st ∧ st.metadata = some m ∧ TypesPass q m ∧ NamePass E q m ∧ MarksPass E q st

/-- Two goroutines are about to access the set of visited entities, one of them to write. -/
def Races (s : CState) : Prop :=
  ∃ (i j : Nat) (f g : CFrame), i ≠ j ∧ s.frames[i]? = some f ∧ s.frames[j]? = some g ∧ f.apc = .add ∧ (g.apc = .add ∨ g.apc = .check)

end Oidfed.Spec
