import Verif.Spec.Narrow
/-!
# Vocabulary for what can influence a collection
-/

namespace Oidfed.Spec

/-- In `E'` the authority, and every entity that is listed by it or below it in `E`, has the configuration it has in `E`, and the listings these configurations name are the same. All
other entities and endpoints may answer differently. -/
structure SameBelow (E E' : CollectEnv) (anchor : ID) : Prop where
  ec : ∀ x, Below (Lists E) anchor x → E'.ec x = E.ec x
  listAt : ∀ x st m f, Below (Lists E) anchor x → E.ec x = some st → st.metadata = some m → m.known .fed = some f →
    E'.listAt (f.str "federation_list_endpoint") = E.listAt (f.str "federation_list_endpoint")
  marks : ∀ x st, Below (Lists E) anchor x → E.ec x = some st → E'.marks st = E.marks st
  verifies : ∀ ta, E.ec anchor = some ta → ∀ x st, Below (Lists E) anchor x → E.ec x = some st → ∀ i ∈ E.marks st, E'.verifies ta i = E.verifies ta i
  fuzzy : E'.fuzzy = E.fuzzy

end Oidfed.Spec
