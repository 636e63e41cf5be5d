import Verif.Spec.OperatedMeta
import Verif.Lemmas.Decoded
import Verif.Props.Operated
import Verif.Props.PolicyMerge
import Verif.Props.MetadataApply
import Verif.Props.ChainFilter
/-!
# Policies in federations whose entities publish with this library: C117
-/

namespace Oidfed
open Spec

/-- The statement was read from what was configured as `p`. -/
structure ReadFrom (N : Numbering) (p : ESPayload) (s : Stmt) : Prop where
  same : ReadAs N p.asWritten s
  decoded : Decoded s

theorem ReadFrom.readMetadata {N : Numbering} {p : ESPayload} {s : Stmt} (h : ReadFrom N p s) : Option.Rel (ReadMetadata N) p.metadata s.metadata := h.same.metadata

theorem ReadFrom.readPolicy {N : Numbering} {p : ESPayload} {s : Stmt} (h : ReadFrom N p s) : Option.Rel (ReadPolicies N) p.policy s.policy := h.same.policy

theorem ReadFrom.readPolicyCrit {N : Numbering} {p : ESPayload} {s : Stmt} (h : ReadFrom N p s) : s.policyCrit = p.policyCrit.getD [] := h.same.policyCrit

theorem published_read {C : Crypto} {X : Reader} {keyOf : Nat → JKey} {msgOf : Nat → Jws} {ks : List JKey} {js : List Jws}
    (hX : Faithful X keyOf msgOf ks js) {signer : ID → JSigner} {P : String → Option Jws} {ser : Jws → String} (hP : ∀ j, P (ser j) = some j) {p : ESPayload}
    {j : Jws} (h : Published C X signer p j) : ∃ s, parseStmt P X.decode (ser j) = some s ∧ ReadFrom X.N p s := by
  obtain ⟨q, h1, h2, hfresh⟩ := stmt_roundtrip X.K hX.keys X.opq hX.maps p h.ok
  obtain ⟨h3, h4⟩ := signStatement_jws h.signed
  refine ⟨q.toStmt X.N (some (X.num j)), ?_, readAs_of_same h2, decoded X.K X.opq X.N _ _ q h1 hfresh⟩
  unfold parseStmt
  rw [hP]
  simp only [h4, if_true]
  unfold Reader.decode decodeStmt
  rw [h3, h1]
  rfl

theorem entryVals_get (N : Numbering) (e : AMap JV) (op : String) : (entryVals N e).get op = (AMap.get e op).map (JV.toVal N) := jget_mapv _ e op

theorem readPolicy_entry {N : Numbering} {a : JPolicy} {b : Policy} (h : ReadPolicy N a b) {k : String} {e : Entry} (he : AMap.get b k = some e) :
    ∃ e0, AMap.get a k = some e0 ∧ EqEntry (entryVals N e0) e := by
  have hk := h k
  rw [he] at hk
  cases ha : AMap.get a k with
  | none => rw [ha] at hk; cases hk
  | some e0 =>
    rw [ha] at hk
    cases hk
    rename_i hm
    refine ⟨e0, rfl, ?_⟩
    intro op
    have := hm op
    rw [entryVals_get]
    show _ = AMap.get e op
    cases h1 : AMap.get e0 op <;> cases h2 : AMap.get e op <;> rw [h1, h2] at this <;> cases this
    · rfl
    · rename_i he; rw [decoded_eq he]; rfl

theorem eqEntry_good {a b : Entry} (h : EqEntry a b) (hw : b.WF) (hg : GoodEntry a) (ha : Allowed a) (hn : NoNull a) : GoodEntry b ∧ b.verify = .ok () := by
  have h : ∀ op, AMap.get b op = AMap.get a op := fun op => (h op).symm
  have hhas : ∀ n, Has b n ↔ Has a n := fun n => by unfold Has; rw [h n]
  have hk : KnownOps b := fun n hn => hg.known n ((hhas n).mp hn)
  refine ⟨⟨hw, hk, ?_, ?_⟩, (verify_iff_allowed hk).mpr ⟨?_, ?_⟩⟩
  · intro s hs; rw [h] at hs; exact hg.nodup s hs
  · intro s hs; rw [h] at hs; exact hg.nodupDefault s hs
  · constructor
    · simp only [hhas]; exact ha.oneOfAlone
    · simp only [h]; exact ha.oneOfNonempty
    · simp only [h]; exact ha.supersetInSubset
    · simp only [h]; exact ha.addInSubset
    · simp only [h]; exact ha.addInValue
    · simp only [h]; exact ha.valueInSubset
    · simp only [hhas, h]; exact ha.defaultNotNull
  · constructor
    · simp only [hhas, h]; exact hn.superset
    · simp only [hhas, h]; exact hn.add
    · simp only [hhas, h]; exact hn.addValue
    · simp only [hhas, h]; exact hn.value

theorem obeys_congr {a b : Entry} (h : EqEntry a b) {isSet : Bool} {v : Val} (ho : Obeys b isSet v) : Obeys a isSet v := by
  have h : ∀ op, AMap.get a op = AMap.get b op := h
  obtain ⟨h1, h2, h3, h4⟩ := ho
  have he : Essential a ↔ Essential b := by unfold Essential; rw [h]
  constructor <;> simp only [h, he] <;> assumption

theorem fieldObeys_congr {a b : Entry} (h : EqEntry a b) {isSet : Bool} {f : Field} (ho : FieldObeys b isSet f) : ResolvedObeys a isSet f := by
  obtain ⟨v, h1, h2, h3⟩ := ho
  refine ⟨v, h1, obeys_congr h h2, ?_⟩
  have he : Essential a ↔ Essential b := by unfold Essential; rw [show AMap.get a _ = AMap.get b _ from h _]
  unfold EssentialOk
  rw [he]
  exact h3

theorem read_policy_good {N : Numbering} {p : ESPayload} {s : Stmt} (h : ReadFrom N p s) (hp : PoliciesOk N p) (P : Policies) (hP : s.policy = some P) (t : EType) :
    GoodPolicy (P.known t) ∧ Policy.verify (P.known t) = .ok () := by
  have hs := h.readPolicy
  rw [hP] at hs
  cases hq : p.policy with
  | none => rw [hq] at hs; cases hs
  | some Q =>
    rw [hq] at hs
    cases hs
    rename_i hr
    obtain ⟨hw, he⟩ := (h.decoded.policies P hP).2 t
    have key : ∀ k e, AMap.get (P.known t) k = some e → GoodEntry e ∧ e.verify = .ok () := by
      intro k e hke
      obtain ⟨e0, h0, heq⟩ := readPolicy_entry (hr.known t) hke
      obtain ⟨g1, g2, g3⟩ := (hp Q hq t).entries k e0 h0
      exact eqEntry_good heq (he k e hke) g1 g2 g3
    exact ⟨⟨hw, fun k e hke => (key k e hke).1⟩, policy_verify_of_get hw (fun k e hke => (key k e hke).2)⟩

theorem goVal_set {num : JV → Nat} {opq : Opaque} {k : MKind} {w : JV} (ht : decMeta opq k w = some (some w)) (hi : Informative w) : ¬ Unset (k.goVal num (some w)) := by
  obtain ⟨i1, i2, i3, i4, i5⟩ := hi
  intro hu
  cases k <;> cases w <;> simp only [decMeta] at ht <;> try cases ht
  case str.str s =>
    have hu' : Unset (.str s) := hu
    cases hu'; exact i1 rfl
  case bool.bool b =>
    have hu' : Unset (.bool b) := hu
    cases hu'; exact i2 rfl
  case int.num q =>
    have hu' : Unset (.int q.num) := hu
    split at ht
    · rename_i hd
      have hz : q.num = 0 := by
        generalize hn : q.num = n at hu'
        cases hu'; rfl
      exact i3 (by rw [Rat.zero_of_num_zero hz])
    · cases ht
  case strs.arr l => cases hu
  all_goals cases hu

theorem combinePolicy_names {p q m : Policy} {k : String} {e : Entry} (h : combinePolicy p q = .ok m) (he : AMap.get m k = some e) :
    (∃ e', AMap.get p k = some e') ∨ ∃ e', AMap.get q k = some e' := by
  by_cases hq : q = []
  · subst hq
    have hm : p = m := by unfold combinePolicy at h; exact Except.ok.inj h
    subst hm
    exact .inl ⟨e, he⟩
  · by_cases hp : p = []
    · subst hp
      have hm : q = m := by
        unfold combinePolicy at h
        rw [if_neg (by simpa using hq)] at h
        exact Except.ok.inj h
      subst hm
      exact .inr ⟨e, he⟩
    · rw [(combinePolicy_nonempty hp hq h).1 k] at he
      cases h1 : AMap.get p k with
      | some x => exact .inl ⟨x, rfl⟩
      | none =>
        cases h2 : AMap.get q k with
        | some y => exact .inr ⟨y, rfl⟩
        | none => rw [h1, h2] at he; cases he

theorem combineRest_names {k : String} : ∀ {ps : List Policy} {p m : Policy} {e : Entry}, combineRest p ps = .ok m → AMap.get m k = some e →
    ∃ q ∈ p :: ps, ∃ e', AMap.get q k = some e' := by
  intro ps
  induction ps with
  | nil => intro p m e h he; cases h; exact ⟨_, List.mem_cons_self .., e, he⟩
  | cons q ps ih =>
    intro p m e h he
    rw [combineRest] at h
    obtain ⟨out, ho, h⟩ := bind_ok h
    obtain ⟨x, hx, e', he'⟩ := ih h he
    rcases List.mem_cons.mp hx with rfl | hx
    · rcases combinePolicy_names ho he' with ⟨e'', h1⟩ | ⟨e'', h1⟩
      · exact ⟨p, by simp, e'', h1⟩
      · exact ⟨q, by simp, e'', h1⟩
    · exact ⟨x, by simp [hx], e', he'⟩

theorem combineAll_names {k : String} {ps : List Policy} {m : Policy} {e : Entry} (h : combineAll ps = .ok m) (he : AMap.get m k = some e) :
    ∃ q ∈ ps, ∃ e', AMap.get q k = some e' := by
  cases ps with
  | nil => cases h; cases he
  | cons p ps =>
    rw [combineAll] at h
    obtain ⟨_, _, h⟩ := bind_ok h
    exact combineRest_names h he

/-- The metadata of a chain that was read from what its issuers configured. -/
theorem bound_chain {N : Numbering} (types : List String) (opq : Opaque) (leaf : ESPayload) (ps : List ESPayload) (s0 : Stmt) (rest : Chain) (hne : rest ≠ [])
    (h0 : ReadFrom N leaf s0) (hrest : ∀ s ∈ rest, ∃ p ∈ ps, ReadFrom N p s) (hps : ∀ p ∈ ps, ∃ s ∈ rest, ReadFrom N p s)
    (hok : PayloadOk opq leaf) (hpol : ∀ p ∈ leaf :: ps, PoliciesOk N p) (r : Option Metadata)
    (h : chainMetadata (restrictTypes types s0 :: rest) = .ok r) :
    ∃ md, r = some md ∧ ResolvedFrom N types leaf (leaf :: ps) md := by
  obtain ⟨b, rest', rfl⟩ := List.exists_cons_of_ne_nil hne
  have hpol0 : (restrictTypes types s0).policy = s0.policy := by unfold restrictTypes; split <;> rfl
  obtain ⟨p, md, rfl, hp, ha⟩ := chainMetadata_ok h
  refine ⟨md, rfl, ?_⟩
  have hgood : ∀ t, ∀ s ∈ restrictTypes types s0 :: b :: rest', ∀ P, s.policy = some P → GoodPolicy (P.known t) ∧ Policy.verify (P.known t) = .ok () := by
    intro t s hs P hP
    rcases List.mem_cons.mp hs with rfl | hs
    · rw [hpol0] at hP
      exact read_policy_good h0 (hpol leaf (by simp)) P hP t
    · obtain ⟨q, hq, hr⟩ := hrest s hs
      exact read_policy_good hr (hpol q (by simp [hq])) P hP t
  obtain ⟨f1, f2, _⟩ := C29_frame_partial _ md p ha
  intro t
  have hmeta : ∀ em, (restrictTypes types s0).metadata.bind (fun m => m.known t) = some em →
      (types = [] ∨ t.tag ∈ types) ∧ s0.metadata.bind (fun m => m.known t) = some em := by
    intro em hem
    unfold restrictTypes at hem
    split at hem
    · rename_i he
      exact ⟨.inl (List.isEmpty_iff.mp he), hem⟩
    · cases hm : s0.metadata with
      | none => rw [hm] at hem; cases hem
      | some m =>
        rw [hm] at hem
        have hem' : (if types.contains t.tag then m.known t else none) = some em := hem
        split at hem'
        · rename_i hc
          exact ⟨.inr (List.contains_iff_mem.mp hc), hem'⟩
        · cases hem'
  have hmeta' : (types = [] ∨ t.tag ∈ types) → (restrictTypes types s0).metadata.bind (fun m => m.known t) = s0.metadata.bind (fun m => m.known t) := by
    intro hc
    unfold restrictTypes
    split
    · rfl
    · rename_i he
      rcases hc with hc | hc
      · rw [hc] at he; exact absurd rfl he
      · cases hm : s0.metadata with
        | none => rfl
        | some m =>
          show (if types.contains t.tag then m.known t else none) = _
          rw [if_pos (List.contains_iff_mem.mpr hc)]
          rfl
  have hgetD : ((restrictTypes types s0).metadata.getD Metadata.empty).known t = (restrictTypes types s0).metadata.bind (fun m => m.known t) := by
    cases (restrictTypes types s0).metadata <;> rfl
  -- what was read for this entity type against what was configured
  have hrel : Option.Rel (ReadStruct N t) (leaf.metadata.bind (fun m => m.known t)) (s0.metadata.bind (fun m => m.known t)) := by
    have hm := h0.readMetadata
    cases h1 : leaf.metadata <;> cases h2 : s0.metadata <;> rw [h1, h2] at hm <;> cases hm
    · exact .none
    · rename_i hr; exact hr.known t
  cases hem : (restrictTypes types s0).metadata.bind (fun m => m.known t) with
  | none =>
    rw [f1 t (hgetD.trans hem)]
    have : askedOf types leaf t = none := by
      unfold askedOf
      split
      · rename_i hc
        rw [hmeta' hc] at hem
        rw [hem] at hrel
        cases hl : leaf.metadata.bind (fun m => m.known t) with
        | none => rfl
        | some x => rw [hl] at hrel; cases hrel
      · rfl
    rw [this]
    exact .none
  | some em =>
    obtain ⟨hc, hs0⟩ := hmeta em hem
    rw [hs0] at hrel
    unfold askedOf
    rw [if_pos hc]
    cases hl : leaf.metadata.bind (fun m => m.known t) with
    | none => rw [hl] at hrel; cases hrel
    | some own =>
      rw [hl] at hrel
      cases hrel
      rename_i hread
      obtain ⟨em', hem', hext, hws, hlen, hfr⟩ := f2 t em (hgetD.trans hem)
      rw [hem']
      obtain ⟨m0, hm0, hk0⟩ := Option.bind_eq_some_iff.mp hem
      obtain ⟨m1, hm1, hk1⟩ := Option.bind_eq_some_iff.mp hs0
      have hflag := h0.decoded.flags m1 hm1 t em hk1
      obtain ⟨md', em'', e1, e2, e3, e4⟩ := C20_chain_obeys_partial (restrictTypes types s0) b rest' (some md) t (hgood t) m0 hm0 em hk0 hflag h
      cases e1
      rw [hem'] at e2
      cases e2
      have hnone : ∀ k, ¬ Names (leaf :: ps) t k → AMap.get (p.known t) k = none := by
        intro k hno
        have hcomb := mergePolicies_ok hp t
        cases hg : AMap.get (p.known t) k with
        | none => rfl
        | some e =>
          exfalso
          obtain ⟨q, hq, e', he'⟩ := combineAll_names hcomb hg
          obtain ⟨Q, hQ, rfl⟩ := List.mem_map.mp hq
          rw [List.mem_filterMap] at hQ
          obtain ⟨oQ, hoQ, hid⟩ := hQ
          obtain ⟨s, hs, rfl⟩ := List.mem_map.mp hoQ
          have hex : ∃ q ∈ leaf :: ps, Option.Rel (ReadPolicies N) q.policy s.policy := by
            rcases List.mem_cons.mp hs with rfl | hs
            · exact ⟨leaf, by simp, by rw [hpol0]; exact h0.readPolicy⟩
            · obtain ⟨q, hq, hr⟩ := hrest s hs
              exact ⟨q, by simp [hq], hr.readPolicy⟩
          obtain ⟨q, hq, hr⟩ := hex
          have hid' : s.policy = some Q := hid
          rw [hid'] at hr
          cases hqp : q.policy with
          | none => rw [hqp] at hr; cases hr
          | some J =>
            rw [hqp] at hr
            cases hr
            rename_i hrp
            obtain ⟨e0, h0', _⟩ := readPolicy_entry (hrp.known t) he'
            exact hno ⟨q, hq, J, e0, hqp, h0'⟩
      refine .some ⟨?_, ?_, fun hno => hext (hnone _ hno) ▸ hread.extra⟩
      · intro f hf
        obtain ⟨v, hv, hmem⟩ := hread.fields f hf
        obtain ⟨i, hi⟩ := List.mem_iff_getElem?.mp hmem
        obtain ⟨f', hf', n1, n2, _, _⟩ := hfr i _ hi
        refine ⟨f', List.mem_of_getElem? hf', n1, n2, em.wasSet.contains f.name, ?_, ?_⟩
        · intro w hw hinf
          have : v = some w := by
            rcases hv with e | ⟨_, e⟩
            · rw [e, hw]
            · rw [hw] at e
              obtain ⟨_, _, _, i4, i5⟩ := hinf
              rcases e with e | e | e
              · cases e
              · cases e; exact absurd rfl i4
              · cases e; exact absurd rfl i5
          cases hset : em.wasSet.contains f.name with
          | true => rfl
          | false =>
            have hu := hflag _ hmem hset
            obtain ⟨ml, hml, hkl⟩ := Option.bind_eq_some_iff.mp hl
            have ht := ((hok.metadata ml hml).2 t own hkl).typed f hf w hw
            rw [this] at hu
            exact absurd hu (goVal_set ht hinf)
        · intro q hq Q hQ e he
          have hex : ∃ s ∈ restrictTypes types s0 :: b :: rest', Option.Rel (ReadPolicies N) q.policy s.policy := by
            rcases List.mem_cons.mp hq with rfl | hq
            · exact ⟨_, List.mem_cons_self .., by rw [hpol0]; exact h0.readPolicy⟩
            · obtain ⟨s, hs, hr⟩ := hps q hq
              exact ⟨s, List.mem_cons_of_mem _ hs, hr.readPolicy⟩
          obtain ⟨s, hs, hr⟩ := hex
          rw [hQ] at hr
          cases hsp : s.policy with
          | none => rw [hsp] at hr; cases hr
          | some P =>
            rw [hsp] at hr
            cases hr
            rename_i hrp
            have hk := hrp.known t f.tag
            rw [he] at hk
            cases hg : AMap.get (P.known t) f.tag with
            | none => rw [hg] at hk; cases hk
            | some e' =>
              obtain ⟨e0, h0', heq⟩ := readPolicy_entry (hrp.known t) hg
              rw [he] at h0'
              cases h0'
              have := e4 i f' hf' s hs P hsp e' (by rw [n2]; exact hg)
              rw [n1] at this
              exact fieldObeys_congr heq this
      · intro f hf hno
        obtain ⟨v, hv, hmem⟩ := hread.fields f hf
        obtain ⟨i, hi⟩ := List.mem_iff_getElem?.mp hmem
        obtain ⟨f', hf', _, _, _, hsame⟩ := hfr i _ hi
        refine ⟨v, hv, ?_⟩
        have := hsame (hnone _ hno)
        rw [← this]
        exact List.mem_of_getElem? hf'

/-! ## Chains without policies -/

theorem applyFields_nil (ws : List String) : ∀ fs : List Field, applyFields [] ws fs = .ok fs
  | [] => rfl
  | f :: fs => by
    show (do let f' ← applyField [] ws f; let fs' ← applyFields [] ws fs; .ok (f' :: fs')) = _
    rw [applyFields_nil ws fs]
    rfl

theorem applyKnown_nil (m : Metadata) (p : Policies) (hp : ∀ t, p.known t = []) : ∀ ts : List EType, ∃ k, applyKnown m p ts = .ok k
  | [] => ⟨_, rfl⟩
  | t :: ts => by
    obtain ⟨k, hk⟩ := applyKnown_nil m p hp ts
    unfold applyKnown
    rw [hk]
    cases m.known t with
    | none => exact ⟨_, rfl⟩
    | some em =>
      simp only [EntityMeta.apply, hp t, applyFields_nil]
      exact ⟨_, rfl⟩

theorem applyExtra_nil : ∀ xs : AMap Val, applyExtra [] xs = .ok xs
  | [] => rfl
  | (k, v) :: xs => by
    unfold applyExtra
    rw [applyExtra_nil xs]
    rfl

theorem chainMetadata_no_policy (a b : Stmt) (rest : Chain) (hp : ∀ s ∈ a :: b :: rest, s.policy = none)
    (hc : ∀ s ∈ a :: b :: rest, ∀ n ∈ s.policyCrit, n ∈ operatorOrder) : ∃ m, chainMetadata (a :: b :: rest) = .ok m := by
  have h1 : critOk (a :: b :: rest) = true := by
    unfold critOk
    rw [List.all_eq_true]
    intro s hs
    rw [List.all_eq_true]
    intro n hn
    exact List.contains_iff_mem.mpr (hc s hs n hn)
  have h2 : ((a :: b :: rest).map Stmt.policy).filterMap id = [] := by
    rw [List.filterMap_eq_nil_iff]
    intro o ho
    obtain ⟨s, hs, rfl⟩ := List.mem_map.mp ho
    exact hp s hs
  obtain ⟨p, h3, h5, h6⟩ : ∃ p, mergePolicies ((a :: b :: rest).map Stmt.policy) = .ok p ∧ (∀ t, p.known t = []) ∧ p.extra = [] := by
    unfold mergePolicies
    rw [h2]
    exact ⟨_, rfl, by intro t; cases t <;> rfl, rfl⟩
  have h4 : ∃ r, (a.metadata.getD Metadata.empty).applyPolicy (some p) = .ok r := by
    unfold Metadata.applyPolicy
    dsimp only
    obtain ⟨k, hk⟩ := applyKnown_nil (a.metadata.getD Metadata.empty) p h5 EType.all
    rw [hk, h6]
    simp only [applyExtra_nil, bind, Except.bind]
    exact ⟨_, rfl⟩
  obtain ⟨r, hr⟩ := h4
  unfold chainMetadata
  dsimp only
  rw [h1, h3]
  simp only [Bool.not_true, Bool.false_eq_true, if_false, bind, Except.bind, hr]
  exact ⟨_, rfl⟩

/-! ## C117 -/

/-- What is read of the JWTs on the way. -/
theorem read_on_the_way {C : Crypto} {X : Reader} {keyOf : Nat → JKey} {msgOf : Nat → Jws} {ks : List JKey} {js : List Jws} (hX : Faithful X keyOf msgOf ks js)
    {signer : ID → JSigner} {P : String → Option Jws} {ser : Jws → String} (hP : ∀ j, P (ser j) = some j) {W : World} {A : List Anchor} {types : List String}
    {leaf : ESPayload} {leafJwt : Jws} {as : List Authority} {top : Authority}
    (ho : OperatedWith C X (fun j => parseStmt P X.decode (ser j)) keyOf signer W A types leaf leafJwt as top)
    {s0 : Stmt} {rest : Chain} (h0 : parseStmt P X.decode (ser leafJwt) = some s0)
    (hr : rest.map some = (as.map Authority.aboutJwt ++ [top.configJwt]).map (fun j => parseStmt P X.decode (ser j))) :
    rest ≠ [] ∧ ReadFrom X.N leaf s0 ∧ (∀ s ∈ rest, ∃ p ∈ as.map Authority.about ++ [top.config], ReadFrom X.N p s) ∧
      (∀ p ∈ as.map Authority.about ++ [top.config], ∃ s ∈ rest, ReadFrom X.N p s) := by
  have hauth : ∀ a ∈ as, Published C X signer a.config a.configJwt ∧ Published C X signer a.about a.aboutJwt := by
    intro a ha
    obtain ⟨k, hk⟩ := List.mem_iff_getElem?.mp ha
    have hlt : k < (configs leaf as).length := by
      have := (List.getElem?_eq_some_iff.mp hk).1
      simp only [configs, List.length_cons, List.length_map]
      omega
    have := ho.authorities k _ a (List.getElem?_eq_getElem hlt) hk
    exact ⟨this.config, this.about⟩
  have htop := List.mem_of_getLast? ho.last
  have hone : ∀ p j s, Published C X signer p j → parseStmt P X.decode (ser j) = some s → ReadFrom X.N p s := by
    intro p j s hp hj
    obtain ⟨s', h1, h2⟩ := published_read hX hP hp
    rw [hj] at h1
    cases h1
    exact h2
  refine ⟨?_, hone _ _ _ ho.leaf_published h0, ?_, ?_⟩
  · rintro rfl
    have := congrArg List.length hr
    simp at this
  · intro s hs
    have hs' : some s ∈ rest.map some := List.mem_map.mpr ⟨s, hs, rfl⟩
    rw [hr] at hs'
    obtain ⟨j, hj, he⟩ := List.mem_map.mp hs'
    rcases List.mem_append.mp hj with hj | hj
    · obtain ⟨a, ha, rfl⟩ := List.mem_map.mp hj
      exact ⟨a.about, List.mem_append_left _ (List.mem_map.mpr ⟨a, ha, rfl⟩), hone _ _ _ (hauth a ha).2 he⟩
    · rw [List.mem_singleton.mp hj] at he
      exact ⟨top.config, List.mem_append_right _ (List.mem_singleton.mpr rfl), hone _ _ _ (hauth top htop).1 he⟩
  · have back : ∀ p j, Published C X signer p j → j ∈ as.map Authority.aboutJwt ++ [top.configJwt] → ∃ s ∈ rest, ReadFrom X.N p s := by
      intro p j hp hj
      obtain ⟨s, h1, h2⟩ := published_read hX hP hp
      have hm : some s ∈ rest.map some := by
        rw [hr]
        exact List.mem_map.mpr ⟨j, hj, h1⟩
      obtain ⟨s', hs', e⟩ := List.mem_map.mp hm
      cases e
      exact ⟨s, hs', h2⟩
    intro p hp
    rcases List.mem_append.mp hp with hp | hp
    · obtain ⟨a, ha, rfl⟩ := List.mem_map.mp hp
      exact back _ _ (hauth a ha).2 (List.mem_append_left _ (List.mem_map.mpr ⟨a, ha, rfl⟩))
    · rw [List.mem_singleton.mp hp]
      exact back _ _ (hauth top htop).1 (List.mem_append_right _ (List.mem_singleton.mpr rfl))

/-- **C117** (part): in a federation whose entities publish with the library (as in C112), if resolving with metadata finishes, the chain of the JWTs on the way is
returned exactly if its metadata can be resolved; the metadata then has the entity types the leaf configured (and that are asked for), every attribute obeys all
policies that the superiors configured for it, and attributes without policy are as the leaf configured them. The policies use known operators in allowed
combinations, without repeated elements in `value` and `default` (C20). -/
theorem C117_policies_bind_partial (C : Crypto) (hC : Scheme C) (X : Reader) (keyOf : Nat → JKey) (msgOf : Nat → Jws) (P : String → Option Jws)
    (ser : Jws → String) (hP : ∀ j, P (ser j) = some j) (signer : ID → JSigner) (W : World) (hW : W.sig = jwsOracle C keyOf msgOf) (r : Resolver)
    (leaf : ESPayload) (leafJwt : Jws) (as : List Authority) (top : Authority)
    (hX : Faithful X keyOf msgOf (keysOf as) (jwtsOf leafJwt as))
    (ho : OperatedWith C X (fun j => parseStmt P X.decode (ser j)) keyOf signer W r.anchors r.types leaf leafJwt as top)
    (hpol : ∀ p ∈ onTheWay leaf as top, PoliciesOk X.N p)
    (hst : r.start ≠ "") (hs : W.start r.start = parseStmt P X.decode (ser leafJwt))
    (fuel : Nat) (cs : List Chain) (h : r.validChains W fuel = .ok (some cs)) :
    ∃ s0 rest, (s0 :: rest).map some = (jwtsOnTheWay leafJwt as top).map (fun j => parseStmt P X.decode (ser j)) ∧
      (restrictTypes r.types s0 :: rest ∈ cs ↔ ∃ m, chainMetadata (restrictTypes r.types s0 :: rest) = .ok m) ∧
      ∀ m, chainMetadata (restrictTypes r.types s0 :: rest) = .ok m → ∃ md, m = some md ∧ ResolvedFrom X.N r.types leaf (onTheWay leaf as top) md := by
  obtain ⟨cs0, h1, h2⟩ := validChains_eq h
  obtain ⟨s0, rest, e1, e2, e3⟩ := C112_operated_resolves_partial C hC X keyOf msgOf P ser hP signer W hW r leaf leafJwt as top hX ho hst hs fuel cs0 h1
  obtain ⟨g1, g2, g3, g4⟩ := read_on_the_way hX hP ho e1 e2
  refine ⟨s0, rest, ?_, ?_, ?_⟩
  · unfold jwtsOnTheWay
    rw [List.map_cons, List.map_cons, e2, e1]
  · rw [filterValidMetadata_mem _ _ h2]
    exact ⟨fun hm => hm.2, fun hm => ⟨e3, hm⟩⟩
  · intro m hm
    exact bound_chain r.types X.opq leaf _ s0 rest g1 g2 g3 g4 ho.leaf_published.ok hpol m hm

/-- **C117** (part): if nobody on the way has configured a policy, the chain is always returned, with the metadata that the leaf configured. -/
theorem C117_no_policies_partial (C : Crypto) (hC : Scheme C) (X : Reader) (keyOf : Nat → JKey) (msgOf : Nat → Jws) (P : String → Option Jws)
    (ser : Jws → String) (hP : ∀ j, P (ser j) = some j) (signer : ID → JSigner) (W : World) (hW : W.sig = jwsOracle C keyOf msgOf) (r : Resolver)
    (leaf : ESPayload) (leafJwt : Jws) (as : List Authority) (top : Authority)
    (hX : Faithful X keyOf msgOf (keysOf as) (jwtsOf leafJwt as))
    (ho : OperatedWith C X (fun j => parseStmt P X.decode (ser j)) keyOf signer W r.anchors r.types leaf leafJwt as top)
    (hno : ∀ p ∈ onTheWay leaf as top, p.policy = none ∧ ∀ n ∈ p.policyCrit.getD [], n ∈ supportedOperators)
    (hst : r.start ≠ "") (hs : W.start r.start = parseStmt P X.decode (ser leafJwt))
    (fuel : Nat) (cs : List Chain) (h : r.validChains W fuel = .ok (some cs)) :
    ∃ s0 rest md, (s0 :: rest).map some = (jwtsOnTheWay leafJwt as top).map (fun j => parseStmt P X.decode (ser j)) ∧
      restrictTypes r.types s0 :: rest ∈ cs ∧ chainMetadata (restrictTypes r.types s0 :: rest) = .ok (some md) ∧
      ∀ t, Option.Rel (ReadStruct X.N t) (askedOf r.types leaf t) (md.known t) := by
  have hpol : ∀ p ∈ onTheWay leaf as top, PoliciesOk X.N p := by
    intro p hp Q hQ
    rw [(hno p hp).1] at hQ
    cases hQ
  obtain ⟨cs0, h1, h2⟩ := validChains_eq h
  obtain ⟨s0, rest, e1, e2, e3⟩ := C112_operated_resolves_partial C hC X keyOf msgOf P ser hP signer W hW r leaf leafJwt as top hX ho hst hs fuel cs0 h1
  obtain ⟨g1, g2, g3, g4⟩ := read_on_the_way hX hP ho e1 e2
  obtain ⟨b, rest', rfl⟩ := List.exists_cons_of_ne_nil g1
  have hsame : ∀ s ∈ restrictTypes r.types s0 :: b :: rest', ∃ p ∈ onTheWay leaf as top, s.policyCrit = p.policyCrit.getD [] ∧ Option.Rel (ReadPolicies X.N) p.policy s.policy := by
    intro s hs
    rcases List.mem_cons.mp hs with rfl | hs
    · refine ⟨leaf, by simp [onTheWay], ?_⟩
      unfold restrictTypes
      split <;> exact ⟨g2.readPolicyCrit, g2.readPolicy⟩
    · obtain ⟨p, hp, hr⟩ := g3 s hs
      exact ⟨p, List.mem_cons_of_mem _ hp, hr.readPolicyCrit, hr.readPolicy⟩
  obtain ⟨m, hm⟩ := chainMetadata_no_policy (restrictTypes r.types s0) b rest'
    (by
      intro s hs
      obtain ⟨p, hp, _, hr⟩ := hsame s hs
      rw [(hno p hp).1] at hr
      cases hsp : s.policy with
      | none => rfl
      | some Q => rw [hsp] at hr; cases hr)
    (by
      intro s hs n hn
      obtain ⟨p, hp, hc, _⟩ := hsame s hs
      rw [hc] at hn
      exact (show ∀ n ∈ supportedOperators, n ∈ operatorOrder by decide) n ((hno p hp).2 n hn))
  obtain ⟨md, rfl, hres⟩ := bound_chain r.types X.opq leaf _ s0 _ g1 g2 g3 g4 ho.leaf_published.ok hpol m hm
  refine ⟨s0, b :: rest', md, ?_, ?_, hm, ?_⟩
  · unfold jwtsOnTheWay
    show some s0 :: (b :: rest').map some = _
    rw [e2, ← e1]
    rfl
  · rw [filterValidMetadata_mem _ _ h2]
    exact ⟨e3, _, hm⟩
  · intro t
    have := hres t
    cases ha : askedOf r.types leaf t <;> cases hk : md.known t <;> rw [ha, hk] at this <;> cases this
    · exact .none
    · rename_i hb
      have hnn : ∀ k, ¬ Names (onTheWay leaf as top) t k := by
        rintro k ⟨p, hp, Q, e, hQ, _⟩
        rw [(hno p hp).1] at hQ
        cases hQ
      exact .some ⟨fun f hf => hb.frame f hf (hnn _), hb.extra (hnn _)⟩

/-! ## No panic -/

theorem typed_of_read {N : Numbering} {sh : Shape} {e0 : AMap JV} {e : Entry} (hw : e.WF) (h : EqEntry (entryVals N e0) e) (ht : TypedEntry sh (entryVals N e0)) :
    TypedEntry sh e := by
  intro kv hkv
  have h1 : AMap.get e kv.1 = some kv.2 := mem_get hw hkv
  rw [← show AMap.get (entryVals N e0) kv.1 = AMap.get e kv.1 from h kv.1] at h1
  exact ht (kv.1, kv.2) (get_mem h1)

theorem restrict_fields {types : List String} {s0 : Stmt} (hs : Decoded s0) (t : EType) :
    ∀ f ∈ fieldsOf (restrictTypes types s0).metadata t, (f.name = "Extra" ∧ f.tag = "-" ∧ f.ty = .obj ∧ f.val.ty? = some .obj) ∨ ∃ g ∈ metaFields t, f.name = g.name ∧ f.tag = g.tag ∧ f.ty = g.kind.ty ∧ f.val.ty? = some f.ty := by
  have base : ∀ f ∈ fieldsOf s0.metadata t, (f.name = "Extra" ∧ f.tag = "-" ∧ f.ty = .obj ∧ f.val.ty? = some .obj) ∨ ∃ g ∈ metaFields t, f.name = g.name ∧ f.tag = g.tag ∧ f.ty = g.kind.ty ∧ f.val.ty? = some f.ty := by
    intro f hf
    unfold fieldsOf at hf
    split at hf
    · cases hf
    · rename_i m hm
      split at hf
      · cases hf
      · rename_i em hem
        exact hs.fields m hm t em hem f hf
  intro f hf
  unfold restrictTypes at hf
  split at hf
  · exact base f hf
  · refine base f ?_
    cases hm : s0.metadata with
    | none => rw [hm] at hf; cases hf
    | some m =>
      rw [hm] at hf
      unfold fieldsOf at hf
      dsimp only [Option.map_some, Metadata.restrict] at hf
      by_cases hc : types.contains t.tag
      · rw [if_pos hc] at hf; exact hf
      · rw [if_neg hc] at hf; cases hf

theorem read_policy_typed {N : Numbering} {p : ESPayload} {s : Stmt} (h : ReadFrom N p s) (hp : PoliciesFit N p) (P : Policies) (hP : s.policy = some P)
    (t : EType) (fs : List Field) (hfs : ∀ f ∈ fs, (f.name = "Extra" ∧ f.tag = "-" ∧ f.ty = .obj ∧ f.val.ty? = some .obj) ∨ ∃ g ∈ metaFields t, f.name = g.name ∧ f.tag = g.tag ∧ f.ty = g.kind.ty ∧ f.val.ty? = some f.ty) :
    P.extra = [] ∧ TypedPolicy fs (P.known t) := by
  obtain ⟨hx, hw⟩ := h.decoded.policies P hP
  refine ⟨hx, ?_⟩
  have hs := h.readPolicy
  rw [hP] at hs
  cases hq : p.policy with
  | none => rw [hq] at hs; cases hs
  | some Q =>
    rw [hq] at hs
    cases hs
    rename_i hr
    intro ke hke
    have hget := mem_get (hw t).1 hke
    obtain ⟨e0, h0, heq⟩ := readPolicy_entry (hr.known t) hget
    obtain ⟨g1, g2, g3⟩ := hp Q hq t _ _ h0
    refine ⟨typed_of_read ((hw t).2 _ _ hget) heq g1, ?_⟩
    intro f hf htag
    rcases hfs f hf with ⟨n1, n2, n3, _⟩ | ⟨g, hg, n1, n2, n3, _⟩
    · have : shapeOf f = shapeOf ⟨"Extra", "-", .obj, .nil⟩ := by
        unfold shapeOf
        dsimp only
        rw [n1, n3]
      rw [this]
      exact typed_of_read ((hw t).2 _ _ hget) heq (g3 (by rw [← htag, n2]))
    have : shapeOf f = shapeOf ⟨g.name, g.tag, g.kind.ty, .nil⟩ := by
      unfold shapeOf
      dsimp only
      rw [n1, n3]
    rw [this]
    exact typed_of_read ((hw t).2 _ _ hget) heq (g2 g hg (by rw [← n2, htag]))

theorem scope_str : ∀ t, ∀ g ∈ metaFields t, g.name = "Scope" → g.kind = .str := by
  intro t
  cases t <;> decide

theorem no_dash : ∀ t, ∀ g ∈ metaFields t, g.tag ≠ "-" := by
  intro t
  cases t <;> decide

theorem decoded_fieldOk {t : EType} {f : Field} (h : (f.name = "Extra" ∧ f.tag = "-" ∧ f.ty = .obj ∧ f.val.ty? = some .obj) ∨
    ∃ g ∈ metaFields t, f.name = g.name ∧ f.tag = g.tag ∧ f.ty = g.kind.ty ∧ f.val.ty? = some f.ty) : FieldOk f := by
  rcases h with ⟨n1, _, n3, n4⟩ | ⟨g, hg, n1, n2, n3, n4⟩
  · exact ⟨by rw [n4, n3], fun hn => absurd (n1.symm.trans hn) (by decide), fun _ => n3⟩
  · refine ⟨n4, ?_, fun ht => absurd (by rw [← n2]; exact ht) (no_dash t g hg)⟩
    intro hn
    rw [n3, scope_str t g hg (by rw [← n1]; exact hn)]
    rfl

theorem filterValid_panic : ∀ {cs : List Chain} {f : Fail}, filterValidMetadata cs = .error f → f = .panic ∧ ∃ c ∈ cs, chainMetadata c = .error .panic
  | [], _, h => by cases h
  | c :: cs, f, h => by
    unfold filterValidMetadata at h
    split at h
    · rename_i hc; cases h; exact ⟨rfl, c, by simp, hc⟩
    · obtain ⟨e, d, hd, hc⟩ := filterValid_panic h
      exact ⟨e, d, by simp [hd], hc⟩
    · cases hf : filterValidMetadata cs with
      | error g =>
        obtain ⟨e, d, hd, hc⟩ := filterValid_panic hf
        rw [hf] at h; cases h
        exact ⟨e, d, by simp [hd], hc⟩
      | ok x => rw [hf] at h; cases h

/-- **C117** (part): if everything that is served was published with the library, the leaf has metadata, and the operator values of all policies fit the
attributes they are for, resolving with metadata does not panic. -/
theorem C117_no_panic_partial (C : Crypto) (X : Reader) (keyOf : Nat → JKey) (msgOf : Nat → Jws) (P : String → Option Jws)
    (ser : Jws → String) (hP : ∀ j, P (ser j) = some j) (signer : ID → JSigner) (W : World) (r : Resolver) (ks : List JKey) (js : List Jws)
    (hX : Faithful X keyOf msgOf ks js)
    (hall : ∀ s, ServedIn W r.start s → ∃ p j, Published C X signer p j ∧ PoliciesFit X.N p ∧ parseStmt P X.decode (ser j) = some s)
    (hleaf : ∀ s, W.start r.start = some s → s.metadata ≠ none) (fuel : Nat) : r.validChains W fuel ≠ .error .panic := by
  intro h
  have hread : ∀ s, ServedIn W r.start s → ∃ p, ReadFrom X.N p s ∧ PoliciesFit X.N p := by
    intro s hs
    obtain ⟨p, j, hp, hf, hj⟩ := hall s hs
    obtain ⟨s', h1, h2⟩ := published_read hX hP hp
    rw [hj] at h1
    cases h1
    exact ⟨p, h2, hf⟩
  rcases C11_no_panic_partial W r fuel with ⟨o, ho⟩ | ⟨_, s0, hs0, hm⟩
  · unfold Resolver.validChains at h
    rw [ho] at h
    cases o with
    | none => cases h
    | some cs0 =>
      simp only [bind, Except.bind] at h
      cases hf : filterValidMetadata cs0 with
      | ok x => rw [hf] at h; cases h
      | error g =>
        obtain ⟨_, c, hc, hpan⟩ := filterValid_panic hf
        have hprod : Produces W r c := ⟨fuel, cs0, .inl ho, hc⟩
        have hst : ∃ s0, ServedIn W r.start s0 ∧ c.head? = some (restrictTypes r.types s0) ∧ ∀ s ∈ c.tail, ServedIn W r.start s := by
          rcases C02_every_chain_anchored_partial W r c hprod with ⟨hl, _⟩ | ⟨s0, h0, rfl, _⟩
          · obtain ⟨s0, steps, h0, hv, st, hlast, rfl⟩ := produces_path hprod hl
            refine ⟨s0, .inl h0, rfl, ?_⟩
            intro x hx
            simp only [List.tail_cons, List.mem_append, List.mem_map, List.mem_singleton] at hx
            rcases hx with ⟨a, ha, rfl⟩ | rfl
            · obtain ⟨k, hk⟩ := List.mem_iff_getElem?.mp ha
              obtain ⟨e, ok, _⟩ := step_ok hv k a hk
              exact .inr (.inr ⟨_, _, _, _, ok.fetched⟩)
            · obtain ⟨k, hk⟩ := List.mem_iff_getElem?.mp (List.mem_of_getLast? hlast)
              obtain ⟨e, ok, _⟩ := step_ok hv k st hk
              exact .inr (.inl ⟨_, _, ok.served⟩)
          · exact ⟨s0, .inl h0, rfl, by simp⟩
        obtain ⟨s0, hs0, hhead, htail⟩ := hst
        obtain ⟨p0, hr0, hf0⟩ := hread s0 hs0
        have hfs := fun t => restrict_fields (types := r.types) hr0.decoded t
        refine C30_no_panic_partial c ?_ ?_ hpan
        · intro s hs Q hQ
          rw [hhead]
          simp only [Option.bind_some]
          have hmem : s = restrictTypes r.types s0 ∨ s ∈ c.tail := by
            cases c with
            | nil => cases hs
            | cons a l =>
              cases hhead
              rcases List.mem_cons.mp hs with e | e
              · exact .inl e
              · exact .inr e
          rcases hmem with rfl | hmem
          · have hQ' : s0.policy = some Q := by
              rw [← hQ]; unfold restrictTypes; split <;> rfl
            exact ⟨(read_policy_typed hr0 hf0 Q hQ' .op _ (hfs .op)).1, fun t => (read_policy_typed hr0 hf0 Q hQ' t _ (hfs t)).2⟩
          · obtain ⟨p, hr, hf'⟩ := hread s (htail s hmem)
            exact ⟨(read_policy_typed hr hf' Q hQ .op _ (hfs .op)).1, fun t => (read_policy_typed hr hf' Q hQ t _ (hfs t)).2⟩
        · intro t f hf
          rw [hhead] at hf
          exact decoded_fieldOk (hfs t f hf)
  · exact hleaf s0 hs0 hm

namespace ExO
open ExS

/-- What is served is one of the five statements. -/
theorem served (q : Bool) (read : Jws → Option Stmt) (s : Stmt) (h : ServedIn (W q read) R.start s) :
    ∃ p ∈ [leaf q, iCfg q, il q, tCfg q, ti q], read (jwt p) = some s := by
  rcases h with h | ⟨_, id, h⟩ | ⟨_, ep, sub, iss, h⟩
  · exact ⟨leaf q, by simp, h⟩
  · have h' : (if id = "i" then read (jwt (iCfg q)) else if id = "t" then read (jwt (tCfg q)) else none) = some s := h
    split at h'
    · exact ⟨iCfg q, by simp, h'⟩
    · split at h'
      · exact ⟨tCfg q, by simp, h'⟩
      · cases h'
  · have h' : (if ep = "i/fetch" ∧ sub = "l" ∧ iss = "i" then read (jwt (il q)) else
      if ep = "t/fetch" ∧ sub = "i" ∧ iss = "t" then read (jwt (ti q)) else none) = some s := h
    split at h'
    · exact ⟨il q, by simp, h'⟩
    · split at h'
      · exact ⟨ti q, by simp, h'⟩
      · cases h'

/-- The policies, if there are any. -/
theorem policy_is (q : Bool) : ∀ p ∈ [leaf q, iCfg q, il q, tCfg q, ti q], p.policy = if q then (payload ⟨none, none, none⟩).policy else none := by
  intro p hp
  simp only [List.mem_cons, List.not_mem_nil, or_false] at hp
  rcases hp with rfl | rfl | rfl | rfl | rfl <;> rfl

theorem one_policy {P : JPolicies} {t : EType} {k : String} {e : AMap JV} (hP : P = ⟨fun t => match t with
    | .rp => [("scope", [("essential", .bool true)])]
    | .fed => [("organization_name", [("default", .str "Org"), ("one_of", .arr [.str "Org", .str "Other"]), ("essential", .bool true)])]
    | _ => [], []⟩) (h : AMap.get (P.known t) k = some e) :
    (t = .rp ∧ k = "scope" ∧ e = [("essential", .bool true)]) ∨
    (t = .fed ∧ k = "organization_name" ∧ e = [("default", .str "Org"), ("one_of", .arr [.str "Org", .str "Other"]), ("essential", .bool true)]) := by
  subst hP
  have h' := get_mem h
  cases t <;> simp only [List.mem_singleton, List.not_mem_nil, Prod.mk.injEq] at h'
  · exact .inl ⟨rfl, h'.1, h'.2⟩
  · exact .inr ⟨rfl, h'.1, h'.2⟩

theorem vals1 : entryVals X.N [("essential", .bool true)] = [("essential", .bool true)] := by
  simp [entryVals, JV.toVal]

theorem vals2 : entryVals X.N [("default", .str "Org"), ("one_of", .arr [.str "Org", .str "Other"]), ("essential", .bool true)] =
    [("default", .str "Org"), ("one_of", .slice .any false [.str "Org", .str "Other"]), ("essential", .bool true)] := by
  simp [entryVals, JV.toVal, List.attach_cons]

theorem policies_ok (q : Bool) : ∀ p ∈ [leaf q, iCfg q, il q, tCfg q, ti q], PoliciesOk X.N p := by
  intro p hp P hP t
  refine ⟨?_⟩
  intro k e he
  rw [policy_is q p hp] at hP
  cases q
  · cases hP
  · rcases one_policy (Option.some.inj hP).symm he with ⟨_, _, rfl⟩ | ⟨_, _, rfl⟩
    · rw [vals1]
      refine ⟨⟨by simp [AMap.WF, AMap.keys], ?_, (by intro s h; cases h), (by intro s h; cases h)⟩, ?_, ?_⟩
      · rintro n ⟨v, h⟩
        have := get_mem h
        simp only [List.mem_singleton, Prod.mk.injEq] at this
        simp [Known, this.1]
      · constructor
        · rintro ⟨_, h⟩; cases h
        all_goals first | (intro _ _ h; cases h) | (rintro ⟨_, h⟩; cases h) | (intro _ h; cases h)
      · constructor
        all_goals (rintro _ h; cases h)
    · rw [vals2]
      refine ⟨⟨by simp [AMap.WF, AMap.keys], ?_, (by intro s h; cases h), (by intro s h; cases h; decide)⟩, ?_, ?_⟩
      · rintro n ⟨v, h⟩
        have := get_mem h
        simp only [List.mem_cons, List.not_mem_nil, or_false, Prod.mk.injEq] at this
        rcases this with h | h | h <;> simp [Known, h.1]
      · constructor
        · intro _
          refine ⟨?_, ?_, ?_⟩ <;> (rintro ⟨_, h⟩; cases h)
        · intro s h; cases h; simp [Val.elems]
        · intro _ _ h; cases h
        · intro _ _ h; cases h
        · intro _ _ h; cases h
        · intro _ _ h; cases h
        · intro _ h; cases h
      · constructor
        all_goals (rintro _ h; cases h)

theorem fit_of (p : ESPayload) (hpp : p.policy = none ∨ p.policy = (payload ⟨none, none, none⟩).policy) : PoliciesFit X.N p := by
  intro P hP t k e he
  rcases hpp with hpp | hpp <;> rw [hpp] at hP
  · cases hP
  · rcases one_policy (Option.some.inj hP).symm he with ⟨rfl, rfl, rfl⟩ | ⟨rfl, rfl, rfl⟩
    · rw [vals1]
      have : ∀ sh, TypedEntry sh [("essential", .bool true)] := by
        intro sh kv hkv
        rw [List.mem_singleton.mp hkv]
        exact ⟨by simp, by simp, by simp, by simp⟩
      exact ⟨this _, fun _ _ _ => this _, fun h => absurd h (by decide)⟩
    · rw [vals2]
      have : ∀ sh, ValueOk sh (.str "Org") →
          TypedEntry sh [("default", .str "Org"), ("one_of", .slice .any false [.str "Org", .str "Other"]), ("essential", .bool true)] := by
        intro sh hsh kv hkv
        simp only [List.mem_cons, List.not_mem_nil, or_false] at hkv
        rcases hkv with rfl | rfl | rfl
        · exact ⟨by simp, by simp, by simp, fun _ => hsh⟩
        · exact ⟨by simp, fun _ => ⟨_, _, rfl⟩, by simp, by simp⟩
        · exact ⟨by simp, by simp, by simp, by simp⟩
      refine ⟨this _ trivial, ?_, fun h => absurd h (by decide)⟩
      intro f hf htag
      have hsh : ∀ f ∈ metaFields .fed, f.tag = "organization_name" → shapeOf ⟨f.name, f.tag, f.kind.ty, .nil⟩ = .scalar .str := by decide
      rw [hsh f hf htag]
      exact this _ ⟨rfl, rfl⟩

theorem policies_fit (q : Bool) : ∀ p ∈ [leaf q, iCfg q, il q, tCfg q, ti q], PoliciesFit X.N p := by
  intro p hp
  apply fit_of
  rw [policy_is q p hp]
  cases q
  · exact .inl rfl
  · exact .inr rfl

/-- Resolving with metadata finishes. -/
theorem resolves_valid (q : Bool) (ser : Jws → String) (P : String → Option Jws) (hP : ∀ j, P (ser j) = some j) :
    ∃ cs, R.validChains (W q (fun j => parseStmt P X.decode (ser j))) 4 = .ok (some cs) := by
  obtain ⟨cs, s0, rest, h1, h2, _, _⟩ := resolves q ser P hP
  have hn := C117_no_panic_partial exCrypto X pub (msgOf q) P ser hP signer (W q (fun j => parseStmt P X.decode (ser j))) R _ _ (faithful q) ?_ ?_ 4
  · unfold Resolver.validChains at hn ⊢
    rw [h1] at hn ⊢
    simp only [bind, Except.bind] at hn ⊢
    cases hf : filterValidMetadata cs with
    | ok x => exact ⟨x, rfl⟩
    | error g => rw [hf, (filterValid_panic hf).1] at hn; exact absurd rfl hn
  · intro s hs
    obtain ⟨p, hp, h⟩ := served q _ s hs
    refine ⟨p, jwt p, ?_, policies_fit q p hp, h⟩
    simp only [List.mem_cons, List.not_mem_nil, or_false] at hp
    rcases hp with rfl | rfl | rfl | rfl | rfl
    · exact p_leaf q
    · exact p_iCfg q
    · exact p_il q
    · exact p_tCfg q
    · exact p_ti q
  · intro s hs hm
    obtain ⟨s0', h3, seen0⟩ := published_seen (faithful q) hP (p_leaf q)
    have e : s0' = s := Option.some.inj (h3.symm.trans hs)
    have := seen0.hasMeta
    rw [e, hm] at this
    cases this

/-- The superiors' policies on `organization_name` bind the leaf. -/
example (ser : Jws → String) (P : String → Option Jws) (hP : ∀ j, P (ser j) = some j) :
    let read := fun j => parseStmt P X.decode (ser j)
    ∃ cs s0 rest, R.validChains (W true read) 4 = .ok (some cs) ∧ (s0 :: rest).map some = [read (jwt (leaf true)), read (jwt (il true)), read (jwt (ti true)), read (jwt (tCfg true))] ∧
      (restrictTypes R.types s0 :: rest ∈ cs ↔ ∃ m, chainMetadata (restrictTypes R.types s0 :: rest) = .ok m) ∧
      ∀ m, chainMetadata (restrictTypes R.types s0 :: rest) = .ok m →
        ∃ md, m = some md ∧ ResolvedFrom X.N R.types (leaf true) [leaf true, il true, ti true, tCfg true] md := by
  intro read
  obtain ⟨cs, h⟩ := resolves_valid true ser P hP
  obtain ⟨s0, rest, h1, h2, h3⟩ := C117_policies_bind_partial exCrypto exScheme X pub (msgOf true) P ser hP signer (W true read) rfl R (leaf true) (jwt (leaf true))
    [ai true, at' true] (at' true) (faithful true) (operated true read) (by
      have e : onTheWay (leaf true) [ai true, at' true] (at' true) = [leaf true, il true, ti true, tCfg true] := rfl
      rw [e]
      intro p hp
      refine policies_ok true p ?_
      simp only [List.mem_cons, List.not_mem_nil, or_false] at hp ⊢
      rcases hp with h | h | h | h <;> simp [h]) (by decide) rfl 4 cs h
  exact ⟨cs, s0, rest, h, h1, h2, h3⟩

/-- Without policies the leaf's chain is returned. -/
example (ser : Jws → String) (P : String → Option Jws) (hP : ∀ j, P (ser j) = some j) :
    let read := fun j => parseStmt P X.decode (ser j)
    ∃ cs s0 rest, R.validChains (W false read) 4 = .ok (some cs) ∧ (s0 :: rest).map some = [read (jwt (leaf false)), read (jwt (il false)), read (jwt (ti false)), read (jwt (tCfg false))] ∧
      restrictTypes R.types s0 :: rest ∈ cs := by
  intro read
  obtain ⟨cs, h⟩ := resolves_valid false ser P hP
  obtain ⟨s0, rest, md, h1, h2, _⟩ := C117_no_policies_partial exCrypto exScheme X pub (msgOf false) P ser hP signer (W false read) rfl R (leaf false) (jwt (leaf false))
    [ai false, at' false] (at' false) (faithful false) (operated false read) (by
      have e : onTheWay (leaf false) [ai false, at' false] (at' false) = [leaf false, il false, ti false, tCfg false] := rfl
      rw [e]
      intro p hp
      simp only [List.mem_cons, List.not_mem_nil, or_false] at hp
      rcases hp with rfl | rfl | rfl | rfl <;> exact ⟨rfl, by intro n hn; cases hn⟩) (by decide) rfl 4 cs h
  exact ⟨cs, s0, rest, h, h1, h2⟩

end ExO

end Oidfed
