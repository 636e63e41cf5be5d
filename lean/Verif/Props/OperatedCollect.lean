import Verif.Spec.OperatedCollect
import Verif.Props.NameQuery
import Verif.Props.Login
import Verif.Props.OperatedMarks
/-!
# Collecting a federation whose entities publish with this library (C133)
-/

namespace Oidfed
open Spec

theorem content_str {own : MStruct} {w : Option JV} {num : JV → Nat} {n : String} (h : SameContent w (own.val n)) :
    (∃ s, MKind.str.goVal num w = .str s ∧ s = ownStr own n) := by
  unfold ownStr
  rcases h with h | ⟨h1, h2⟩
  · rw [← h]
    cases w with
    | none => exact ⟨_, rfl, rfl⟩
    | some v => cases v <;> exact ⟨_, rfl, rfl⟩
  · have e2 : (match own.val n with | some (.str s) => s | _ => "") = "" := by
      rcases h2 with e | e | e <;> rw [e]
    refine ⟨"", ?_, e2.symm⟩
    rcases h1 with rfl | rfl | rfl <;> rfl

/-- String attributes are read as configured. -/
theorem read_str {N : Numbering} {p : ESPayload} {s : Stmt} (h : ReadFrom N p s) {m : JMetadata} {r : Metadata} (hm : p.metadata = some m)
    (hr : s.metadata = some r) {t : EType} {own : MStruct} {em : EntityMeta} (ho : m.known t = some own) (he : r.known t = some em) (g : MField)
    (hg : g ∈ metaFields t) (hk : g.kind = .str) : em.str g.tag = ownStr own g.name := by
  have hrel := h.readMetadata
  rw [hm, hr] at hrel
  cases hrel
  rename_i hrel
  have hkn := hrel.known t
  rw [ho, he] at hkn
  cases hkn
  rename_i hkn
  obtain ⟨w, hw, hmem⟩ := hkn.fields g hg
  rw [hk] at hmem
  obtain ⟨s, hs1, hs2⟩ := content_str (num := N.obj) hw
  rw [hs1] at hmem
  have hnd : (em.fields.map Field.tag).Nodup := by
    rw [h.decoded.tags r hr t em he]
    exact all_tags_nodup t
  rw [str_of_attr (attr_of_mem (f := ⟨g.name, g.tag, _, .str s⟩) hmem rfl hnd), hs2]

theorem name_fields (t : EType) : (⟨"DisplayName", "display_name", .str, true⟩ : MField) ∈ metaFields t ∧
    (⟨nameField t, nameClaim t, .str, true⟩ : MField) ∈ metaFields t := by
  cases t <;> decide

theorem list_field : ∃ b, (⟨"FederationListEndpoint", "federation_list_endpoint", .str, b⟩ : MField) ∈ metaFields .fed := ⟨true, by decide⟩

/-- The types with metadata are those configured. -/
theorem read_known {N : Numbering} {p : ESPayload} {s : Stmt} (h : ReadFrom N p s) :
    (p.metadata = none ↔ s.metadata = none) ∧ ∀ m r, p.metadata = some m → s.metadata = some r → ∀ t, (m.known t).isSome = (r.known t).isSome := by
  have hrel := h.readMetadata
  constructor
  · cases hp : p.metadata <;> cases hs : s.metadata <;> rw [hp, hs] at hrel <;> cases hrel <;> simp
  · intro m r hm hr t
    rw [hm, hr] at hrel
    cases hrel
    rename_i hrel
    have := hrel.known t
    cases h1 : m.known t <;> cases h2 : r.known t <;> rw [h1, h2] at this <;> cases this <;> rfl

/-- Before, at, and after an element. -/
theorem split_iff {α : Type} {l : List α} {A B : α → Prop} :
    (∃ pre i post, l = pre ++ i :: post ∧ A i ∧ ∀ i' ∈ pre, B i') ↔ ∃ (k : Nat) (i : α), l[k]? = some i ∧ A i ∧ ∀ k' < k, ∀ i', l[k']? = some i' → B i' := by
  constructor
  · rintro ⟨pre, i, post, rfl, h1, h2⟩
    refine ⟨pre.length, i, by simp, h1, ?_⟩
    intro k' hk i' hi
    rw [List.getElem?_append_left hk] at hi
    exact h2 _ (List.mem_of_getElem? hi)
  · rintro ⟨k, i, h1, h2, h3⟩
    obtain ⟨hk, rfl⟩ := List.getElem?_eq_some_iff.mp h1
    refine ⟨l.take k, l[k], l.drop (k+1), by simp, h2, ?_⟩
    intro i' hi
    obtain ⟨k', hk', rfl⟩ := List.mem_iff_getElem.mp hi
    simp only [List.length_take] at hk'
    exact h3 k' (by omega) _ (by simp)

/-- The marks that are read are those configured. -/
theorem marks_read {C : Crypto} {X : Reader} {keyOf : Nat → JKey} {msgOf : Nat → Jws} {ks : List JKey} {js : List Jws}
    (hX : Faithful X keyOf msgOf ks js) {P : String → Option Jws} {ser : Jws → String} (hP : ∀ j, P (ser j) = some j) {signer : ID → JSigner}
    {E : CollectEnv} {V : String → String → Prop} {anchor : ID} (hM : CollectsMarks E X msgOf V anchor) {p : ESPayload} {j : Jws} (h : Published C X signer p j) (hj : j ∈ js)
    {st : Stmt} (hst : parseStmt P X.decode (ser j) = some st) (t : String) {ta : Stmt} (hta : E.ec anchor = some ta) :
    (∃ pre i post, E.marks st = pre ++ i :: post ∧ i.type = t ∧ (∀ i' ∈ pre, i'.type ≠ t) ∧ E.verifies ta i = true) ↔ FirstMark V p t := by
  obtain ⟨q, h1, h2, _, _, h5⟩ := published_claims hX hP h
  rw [h5] at hst
  cases hst
  have hm := hM.marks (q.toStmt X.N (some (X.num j))) _ q rfl (by rw [hX.messages j hj]; exact h1)
  have hs : SameList SameInfo (p.marks.getD []) (q.marks.getD []) := h2.marks
  have key : (∃ pre i post, E.marks (q.toStmt X.N (some (X.num j))) = pre ++ i :: post ∧ (i.type = t ∧ E.verifies ta i = true) ∧ ∀ i' ∈ pre, i'.type ≠ t) ↔ FirstMark V p t := by
    rw [split_iff, hm]
    constructor
    · rintro ⟨k, i, g1, ⟨g2, g3⟩, g4⟩
      rw [List.getElem?_map] at g1
      obtain ⟨y, g5, rfl⟩ := Option.map_eq_some_iff.mp g1
      have hk := hs k
      rw [g5] at hk
      cases hx : (p.marks.getD [])[k]? with
      | none => rw [hx] at hk; cases hk
      | some x =>
        rw [hx] at hk
        cases hk
        rename_i hxy
        refine ⟨k, x, hx, hxy.type.trans g2, ?_, ?_⟩
        · intro k' hk' x' hx'
          have hk2 := hs k'
          rw [hx'] at hk2
          cases hy : (q.marks.getD [])[k']? with
          | none => rw [hy] at hk2; cases hk2
          | some y' =>
            rw [hy] at hk2
            cases hk2
            rename_i hxy'
            have := g4 k' hk' ⟨y'.type, y'.jwt, y'.extra, none⟩ (by rw [List.getElem?_map, hy]; rfl)
            rw [hxy'.type]
            exact this
        · have := (hM.verifies ta ⟨y.type, y.jwt, y.extra, none⟩ hta rfl).mp g3
          rw [← g2, hxy.jwt]
          exact this
    · rintro ⟨k, x, g1, g2, g3, g4⟩
      have hk := hs k
      rw [g1] at hk
      cases hy : (q.marks.getD [])[k]? with
      | none => rw [hy] at hk; cases hk
      | some y =>
        rw [hy] at hk
        cases hk
        rename_i hxy
        refine ⟨k, ⟨y.type, y.jwt, y.extra, none⟩, by rw [List.getElem?_map, hy]; rfl, ⟨hxy.type.symm.trans g2, ?_⟩, ?_⟩
        · refine (hM.verifies ta ⟨y.type, y.jwt, y.extra, none⟩ hta rfl).mpr ?_
          show V y.type y.jwt
          rw [← hxy.type, ← hxy.jwt, g2]
          exact g4
        · intro k' hk' i' hi'
          rw [List.getElem?_map] at hi'
          obtain ⟨y', g5, rfl⟩ := Option.map_eq_some_iff.mp hi'
          have hk2 := hs k'
          rw [g5] at hk2
          cases hx' : (p.marks.getD [])[k']? with
          | none => rw [hx'] at hk2; cases hk2
          | some x' =>
            rw [hx'] at hk2
            cases hk2
            rename_i hxy'
            have := g3 k' hk' x' hx'
            rw [hxy'.type] at this
            exact this
  rw [← key]
  constructor
  · rintro ⟨pre, i, post, a, b, c, d⟩
    exact ⟨pre, i, post, a, ⟨b, d⟩, c⟩
  · rintro ⟨pre, i, post, a, ⟨b, d⟩, c⟩
    exact ⟨pre, i, post, a, b, c, d⟩

/-- **C133** (part): in a federation in which all configurations are published with the library, for all requests, all schedules and used collectors:
when the collection has returned, an entity has been collected if and only if it is listed, directly or below other entities that list entities, the types and
names that it configured are as requested, and for each requested trust mark type the first mark of that type in its configuration is verified with the anchor's
configuration. Partial: the assumptions on payloads are those of C110. -/
theorem C133_collected_partial (C : Crypto) (X : Reader) (keyOf : Nat → JKey) (msgOf : Nat → Jws) (ks : List JKey) (js : List Jws)
    (hX : Faithful X keyOf msgOf ks js) (P : String → Option Jws) (ser : Jws → String) (hP : ∀ j, P (ser j) = some j) (signer : ID → JSigner)
    (dir : Directory) (hdir : ∀ x p j, dir x = some (p, j) → Published C X signer p j) (E : CollectEnv) (T : TextRules)
    (hE : ∀ x, E.ec x = (dir x).bind (fun pj => parseStmt P X.decode (ser pj.2))) (q : CollectReq) (V : String → String → Prop)
    (hM : q.markTypes ≠ [] → CollectsMarks E X msgOf V q.anchor ∧ ∀ x p j, dir x = some (p, j) → j ∈ js)
    {s0 s : CState} (h0 : CIdle maxCollectWorkers s0) (h : CRun maxCollectWorkers ((E.withNames T).world q) s0 q.anchor s)
    {r : CFrame} (hr : s.frames[s0.frames.length]? = some r) (hret : r.phase = .returned) (x : ID) :
    x ∈ r.out ↔ Member (ListsOwn dir E.listAt) q.anchor x ∧ PassesOwn dir T V q x := by
  have hec : ∀ x, (∃ p j st, dir x = some (p, j) ∧ E.ec x = some st ∧ ReadFrom X.N p st) ∨ (dir x = none ∧ E.ec x = none) := by
    intro x
    cases hd : dir x with
    | none => exact .inr ⟨rfl, by rw [hE, hd]; rfl⟩
    | some pj =>
      obtain ⟨st, h1, h2⟩ := published_read hX hP (hdir x pj.1 pj.2 hd)
      exact .inl ⟨pj.1, pj.2, st, rfl, by rw [hE, hd]; exact h1, h2⟩
  have hlists : ∀ a y, Lists (E.withNames T) a y ↔ ListsOwn dir E.listAt a y := by
    intro a y
    obtain ⟨b, hb⟩ := list_field
    constructor
    · rintro ⟨st, m, f, l, e1, e2, e3, e4, e5, e6⟩
      rcases hec a with ⟨p, j, st', d1, d2, d3⟩ | ⟨_, d2⟩
      · have e1' : E.ec a = some st := e1
        rw [d2] at e1'
        cases e1'
        cases hpm : p.metadata with
        | none => rw [(read_known d3).1.mp hpm] at e2; cases e2
        | some pm =>
          have hk := (read_known d3).2 pm m hpm e2 .fed
          cases hpf : pm.known .fed with
          | none => rw [hpf, e3] at hk; cases hk
          | some own =>
            have hstr := read_str d3 hpm e2 hpf e3 _ hb rfl
            exact ⟨p, j, pm, own, l, d1, hpm, hpf, by rw [← hstr]; exact e4, by rw [← hstr]; exact e5, e6⟩
      · have e1' : E.ec a = some st := e1
        rw [d2] at e1'
        cases e1'
    · rintro ⟨p, j, pm, own, l, e1, e2, e3, e4, e5, e6⟩
      rcases hec a with ⟨p', j', st, d1, d2, d3⟩ | ⟨d1, _⟩
      · rw [e1] at d1
        cases d1
        cases hsm : st.metadata with
        | none => rw [(read_known d3).1.mpr hsm] at e2; cases e2
        | some m =>
          have hk := (read_known d3).2 pm m e2 hsm .fed
          cases hf : m.known .fed with
          | none => rw [hf, e3] at hk; cases hk
          | some f =>
            have hstr := read_str d3 e2 hsm e3 hf _ hb rfl
            exact ⟨st, m, f, l, d2, hsm, hf, by rw [hstr]; exact e4, by rw [hstr]; exact e5, e6⟩
      · rw [e1] at d1; cases d1
  have hmem : Member (Lists (E.withNames T)) q.anchor x ↔ Member (ListsOwn dir E.listAt) q.anchor x :=
    ⟨member_congr (fun a y h => (hlists a y).mp h), member_congr (fun a y h => (hlists a y).mpr h)⟩
  rw [C46_exact (E.withNames T) q h0 h hr hret x, hmem]
  refine and_congr_right (fun _ => ?_)
  have hname : ∀ {p st m r}, ReadFrom X.N p st → p.metadata = some m → st.metadata = some r → ∀ t own em, m.known t = some own → r.known t = some em →
      nameIn t em = ownName t own := by
    intro p st m r hread hm hr t own em ho he
    obtain ⟨g1, g2⟩ := name_fields t
    unfold nameIn ownName
    rw [read_str hread hm hr ho he _ g1 rfl, read_str hread hm hr ho he _ g2 rfl]
  have hnp : ∀ {p st m r}, ReadFrom X.N p st → p.metadata = some m → st.metadata = some r → (NamePass (E.withNames T) q r ↔
      (q.name ≠ "" → ∃ t own, m.known t = some own ∧ InOrder (T.norm q.name.toList) (T.norm (ownName t own).toList))) := by
    intro p st m r hread hm hr
    show (q.name ≠ "" → matchWithMode T q.name _ "fuzzy" = true) ↔ _
    refine forall_congr' (fun _ => ?_)
    rw [C132_modes]
    constructor
    · rintro ⟨n, hn, h⟩
      obtain ⟨t, _, ht⟩ := List.mem_filterMap.mp hn
      obtain ⟨em, he, rfl⟩ := Option.map_eq_some_iff.mp ht
      have hk := (read_known hread).2 m r hm hr t
      cases ho : m.known t with
      | none => rw [ho, he] at hk; cases hk
      | some own =>
        rw [hname hread hm hr t own em ho he] at h
        rcases h with ⟨_, h⟩ | ⟨h, _⟩ | ⟨h, _⟩ | ⟨h, _⟩ | ⟨h, _⟩
        · exact ⟨t, own, ho, h⟩
        all_goals exact absurd h (by decide)
    · rintro ⟨t, own, ho, h⟩
      have hk := (read_known hread).2 m r hm hr t
      cases he : r.known t with
      | none => rw [ho, he] at hk; cases hk
      | some em =>
        refine ⟨nameIn t em, List.mem_filterMap.mpr ⟨t, by cases t <;> decide, by rw [he]; rfl⟩, .inl ⟨rfl, ?_⟩⟩
        rw [hname hread hm hr t own em ho he]
        exact h
  have hmark : ∀ {x p j st}, dir x = some (p, j) → E.ec x = some st → (MarksPass (E.withNames T) q st ↔ ∀ t ∈ q.markTypes, (dir q.anchor).isSome ∧ FirstMark V p t) := by
    intro x p j st hd hst
    have hst' : parseStmt P X.decode (ser j) = some st := by rw [hE, hd] at hst; exact hst
    have hanchor : (dir q.anchor).isSome = (E.ec q.anchor).isSome := by
      rcases hec q.anchor with ⟨p, j, st', d1, d2, _⟩ | ⟨d1, d2⟩ <;> rw [d1, d2] <;> rfl
    constructor
    · intro h t ht
      obtain ⟨ta, pre, i, post, a, b, c, d, e⟩ := h t ht
      have a' : E.ec q.anchor = some ta := a
      refine ⟨by rw [hanchor, a']; rfl, ?_⟩
      exact (marks_read hX hP (hM (List.ne_nil_of_mem ht)).1 (hdir _ _ _ hd) ((hM (List.ne_nil_of_mem ht)).2 _ _ _ hd) hst' t a').mp ⟨pre, i, post, b, c, d, e⟩
    · intro h t ht
      obtain ⟨h1, h2⟩ := h t ht
      rw [hanchor] at h1
      obtain ⟨ta, hta⟩ := Option.isSome_iff_exists.mp h1
      obtain ⟨pre, i, post, b, c, d, e⟩ :=
        (marks_read hX hP (hM (List.ne_nil_of_mem ht)).1 (hdir _ _ _ hd) ((hM (List.ne_nil_of_mem ht)).2 _ _ _ hd) hst' t hta).mpr h2
      exact ⟨ta, pre, i, post, hta, b, c, d, e⟩
  constructor
  · rintro ⟨st, m, e1, e2, e3, e4, e5⟩
    have e1' : E.ec x = some st := e1
    rcases hec x with ⟨p, j, st', d1, d2, d3⟩ | ⟨_, d2⟩
    · rw [d2] at e1'
      cases e1'
      cases hpm : p.metadata with
      | none => rw [(read_known d3).1.mp hpm] at e2; cases e2
      | some pm =>
        refine ⟨p, j, pm, d1, hpm, ?_, (hnp d3 hpm e2).mp e4, (hmark d1 d2).mp e5⟩
        intro ts hts
        obtain ⟨_, h1, k, rfl, h2⟩ := e3 ts hts
        exact ⟨k, h1, by rw [(read_known d3).2 pm m hpm e2]; exact h2⟩
    · rw [d2] at e1'; cases e1'
  · rintro ⟨p, j, pm, d1, hpm, ht, hn, hk⟩
    rcases hec x with ⟨p', j', st, d1', d2, d3⟩ | ⟨d1', _⟩
    · rw [d1] at d1'
      cases d1'
      cases hsm : st.metadata with
      | none => rw [(read_known d3).1.mpr hsm] at hpm; cases hpm
      | some m =>
        refine ⟨st, m, d2, hsm, ?_, (hnp d3 hpm hsm).mpr hn, (hmark d1 d2).mpr hk⟩
        intro ts hts
        obtain ⟨k, h1, h2⟩ := ht ts hts
        exact ⟨_, h1, k, rfl, by rw [← (read_known d3).2 pm m hpm hsm]; exact h2⟩
    · rw [d1] at d1'; cases d1'

/-- **C133** (part): an entity that is listed, whose configured types and names are as requested, and that has for each requested trust mark type a mark that was issued
with the library and is good in the sense of C119, is collected. The first mark of the type in the configuration counts. -/
theorem C133_marked_partial (C : Crypto) (hC : Scheme C) (X : Reader) (keyOf : Nat → JKey) (msgOf : Nat → Jws) (ks : List JKey) (js : List Jws)
    (hX : Faithful X keyOf msgOf ks js) (P : String → Option Jws) (ser : Jws → String) (hP : ∀ j, P (ser j) = some j) (num : String → Nat) (hN : Numbered P num msgOf)
    (signer : ID → JSigner) (dir : Directory) (hdir : ∀ x p j, dir x = some (p, j) → Published C X signer p j) (hjs : ∀ x p j, dir x = some (p, j) → j ∈ js)
    (M : Env) (hR : M.reader = readerOf P num) (hS : M.sig = jwsOracle C keyOf msgOf) (hW : ∀ p, (M.world p).sig = jwsOracle C keyOf msgOf) (hM : ReadsClaims M X msgOf)
    (E : CollectEnv) (T : TextRules) (hE : ∀ x, E.ec x = (dir x).bind (fun pj => parseStmt P X.decode (ser pj.2))) (hmarks : ∀ s, E.marks s = (M.claims s).marks)
    (q : CollectReq) (fuel : Nat) (pos : String → String → CallPos × Nat)
    (hver : ∀ ta i, E.ec q.anchor = some ta → i.cached = none →
      (E.verifies ta i = true ↔ VerifiedWith M .loc (fuel + 1) (pos i.type i.jwt).1 (pos i.type i.jwt).2 ta i.type i.jwt))
    (tp : ESPayload) (tj : Jws) (ht : dir q.anchor = some (tp, tj)) (hown : tp.sub = tp.iss) (htk : ∀ k ∈ tp.jwks.getD [], k ∈ ks)
    {s0 s : CState} (h0 : CIdle maxCollectWorkers s0) (h : CRun maxCollectWorkers ((E.withNames T).world q) s0 q.anchor s)
    {r : CFrame} (hr : s.frames[s0.frames.length]? = some r) (hret : r.phase = .returned) (x : ID)
    (hlist : Member (ListsOwn dir E.listAt) q.anchor x) (hpass : PassesOwn dir T (fun type jwt =>
      GoodMark C X (fun j => parseStmt P X.decode (ser j)) ser keyOf signer M tp ks js (pos type jwt).1 (pos type jwt).2 type jwt) q x) : x ∈ r.out := by
  obtain ⟨tq, t1, t2, _, _, t5⟩ := published_claims hX hP (hdir _ _ _ ht)
  have hta : E.ec q.anchor = some (tq.toStmt X.N (some (X.num tj))) := by rw [hE, ht]; exact t5
  have htc : M.claims (tq.toStmt X.N (some (X.num tj))) = tq.toClaims X.N := hM.claims _ _ tq rfl (by rw [hX.messages tj (hjs _ _ _ ht)]; exact t1)
  refine (C133_collected_partial C X keyOf msgOf ks js hX P ser hP signer dir hdir E T hE q
    (fun type jwt => VerifiedWith M .loc (fuel + 1) (pos type jwt).1 (pos type jwt).2 (tq.toStmt X.N (some (X.num tj))) type jwt) (fun _ => ⟨⟨?_, ?_⟩, hjs⟩)
    h0 h hr hret x).mpr ⟨hlist, ?_⟩
  · intro s n q' hs hq
    rw [hmarks, hM.claims s n q' hs hq]
    rfl
  · intro ta i hi hc
    rw [hta] at hi
    cases hi
    exact hver _ i hta hc
  · obtain ⟨p, j, m, d1, d2, d3, d4, d5⟩ := hpass
    refine ⟨p, j, m, d1, d2, d3, d4, fun t htt => ⟨(d5 t htt).1, ?_⟩⟩
    obtain ⟨k, y, g1, g2, g3, g4⟩ := (d5 t htt).2
    refine ⟨k, y, g1, g2, g3, ?_⟩
    obtain ⟨m, keys, a1, a2, a3, a4, a5⟩ := good_accepted hC hP hN hX hR hS hW hM hown htk t2 htc g4 fuel
    have hi : InfoOk M.reader ⟨t, y.jwt, [], none⟩ := by intro m hm; cases hm
    refine federation_of_external (sig := M.sig) (ta := M.anchorOf (tq.toStmt X.N (some (X.num tj)))) hi a1 a4 a3 ?_
    rw [C37_verify_info _ _ _ _ _ _ _ hi]
    refine ⟨m, a1, a2, ?_⟩
    have : ∀ o : Option Owner, o.toList.head? = o := by intro o; cases o <;> rfl
    rw [this]
    exact a5

namespace ExC
open ExS
open ExO (signer pub jwt mk md keyNo in_time)
open ExTM (X)

/-- The anchor's metadata with a list endpoint. -/
def lister : MStruct where
  val := fun n => if n = "FederationListEndpoint" then some (.str "t/list") else (fed "t/fetch").val n
  wasSet := ["FederationListEndpoint", "FederationFetchEndpoint", "OrganizationName"]
  extra := []

theorem lister_ok : MetaOk opq .fed lister where
  extra := ⟨by simp [lister, AMap.WF, AMap.keys], by intro k hk; cases hk⟩
  typed := by
    intro f hf w hw
    have hn : ∀ f ∈ metaFields .fed, f.name = "FederationListEndpoint" → f.kind = .str := by decide
    simp only [lister] at hw
    split at hw
    · rename_i h
      rw [hn f hf h]; cases hw; rfl
    · exact (fed_ok "t/fetch").typed f hf w hw
  nonnil := by
    intro f hf hw
    simp only [lister] at hw
    split at hw
    · cases hw
    · exact (fed_ok "t/fetch").nonnil f hf hw

def tCfg : ESPayload := mk true "t" "t" [] (some ⟨fun t => match t with | .fed => some lister | _ => none, []⟩) ⟨none, none, none⟩

theorem p_tCfg (numJ : Jws → Nat) : Published exCrypto (X numJ) signer tCfg (jwt tCfg) where
  ok := { ExO.mk_ok true "t" "t" [] none ⟨none, none, none⟩ (.inl rfl) (.inr rfl) with
    metadata := by
      intro x hx
      cases hx
      refine ⟨⟨by simp [AMap.WF, AMap.keys], by intro k hk; cases hk⟩, ?_⟩
      intro t s hs
      cases t <;> first | (cases hs; exact lister_ok) | cases hs }
  signed := rfl

/-- The anchor "t" and two entities: "e", whose organization is called "Other", and the provider "l", which has no name. -/
def eCfg : ESPayload := mk true "e" "e" ["t"] (some (md "")) ⟨none, none, none⟩

theorem p_eCfg (numJ : Jws → Nat) : Published exCrypto (X numJ) signer eCfg (jwt eCfg) where
  ok := ExO.mk_ok true _ _ _ _ _ (.inr ⟨_, rfl⟩) (.inr rfl)
  signed := rfl

def dir : Directory := fun id => if id = "t" then some (tCfg, jwt tCfg) else if id = "e" then some (eCfg, jwt eCfg) else
  if id = "l" then some (ExL.leaf true, jwt (ExL.leaf true)) else none

theorem published (numJ : Jws → Nat) : ∀ x p j, dir x = some (p, j) → Published exCrypto (X numJ) signer p j := by
  intro x p j h
  unfold dir at h
  split at h
  · cases h; exact p_tCfg numJ
  split at h
  · cases h; exact p_eCfg numJ
  split at h
  · cases h; exact ExL.p_leaf true numJ
  · cases h

def E (read : Jws → Option Stmt) : CollectEnv where
  ec x := (dir x).bind (fun pj => read pj.2)
  listAt ep := if ep = "t/list" then some ["e", "l", "gone"] else none
  marks _ := []
  verifies _ _ := false
  fuzzy _ _ := false

def req (name : String) : CollectReq := { Ex.creq "t" with name := name }

/-- A collection of those with a name like "ter" returns "e", and nothing else, in every schedule; and there is one in which it returns. -/
example (numJ : Jws → Nat) (msgOf : Nat → Jws) (hmsg : ∀ j, msgOf (numJ j) = j) (ser : Jws → String) (P : String → Option Jws) (hP : ∀ j, P (ser j) = some j) :
    let read := fun j => parseStmt P (X numJ).decode (ser j)
    (∃ s r, CRun maxCollectWorkers (((E read).withNames Ex.rules).world (req "ter")) CState.new "t" s ∧ s.frames[0]? = some r ∧ r.phase = .returned) ∧
    ∀ s r, CRun maxCollectWorkers (((E read).withNames Ex.rules).world (req "ter")) CState.new "t" s → s.frames[0]? = some r → r.phase = .returned →
      ∀ x, x ∈ r.out ↔ x = "e" := by
  intro read
  have hlist : ∀ a x, Lists ((E read).withNames Ex.rules) a x → x ∈ ["e", "l", "gone"] := by
    rintro a x ⟨st, m, f, l, _, _, _, _, h5, h6⟩
    have h5' : (if f.str "federation_list_endpoint" = "t/list" then some ["e", "l", "gone"] else none) = some l := h5
    split at h5'
    · cases h5'; exact h6
    · cases h5'
  refine ⟨?_, ?_⟩
  · refine C76_returns _ (req "ter") ⟨["t", "e", "l", "gone"], ?_⟩ (idle_new _)
    intro x hx
    cases hx with
    | anchor => exact List.mem_cons_self
    | sub _ h => exact List.mem_cons_of_mem _ (hlist _ _ h)
  · intro s r h1 h2 h3 x
    rw [C133_collected_partial exCrypto (X numJ) pub msgOf [pub 1, pub 3] [] (ExL.faithful numJ msgOf hmsg) P ser hP signer dir (published numJ) (E read) Ex.rules
      (fun _ => rfl) (req "ter") (fun _ _ => False) (fun h => absurd rfl h) (idle_new _) h1 h2 h3 x]
    constructor
    · rintro ⟨⟨a, _, p, j, m, own, l, _, _, _, _, h5, h6⟩, p', j', m', d1, d2, _, d4, _⟩
      have h5' : (if ownStr own "FederationListEndpoint" = "t/list" then some ["e", "l", "gone"] else none) = some l := h5
      have hx : x ∈ ["e", "l", "gone"] := by
        split at h5'
        · cases h5'; exact h6
        · cases h5'
      simp only [List.mem_cons, List.not_mem_nil, or_false] at hx
      rcases hx with rfl | rfl | rfl
      · rfl
      · cases d1
        cases d2
        obtain ⟨t, own', h7, h8⟩ := d4 (by decide)
        cases t <;> cases h7
        have : (Ex.rules.norm (ownName .op ExL.opS).toList) = [] := by decide
        rw [this] at h8
        have h9 : InOrder ['t', 'e', 'r'] [] := h8
        cases h9
      · cases d1
    · rintro rfl
      refine ⟨⟨"t", .anchor, tCfg, jwt tCfg, _, lister, _, rfl, rfl, rfl, by decide, rfl, by decide⟩, eCfg, jwt eCfg, _, rfl, rfl, (fun ts h => by cases h), fun _ => ?_, fun t ht => by cases ht⟩
      refine ⟨.fed, fed "", rfl, ?_⟩
      have : Ex.rules.norm (ownName .fed (fed "")).toList = ['O', 't', 'h', 'e', 'r'] := by decide
      rw [this]
      exact .skip _ (.take 't' (.skip _ (.take 'e' (.take 'r' .nil))))

/-! The anchor itself issues marks of the type "tm"; "m" has one, "e" has none. -/

def mSpec : MarkSpec := ⟨"tm", 3600 * second, "", "", [], false, ""⟩

def mIssuer (ser : Jws → String) : MarkIssuer := newMarkIssuer "t" (signerOf exCrypto (signer "t") ser) [mSpec]

/-- The trust mark for "m". -/
def mJwt (ser : Jws → String) : String :=
  ser ⟨(mIssuer ser).payload mSpec ExTM.t0 "m" [], [⟨some "trust-mark+jwt", some (exCrypto.thumb 3), some "ES512", 3⟩]⟩

def mInfo (ser : Jws → String) : Info := ⟨"tm", mJwt ser, [], some ⟨"t", "m", "tm", ExTM.t0, some (ExTM.t0 + 3600 * second), "", none, none⟩⟩

theorem m_issued (ser : Jws → String) : Issued exCrypto signer ser (mIssuer ser) mSpec ExTM.t0 "tm" "m" [] (3600 * second) (mInfo ser) 1700000000123999999 where
  sign := rfl
  spec := rfl
  issued := rfl
  extra_keys := by simp [AMap.WF, AMap.keys, mSpec]
  extra := by intro k hk; cases hk
  lifetime := .inr ⟨rfl, rfl⟩
  range := ⟨by unfold InRange; decide, by unfold InRange; decide⟩
  valid := ⟨show (1700000000123456789 : Int) + 2000 ≤ 1700000000123999999 by decide,
    .inr (show (1700000000123999999 : Int) ≤ 1700000000123456789 + 3600 * second - 2000 by decide)⟩

def tCfgM : ESPayload := ExTM.mkM "t" "t" [] tCfg.metadata ⟨none, none, none⟩ none [("tm", some ["t"])] []
def mCfg (ser : Jws → String) : ESPayload := ExTM.mkM "m" "m" ["t"] (some (md "")) ⟨none, none, none⟩ (some [⟨"other", "", []⟩, ⟨"tm", mJwt ser, []⟩]) [] []

theorem p_tCfgM (numJ : Jws → Nat) : Published exCrypto (X numJ) signer tCfgM (jwt tCfgM) where
  ok := { (p_tCfg numJ).ok with
    marks := by intro i hi; cases hi
    issuers := by simp [AMap.WF, AMap.keys, tCfgM, ExTM.mkM]
    owners := by simp [AMap.WF, AMap.keys, tCfgM, ExTM.mkM] }
  signed := rfl

theorem p_mCfg (numJ : Jws → Nat) (ser : Jws → String) : Published exCrypto (X numJ) signer (mCfg ser) (jwt (mCfg ser)) :=
  ExTM.mkM_published numJ _ _ _ _ _ _ _ _ (.inr ⟨_, rfl⟩) (.inl rfl) (by simp) (by simp [AMap.WF, AMap.keys]) (by simp [AMap.WF, AMap.keys])

def dirM (ser : Jws → String) : Directory := fun id => if id = "t" then some (tCfgM, jwt tCfgM) else if id = "e" then some (eCfg, jwt eCfg) else
  if id = "m" then some (mCfg ser, jwt (mCfg ser)) else none

theorem publishedM (numJ : Jws → Nat) (ser : Jws → String) : ∀ x p j, dirM ser x = some (p, j) → Published exCrypto (X numJ) signer p j := by
  intro x p j h
  unfold dirM at h
  split at h
  · cases h; exact p_tCfgM numJ
  split at h
  · cases h; exact p_eCfg numJ
  split at h
  · cases h; exact p_mCfg numJ ser
  · cases h

open Classical in
noncomputable def EM (M : Env) (ser : Jws → String) (read : Jws → Option Stmt) : CollectEnv where
  ec x := (dirM ser x).bind (fun pj => read pj.2)
  listAt ep := if ep = "t/list" then some ["e", "m"] else none
  marks s := (M.claims s).marks
  verifies ta i := decide (VerifiedWith M .loc 1 [] 0 ta i.type i.jwt)
  fuzzy _ _ := false

def reqM : CollectReq := { Ex.creq "t" with markTypes := ["tm"] }

/-- The mark is good for the anchor. -/
theorem m_good (numJ : Jws → Nat) (msgOf : Nat → Jws) (ser : Jws → String) (P : String → Option Jws) (num : String → Nat) (js : List Jws) :
    GoodMark exCrypto (X numJ) (fun j => parseStmt P (X numJ).decode (ser j)) ser pub signer (ExTM.E numJ msgOf ser P num) tCfgM ExTM.K js [] 0 "tm" (mJwt ser) := by
  refine ⟨mIssuer ser, mSpec, ExTM.t0, "m", [], 3600 * second, mInfo ser, m_issued ser, rfl, ?_, .inl ⟨rfl, _, rfl, rfl⟩, ?_⟩
  · intro l hl
    cases hl
    show "t" ∈ ["t"]
    decide
  · intro o ho
    cases ho

/-- A collection of those with a mark of the type "tm" returns "m", and nothing else. -/
example (numJ : Jws → Nat) (msgOf : Nat → Jws) (hmsg : ∀ j, msgOf (numJ j) = j) (ser : Jws → String) (P : String → Option Jws) (hP : ∀ j, P (ser j) = some j)
    (num : String → Nat) (hN : Numbered P num msgOf) :
    let M := ExTM.E numJ msgOf ser P num
    let read := fun j => parseStmt P (X numJ).decode (ser j)
    ∀ s r, CRun maxCollectWorkers (((EM M ser read).withNames Ex.rules).world reqM) CState.new "t" s → s.frames[0]? = some r → r.phase = .returned →
      ∀ x, x ∈ r.out ↔ x = "m" := by
  intro M read s r h1 h2 h3 x
  have hjs : ∀ x p j, dirM ser x = some (p, j) → j ∈ [jwt tCfgM, jwt eCfg, jwt (mCfg ser)] := by
    intro x p j h
    unfold dirM at h
    split at h
    · cases h; exact List.mem_cons_self
    split at h
    · cases h; exact List.mem_cons_of_mem _ List.mem_cons_self
    split at h
    · cases h; exact List.mem_cons_of_mem _ (List.mem_cons_of_mem _ List.mem_cons_self)
    · cases h
  have hX : Faithful (X numJ) pub msgOf ExTM.K [jwt tCfgM, jwt eCfg, jwt (mCfg ser)] := 
    ⟨(ExTM.faithful numJ msgOf hmsg ser).keys, (ExTM.faithful numJ msgOf hmsg ser).maps, (ExTM.faithful numJ msgOf hmsg ser).keyNumbers, fun j _ => hmsg j⟩
  constructor
  · intro hx
    have hE : ∀ ta i, (EM M ser read).verifies ta i = true ↔ VerifiedWith M .loc 1 [] 0 ta i.type i.jwt := fun ta i => by simp [EM]
    cases hta : (EM M ser read).ec "t" with
    | none =>
      obtain ⟨q, _, _, _, _, t5⟩ := published_claims hX hP (p_tCfgM numJ)
      have : (EM M ser read).ec "t" = some (q.toStmt (X numJ).N (some ((X numJ).num (jwt tCfgM)))) := t5
      rw [this] at hta
      cases hta
    | some ta =>
      obtain ⟨⟨a, _, p, j, m, own, l, _, _, _, _, h5, h6⟩, p', j', m', d1, d2, _, _, d5⟩ :=
        (C133_collected_partial exCrypto (X numJ) pub msgOf ExTM.K _ hX P ser hP signer (dirM ser) (publishedM numJ ser) (EM M ser read) Ex.rules
          (fun _ => rfl) reqM (fun type jwt => VerifiedWith M .loc 1 [] 0 ta type jwt)
          (fun _ => ⟨⟨fun s n q hs hq => by
              show (M.claims s).marks = _
              rw [(ExTM.readsClaims numJ msgOf ser P num).claims s n q hs hq]; rfl,
            fun ta' i h _ => by
              have h : (EM M ser read).ec "t" = some ta' := h
              rw [hta] at h; cases h; exact hE _ _⟩, hjs⟩) (idle_new _) h1 h2 h3 x).mp hx
      have h5' : (if ownStr own "FederationListEndpoint" = "t/list" then some ["e", "m"] else none) = some l := h5
      have hx : x ∈ ["e", "m"] := by
        split at h5'
        · cases h5'; exact h6
        · cases h5'
      simp only [List.mem_cons, List.not_mem_nil, or_false] at hx
      rcases hx with rfl | rfl
      · cases d1
        obtain ⟨k, y, g1, g2, _⟩ := (d5 "tm" (by decide)).2
        have hm : ∀ y ∈ eCfg.marks.getD [], y.type ≠ "tm" := by decide
        exact absurd g2 (hm y (List.mem_of_getElem? g1))
      · rfl
  · rintro rfl
    refine C133_marked_partial exCrypto exScheme (X numJ) pub msgOf ExTM.K _ hX P ser hP num hN signer (dirM ser) (publishedM numJ ser) hjs M rfl rfl (fun _ => rfl)
      (ExTM.readsClaims ..) (EM M ser read) Ex.rules (fun _ => rfl) (fun _ => rfl) reqM 0 (fun _ _ => ([], 0)) (fun ta i _ _ => by simp [EM]) tCfgM (jwt tCfgM) rfl rfl ?_
      (idle_new _) h1 h2 h3 "m" ?_ ?_
    · intro k hk
      change k ∈ [pub 3] at hk
      simp [ExTM.K, List.mem_singleton.mp hk]
    · exact ⟨"t", .anchor, tCfgM, jwt tCfgM, _, lister, _, rfl, rfl, rfl, by decide, rfl, by decide⟩
    · refine ⟨mCfg ser, jwt (mCfg ser), _, rfl, rfl, (fun ts h => by cases h), fun h => absurd rfl h, ?_⟩
      intro t ht
      cases List.mem_singleton.mp ht
      refine ⟨rfl, 1, ⟨"tm", mJwt ser, []⟩, rfl, rfl, ?_, m_good numJ msgOf ser P num _⟩
      intro k' hk' x' hx'
      match k', hk' with
      | 0, _ => cases hx'; decide

end ExC

end Oidfed
