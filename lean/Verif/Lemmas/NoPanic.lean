import Verif.Spec.PolicyTyping
import Verif.Lemmas.MergeOrder
import Verif.Lemmas.MetadataApply
/-! Well-typed policies never make merging, verifying or applying panic. -/

namespace Oidfed
open Spec

/-- Does not panic. -/
def NP {α : Type} (r : Res α) : Prop := r ≠ .error .panic

theorem NP.ok {α : Type} (a : α) : NP (.ok a : Res α) := by intro h; cases h

theorem NP.err {α : Type} : NP (.error .error : Res α) := by intro h; cases h

theorem NP.bind {α β : Type} {x : Res α} {f : α → Res β} (hx : NP x) (hf : ∀ a, x = .ok a → NP (f a)) : NP (x >>= f) := by
  cases x with
  | error e =>
    cases e with
    | error => exact NP.err
    | panic => exact absurd rfl hx
  | ok a => exact hf a rfl

theorem NP.map {α β : Type} {x : Res α} {f : α → β} (hx : NP x) : NP (x.map f) := by
  cases x with
  | error e =>
    cases e with
    | error => exact NP.err
    | panic => exact absurd rfl hx
  | ok a => exact NP.ok _

/-! ## Merging -/

theorem elemsOk_sub {sh : Shape} {xs ys : List Val} (h : ElemsOk sh xs) (hs : ∀ y ∈ ys, y ∈ xs) : ElemsOk sh ys := by
  cases sh with
  | list e => exact fun y hy => h y (hs y hy)
  | scope => exact fun y hy => h y (hs y hy)
  | unknown => trivial
  | scalar t => exact h
  | «opaque» => exact h

theorem elemsOk_union {sh : Shape} {xs ys zs : List Val} (h : ElemsOk sh xs) (h' : ElemsOk sh ys)
    (hs : ∀ z ∈ zs, z ∈ xs ∨ z ∈ ys) : ElemsOk sh zs := by
  cases sh with
  | list e => exact fun y hy => (hs y hy).elim (h y) (h' y)
  | scope => exact fun y hy => (hs y hy).elim (h y) (h' y)
  | unknown => trivial
  | scalar t => exact h
  | «opaque» => exact h

theorem operators_name {op : String} {o : Op} (h : operators op = some o) : op = o.name := by
  unfold operators at h
  repeat' split at h
  all_goals first | cases h | skip
  all_goals assumption

theorem mergeSet_typed {sh : Shape} {op : String} {x y : Val}
    (hop : op = "add" ∨ op = "subset_of" ∨ op = "superset_of" ∨ op = "one_of")
    (hx : TypedOp sh op x) (hy : TypedOp sh op y) :
    (∃ z, mergeUnion x y = .ok z ∧ TypedOp sh op z) ∧ (∃ z, mergeIntersect x y = .ok z ∧ TypedOp sh op z) := by
  have hvd : op ≠ "value" ∧ op ≠ "default" := by rcases hop with rfl | rfl | rfl | rfl <;> decide
  have hlx := hx.list hop
  have hly := hy.list hop
  have lx : ListOrNull x := .inr hlx
  have ly : ListOrNull y := .inr hly
  have fin : ∀ z, ListOrNull z → (z = .nil ↔ x = .nil ∧ y = .nil) →
      (op = "add" ∨ op = "subset_of" → ElemsOk sh z.elems) → TypedOp sh op z := by
    intro z hz hn he
    have hzn : z ≠ .nil := fun e => hx.notNull (hn.mp e).1
    refine ⟨hzn, fun _ => ?_, he, fun h => ?_⟩
    · rcases hz with rfl | h
      · exact absurd rfl hzn
      · exact h
    · rcases h with h | h
      · exact absurd h hvd.1
      · exact absurd h hvd.2
  constructor
  · obtain ⟨z, h1, h2, h3, h4⟩ := mergeUnion_plain lx ly
    exact ⟨z, h1, fin z h2 h3 (fun h => elemsOk_union (hx.elems h) (hy.elems h) (fun v hv => (h4 v).mp hv))⟩
  · obtain ⟨z, h1, h2, h3, h4⟩ := mergeIntersect_plain lx ly
    exact ⟨z, h1, fin z h2 h3 (fun h => elemsOk_sub (hx.elems h) (fun v hv => ((h4 v).mp hv).2.1 hx.notNull))⟩

theorem merge_typed {sh : Shape} {op : String} {o : Op} (ho : operators op = some o) {x y : Val}
    (hx : TypedOp sh op x) (hy : TypedOp sh op y) :
    NP (o.merge x y) ∧ ∀ z, o.merge x y = .ok z → TypedOp sh op z := by
  have hn := operators_name ho
  subst hn
  cases o with
  | add | supersetOf =>
    obtain ⟨z, hz, ht⟩ := (mergeSet_typed (by simp [Op.name, opAdd, opSupersetOf]) hx hy).1
    refine ⟨?_, ?_⟩
    · show NP (mergeUnion x y)
      rw [hz]; exact NP.ok _
    · intro z' h
      cases (show mergeUnion x y = .ok z' from h).symm.trans hz
      exact ht
  | oneOf | subsetOf =>
    obtain ⟨z, hz, ht⟩ := (mergeSet_typed (by simp [Op.name, opOneOf, opSubsetOf]) hx hy).2
    refine ⟨?_, ?_⟩
    · show NP (mergeIntersect x y)
      rw [hz]; exact NP.ok _
    · intro z' h
      cases (show mergeIntersect x y = .ok z' from h).symm.trans hz
      exact ht
  | value =>
    refine ⟨?_, ?_⟩
    · show NP (mergeValue x y)
      unfold mergeValue
      split
      · exact NP.ok _
      · exact NP.err
    · intro z h
      rw [(mergeValue_ok h).1]
      exact hx
  | default =>
    refine ⟨?_, ?_⟩
    · show NP (mergeDefault x y)
      unfold mergeDefault
      repeat' split
      all_goals first | exact NP.ok _ | exact NP.err
    · intro z h
      rcases mergeDefault_ok h with ⟨_, rfl⟩ | ⟨_, _, rfl⟩ | ⟨_, _, rfl, _⟩
      · exact hy
      · exact hx
      · exact hx
  | essential =>
    refine ⟨?_, ?_⟩
    · show NP (mergeEssential x y)
      rw [essential_merge]; exact NP.ok _
    · intro z h
      have h : mergeEssential x y = .ok z := h
      rw [essential_merge] at h
      cases h
      refine ⟨by simp, ?_, ?_, ?_⟩ <;> intro h <;> simp [Op.name, opEssential] at h

theorem mergeLoop_typed {b : Entry} {shs : List Shape} (hb : ∀ sh ∈ shs, TypedEntry sh b) (hne : Shape.unknown ∈ shs) :
    ∀ {a out : Entry}, (∀ sh ∈ shs, TypedEntry sh a) → (∀ sh ∈ shs, TypedEntry sh out) →
      NP (mergeLoop b a out) ∧ ∀ r, mergeLoop b a out = .ok (some r) → ∀ sh ∈ shs, TypedEntry sh r := by
  intro a
  induction a with
  | nil => intro out _ ho; exact ⟨NP.ok _, fun r h => by cases h; exact ho⟩
  | cons kv a ih =>
    obtain ⟨op, av⟩ := kv
    intro out ha ho
    have ha' : ∀ sh ∈ shs, TypedEntry sh a := fun sh hsh kv hkv => ha sh hsh kv (by simp [hkv])
    have hav : ∀ sh ∈ shs, TypedOp sh op av := fun sh hsh => ha sh hsh (op, av) (by simp)
    have hstep : ∀ c, (∀ sh ∈ shs, TypedOp sh op c) → ∀ sh ∈ shs, TypedEntry sh (out ++ [(op, c)]) := by
      intro c hc sh hsh kv hkv
      rcases List.mem_append.mp hkv with h | h
      · exact ho sh hsh kv h
      · simp at h; subst h; exact hc sh hsh
    rw [mergeLoop]
    cases hg : b.get op with
    | none => exact ih ha' (hstep av hav)
    | some bv =>
      dsimp only
      have hbv : ∀ sh ∈ shs, TypedOp sh op bv := fun sh hsh => hb sh hsh (op, bv) (get_mem hg)
      cases ho' : operators op with
      | none => exact ⟨NP.ok _, fun r h => by cases h⟩
      | some o =>
        dsimp only
        have hm := fun sh hsh => merge_typed ho' (hav sh hsh) (hbv sh hsh)
        refine ⟨NP.bind (hm _ hne).1 (fun c hc => (ih ha' (hstep c (fun sh hsh => (hm sh hsh).2 c hc))).1), ?_⟩
        intro r h
        obtain ⟨c, hc, h⟩ := bind_ok h
        exact (ih ha' (hstep c (fun sh hsh => (hm sh hsh).2 c hc))).2 r h

theorem mergeEntries_typed {a b : Entry} {shs : List Shape} (hne : Shape.unknown ∈ shs)
    (ha : ∀ sh ∈ shs, TypedEntry sh a) (hb : ∀ sh ∈ shs, TypedEntry sh b) :
    NP (mergeEntries a b) ∧ ∀ m, mergeEntries a b = .ok m → ∀ sh ∈ shs, TypedEntry sh m := by
  have H := mergeLoop_typed hb hne ha (out := []) (fun sh _ kv h => by cases h)
  unfold mergeEntries
  refine ⟨NP.bind H.1 ?_, ?_⟩
  · intro r _
    cases r with
    | none => exact NP.ok _
    | some out => exact NP.ok _
  · intro m h
    obtain ⟨r, hr, h⟩ := bind_ok h
    cases r with
    | none => cases h; intro sh _ kv h; cases h
    | some out =>
      cases h
      intro sh hsh kv hkv
      rcases List.mem_append.mp hkv with h | h
      · exact H.2 out hr sh hsh kv h
      · exact hb sh hsh kv (List.mem_filter.mp h).1

/-! ## Verifying -/

theorem vSubset_np {i o : OpName} {p : Entry} (h : p.get i ≠ some .nil) : NP (vSubset i o p) := by
  unfold vSubset
  cases hi : p.get i with
  | none => exact NP.ok _
  | some x =>
    cases ho : p.get o with
    | none => exact NP.ok _
    | some y =>
      refine NP.bind ?_ (fun b _ => ?_)
      · unfold reflectIsSubsetOf
        have hx : x ≠ .nil := fun e => h (by rw [hi, e])
        obtain ⟨s, hs, _⟩ := slicify_some hx
        rw [hs]
        exact NP.ok _
      · cases b
        · exact NP.err
        · exact NP.ok _

theorem verify_np {p : Entry} (h : TypedEntry .unknown p) : NP p.verify := by
  have hn : ∀ op, p.get op ≠ some .nil := fun op hg => (h _ (get_mem hg)).notNull rfl
  unfold Entry.verify
  split
  · rename_i hc
    have hno : Has p "one_of" → ¬ Has p "add" := by
      intro h1 h2
      rw [List.all_eq_true] at hc
      have := hc "one_of" ((mem_keys_iff p _).mpr h1)
      have this : p.keys.all (fun n => ([opValue, opDefault, opEssential] ++ [opOneOf]).contains n) = true := this
      rw [List.all_eq_true] at this
      have := this "add" ((mem_keys_iff p _).mpr h2)
      revert this
      decide
    unfold runVerifiers
    refine NP.bind ?_ (fun _ _ => NP.bind (vSubset_np (hn _)) (fun _ _ => NP.bind (vSubset_np (hn _)) (fun _ _ =>
      NP.bind ?_ (fun _ _ => NP.bind (vSubset_np (hn _)) (fun _ _ => NP.bind ?_ (fun _ _ =>
        NP.bind (vSubset_np (hn _)) (fun _ _ => ?_)))))))
    · unfold vOneOfExclusive
      split
      · exact NP.err
      · exact NP.ok _
    · rw [vAddInOneOf_none hno]; exact NP.ok _
    · unfold vOneOfNonempty
      cases p.get opOneOf with
      | none => exact NP.ok _
      | some x =>
        dsimp only
        cases slicify x with
        | none => exact NP.err
        | some s =>
          dsimp only
          split
          · exact NP.err
          · exact NP.ok _
    · unfold vDefaultAndValue
      cases p.get opValue with
      | none => exact NP.ok _
      | some x =>
        cases p.get opDefault with
        | none => exact NP.ok _
        | some y =>
          dsimp only
          split
          · exact NP.err
          · exact NP.ok _
  · exact NP.err

theorem policy_verify_np {p : Policy} {fs : List Field} (h : TypedPolicy fs p) : NP (Policy.verify p) := by
  induction p with
  | nil => exact NP.ok _
  | cons ke p ih =>
    obtain ⟨k, e⟩ := ke
    rw [Policy.verify]
    exact NP.bind (verify_np (h (k, e) (by simp)).1) (fun _ _ => ih (fun ke hke => h ke (by simp [hke])))

/-! ## Combining -/

/-- The shapes an entry named `k` has to fit. -/
def shapesOf (fs : List Field) (k : String) : List Shape := .unknown :: (fs.filter (fun f => f.tag = k)).map shapeOf

theorem typed_shapes {fs : List Field} {k : String} {e : Entry} :
    (TypedEntry .unknown e ∧ ∀ f ∈ fs, f.tag = k → TypedEntry (shapeOf f) e) ↔ ∀ sh ∈ shapesOf fs k, TypedEntry sh e := by
  unfold shapesOf
  simp only [List.mem_cons, List.mem_map, List.mem_filter, decide_eq_true_eq]
  constructor
  · rintro ⟨h1, h2⟩ sh (rfl | ⟨f, ⟨hf, ht⟩, rfl⟩)
    · exact h1
    · exact h2 f hf ht
  · intro h
    exact ⟨h _ (.inl rfl), fun f hf ht => h _ (.inr ⟨f, ⟨hf, ht⟩, rfl⟩)⟩

theorem combineLoop_typed {sub : Policy} {fs : List Field} (hs : TypedPolicy fs sub) : ∀ {par out : Policy},
    TypedPolicy fs par → TypedPolicy fs out →
    NP (combineLoop sub par out) ∧ ∀ r, combineLoop sub par out = .ok r → TypedPolicy fs r := by
  intro par
  induction par with
  | nil => intro out _ ho; exact ⟨NP.ok _, fun r h => by cases h; exact ho⟩
  | cons ke par ih =>
    obtain ⟨k, pv⟩ := ke
    intro out hp ho
    have hp' : TypedPolicy fs par := fun ke hke => hp ke (by simp [hke])
    have hstep : ∀ c, (∀ sh ∈ shapesOf fs k, TypedEntry sh c) → TypedPolicy fs (out ++ [(k, c)]) := by
      intro c hc ke hke
      rcases List.mem_append.mp hke with h | h
      · exact ho ke h
      · simp at h; subst h; exact typed_shapes.mpr hc
    have hpv := typed_shapes.mp (hp (k, pv) (by simp))
    rw [combineLoop]
    cases hg : AMap.get sub k with
    | none => exact ih hp' (hstep pv hpv)
    | some sv =>
      dsimp only
      have hsv := typed_shapes.mp (hs (k, sv) (get_mem hg))
      have hm := mergeEntries_typed (shs := shapesOf fs k) (by simp [shapesOf]) hpv hsv
      refine ⟨NP.bind hm.1 (fun c hc => (ih hp' (hstep c (hm.2 c hc))).1), ?_⟩
      intro r h
      obtain ⟨c, hc, h⟩ := bind_ok h
      exact (ih hp' (hstep c (hm.2 c hc))).2 r h

theorem combinePolicy_typed {par sub : Policy} {fs : List Field} (hp : TypedPolicy fs par) (hs : TypedPolicy fs sub) :
    NP (combinePolicy par sub) ∧ ∀ m, combinePolicy par sub = .ok m → TypedPolicy fs m := by
  unfold combinePolicy
  split
  · exact ⟨NP.ok _, fun m h => by cases h; exact hp⟩
  · split
    · exact ⟨NP.ok _, fun m h => by cases h; exact hs⟩
    · have H := combineLoop_typed hs hp (out := []) (fun ke h => by cases h)
      have happ : ∀ out, combineLoop sub par [] = .ok out →
          TypedPolicy fs (out ++ sub.filter (fun kv => (AMap.get out kv.1).isNone)) := by
        intro out ho ke hke
        rcases List.mem_append.mp hke with h | h
        · exact H.2 out ho ke h
        · exact hs ke (List.mem_filter.mp h).1
      refine ⟨NP.bind H.1 (fun out ho => NP.bind (policy_verify_np (happ out ho)) (fun _ _ => NP.ok _)), ?_⟩
      intro m h
      obtain ⟨out, ho, h⟩ := bind_ok h
      obtain ⟨_, _, h⟩ := bind_ok h
      cases h
      exact happ out ho

theorem combineRest_typed {fs : List Field} : ∀ {ps : List Policy} {out : Policy}, TypedPolicy fs out →
    (∀ p ∈ ps, TypedPolicy fs p) → NP (combineRest out ps) ∧ ∀ m, combineRest out ps = .ok m → TypedPolicy fs m := by
  intro ps
  induction ps with
  | nil => intro out ho _; exact ⟨NP.ok _, fun m h => by cases h; exact ho⟩
  | cons p ps ih =>
    intro out ho hps
    have H := combinePolicy_typed ho (hps p (by simp))
    rw [combineRest]
    refine ⟨NP.bind H.1 (fun q hq => (ih (H.2 q hq) (fun p hp => hps p (by simp [hp]))).1), ?_⟩
    intro m h
    obtain ⟨q, hq, h⟩ := bind_ok h
    exact (ih (H.2 q hq) (fun p hp => hps p (by simp [hp]))).2 m h

theorem combineAll_typed {fs : List Field} {ps : List Policy} (hps : ∀ p ∈ ps, TypedPolicy fs p) :
    NP (combineAll ps) ∧ ∀ m, combineAll ps = .ok m → TypedPolicy fs m := by
  cases ps with
  | nil => exact ⟨NP.ok _, fun m h => by cases h; intro ke h; cases h⟩
  | cons p ps =>
    have H := combineRest_typed (hps p (by simp)) (fun p hp => hps p (List.mem_cons_of_mem _ hp))
    rw [combineAll]
    refine ⟨NP.bind (policy_verify_np (hps p (by simp))) (fun _ _ => H.1), ?_⟩
    intro m h
    obtain ⟨_, _, h⟩ := bind_ok h
    exact H.2 m h

/-! ## Applying -/

/-- The dynamic types the value of an attribute goes through while an entry is applied. -/
def CurOk : Shape → Val → Prop
  | .list e, v => ∃ n xs, v = .slice e n xs
  | .scalar ty, v => v.ty? = some ty
  | .scope, v => (∃ s, v = .str s) ∨ ∃ n xs, v = .slice .str n xs
  | .opaque, v => ∃ e n xs, v = .slice e n xs
  | .unknown, _ => False

theorem curOk_ne {sh : Shape} {v : Val} (h : CurOk sh v) : v ≠ .nil := by
  rintro rfl
  cases sh with
  | list e => obtain ⟨_, _, h⟩ := h; cases h
  | scalar t => simp [CurOk, Val.ty?] at h
  | scope => rcases h with ⟨_, h⟩ | ⟨_, _, h⟩ <;> cases h
  | «opaque» => obtain ⟨_, _, _, h⟩ := h; cases h
  | unknown => exact h

theorem cast_list {e : ETy} (he : e ≠ .obj ∧ e ≠ .ptr) {n : Bool} {xs : List Val} (hx : ∀ x ∈ xs, fitsElem e x = true)
    {t : Slc} (ht : t.e = e) : castSlc ⟨.any, n, xs⟩ (some t) = .ok ⟨e, false, xs⟩ := by
  unfold castSlc
  dsimp only
  rw [ht, if_pos]
  rw [List.all_eq_true]
  intro x hx'
  rw [hx x hx']
  have h1 : (e == ETy.obj) = false := by simpa using he.1
  have h2 : (e == ETy.ptr) = false := by simpa using he.2
  simp [h1, h2]

theorem union_list {e : ETy} (he : e ≠ .obj ∧ e ≠ .ptr) {v : Val} {s : Slc} (hs : slicify v = some s) (hse : s.e = e)
    {n : Bool} {xs : List Val} (hx : ∀ x ∈ xs, fitsElem e x = true) :
    ∃ n' ys, reflectUnion v (.slice .any n xs) = .ok (.slice e n' ys) := by
  unfold reflectUnion
  rw [hs]
  show ∃ n' ys, Except.map Slc.toVal (unionSlc (some s) (some ⟨.any, n, xs⟩)) = _
  unfold unionSlc
  dsimp only
  obtain ⟨s1, s2, s3⟩ := s
  dsimp only at hse
  subst hse
  split
  · exact ⟨_, _, rfl⟩
  · have hc := cast_list he (n := n) hx (t := ⟨s1, s2, s3⟩) rfl
    by_cases hcond : (s3.isEmpty || s1 != ETy.any) = true
    · rw [if_pos hcond, hc]
      simp only [bind, Except.bind]
      split
      · exact ⟨_, _, rfl⟩
      · exact ⟨_, _, rfl⟩
    · rw [if_neg hcond]
      simp only [bind, Except.bind]
      have : s3.isEmpty = false := by
        cases h : s3.isEmpty with
        | false => rfl
        | true => simp [h] at hcond
      rw [this]
      exact ⟨_, _, rfl⟩

theorem inter_list {e : ETy} (he : e ≠ .obj ∧ e ≠ .ptr) {s : Slc} (hse : s.e = e)
    {n : Bool} {xs : List Val} (hx : ∀ x ∈ xs, fitsElem e x = true) :
    ∃ n' ys, intersectSlc (some s) (some ⟨.any, n, xs⟩) = .ok ⟨e, n', ys⟩ := by
  unfold intersectSlc
  dsimp only
  have hc := cast_list he (n := n) hx hse
  rw [hc, hse]
  split
  · exact ⟨_, _, rfl⟩
  · exact ⟨_, _, rfl⟩

/-- Element type of the attribute, for shapes that have list operators. -/
theorem shape_slc {sh : Shape} {v : Val} {xs : List Val} (hg : ∀ e, sh = .list e → e ≠ .obj ∧ e ≠ .ptr)
    (hc : CurOk sh v) (hx : ElemsOk sh xs) :
    ∃ e s, (e ≠ .obj ∧ e ≠ .ptr) ∧ slicify v = some s ∧ s.e = e ∧ (∀ x ∈ xs, fitsElem e x = true) ∧
      ∀ n ys, CurOk sh (.slice e n ys) := by
  cases sh with
  | list e =>
    obtain ⟨n, ys, rfl⟩ := hc
    exact ⟨e, _, hg e rfl, rfl, rfl, hx, fun n ys => ⟨n, ys, rfl⟩⟩
  | scope =>
    rcases hc with ⟨s, rfl⟩ | ⟨n, ys, rfl⟩
    · exact ⟨.str, _, (by decide), rfl, rfl, hx, fun n ys => .inr ⟨n, ys, rfl⟩⟩
    · exact ⟨.str, _, (by decide), rfl, rfl, hx, fun n ys => .inr ⟨n, ys, rfl⟩⟩
  | scalar t => exact hx.elim
  | «opaque» => exact hx.elim
  | unknown => exact hc.elim

theorem cast_value {sh : Shape} {v p : Val} (hg : ∀ e, sh = .list e → e ≠ .obj ∧ e ≠ .ptr) (hc : CurOk sh v)
    (hp : ValueOk sh p) : ∃ r, reflectSliceCast p (slicify v) = .ok r ∧ CurOk sh r := by
  cases sh with
  | list e =>
    obtain ⟨n, ys, rfl⟩ := hc
    obtain ⟨m, xs, rfl, hx⟩ := hp
    refine ⟨.slice e false xs, ?_, ⟨_, _, rfl⟩⟩
    show Except.map Slc.toVal (castSlc ⟨.any, m, xs⟩ (some ⟨e, n, ys⟩)) = _
    rw [cast_list (hg e rfl) hx rfl]
    rfl
  | scalar t =>
    obtain ⟨h1, h2⟩ := hp
    refine ⟨p, ?_, h1⟩
    cases p <;> first | rfl | (simp [Val.isSlice] at h2)
  | scope =>
    have hs : ∃ s, slicify v = some s ∧ s.e = .str := by
      rcases hc with ⟨s, rfl⟩ | ⟨n, ys, rfl⟩
      · exact ⟨_, rfl, rfl⟩
      · exact ⟨_, rfl, rfl⟩
    obtain ⟨s, hs, hse⟩ := hs
    rw [hs]
    rcases hp with ⟨s', rfl⟩ | ⟨m, xs, rfl, hx⟩
    · exact ⟨_, rfl, .inl ⟨s', rfl⟩⟩
    · refine ⟨.slice .str false xs, ?_, .inr ⟨_, _, rfl⟩⟩
      show Except.map Slc.toVal (castSlc ⟨.any, m, xs⟩ (some s)) = _
      rw [cast_list (by decide) hx hse]
      rfl
  | «opaque» => exact hp.elim
  | unknown => exact hc.elim

theorem step_typed {sh : Shape} {p : Entry} (hg : ∀ e, sh = .list e → e ≠ .obj ∧ e ≠ .ptr) (hp : TypedEntry sh p)
    (ess : Bool) (n : OpName) (c : Cur) (hc : CurOk sh c.v) :
    NP (applyStep p ess c n) ∧ ∀ c', applyStep p ess c n = .ok c' → CurOk sh c'.v := by
  unfold applyStep
  cases hgn : p.get n with
  | none => exact ⟨NP.ok _, fun c' h => by cases h; exact hc⟩
  | some pv =>
    dsimp only
    cases ho : operators n with
    | none => exact ⟨NP.err, fun c' h => by cases h⟩
    | some o =>
      dsimp only
      have ht := hp _ (get_mem hgn)
      dsimp only at ht
      have hname := operators_name ho
      subst hname
      have hpn : pv.isNilIface = false := (isNilIface_false pv).mpr ht.notNull
      have hcn : c.v.isNilIface = false := (isNilIface_false c.v).mpr (curOk_ne hc)
      cases o with
      | value =>
        obtain ⟨r, hr, hk⟩ := cast_value hg hc (ht.value (.inl rfl))
        have : Op.apply .value c pv ess = .ok ⟨r, true⟩ := by
          simp only [Op.apply, applyValue, hpn, Bool.false_eq_true, if_false, hr]
          rfl
        rw [this]
        exact ⟨NP.ok _, fun c' h => by cases h; exact hk⟩
      | add =>
        obtain ⟨m, xs, rfl⟩ := ht.list (.inl rfl)
        obtain ⟨e, s, he, hs, hse, hx, hck⟩ := shape_slc (xs := xs) hg hc (ht.elems (.inl rfl))
        obtain ⟨n', ys, hu⟩ := union_list he hs hse (n := m) hx
        have : Op.apply .add c (.slice .any m xs) ess = .ok ⟨.slice e n' ys, true⟩ := by
          simp only [Op.apply, applyAdd, hpn, hcn, Bool.false_eq_true, if_false, hu]
          rfl
        rw [this]
        exact ⟨NP.ok _, fun c' h => by cases h; exact hck _ _⟩
      | default =>
        simp only [Op.apply, applyDefault]
        split
        · obtain ⟨r, hr, hk⟩ := cast_value hg hc (ht.value (.inr rfl))
          rw [hr]
          exact ⟨NP.ok _, fun c' h => by cases h; exact hk⟩
        · exact ⟨NP.ok _, fun c' h => by cases h; exact hc⟩
      | oneOf =>
        simp only [Op.apply, applyOneOf]
        repeat' split
        all_goals first
          | exact ⟨NP.ok _, fun c' h => by cases h; exact hc⟩
          | exact ⟨NP.err, fun c' h => by cases h⟩
      | subsetOf =>
        simp only [Op.apply, applySubsetOf]
        split
        · exact ⟨NP.ok _, fun c' h => by cases h; exact hc⟩
        · split
          · exact ⟨NP.ok _, fun c' h => by cases h; exact hc⟩
          · split
            · exact ⟨NP.err, fun c' h => by cases h⟩
            · obtain ⟨m, xs, rfl⟩ := ht.list (.inr (.inl rfl))
              obtain ⟨e, s, he, hs, hse, hx, hck⟩ := shape_slc (xs := xs) hg hc (ht.elems (.inr rfl))
              obtain ⟨n', ys, hu⟩ := inter_list he hse (n := m) hx
              rw [hs]
              show NP (intersectSlc (some s) (some ⟨.any, m, xs⟩) >>= _) ∧ _
              rw [show slicify (.slice .any m xs) = some ⟨.any, m, xs⟩ from rfl, hu]
              exact ⟨NP.ok _, fun c' h => by cases h; exact hck _ _⟩
      | supersetOf =>
        simp only [Op.apply, applySupersetOf]
        split
        · exact ⟨NP.ok _, fun c' h => by cases h; exact hc⟩
        · split
          · exact ⟨NP.ok _, fun c' h => by cases h; exact hc⟩
          · split
            · exact ⟨NP.err, fun c' h => by cases h⟩
            · obtain ⟨m, xs, rfl⟩ := ht.list (.inr (.inr (.inl rfl)))
              cases hb : xs.all (fun v => sliceContains v (slicify c.v)) with
              | true =>
                have : reflectIsSupersetOf c.v (.slice .any m xs) = .ok true := by
                  show (Except.ok (xs.all (fun v => sliceContains v (slicify c.v))) : Res Bool) = _
                  rw [hb]
                rw [this]
                exact ⟨NP.ok _, fun c' h => by cases h; exact hc⟩
              | false =>
                have : reflectIsSupersetOf c.v (.slice .any m xs) = .ok false := by
                  show (Except.ok (xs.all (fun v => sliceContains v (slicify c.v))) : Res Bool) = _
                  rw [hb]
                rw [this]
                exact ⟨NP.err, fun c' h => by cases h⟩
      | essential =>
        simp only [Op.apply, applyEssential]
        repeat' split
        all_goals first
          | exact ⟨NP.ok _, fun c' h => by cases h; exact hc⟩
          | exact ⟨NP.err, fun c' h => by cases h⟩

theorem applyLoop_typed {sh : Shape} {p : Entry} (hg : ∀ e, sh = .list e → e ≠ .obj ∧ e ≠ .ptr) (hp : TypedEntry sh p)
    (ess : Bool) : ∀ (ns : List OpName) (c : Cur), CurOk sh c.v →
    NP (applyLoop p ess ns c) ∧ ∀ c', applyLoop p ess ns c = .ok c' → CurOk sh c'.v := by
  intro ns
  induction ns with
  | nil => intro c hc; exact ⟨NP.ok _, fun c' h => by cases h; exact hc⟩
  | cons n ns ih =>
    intro c hc
    have H := step_typed hg hp ess n c hc
    rw [applyLoop]
    refine ⟨NP.bind H.1 (fun c1 h1 => (ih c1 (H.2 c1 h1)).1), ?_⟩
    intro c' h
    obtain ⟨c1, h1, h⟩ := bind_ok h
    exact (ih c1 (H.2 c1 h1)).2 c' h

theorem shapeOf_good (f : Field) : ∀ e, shapeOf f = .list e → e ≠ .obj ∧ e ≠ .ptr := by
  intro e h
  unfold shapeOf at h
  split at h
  · cases h
  · cases h
  · rename_i h1 h2 _; cases h; exact ⟨fun e => h1 (by simp_all), fun e => h2 (by simp_all)⟩
  · split at h <;> cases h
  · cases h

theorem val_slice_of_ty {v : Val} {e : ETy} (h : v.ty? = some (.slice e)) : ∃ n xs, v = .slice e n xs := by
  cases v <;> simp [Val.ty?] at h
  subst h
  exact ⟨_, _, rfl⟩

theorem val_str_of_ty {v : Val} (h : v.ty? = some .str) : ∃ s, v = .str s := by
  cases v <;> simp [Val.ty?] at h
  exact ⟨_, rfl⟩

theorem field_cur {f : Field} (h : FieldOk f) : CurOk (shapeOf f) f.val := by
  obtain ⟨h1, _⟩ := h
  unfold shapeOf
  split
  · rename_i ht; rw [ht] at h1; obtain ⟨n, xs, h⟩ := val_slice_of_ty h1; exact ⟨_, n, xs, h⟩
  · rename_i ht; rw [ht] at h1; obtain ⟨n, xs, h⟩ := val_slice_of_ty h1; exact ⟨_, n, xs, h⟩
  · rename_i e _ _ ht; rw [ht] at h1; exact val_slice_of_ty h1
  · rename_i ht
    rw [ht] at h1
    split
    · exact .inl (val_str_of_ty h1)
    · exact h1
  · exact h1

/-- No opaque list keeps its element type from the operators, so the result has the type of the field. -/
theorem setField_np {f : Field} (hf : FieldOk f) {v : Val} (hv : CurOk (shapeOf f) v)
    (hop : shapeOf f = .opaque → v.ty? = some f.ty) : NP (setField f (scopeJoin f.name v)) := by
  have key : (scopeJoin f.name v).ty? = some f.ty := by
    obtain ⟨h1, h2, _⟩ := hf
    have hns : ∀ {t : ETy}, f.ty = .slice t → f.name ≠ "Scope" := fun ht hn => by
      rw [h2 hn] at ht; cases ht
    have hid : f.name ≠ "Scope" → scopeJoin f.name v = v := by
      intro hn
      unfold scopeJoin
      split
      · rw [if_neg hn]
      · rfl
    cases hty : f.ty with
    | slice e =>
      rw [hid (hns hty)]
      unfold shapeOf at hv hop
      rw [hty] at hv hop
      cases e <;> dsimp only at hv hop <;> first
        | exact hop rfl
        | (obtain ⟨n, xs, rfl⟩ := hv; rfl)
    | str =>
      by_cases hn : f.name = "Scope"
      · unfold shapeOf at hv
        rw [hty] at hv
        dsimp only at hv
        rw [if_pos hn] at hv
        rcases hv with ⟨s, rfl⟩ | ⟨n, xs, rfl⟩
        · rfl
        · simp [scopeJoin, hn, Val.ty?]
      · rw [hid hn]
        unfold shapeOf at hv
        rw [hty] at hv
        dsimp only at hv
        rw [if_neg hn] at hv
        exact hv
    | bool | num | int | obj | ptr =>
      rw [hid (fun hn => by rw [h2 hn] at hty; cases hty)]
      unfold shapeOf at hv
      rw [hty] at hv
      exact hv
  unfold setField
  rw [key]
  dsimp only
  rw [if_pos rfl]
  exact NP.ok _

/-- For opaque lists no operator changes the value. -/
theorem opaque_step {p : Entry} (hp : TypedEntry .opaque p) (ess : Bool) (n : OpName) (c : Cur) (c' : Cur)
    (h : applyStep p ess c n = .ok c') : c' = c := by
  unfold applyStep at h
  cases hgn : p.get n with
  | none => rw [hgn] at h; cases h; rfl
  | some pv =>
    rw [hgn] at h
    dsimp only at h
    have ht := hp _ (get_mem hgn)
    dsimp only at ht
    cases ho : operators n with
    | none => rw [ho] at h; cases h
    | some o =>
      rw [ho] at h
      dsimp only at h
      have hname := operators_name ho
      subst hname
      cases o with
      | value => exact (ht.value (.inl rfl)).elim
      | default => exact (ht.value (.inr rfl)).elim
      | add => exact (ht.elems (.inl rfl)).elim
      | subsetOf => exact (ht.elems (.inr rfl)).elim
      | oneOf => exact (applyOneOf_ok h).1
      | supersetOf => exact (applySupersetOf_ok h).1
      | essential => exact (applyEssential_ok h).1

theorem opaque_loop {p : Entry} (hp : TypedEntry .opaque p) (ess : Bool) : ∀ (ns : List OpName) (c c' : Cur),
    applyLoop p ess ns c = .ok c' → c' = c := by
  intro ns
  induction ns with
  | nil => intro c c' h; cases h; rfl
  | cons n ns ih =>
    intro c c' h
    rw [applyLoop] at h
    obtain ⟨c1, h1, h⟩ := bind_ok h
    rw [ih c1 c' h, opaque_step hp ess n c c1 h1]

theorem applyField_np {p : Policy} {fs : List Field} (hp : TypedPolicy fs p) {f : Field} (hf : f ∈ fs) (hok : FieldOk f)
    (ws : List String) : NP (applyField p ws f) := by
  unfold applyField
  cases hg : AMap.get p f.tag with
  | none => exact NP.ok _
  | some e =>
    dsimp only
    have ht : TypedEntry (shapeOf f) e := (hp _ (get_mem hg)).2 f hf rfl
    have H := applyLoop_typed (shapeOf_good f) ht e.essential operatorOrder ⟨f.val, ws.contains f.name⟩ (field_cur hok)
    refine NP.bind (NP.map H.1) ?_
    intro v hv
    unfold Entry.applyTo at hv
    cases hc : Entry.applyCur e ⟨f.val, ws.contains f.name⟩ with
    | error x => rw [hc] at hv; cases hv
    | ok c' =>
      rw [hc] at hv
      cases hv
      refine setField_np hok (H.2 c' hc) ?_
      intro hop
      rw [hop] at ht
      rw [opaque_loop ht _ _ _ _ hc]
      exact hok.1

theorem applyFields_np {p : Policy} {all : List Field} (hp : TypedPolicy all p) (ws : List String) : ∀ (fs : List Field),
    (∀ f ∈ fs, f ∈ all ∧ FieldOk f) → NP (applyFields p ws fs) := by
  intro fs
  induction fs with
  | nil => intro _; exact NP.ok _
  | cons f fs ih =>
    intro h
    rw [applyFields]
    refine NP.bind (applyField_np hp (h f (by simp)).1 (h f (by simp)).2 ws) (fun _ _ => ?_)
    exact NP.bind (ih (fun f hf => h f (by simp [hf]))) (fun _ _ => NP.ok _)

theorem applyKnown_np {m : Metadata} {p : Policies}
    (h : ∀ t em, m.known t = some em → TypedPolicy em.fields (p.known t) ∧ ∀ f ∈ em.fields, FieldOk f) :
    ∀ ts, NP (applyKnown m p ts) := by
  intro ts
  induction ts with
  | nil => exact NP.ok _
  | cons t ts ih =>
    rw [applyKnown]
    cases hm : m.known t with
    | none => exact NP.bind ih (fun _ _ => NP.ok _)
    | some em =>
      dsimp only
      obtain ⟨h1, h2⟩ := h t em hm
      refine NP.bind ?_ (fun _ _ => NP.bind ih (fun _ _ => NP.ok _))
      unfold EntityMeta.apply
      exact NP.bind (applyFields_np h1 _ _ (fun f hf => ⟨hf, h2 f hf⟩)) (fun _ _ => NP.ok _)

theorem applyExtra_np {p : AMap (Option Policy)} : ∀ {xs : AMap Val}, (∀ kv ∈ xs, AMap.get p kv.1 = none) → NP (applyExtra p xs) := by
  intro xs
  induction xs with
  | nil => intro _; exact NP.ok _
  | cons kv xs ih =>
    intro h
    obtain ⟨k, v⟩ := kv
    rw [applyExtra, h (k, v) (by simp)]
    exact NP.bind (ih (fun kv hkv => h kv (by simp [hkv]))) (fun _ _ => NP.ok _)

theorem mergeKnown_np {ps : List Policies} (h : ∀ t, NP (combineAll (ps.map (fun p => p.known t)))) :
    ∀ ts, NP (mergeKnown ps ts) := by
  intro ts
  induction ts with
  | nil => exact NP.ok _
  | cons t ts ih =>
    rw [mergeKnown]
    exact NP.bind (h t) (fun _ _ => NP.bind ih (fun _ _ => NP.ok _))

theorem mergeExtra_np {ps : List Policies} (h : ∀ k, NP (combineAllNil (ps.filterMap (fun p => AMap.get p.extra k)))) :
    ∀ ks, NP (mergeExtra ps ks) := by
  intro ks
  induction ks with
  | nil => exact NP.ok _
  | cons k ks ih =>
    rw [mergeExtra]
    exact NP.bind (h k) (fun _ _ => NP.bind ih (fun _ _ => NP.ok _))

theorem mergeExtra_keys {ps : List Policies} : ∀ {ks : List String} {r : AMap (Option Policy)}, mergeExtra ps ks = .ok r →
    r.keys = ks := by
  intro ks
  induction ks with
  | nil => intro r h; cases h; rfl
  | cons k ks ih =>
    intro r h
    rw [mergeExtra] at h
    obtain ⟨c, _, h⟩ := bind_ok h
    obtain ⟨q, hq, h⟩ := bind_ok h
    cases h
    simp [AMap.keys] at ih ⊢
    exact ih hq

theorem mem_extraTypes {ps : List Policies} {k : String} : k ∈ extraTypes ps ↔ ∃ p ∈ ps, k ∈ p.extra.keys := by
  induction ps with
  | nil => simp [extraTypes]
  | cons p ps ih =>
    simp only [extraTypes, List.mem_append, List.mem_filter, ih, List.mem_cons, exists_eq_or_imp]
    constructor
    · rintro (h | ⟨h, _⟩)
      · exact .inl h
      · exact .inr h
    · rintro (h | h)
      · exact .inl h
      · by_cases hk : k ∈ p.extra.keys
        · exact .inl hk
        · exact .inr ⟨h, by simpa using hk⟩

end Oidfed
