import Verif.Spec.AuthCode
import Verif.Lemmas.JSONObject
import Verif.Lemmas.Int64
/-!
# Lemmas about map updates and request objects
-/

namespace Oidfed
open Spec

theorem del_get {α : Type} (m : AMap α) (k k' : String) : (m.del k).get k' = if k' = k then none else m.get k' := by
  unfold AMap.del
  rw [jget_filter (p := fun x => !(x == k))]
  by_cases h : k' = k <;> simp [h]

theorem put_get {α : Type} (m : AMap α) (k k' : String) (v : α) : (m.put k v).get k' = if k' = k then some v else m.get k' := by
  have : m.put k v = (k, v) :: m.del k := rfl
  rw [this, jget_cons, del_get]
  by_cases h : k = k'
  · simp [h]
  · have h' : ¬ k' = k := fun e => h e.symm
    simp [h, h']

theorem del_wf {α : Type} {m : AMap α} (h : m.WF) (k : String) : (m.del k).WF :=
  List.Nodup.sublist ((List.filter_sublist).map _) h

theorem put_wf {α : Type} {m : AMap α} (h : m.WF) (k : String) (v : α) : (m.put k v).WF := by
  have : m.put k v = (k, v) :: m.del k := rfl
  rw [this]
  refine List.nodup_cons.mpr ⟨?_, del_wf h k⟩
  intro hm
  obtain ⟨x, hx, e⟩ := List.mem_map.mp hm
  have := (List.mem_filter.mp hx).2
  simp [e] at this

theorem sort_only {l : JObj} (h : AMap.WF l) {k : String} {v : JV} (hg : AMap.get l k = some v) : OnlyMember (sortMembers l) k v := by
  apply onlyMember_of
  · exact ((sortMembers_perm l).map _).nodup_iff.mpr h
  · rw [sorted_get h]; exact hg

theorem only_get {l : JObj} {k : String} {v : JV} (h : OnlyMember l k v) : AMap.get l k = some v := by
  obtain ⟨pre, post, rfl, h1, _⟩ := h
  rw [jget_append]
  have : AMap.get pre k = none := by
    rw [jget_none_iff]
    intro hm
    obtain ⟨x, hx, e⟩ := List.mem_map.mp hm
    exact h1 x hx e
  rw [this, jget_cons]
  simp

theorem sort_only_iff {l : JObj} (h : AMap.WF l) {k : String} {v : JV} : OnlyMember (sortMembers l) k v ↔ AMap.get l k = some v :=
  ⟨fun ho => by rw [← sorted_get h]; exact only_get ho, sort_only h⟩

theorem sort_none {l : JObj} {k : String} (hg : AMap.get l k = none) : NoMember (sortMembers l) k := by
  intro kv hkv e
  have hm := (sortMembers_perm l).mem_iff.mp hkv
  exact (jget_none_iff l k).mp hg (List.mem_map.mpr ⟨kv, hm, e⟩)

theorem decodeKnown_append (tags : List String) (dec : FieldDec) : ∀ (l l' : JObj) (f : String → Option JV),
    decodeKnown tags dec (l ++ l') f = (decodeKnown tags dec l f).bind (decodeKnown tags dec l') := by
  intro l
  induction l with
  | nil => intro l' f; rfl
  | cons a l ih =>
    obtain ⟨k, v⟩ := a
    intro l' f
    simp only [List.cons_append, decodeKnown]
    cases fieldFor tags k with
    | none => exact ih l' f
    | some t =>
      simp only
      cases dec t (f t) v with
      | none => rfl
      | some x => exact ih l' _

/-- A field no member is decoded into keeps its value. -/
theorem decode_other {tags : List String} {dec : FieldDec} {t : String} : ∀ {l : JObj} {f g : String → Option JV},
    decodeKnown tags dec l f = some g → (∀ kv ∈ l, fieldFor tags kv.1 ≠ some t) → g t = f t := by
  intro l
  induction l with
  | nil => intro f g h _; cases h; rfl
  | cons a l ih =>
    obtain ⟨k, v⟩ := a
    intro f g h hl
    simp only [decodeKnown] at h
    have hk := hl _ List.mem_cons_self
    have hl' := fun kv hkv => hl kv (List.mem_cons_of_mem _ hkv)
    cases hf : fieldFor tags k with
    | none => rw [hf] at h; exact ih h hl'
    | some u =>
      rw [hf] at h
      simp only at h
      cases hd : dec u (f u) v with
      | none => rw [hd] at h; cases h
      | some x =>
        rw [hd] at h
        rw [ih h hl']
        have : t ≠ u := by rintro rfl; exact hk hf
        simp [this]

/-- A field into which only one member is decoded. -/
theorem decode_only {tags : List String} {dec : FieldDec} {t : String} {v : JV} {l : JObj} {f g : String → Option JV}
    (h : decodeKnown tags dec l f = some g) (ho : OnlyMember l t v) (ht : t ∈ tags) (hl : ∀ kv ∈ l, fieldFor tags kv.1 = some t → kv.1 = t) :
    dec t (f t) v = some (g t) := by
  obtain ⟨pre, post, rfl, h1, h2⟩ := ho
  rw [decodeKnown_append] at h
  cases hp : decodeKnown tags dec pre f with
  | none => rw [hp] at h; cases h
  | some f1 =>
    rw [hp, Option.bind_some] at h
    have e1 := decode_other hp (fun kv hkv hf => h1 kv hkv (hl kv (List.mem_append_left _ hkv) hf))
    have hf : fieldFor tags t = some t := by unfold fieldFor; rw [if_pos ht]
    simp only [decodeKnown, hf] at h
    cases hd : dec t (f1 t) v with
    | none => rw [hd] at h; cases h
    | some x =>
      rw [hd] at h
      have e2 := decode_other h (fun kv hkv hf => h2 kv hkv (hl kv (List.mem_append_right _ (List.mem_cons_of_mem _ hkv)) hf))
      rw [← e1, hd, e2]
      simp

/-- The map after the first assignments. -/
def ro1 (id : ID) (m : AMap JV) : AMap JV :=
  (((m.put "iss" (.str id)).put "client_id" (.str id)).del "sub").del "client_secret"

/-- The map that is signed. -/
def ro3 (now exp : Int) (m : AMap JV) : AMap JV := (m.put "iat" (.num now)).put "exp" (.num exp)

theorem ro1_wf {m : AMap JV} (h : m.WF) (id : ID) : (ro1 id m).WF := del_wf (del_wf (put_wf (put_wf h _ _) _ _) _) _

theorem ro3_wf {m : AMap JV} (h : m.WF) (now exp : Int) : (ro3 now exp m).WF := put_wf (put_wf h _ _) _ _

theorem ro1_get (id : ID) (m : AMap JV) (k : String) : (ro1 id m).get k =
    if k = "client_secret" then none else if k = "sub" then none else if k = "client_id" then some (.str id) else
      if k = "iss" then some (.str id) else m.get k := by
  unfold ro1
  rw [del_get, del_get, put_get, put_get]

theorem ro3_get (now exp : Int) (m : AMap JV) (k : String) : (ro3 now exp m).get k =
    if k = "exp" then some (.num exp) else if k = "iat" then some (.num now) else m.get k := by
  unfold ro3
  rw [put_get, put_get]

/-- Claims of the signed map, `m2` being the map with the identifier. -/
theorem ro_claims {id : ID} {now lifetime : Int} {fresh : Option String} {m m2 : AMap JV} (hm2 : m2.WF)
    (ho : NoOverflow now lifetime)
    (hk : ∀ k, k ≠ "jti" → m2.get k = (ro1 id m).get k)
    (hg : ∀ v, m.get "jti" = some v → m2.get "jti" = some v)
    (hf : m.get "jti" = none → ∃ j, fresh = some j ∧ m2.get "jti" = some (.str j)) :
    RequestClaims id now lifetime fresh m (sortMembers (ro3 now (wrap64 (now + lifetime)) m2)) := by
  have hwf := ro3_wf hm2 now (wrap64 (now + lifetime))
  have hw : wrap64 (now + lifetime) = now + lifetime := wrap64_id ho.1 ho.2
  constructor
  · apply sort_only hwf; rw [ro3_get, hk _ (by decide), ro1_get]; rfl
  · apply sort_only hwf; rw [ro3_get, hk _ (by decide), ro1_get]; rfl
  · apply sort_none; rw [ro3_get, hk _ (by decide), ro1_get]; rfl
  · apply sort_none; rw [ro3_get, hk _ (by decide), ro1_get]; rfl
  · apply sort_only hwf; rw [ro3_get]; rfl
  · apply sort_only hwf; rw [ro3_get, hw]; rfl
  · intro v hv; apply sort_only hwf; rw [ro3_get]; exact hg v hv
  · intro hn
    obtain ⟨j, hj, hj2⟩ := hf hn
    refine ⟨j, hj, sort_only hwf ?_⟩
    rw [ro3_get]; exact hj2
  · intro k hk' v
    simp only [mandated, List.mem_cons, List.not_mem_nil, or_false, not_or] at hk'
    obtain ⟨h1, h2, h3, h4, h5, h6, h7⟩ := hk'
    rw [sort_only_iff hwf, ro3_get, if_neg h6, if_neg h5, hk k h7, ro1_get, if_neg h4, if_neg h3, if_neg h2, if_neg h1]

end Oidfed
