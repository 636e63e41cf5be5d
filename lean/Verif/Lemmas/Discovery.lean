import Verif.Spec.Discovery
import Verif.Lemmas.AuthCode
import Verif.Lemmas.CollectorAnswers
/-!
# Lemmas about filters, UI information and remote collection
-/

namespace Oidfed
open Oidfed.Spec

/-! ## Claims -/

theorem etype_tag_inj {a b : EType} (h : a.tag = b.tag) : a = b := by
  revert h; cases a <;> cases b <;> decide

/-- With unique tags, the field found is the one with the tag. -/
theorem find_tag {fs : List Field} (hn : (fs.map Field.tag).Nodup) {f : Field} (hf : f ∈ fs) (p : Field → Bool) (hp : p f = true) :
    fs.find? (fun g => g.tag == f.tag && p g) = some f := by
  induction fs with
  | nil => cases hf
  | cons g gs ih =>
    simp only [List.map_cons, List.nodup_cons] at hn
    rcases List.mem_cons.mp hf with rfl | hf
    · simp [hp]
    · have hne : (g.tag == f.tag) = false := by
        rw [beq_eq_false_iff_ne]
        intro e
        exact hn.1 (e ▸ List.mem_map.mpr ⟨f, hf, rfl⟩)
      rw [List.find?_cons, hne]
      exact ih hn.2 hf

theorem find_string {em : EntityMeta} (hg : GoStruct em) {c v : String} (hv : v ≠ "") :
    (match em.fields.find? (fun f => f.tag == c && f.isString) with
      | some ⟨_, _, _, .str s⟩ => if s ≠ "" then some s else none
      | _ => none) = some v ↔ ∃ f ∈ em.fields, f.tag = c ∧ f.ty = .str ∧ f.val = .str v := by
  constructor
  · intro h
    cases hfind : em.fields.find? (fun f => f.tag == c && f.isString) with
    | none => rw [hfind] at h; cases h
    | some f =>
      rw [hfind] at h
      have hmem := List.mem_of_find?_eq_some hfind
      have hp := List.find?_some hfind
      simp only [Field.isString, Bool.and_eq_true, beq_iff_eq] at hp
      obtain ⟨s, hs⟩ := (hg.strings f hmem).mp hp.2
      obtain ⟨n, tg, ty, val⟩ := f
      simp only at hs
      subst hs
      simp only at h
      split at h
      · cases h; exact ⟨_, hmem, hp.1, hp.2, rfl⟩
      · cases h
  · rintro ⟨f, hf, rfl, hty, hval⟩
    rw [find_tag hg.tags hf Field.isString (by simp [Field.isString, hty])]
    obtain ⟨n, tg, ty, val⟩ := f
    simp only at hval
    subst hval
    simp [hv]

/-- `IterateStringClaim` calls the iterator for exactly the types that have the claim. -/
theorem mem_iterateString {m : Metadata} (hm : GoMetadata m) {c T v : String} :
    (T, v) ∈ m.iterateString c ↔ ∃ t : EType, t.tag = T ∧ HasString m t c v := by
  unfold Metadata.iterateString
  rw [List.mem_filterMap]
  constructor
  · rintro ⟨t, _, h⟩
    cases hk : m.known t with
    | none => rw [hk] at h; cases h
    | some em =>
      rw [hk] at h
      have hg := hm t em hk
      simp only at h
      split at h
      · rename_i s hfind
        split at h
        · rename_i hs
          cases h
          have := (find_string (c := c) hg hs).mp (by rw [hfind]; simp [hs])
          obtain ⟨f, h1, h2, h3, h4⟩ := this
          exact ⟨t, rfl, hs, em, f, hk, h1, h2, h3, h4⟩
        · cases h
      · cases h
  · rintro ⟨t, rfl, hv, em, f, hk, h1, h2, h3, h4⟩
    refine ⟨t, mem_etypes t, ?_⟩
    have := (find_string (c := c) (hm t em hk) hv).mpr ⟨f, h1, h2, h3, h4⟩
    simp only [hk]
    split at this
    · split at this
      · rename_i hfind hs; cases this; simp [hfind, hs]
      · cases this
    · cases this

theorem filterMap_tags_nodup {α : Type} (ts : List EType) (hts : ts.Nodup) (f : EType → Option (String × α))
    (hf : ∀ t x, f t = some x → x.1 = t.tag) : ((ts.filterMap f).map (·.1)).Nodup := by
  induction ts with
  | nil => simp
  | cons t ts ih =>
    simp only [List.nodup_cons] at hts
    rw [List.filterMap_cons]
    split
    · exact ih hts.2
    · rename_i x hx
      rw [List.map_cons, List.nodup_cons]
      refine ⟨?_, ih hts.2⟩
      rw [hf t x hx]
      intro hmem
      obtain ⟨y, hy, he⟩ := List.mem_map.mp hmem
      obtain ⟨t', ht', hy⟩ := List.mem_filterMap.mp hy
      rw [hf t' y hy] at he
      exact hts.1 (etype_tag_inj he ▸ ht')

theorem iterateString_nodup (m : Metadata) (c : String) : ((m.iterateString c).map (·.1)).Nodup := by
  refine filterMap_tags_nodup _ (by decide) _ ?_
  intro t x h
  split at h
  · cases h
  · split at h
    · split at h
      · cases h; rfl
      · cases h
    · cases h

theorem displayNames_nodup (m : Metadata) : ((m.displayNames).map (·.1)).Nodup := by
  refine filterMap_tags_nodup _ (by decide) _ ?_
  intro t x h
  cases hk : m.known t with
  | none => rw [hk] at h; cases h
  | some em => rw [hk] at h; cases h; rfl

theorem str_iff {em : EntityMeta} (hg : GoStruct em) {c v : String} (hv : v ≠ "") :
    em.str c = v ↔ ∃ f ∈ em.fields, f.tag = c ∧ f.ty = .str ∧ f.val = .str v := by
  unfold EntityMeta.str
  constructor
  · intro h
    cases hfind : em.fields.find? (fun f => f.tag == c) with
    | none => rw [hfind] at h; exact absurd h.symm hv
    | some f =>
      rw [hfind] at h
      have hmem := List.mem_of_find?_eq_some hfind
      have hp := List.find?_some hfind
      simp only [beq_iff_eq] at hp
      obtain ⟨n, tg, ty, val⟩ := f
      cases val with
      | str s =>
        simp only at h
        subst h
        exact ⟨_, hmem, hp, (hg.strings _ hmem).mpr ⟨_, rfl⟩, rfl⟩
      | _ => exact absurd h.symm hv
  · rintro ⟨f, hf, rfl, hty, hval⟩
    have := find_tag hg.tags hf (fun _ => true) rfl
    simp only [Bool.and_true] at this
    rw [this]
    obtain ⟨n, tg, ty, val⟩ := f
    simp only at hval
    subst hval
    rfl

theorem hasString_iff {m : Metadata} (hm : GoMetadata m) {t : EType} {c v : String} :
    HasString m t c v ↔ v ≠ "" ∧ ∃ em, m.known t = some em ∧ em.str c = v := by
  constructor
  · rintro ⟨hv, em, f, hk, h⟩
    exact ⟨hv, em, hk, (str_iff (hm t em hk) hv).mpr ⟨f, h⟩⟩
  · rintro ⟨hv, em, hk, h⟩
    obtain ⟨f, h⟩ := (str_iff (hm t em hk) hv).mp h
    exact ⟨hv, em, f, hk, h⟩

theorem mem_displayNames {m : Metadata} (hm : GoMetadata m) {T v : String} (hv : v ≠ "") :
    (T, v) ∈ m.displayNames ↔ ∃ t : EType, t.tag = T ∧ HasName m t v := by
  unfold Metadata.displayNames
  rw [List.mem_filterMap]
  simp only [HasName, hasString_iff hm]
  constructor
  · rintro ⟨t, _, h⟩
    cases hk : m.known t with
    | none => rw [hk] at h; cases h
    | some em =>
      rw [hk] at h
      simp only [Option.map_some, Option.some.injEq, Prod.mk.injEq] at h
      obtain ⟨rfl, h⟩ := h
      refine ⟨t, rfl, ?_⟩
      unfold guessDisplayName at h
      split at h
      · exact .inl ⟨hv, em, hk, h⟩
      · rename_i hd
        refine .inr ⟨?_, hv, em, hk, h⟩
        rintro ⟨w, hw, em', hk', h'⟩
        rw [hk] at hk'
        cases hk'
        rw [h'] at hd
        exact hd hw
  · rintro ⟨t, rfl, h⟩
    refine ⟨t, mem_etypes t, ?_⟩
    rcases h with ⟨_, em, hk, h⟩ | ⟨hno, _, em, hk, h⟩
    · simp [hk, guessDisplayName, h, hv]
    · have : em.str "display_name" = "" := Classical.byContradiction fun hne => hno ⟨_, hne, em, hk, rfl⟩
      simp [hk, guessDisplayName, this, nameTag_eq, h]

/-! ## UI information -/

/-- What is stored for a claim. -/
def uiVal (infos : AMap UIInfo) (T c : String) : Option Val :=
  match infos.get T with
  | none => none
  | some u => u.extra.get c

/-- No field was ever assigned. -/
def UIClean (infos : AMap UIInfo) : Prop := ∀ T u, infos.get T = some u → u.fields = UIInfo.zero.fields

theorem zero_no_tag {c : String} (hc : c ∈ uiClaims ∨ c = "keywords" ∨ c = "display_name") :
    UIInfo.zero.fields.find? (fun f => f.tag == c) = none := by
  simp only [uiClaims, List.mem_cons, List.not_mem_nil, or_false] at hc
  rcases hc with (rfl | rfl | rfl | rfl) | rfl | rfl <;> decide

theorem setUI_eq {infos : AMap UIInfo} (h : UIClean infos) {T c : String} (hc : UIInfo.zero.fields.find? (fun f => f.tag == c) = none) (v : Val) :
    ∃ u, setUIInfo infos T c v = infos.put T u ∧ u.fields = UIInfo.zero.fields ∧
      ∀ c', u.extra.get c' = if c' = c then some v else uiVal infos T c' := by
  have hfields : ((infos.get T).getD UIInfo.zero).fields = UIInfo.zero.fields := by
    cases hg : infos.get T with
    | none => rfl
    | some u => exact h T u hg
  have hset : ((infos.get T).getD UIInfo.zero).set c v =
      some { (infos.get T).getD UIInfo.zero with extra := ((infos.get T).getD UIInfo.zero).extra.put c v } := by
    unfold UIInfo.set
    rw [hfields, hc]
    simp only [hfields]
  refine ⟨{ (infos.get T).getD UIInfo.zero with extra := ((infos.get T).getD UIInfo.zero).extra.put c v }, by unfold setUIInfo; rw [hset], hfields, ?_⟩
  intro c'
  dsimp only
  rw [put_get]
  by_cases e : c' = c
  · simp [e]
  · simp only [e, if_false, uiVal]
    cases hg : infos.get T <;> rfl

theorem setUI_clean {infos : AMap UIInfo} (h : UIClean infos) {T c : String} (hc : UIInfo.zero.fields.find? (fun f => f.tag == c) = none) (v : Val) :
    UIClean (setUIInfo infos T c v) := by
  obtain ⟨u, he, hf, _⟩ := setUI_eq h (T := T) hc v
  intro T' u' hu'
  rw [he, put_get] at hu'
  split at hu'
  · cases hu'; exact hf
  · exact h T' u' hu'

theorem setUI_val {infos : AMap UIInfo} (h : UIClean infos) {T c : String} (hc : UIInfo.zero.fields.find? (fun f => f.tag == c) = none) (v : Val)
    (T' c' : String) : uiVal (setUIInfo infos T c v) T' c' = if T' = T ∧ c' = c then some v else uiVal infos T' c' := by
  obtain ⟨u, he, _, hx⟩ := setUI_eq h (T := T) hc v
  rw [he]
  by_cases hT : T' = T
  · subst hT
    simp only [uiVal, put_get, if_true, true_and]
    rw [hx]
    simp only [uiVal]
  · simp only [uiVal, put_get, hT, if_false, false_and]

/-- The loop over the values of one claim. `g` tells which values are stored. -/
theorem fold_clean (c : String) (hc : UIInfo.zero.fields.find? (fun f => f.tag == c) = none) (g : String → Option Val) (l : List (String × String))
    {infos : AMap UIInfo} (h : UIClean infos) :
    UIClean (l.foldl (fun infos tv => match g tv.2 with
      | some v => setUIInfo infos tv.1 c v
      | none => infos) infos) := by
  induction l generalizing infos with
  | nil => exact h
  | cons a l ih =>
    rw [List.foldl_cons]
    apply ih
    cases g a.2 with
    | none => exact h
    | some v => exact setUI_clean h hc v

theorem fold_val (c : String) (hc : UIInfo.zero.fields.find? (fun f => f.tag == c) = none) (g : String → Option Val) (l : List (String × String))
    (hn : (l.map (·.1)).Nodup) {infos : AMap UIInfo} (h : UIClean infos) (T c' : String) (v : Val) :
    uiVal (l.foldl (fun infos tv => match g tv.2 with
      | some v => setUIInfo infos tv.1 c v
      | none => infos) infos) T c' = some v ↔
      (c' = c ∧ ∃ s, (T, s) ∈ l ∧ g s = some v) ∨ (¬ (c' = c ∧ ∃ s v', (T, s) ∈ l ∧ g s = some v') ∧ uiVal infos T c' = some v) := by
  induction l generalizing infos with
  | nil => simp
  | cons a l ih =>
    obtain ⟨Ta, sa⟩ := a
    simp only [List.map_cons, List.nodup_cons] at hn
    rw [List.foldl_cons]
    have hnot : ∀ s, (Ta, s) ∉ l := fun s hs => hn.1 (List.mem_map.mpr ⟨_, hs, rfl⟩)
    cases hg : g sa with
    | none =>
      simp only
      rw [ih hn.2 h]
      have e : ∀ v', (∃ s, (T, s) ∈ (Ta, sa) :: l ∧ g s = some v') ↔ ∃ s, (T, s) ∈ l ∧ g s = some v' := by
        intro v'
        constructor
        · rintro ⟨s, hs, hv⟩
          rcases List.mem_cons.mp hs with e | hs
          · cases e; rw [hg] at hv; cases hv
          · exact ⟨s, hs, hv⟩
        · rintro ⟨s, hs, hv⟩; exact ⟨s, List.mem_cons_of_mem _ hs, hv⟩
      have e2 : (∃ s v', (T, s) ∈ (Ta, sa) :: l ∧ g s = some v') ↔ ∃ s v', (T, s) ∈ l ∧ g s = some v' := by
        rw [exists_comm, exists_comm (p := fun s v' => (T, s) ∈ l ∧ g s = some v')]
        exact exists_congr e
      rw [e, e2]
    | some w =>
      simp only
      rw [ih hn.2 (setUI_clean h hc w), setUI_val h hc]
      by_cases hT : T = Ta
      · subst hT
        by_cases hcc : c' = c
        · subst hcc
          constructor
          · rintro (⟨_, s, hs, _⟩ | ⟨_, hv⟩)
            · exact absurd hs (hnot s)
            · simp only [and_self, if_true] at hv
              exact .inl ⟨rfl, sa, List.mem_cons_self, by rw [hg, hv]⟩
          · rintro (⟨_, s, hs, hv⟩ | ⟨hno, _⟩)
            · rcases List.mem_cons.mp hs with e | hs
              · cases e
                refine .inr ⟨?_, ?_⟩
                · rintro ⟨_, s, _, hs, _⟩; exact hnot s hs
                · rw [hg] at hv; simpa using hv
              · exact absurd hs (hnot s)
            · exact absurd ⟨rfl, sa, w, List.mem_cons_self, hg⟩ hno
        · simp [hcc]
      · have e : ∀ v', (∃ s, (T, s) ∈ (Ta, sa) :: l ∧ g s = some v') ↔ ∃ s, (T, s) ∈ l ∧ g s = some v' := by
          intro v'
          constructor
          · rintro ⟨s, hs, hv⟩
            rcases List.mem_cons.mp hs with e | hs
            · cases e; exact absurd rfl hT
            · exact ⟨s, hs, hv⟩
          · rintro ⟨s, hs, hv⟩; exact ⟨s, List.mem_cons_of_mem _ hs, hv⟩
        have e2 : (∃ s v', (T, s) ∈ (Ta, sa) :: l ∧ g s = some v') ↔ ∃ s v', (T, s) ∈ l ∧ g s = some v' := by
          rw [exists_comm, exists_comm (p := fun s v' => (T, s) ∈ l ∧ g s = some v')]
          exact exists_congr e
        rw [e, e2]
        simp [hT]

theorem ui_members_get {u : UIInfo} (h : u.fields = UIInfo.zero.fields) (c : String) : u.members.get c = u.extra.get c := by
  unfold UIInfo.members
  rw [h]
  rfl

theorem uiShows_iff {infos : AMap UIInfo} (h : UIClean infos) {t : EType} {c : String} {v : Val} :
    UIShows infos t c v ↔ uiVal infos t.tag c = some v := by
  unfold UIShows uiVal
  constructor
  · rintro ⟨u, hu, hv⟩
    rw [hu]
    rw [ui_members_get (h _ u hu)] at hv
    exact hv
  · intro hv
    cases hu : infos.get t.tag with
    | none => rw [hu] at hv; cases hv
    | some u =>
      rw [hu] at hv
      exact ⟨u, rfl, by rw [ui_members_get (h _ u hu)]; exact hv⟩

theorem keywords_none {m : Metadata} {ks : List (String × List String)} (h : m.iterateSlice "keywords" = .ok ks) : ks = [] := by
  unfold Metadata.iterateSlice at h
  have : ∀ ts ks, iterateSliceLoop m "keywords" ts = .ok ks → ks = [] := by
    intro ts
    induction ts with
    | nil => intro ks h; simp only [iterateSliceLoop, Except.ok.injEq] at h; exact h.symm
    | cons t ts ih =>
      intro ks h
      unfold iterateSliceLoop at h
      split at h
      · exact ih ks h
      · split at h
        · exact ih ks h
        · cases h
  exact this _ _ h

/-- The loop over the four claims. -/
def uiStrings (claims : Option (List String)) (m : Metadata) (cs : List String) (infos : AMap UIInfo) : AMap UIInfo :=
  cs.foldl (fun infos c =>
    if wanted claims c then (m.iterateString c).foldl (fun infos tv => setUIInfo infos tv.1 c (.str tv.2)) infos else infos) infos

theorem uiStrings_spec (claims : Option (List String)) {m : Metadata} (hm : GoMetadata m) (cs : List String) (hcs : ∀ c ∈ cs, c ∈ uiClaims)
    {infos : AMap UIInfo} (h : UIClean infos) : UIClean (uiStrings claims m cs infos) ∧ ∀ (t : EType) (c' : String) (v : Val),
      (∀ v, uiVal infos t.tag c' = some v → ∃ s, v = .str s ∧ wanted claims c' = true ∧ HasString m t c' s) →
      (uiVal (uiStrings claims m cs infos) t.tag c' = some v ↔
        (c' ∈ cs ∧ wanted claims c' = true ∧ ∃ s, v = .str s ∧ HasString m t c' s) ∨ uiVal infos t.tag c' = some v) := by
  have huniq : ∀ t c s s', HasString m t c s → HasString m t c s' → s = s' := by
    intro t c s s' h1 h2
    obtain ⟨_, em, hk, h1⟩ := (hasString_iff hm).mp h1
    obtain ⟨_, em', hk', h2⟩ := (hasString_iff hm).mp h2
    rw [hk] at hk'
    cases hk'
    rw [← h1, ← h2]
  induction cs generalizing infos with
  | nil => exact ⟨h, fun t c' v _ => by simp [uiStrings]⟩
  | cons c cs ih =>
    have hc : UIInfo.zero.fields.find? (fun f => f.tag == c) = none := zero_no_tag (.inl (hcs c List.mem_cons_self))
    have hcs' : ∀ c ∈ cs, c ∈ uiClaims := fun x hx => hcs x (List.mem_cons_of_mem _ hx)
    by_cases hw : wanted claims c = true
    · have e : uiStrings claims m (c :: cs) infos =
          uiStrings claims m cs ((m.iterateString c).foldl (fun infos tv => setUIInfo infos tv.1 c (.str tv.2)) infos) := by
        simp [uiStrings, hw]
      have hcl := fold_clean c hc (fun s => some (.str s)) (m.iterateString c) h
      have hval := fold_val c hc (fun s => some (.str s)) (m.iterateString c) (iterateString_nodup m c) h
      simp only at hcl hval
      obtain ⟨h1, h2⟩ := ih hcs' hcl
      rw [e]
      refine ⟨h1, fun t c' v hold => ?_⟩
      have hmem : ∀ s, (t.tag, s) ∈ m.iterateString c ↔ HasString m t c s := by
        intro s
        rw [mem_iterateString hm]
        constructor
        · rintro ⟨t', he, h⟩; exact etype_tag_inj he ▸ h
        · exact fun h => ⟨t, rfl, h⟩
      have hmid : ∀ v, uiVal ((m.iterateString c).foldl (fun infos tv => setUIInfo infos tv.1 c (.str tv.2)) infos) t.tag c' = some v ↔
          (c' = c ∧ ∃ s, v = .str s ∧ HasString m t c s) ∨ uiVal infos t.tag c' = some v := by
        intro v
        rw [hval]
        simp only [hmem, Option.some.injEq]
        constructor
        · rintro (⟨rfl, s, hs, rfl⟩ | ⟨_, h⟩)
          · exact .inl ⟨rfl, s, rfl, hs⟩
          · exact .inr h
        · rintro (⟨rfl, s, rfl, hs⟩ | h)
          · exact .inl ⟨rfl, s, hs, rfl⟩
          · by_cases hx : c' = c ∧ ∃ s v', HasString m t c s ∧ Val.str s = v'
            · obtain ⟨rfl, s, v', hs, rfl⟩ := hx
              obtain ⟨s', rfl, _, hs'⟩ := hold v h
              have := huniq _ _ _ _ hs hs'
              subst this
              exact .inl ⟨rfl, s, hs, rfl⟩
            · exact .inr ⟨hx, h⟩
      rw [h2 t c' v (by
        intro v hv
        rcases (hmid v).mp hv with ⟨rfl, s, rfl, hs⟩ | hv
        · exact ⟨s, rfl, hw, hs⟩
        · exact hold v hv), hmid]
      constructor
      · rintro (⟨h1, h2, h3⟩ | ⟨rfl, s, rfl, hs⟩ | h)
        · exact .inl ⟨List.mem_cons_of_mem _ h1, h2, h3⟩
        · exact .inl ⟨List.mem_cons_self, hw, s, rfl, hs⟩
        · exact .inr h
      · rintro (⟨h1, h2, s, rfl, hs⟩ | h)
        · rcases List.mem_cons.mp h1 with rfl | h1
          · exact .inr (.inl ⟨rfl, s, rfl, hs⟩)
          · exact .inl ⟨h1, h2, s, rfl, hs⟩
        · exact .inr (.inr h)
    · have e : uiStrings claims m (c :: cs) infos = uiStrings claims m cs infos := by simp [uiStrings, hw]
      obtain ⟨h1, h2⟩ := ih hcs' h
      rw [e]
      refine ⟨h1, fun t c' v hold => ?_⟩
      rw [h2 t c' v hold]
      constructor
      · rintro (⟨h1, h2⟩ | h)
        · exact .inl ⟨List.mem_cons_of_mem _ h1, h2⟩
        · exact .inr h
      · rintro (⟨h1, h2, h3⟩ | h)
        · rcases List.mem_cons.mp h1 with rfl | h1
          · exact absurd h2 hw
          · exact .inl ⟨h1, h2, h3⟩
        · exact .inr h

/-- The UI information is that of the loop over the claims, with the display names. -/
theorem collectUI_eq {claims : Option (List String)} {m : Metadata} {infos : AMap UIInfo} (h : collectUI claims m = .ok infos) :
    infos = (if wanted claims "display_name" then
      m.displayNames.foldl (fun infos tv => if tv.2 ≠ "" then setUIInfo infos tv.1 "display_name" (.str tv.2) else infos)
        (uiStrings claims m uiClaims []) else uiStrings claims m uiClaims []) := by
  unfold collectUI at h
  simp only at h
  split at h
  · cases h
  · rename_i ks hks
    have : ks = [] := by
      split at hks
      · exact keywords_none hks
      · cases hks; rfl
    subst this
    simp only [List.foldl_nil, Except.ok.injEq] at h
    exact h.symm

theorem empty_clean : UIClean [] := by intro T u h; cases h

theorem fold_name_eq (l : List (String × String)) (infos : AMap UIInfo) :
    l.foldl (fun infos tv => if tv.2 ≠ "" then setUIInfo infos tv.1 "display_name" (.str tv.2) else infos) infos =
    l.foldl (fun infos tv => match (if tv.2 ≠ "" then some (Val.str tv.2) else none) with
      | some v => setUIInfo infos tv.1 "display_name" v
      | none => infos) infos := by
  congr 1
  funext infos tv
  by_cases h : tv.2 = "" <;> simp [h]

theorem collectUI_clean {claims : Option (List String)} {m : Metadata} (hm : GoMetadata m) {infos : AMap UIInfo} (h : collectUI claims m = .ok infos) :
    UIClean infos := by
  rw [collectUI_eq h]
  have h1 := (uiStrings_spec claims hm uiClaims (fun _ h => h) empty_clean).1
  split
  · rw [fold_name_eq]
    exact fold_clean "display_name" (zero_no_tag (.inr (.inr rfl))) (fun s => if s ≠ "" then some (Val.str s) else none) m.displayNames h1
  · exact h1

theorem collectUI_val {claims : Option (List String)} {m : Metadata} (hm : GoMetadata m) {infos : AMap UIInfo} (h : collectUI claims m = .ok infos)
    (t : EType) (c : String) (v : Val) : uiVal infos t.tag c = some v ↔
      wanted claims c = true ∧ ∃ s, v = .str s ∧ ((c ∈ uiClaims ∧ HasString m t c s) ∨ (c = "display_name" ∧ HasName m t s)) := by
  rw [collectUI_eq h]
  obtain ⟨h1, h2⟩ := uiStrings_spec claims hm uiClaims (fun _ h => h) empty_clean
  have hstr : ∀ c v, uiVal (uiStrings claims m uiClaims []) t.tag c = some v ↔ c ∈ uiClaims ∧ wanted claims c = true ∧ ∃ s, v = .str s ∧ HasString m t c s := by
    intro c v
    rw [h2 t c v (by intro v hv; cases hv)]
    constructor
    · rintro (h | h)
      · exact h
      · cases h
    · exact .inl
  have hdn : "display_name" ∉ uiClaims := by decide
  by_cases hw : wanted claims "display_name" = true
  · rw [if_pos hw, fold_name_eq,
      fold_val "display_name" (zero_no_tag (.inr (.inr rfl))) (fun s => if s ≠ "" then some (Val.str s) else none) m.displayNames (displayNames_nodup m) h1, hstr]
    have hmem : ∀ s, s ≠ "" → ((t.tag, s) ∈ m.displayNames ↔ HasName m t s) := by
      intro s hs
      rw [mem_displayNames hm hs]
      constructor
      · rintro ⟨t', he, h⟩; exact etype_tag_inj he ▸ h
      · exact fun h => ⟨t, rfl, h⟩
    constructor
    · rintro (⟨rfl, s, hs, he⟩ | ⟨_, hc, hw, s, hv, hs⟩)
      · split at he
        · rename_i hne
          cases he
          exact ⟨hw, s, rfl, .inr ⟨rfl, (hmem s hne).mp hs⟩⟩
        · cases he
      · exact ⟨hw, s, hv, .inl ⟨hc, hs⟩⟩
    · rintro ⟨hw', s, rfl, ⟨hc, hs⟩ | ⟨rfl, hs⟩⟩
      · refine .inr ⟨?_, hc, hw', s, rfl, hs⟩
        rintro ⟨rfl, _⟩
        exact hdn hc
      · have hne : s ≠ "" := by
          rcases hs with h | ⟨_, h⟩
          · exact h.1
          · exact h.1
        exact .inl ⟨rfl, s, (hmem s hne).mpr hs, by simp [hne]⟩
  · rw [if_neg hw, hstr]
    constructor
    · rintro ⟨hc, hw', s, hv, hs⟩
      exact ⟨hw', s, hv, .inl ⟨hc, hs⟩⟩
    · rintro ⟨hw', s, hv, ⟨hc, hs⟩ | ⟨rfl, _⟩⟩
      · exact ⟨hc, hw', s, hv, hs⟩
      · exact absurd hw' hw

end Oidfed
