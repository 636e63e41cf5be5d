import Verif.Spec.NameQuery
import Verif.Props.Collector
/-!
# Queries for display names (C132)
-/

namespace Oidfed
open Spec

theorem Spec.InOrder.nil' : ∀ t, InOrder [] t
  | [] => .nil
  | c :: t => .skip c (InOrder.nil' t)

theorem Spec.InOrder.refl : ∀ t, InOrder t t
  | [] => .nil
  | c :: t => .take c (InOrder.refl t)

theorem Spec.InOrder.tail {r : Char} {s : List Char} : ∀ {t}, InOrder (r :: s) t → InOrder s t
  | _, .skip c h => .skip c h.tail
  | _, .take c h => .skip c h

theorem Spec.InOrder.append_left {s t : List Char} : ∀ pre, InOrder s t → InOrder s (pre ++ t)
  | [], h => h
  | c :: pre, h => .skip c (h.append_left pre)

theorem Spec.InOrder.append {s t s' t' : List Char} (h : InOrder s t) (h' : InOrder s' t') : InOrder (s ++ s') (t ++ t') := by
  induction h with
  | nil => exact h'
  | skip c _ ih => exact .skip c ih
  | take c _ ih => exact .take c ih

theorem inOrder_bytes {s t : List Char} (h : InOrder s t) : byteLen s ≤ byteLen t ∧ (byteLen s = byteLen t → s = t) := by
  induction h with
  | nil => exact ⟨Nat.le_refl _, fun _ => rfl⟩
  | skip c _ ih =>
    have := Char.utf8Size_pos c
    simp only [byteLen, List.map_cons, List.sum_cons] at ih ⊢
    exact ⟨by omega, fun e => by omega⟩
  | take c _ ih =>
    simp only [byteLen, List.map_cons, List.sum_cons] at ih ⊢
    exact ⟨by omega, fun e => by rw [ih.2 (by omega)]⟩

theorem afterRune_some {r : Char} : ∀ {t t' : List Char}, afterRune r t = some t' → ∀ s, (InOrder (r :: s) t ↔ InOrder s t')
  | [], _, h, _ => by cases h
  | c :: t, t', h, s => by
    unfold afterRune at h
    by_cases e : c = r
    · rw [if_pos e] at h
      cases h
      subst e
      constructor
      · intro h
        cases h with
        | skip _ h => exact h.tail
        | take _ h => exact h
      · exact .take _
    · rw [if_neg e] at h
      rw [← afterRune_some h s]
      constructor
      · intro h
        cases h with
        | skip _ h => exact h
        | take _ h => exact absurd rfl e
      · exact .skip _

theorem afterRune_none {r : Char} : ∀ {t : List Char}, afterRune r t = none → ∀ s, ¬ InOrder (r :: s) t
  | [], _, s, h => by cases h
  | c :: t, h, s, hi => by
    unfold afterRune at h
    by_cases e : c = r
    · rw [if_pos e] at h; cases h
    · rw [if_neg e] at h
      cases hi with
      | skip _ hi => exact afterRune_none h s hi
      | take _ _ => exact e rfl

theorem scanRunes_iff : ∀ {s t : List Char}, scanRunes s t = true ↔ InOrder s t
  | [], t => ⟨fun _ => InOrder.nil' t, fun _ => by simp [scanRunes]⟩
  | r :: s, t => by
    rw [scanRunes]
    cases h : afterRune r t with
    | none => simp only [Bool.false_eq_true, false_iff]; exact afterRune_none h s
    | some t' => simp only []; rw [scanRunes_iff, afterRune_some h]

theorem fuzzyMatch_iff {s t : List Char} : fuzzyMatch s t = true ↔ InOrder s t := by
  unfold fuzzyMatch
  by_cases h1 : byteLen t < byteLen s
  · rw [if_pos h1]
    simp only [Bool.false_eq_true, false_iff]
    exact fun h => by have := (inOrder_bytes h).1; omega
  · rw [if_neg h1]
    by_cases h2 : (byteLen t = byteLen s && s == t) = true
    · rw [if_pos h2]
      simp only [Bool.and_eq_true, decide_eq_true_eq, beq_iff_eq] at h2
      rw [h2.2]
      exact ⟨fun _ => InOrder.refl t, fun _ => rfl⟩
    · rw [if_neg h2, scanRunes_iff]

theorem containsText_iff {s : List Char} : ∀ {t : List Char}, containsText s t = true ↔ Within s t
  | [] => by
    rw [containsText, List.isEmpty_iff]
    constructor
    · rintro rfl; exact ⟨[], [], rfl⟩
    · rintro ⟨pre, post, h⟩
      exact (List.append_eq_nil_iff.mp (List.append_eq_nil_iff.mp h.symm).1).2
  | c :: t => by
    rw [containsText, Bool.or_eq_true, containsText_iff, List.isPrefixOf_iff_prefix]
    constructor
    · rintro (⟨post, h⟩ | ⟨pre, post, h⟩)
      · exact ⟨[], post, by rw [List.nil_append, h]⟩
      · exact ⟨c :: pre, post, by rw [h]; rfl⟩
    · rintro ⟨pre, post, h⟩
      cases pre with
      | nil => exact .inl ⟨post, by rw [h]; rfl⟩
      | cons d pre =>
        rw [List.cons_append, List.cons_append] at h
        exact .inr ⟨pre, post, (List.cons.inj h).2⟩

/-- C132: for all names and queries, in every mode: the query matches if and only if one of the names matches it, as the mode says; and a mode that does not exist
matches nothing. -/
theorem C132_modes (T : TextRules) (input mode : String) (names : List String) :
    matchWithMode T input names mode = true ↔ ∃ n ∈ names, Matches T mode input n := by
  unfold matchWithMode Matches
  by_cases h1 : mode = "fuzzy"
  · subst h1
    rw [if_pos rfl]
    simp [findNormalizedFold, List.length_pos_iff_exists_mem, ← fuzzyMatch_iff]
  rw [if_neg h1]
  by_cases h2 : mode = "exact-case-sensitive"
  · subst h2; rw [if_pos rfl]; simp
  rw [if_neg h2]
  by_cases h3 : mode = "exact-case-insensitive"
  · subst h3; rw [if_pos rfl]; simp
  rw [if_neg h3]
  by_cases h4 : mode = "substring-case-sensitive"
  · subst h4; rw [if_pos rfl]; simp [containsText_iff]
  rw [if_neg h4]
  by_cases h5 : mode = "substring-case-insensitive"
  · subst h5; rw [if_pos rfl]; simp [containsText_iff]
  rw [if_neg h5]
  simp [h1, h2, h3, h4, h5]

/-- C132: an entity matches if and only if one of its display names does, for whatever entity type it has that name. -/
theorem C132_display_names (T : TextRules) (input mode : String) (names : AMap String) :
    matchDisplayName T input names mode = true ↔ ∃ entityType name, (entityType, name) ∈ names ∧ Matches T mode input name := by
  unfold matchDisplayName
  rw [C132_modes]
  constructor
  · rintro ⟨n, hn, h⟩
    obtain ⟨kv, hkv, rfl⟩ := List.mem_map.mp hn
    exact ⟨kv.1, kv.2, hkv, h⟩
  · rintro ⟨k, n, hn, h⟩
    exact ⟨n, List.mem_map.mpr ⟨_, hn, rfl⟩, h⟩

/-- C132: the outcome does not depend on the order in which the map of display names is iterated. -/
theorem C132_order (T : TextRules) (input mode : String) (names names' : AMap String) (h : names.Perm names') :
    matchDisplayName T input names mode = matchDisplayName T input names' mode := by
  rw [Bool.eq_iff_iff]
  unfold matchDisplayName
  rw [C132_modes, C132_modes]
  simp only [(h.map _).mem_iff]

theorem Spec.InOrder.flatMap {g : Char → List Char} {s t : List Char} (h : InOrder s t) : InOrder (s.flatMap g) (t.flatMap g) := by
  induction h with
  | nil => exact .nil
  | skip c _ ih => rw [List.flatMap_cons]; exact ih.append_left _
  | take c _ ih => rw [List.flatMap_cons, List.flatMap_cons]; exact (InOrder.refl _).append ih

theorem within_inOrder {s t : List Char} : Within s t → InOrder s t := by
  rintro ⟨pre, post, rfl⟩
  have := ((InOrder.refl s).append (InOrder.nil' post)).append_left pre
  rw [List.append_nil] at this
  rw [List.append_assoc]
  exact this

theorem flatMap_map_eq {g : Char → List Char} {k : Char → Char} (h : ∀ c, g (k c) = g c) : ∀ l : List Char, (l.map k).flatMap g = l.flatMap g
  | [] => rfl
  | c :: l => by rw [List.map_cons, List.flatMap_cons, List.flatMap_cons, h, flatMap_map_eq h l]

/-- C132: what any other mode finds, the mode used for collections finds too: in particular all names that contain the query, in upper or lower case. Partial: for texts
that are transformed character by character. -/
theorem C132_fuzzy_finds_partial (T : TextRules) (hT : CharByChar T) (input mode : String) (names : List String)
    (h : matchWithMode T input names mode = true) : matchWithMode T input names "fuzzy" = true := by
  rw [C132_modes] at h ⊢
  obtain ⟨n, hn, h⟩ := h
  obtain ⟨g, h1, h2, h3⟩ := hT.norm
  refine ⟨n, hn, .inl ⟨rfl, ?_⟩⟩
  rcases h with ⟨_, h⟩ | ⟨_, h⟩ | ⟨_, h⟩ | ⟨_, h⟩ | ⟨_, h⟩
  · exact h
  · rw [h]; exact InOrder.refl _
  · rw [h1, h1, ← flatMap_map_eq h3 input.toList, ← flatMap_map_eq h3 n.toList, h]; exact InOrder.refl _
  · rw [h1, h1]; exact (within_inOrder h).flatMap
  · rw [h1, h1, ← flatMap_map_eq h2 input.toList, ← flatMap_map_eq h2 n.toList]; exact (within_inOrder h).flatMap

/-- A simple treatment of characters, for examples: only A and B have lower-case forms, and one mark is removed. -/
def Ex.lower (c : Char) : Char := if c = 'A' then 'a' else if c = 'B' then 'b' else c

def Ex.rules : TextRules := ⟨fun l => l.flatMap (fun c => if c = '\u0301' then [] else [Ex.lower c]), Ex.lower, Ex.lower⟩

theorem Ex.rules_ok : CharByChar Ex.rules := by
  have hl : ∀ c, Ex.lower (Ex.lower c) = Ex.lower c := by
    intro c
    unfold Ex.lower
    by_cases h : c = 'A'
    · rw [if_pos h]; rfl
    · rw [if_neg h]
      by_cases h' : c = 'B'
      · rw [if_pos h']; rfl
      · rw [if_neg h', if_neg h, if_neg h']
  have hm : ∀ c, Ex.lower c = '\u0301' ↔ c = '\u0301' := by
    intro c
    unfold Ex.lower
    by_cases h : c = 'A'
    · rw [if_pos h, h]; decide
    · rw [if_neg h]
      by_cases h' : c = 'B'
      · rw [if_pos h', h']; decide
      · rw [if_neg h']
  refine ⟨⟨_, fun l => rfl, fun c => ?_, fun c => ?_⟩⟩ <;>
  · show (if Ex.lower c = _ then _ else _) = _
    by_cases h : c = '\u0301'
    · rw [if_pos ((hm c).mpr h), if_pos h]
    · rw [if_neg (fun e => h ((hm c).mp e)), if_neg h]; exact congrArg (fun x => [x]) (hl c)

/-- In upper case, in the middle of a name: found. -/
example : matchWithMode Ex.rules "AB" ["x", "Grab it"] "fuzzy" = true :=
  C132_fuzzy_finds_partial _ Ex.rules_ok "AB" "substring-case-insensitive" _ (by decide)

example : matchWithMode Ex.rules "ba" ["x", "Grab it"] "fuzzy" = false := by decide

/-- C132: but names that do not contain the query are found as well. -/
theorem C132_only_containing_refuted : ¬ ∀ (T : TextRules), CharByChar T → ∀ (input : String) (names : List String),
    matchWithMode T input names "fuzzy" = true → matchWithMode T input names "substring-case-insensitive" = true := by
  intro h
  exact absurd (h Ex.rules Ex.rules_ok "gt" ["grab it"] (by decide)) (by decide)

/-- C132: for every federation, request with a name and schedule: when the collection has returned, an entity below the anchor that passes the other filters has been collected
if and only if the characters of the query occur in this order in one of its names. -/
theorem C132_collected (E : CollectEnv) (T : TextRules) (q : CollectReq) (hq : q.name ≠ "") {s0 s : CState} (h0 : CIdle maxCollectWorkers s0)
    (h : CRun maxCollectWorkers ((E.withNames T).world q) s0 q.anchor s) {r : CFrame} (hr : s.frames[s0.frames.length]? = some r) (hret : r.phase = .returned)
    (x : ID) (st : Stmt) (m : Metadata) (hst : E.ec x = some st) (hm : st.metadata = some m) (hbelow : Member (Lists E) q.anchor x) (ht : TypesPass q m)
    (hmarks : MarksPass E q st) :
    x ∈ r.out ↔ ∃ t em, m.known t = some em ∧ InOrder (T.norm q.name.toList) (T.norm (nameIn t em).toList) := by
  have hpass : NamePass (E.withNames T) q m ↔ ∃ t em, m.known t = some em ∧ InOrder (T.norm q.name.toList) (T.norm (nameIn t em).toList) := by
    show (q.name ≠ "" → matchWithMode T q.name _ "fuzzy" = true) ↔ _
    rw [C132_modes]
    constructor
    · intro h
      obtain ⟨n, hn, h⟩ := h hq
      obtain ⟨t, _, ht⟩ := List.mem_filterMap.mp hn
      obtain ⟨em, he, rfl⟩ := Option.map_eq_some_iff.mp ht
      rcases h with ⟨_, h⟩ | ⟨h, _⟩ | ⟨h, _⟩ | ⟨h, _⟩ | ⟨h, _⟩
      · exact ⟨t, em, he, h⟩
      all_goals exact absurd h (by decide)
    · rintro ⟨t, em, he, h⟩ _
      exact ⟨_, List.mem_filterMap.mpr ⟨t, by cases t <;> decide, by rw [he]; rfl⟩, .inl ⟨rfl, h⟩⟩
  rw [C46_exact (E.withNames T) q h0 h hr hret x, ← hpass]
  constructor
  · rintro ⟨_, st', m', h1, h2, _, h3, _⟩
    have h1' : E.ec x = some st' := h1
    rw [hst] at h1'
    cases h1'
    rw [hm] at h2
    cases h2
    exact h3
  · intro hn
    exact ⟨hbelow, st, m, hst, hm, ht, hn, hmarks⟩

/-- "t" lists "b", a client with the name "Grab it", and "d", which has none. -/
def Ex.namedEC : Stmt := { Ex.listEC "b" "" with metadata := some ⟨fun t => if t = .rp then
  some ⟨[⟨"ClientName", "client_name", .str, .str "Grab it"⟩], ["ClientName"], []⟩ else none, none⟩ }

def Ex.nenv : CollectEnv where
  ec id := if id = "t" then some (Ex.listEC "t" "t/list") else if id = "b" then some Ex.namedEC else if id = "d" then some (Ex.listEC "d" "") else none
  listAt e := if e = "t/list" then some ["b", "d"] else none
  marks _ := []
  verifies _ _ := false
  fuzzy _ _ := false

def Ex.nreq : CollectReq := { Ex.creq "t" with name := "AB" }

def Ex.nmoves : List Ex.Mv :=
  [.a 0, .a 0, .a 0, .a 0, .a 0, .a 0, .a 0, .a 0, .s 0 0, .s 0 0, .s 0 0, .s 0 0, .s 0 0, .s 0 1, .s 0 1, .s 0 1, .s 0 1, .c 0, .c 0]

set_option maxRecDepth 4000 in
/-- The client is collected, in this schedule, and it has to be in every other. -/
example : ∃ s r, CRun maxCollectWorkers ((Ex.nenv.withNames Ex.rules).world Ex.nreq) CState.new "t" s ∧ s.frames[0]? = some r ∧ r.phase = .returned ∧
    r.out = ["b"] ∧ (∀ x st m, Ex.nenv.ec x = some st → st.metadata = some m → Member (Lists Ex.nenv) "t" x →
      (x ∈ r.out ↔ ∃ t em, m.known t = some em ∧ InOrder "ab".toList (Ex.rules.norm (nameIn t em).toList))) := by
  let s' : CState := ⟨["t"], [⟨"t", [], .gone, some ["b", "d"], [("b", .gone), ("d", .gone)], 0, 0, ["b"], .returned⟩], false⟩
  have he : Ex.cexec maxCollectWorkers (Ex.nenv.withNames Ex.rules) Ex.nreq (CState.new.collect "t") Ex.nmoves = some s' := by decide
  have hr := Ex.cexec_run (s0 := CState.new) (anchor := "t") Ex.nmoves .init he
  refine ⟨s', _, hr, rfl, rfl, rfl, ?_⟩
  intro x st m h1 h2 h3
  exact C132_collected Ex.nenv Ex.rules Ex.nreq (by decide) (idle_new _) hr rfl rfl x st m h1 h2 h3 (fun ts h => by cases h) (fun t h => by cases h)

end Oidfed
