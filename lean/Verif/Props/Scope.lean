import Verif.Spec.Scope
import Verif.Props.MetadataApply
/-!
# C138: what policies for `scope` mean for its words
-/

namespace Oidfed

open Spec

theorem pieces_scopeOf (ws : List String) (h : NoSpaces ws) :
    ((scopeOf ws).split ' ').toList.map (·.copy) = if ws = [] then [""] else ws :=
  String.toList_split_intercalate (c := ' ') (l := ws) h

/-- Words joined with spaces are found again. -/
theorem wordsOf_scopeOf (ws : List String) (h : NoSpaces ws) : wordsOf (scopeOf ws) = ws.filter (· ≠ "") := by
  unfold wordsOf
  rw [pieces_scopeOf ws h]
  by_cases he : ws = []
  · subst he; decide
  · rw [if_neg he]

theorem wordsOf_one (w : String) (h : ' ' ∉ w.toList) : wordsOf w = [w].filter (· ≠ "") := by
  have := wordsOf_scopeOf [w] (by intro x hx; simp at hx; subst hx; exact h)
  rwa [show scopeOf [w] = w from String.intercalate_singleton] at this

theorem wordsOf_empty : wordsOf "" = [] := by
  rw [wordsOf_one "" (by decide)]
  decide

/-- Values all of which are among some strings. -/
theorem all_strings {allowed : List String} : ∀ {xs : List Val}, (∀ x ∈ xs, x ∈ allowed.map Val.str) →
    ∃ ws : List String, xs = ws.map Val.str ∧ ∀ w ∈ ws, w ∈ allowed
  | [], _ => ⟨[], rfl, by simp⟩
  | x :: xs, h => by
    obtain ⟨ws, rfl, hw⟩ := all_strings (fun y hy => h y (List.mem_cons_of_mem _ hy))
    obtain ⟨w, hwm, rfl⟩ := List.mem_map.mp (h x List.mem_cons_self)
    refine ⟨w :: ws, rfl, ?_⟩
    intro y hy
    rcases List.mem_cons.mp hy with rfl | hy
    · exact hwm
    · exact hw y hy

theorem zero_str {ty : Ty} {s : String} (h : Val.str s = Val.zeroOf ty) : s = "" := by
  cases ty <;> simp [Val.zeroOf] at h
  exact h

/-- A field whose value has only allowed words as its elements holds a text of allowed words. -/
theorem held_words {name : String} {v : Val} {s : String} (allowed : List String) (hns : NoSpaces allowed)
    (hh : HeldAs name v (.str s)) (he : ∀ x ∈ v.elems, x ∈ allowed.map Val.str) :
    ∃ ws : List String, v.elems = ws.map Val.str ∧ (∀ w ∈ ws, w ∈ allowed) ∧ wordsOf s = ws.filter (· ≠ "") := by
  obtain ⟨ws, hws, hin⟩ := all_strings he
  refine ⟨ws, hws, hin, ?_⟩
  have hn : NoSpaces ws := fun w hw => hns w (hin w hw)
  rcases hh with rfl | ⟨_, n, xs, rfl, hx⟩
  · cases ws with
    | nil => simp [Val.elems] at hws
    | cons w ws =>
      cases ws with
      | nil =>
        simp [Val.elems] at hws
        subst hws
        exact wordsOf_one _ (hn _ List.mem_cons_self)
      | cons _ _ => simp [Val.elems] at hws
  · have := hx ws hws
    cases this
    exact wordsOf_scopeOf ws hn

/-- What an entry says about the words of the `scope` attribute. -/
theorem scope_obeys {e : Entry} {f : Field} {s : String} (hv : f.val = .str s) (ho : FieldObeys e true f) (ws : List String) (hns : NoSpaces ws) :
    (e.get "subset_of" = some (wordList ws) → ∀ w ∈ wordsOf s, w ∈ ws) ∧
    (e.get "value" = some (wordList ws) → ∀ w, w ∈ wordsOf s ↔ w ∈ ws ∧ w ≠ "") := by
  obtain ⟨v, hh, hob, _⟩ := ho
  rw [hv] at hh
  have hnil : v = .nil → s = "" := by
    intro hv'
    rcases hh with hh | ⟨_, hz⟩
    · subst hv'
      rcases hh with h | ⟨_, n, xs, h, _⟩ <;> cases h
    · exact zero_str hz
  constructor
  · intro hs w hw
    by_cases hvn : v = .nil
    · rw [hnil hvn, wordsOf_empty] at hw
      cases hw
    · rcases hh with hh | ⟨h, _⟩
      · obtain ⟨us, _, hin, hwd⟩ := held_words ws hns hh (hob.subset (.inl ⟨hvn, .inl rfl⟩) _ hs (by simp [wordList]))
        rw [hwd] at hw
        exact hin w (List.mem_filter.mp hw).1
      · exact absurd h hvn
  · intro hs w
    have hsame := hob.value _ hs
    by_cases hvn : v = .nil
    · rw [hnil hvn, wordsOf_empty]
      subst hvn
      have : ∀ w ∈ ws, False := fun w hw => by
        have := (hsame (.str w)).mpr (List.mem_map_of_mem hw)
        cases this
      exact ⟨fun h => (List.not_mem_nil h).elim, fun h => (this w h.1).elim⟩
    · rcases hh with hh | ⟨h, _⟩
      · obtain ⟨us, hus, hin, hwd⟩ := held_words ws hns hh (fun x hx => (hsame x).mp hx)
        rw [hwd, List.mem_filter]
        constructor
        · rintro ⟨h1, h2⟩
          exact ⟨hin w h1, by simpa using h2⟩
        · rintro ⟨h1, h2⟩
          refine ⟨?_, by simpa using h2⟩
          have := (hsame (.str w)).mpr (List.mem_map_of_mem h1)
          rw [hus] at this
          obtain ⟨u, hu, he⟩ := List.mem_map.mp this
          cases he
          exact hu
      · exact absurd h hvn

/-- **C138** (part): if a leaf states a scope, the scope resolved from its trust chain has, among its words, none that some policy of the chain does not list in
`subset_of`, and exactly the words listed in a `value`. Missing: policies with unknown operators or repeated values (as in C20). -/
theorem C138_scope_words_partial (a b : Stmt) (rest : Chain) (r : Option Metadata) (t : EType)
    (hg : ∀ s ∈ a :: b :: rest, ∀ P, s.policy = some P → GoodPolicy (P.known t) ∧ Policy.verify (P.known t) = .ok ())
    (md0 : Metadata) (hmd : a.metadata = some md0) (em : EntityMeta) (hem : md0.known t = some em)
    (hflag : ∀ f ∈ em.fields, em.wasSet.contains f.name = false → Unset f.val) (hset : "Scope" ∈ em.wasSet)
    (h : chainMetadata (a :: b :: rest) = .ok r) :
    ∃ md em', r = some md ∧ md.known t = some em' ∧
      ∀ f ∈ em'.fields, f.name = "Scope" → ∀ text, f.val = .str text →
        ∀ s ∈ a :: b :: rest, ∀ P, s.policy = some P → ∀ e, AMap.get (P.known t) f.tag = some e → ∀ ws, NoSpaces ws →
          (e.get "subset_of" = some (wordList ws) → ∀ w ∈ wordsOf text, w ∈ ws) ∧
          (e.get "value" = some (wordList ws) → ∀ w, w ∈ wordsOf text ↔ w ∈ ws ∧ w ≠ "") := by
  obtain ⟨md, em', h1, h2, _, h4⟩ := C20_chain_obeys_partial a b rest r t hg md0 hmd em hem hflag h
  refine ⟨md, em', h1, h2, ?_⟩
  intro f hf hn text htext s hs P hP e he ws hws
  obtain ⟨i, hi⟩ := List.mem_iff_getElem?.mp hf
  have := h4 i f hi s hs P hP e he
  rw [hn, List.contains_iff_mem.mpr hset] at this
  exact scope_obeys htext this ws hws

namespace ExSc

/-- A leaf that states the scope `text`. -/
def leaf (text : String) : Stmt := ⟨"leaf", "leaf", 0, 100, some [1], ["ia"],
  some ⟨fun t => if t = .rp then some ⟨[⟨"Scope", "scope", .str, .str text⟩], if text = "" then [] else ["Scope"], []⟩ else none, none⟩, none, [], [], none, some 1⟩

/-- The intermediate adds `profile`, and allows some words. -/
def ia : Policy := [("scope", [("add", wordList ["profile"]), ("subset_of", wordList ["openid", "profile", "email"])])]

/-- The anchor allows fewer. -/
def ta : Policy := [("scope", [("subset_of", wordList ["profile", "openid"])])]

/-- The scope resolved from a chain. -/
def scope (c : Chain) : Option (List Val) := (((chainMetadata c).toOption.bind id).bind (fun m => m.known .rp)).map (fun em => em.fields.map Field.val)

theorem good_ia : GoodPolicy ia := by
  refine ⟨by simp [AMap.WF, AMap.keys, ia], ?_⟩
  intro k e he
  have hm := get_mem he
  simp only [ia, List.mem_cons, List.not_mem_nil, or_false, Prod.mk.injEq] at hm
  obtain ⟨rfl, rfl⟩ := hm
  refine ⟨by simp [AMap.WF, AMap.keys], ?_, ?_, ?_⟩
  · rintro n ⟨v, hv⟩
    have := get_mem hv
    simp only [List.mem_cons, List.not_mem_nil, or_false, Prod.mk.injEq] at this
    rcases this with ⟨rfl, _⟩ | ⟨rfl, _⟩ <;> simp [Known]
  · intro s hs; cases hs
  · intro s hs; cases hs

/-- A policy that only adds. -/
def adds : Policy := [("scope", [("add", wordList ["profile"])])]

theorem good_adds : GoodPolicy adds := by
  refine ⟨by simp [AMap.WF, AMap.keys, adds], ?_⟩
  intro k e he
  have hm := get_mem he
  simp only [adds, List.mem_cons, List.not_mem_nil, or_false, Prod.mk.injEq] at hm
  obtain ⟨rfl, rfl⟩ := hm
  refine ⟨by simp [AMap.WF, AMap.keys], ?_, ?_, ?_⟩
  · rintro n ⟨v, hv⟩
    have := get_mem hv
    simp only [List.mem_cons, List.not_mem_nil, or_false, Prod.mk.injEq] at this
    obtain ⟨rfl, _⟩ := this
    simp [Known]
  · intro s hs; cases hs
  · intro s hs; cases hs

end ExSc

open ExSc Ex in
/-- The case of `C138_scope_words_partial`: `openid` becomes `openid profile`; `email` is taken out. -/
example : scope [leaf "openid", polStmt ia, polStmt ta] = some [.str "openid profile"] ∧ scope [leaf "email", polStmt ia, polStmt ta] = some [.str "profile"] ∧
    Policy.verify ia = .ok () ∧ Policy.verify ta = .ok () ∧ GoodPolicy ia ∧ NoSpaces ["openid", "profile", "email"] ∧
    wordsOf "openid profile" = ["openid", "profile"] := by
  refine ⟨rfl, rfl, rfl, rfl, good_ia, by unfold NoSpaces; decide, ?_⟩
  exact wordsOf_scopeOf ["openid", "profile"] (by unfold NoSpaces; decide)

open ExSc Ex in
/-- **C138** is false of the text: words that are added to a scope the leaf does not state come after a space. -/
theorem C138_scope_text_refuted : ¬ ∀ (c : Chain) (text : String), scope c = some [.str text] → (∀ s ∈ c, ∀ P, s.policy = some P → GoodPolicy (P.known .rp)) →
    ∃ ws, NoSpaces ws ∧ (∀ w ∈ ws, w ≠ "") ∧ text = scopeOf ws := by
  intro h
  obtain ⟨ws, h1, h2, h3⟩ := h [leaf "", polStmt adds] " profile" rfl (by
    intro s hs P hP
    simp only [List.mem_cons, List.not_mem_nil, or_false] at hs
    rcases hs with rfl | rfl
    · cases hP
    · cases hP; exact good_adds)
  have e1 := pieces_scopeOf ["", "profile"] (by unfold NoSpaces; decide)
  have e2 := pieces_scopeOf ws h1
  rw [show scopeOf ["", "profile"] = " profile" from rfl, h3, e2] at e1
  by_cases he : ws = []
  · rw [if_pos he] at e1
    exact absurd e1 (by decide)
  · rw [if_neg he, if_neg (by simp)] at e1
    exact h2 "" (by rw [e1]; simp) rfl

end Oidfed
