import Verif.Props.Narrow
/-!
# C156: collections from an authority and from its subordinates
-/

namespace Oidfed
open Spec

/-- reachable from a subordinate, or the anchor itself -/
theorem below_split {lists : ID → ID → Prop} {a x : ID} : Below lists a x ↔ x = a ∨ ∃ b, lists a b ∧ Below lists b x := by
  constructor
  · intro h
    induction h with
    | anchor => exact .inl rfl
    | @sub y x _ hl ih =>
      rcases ih with rfl | ⟨b, h1, h2⟩
      · exact .inr ⟨x, hl, .anchor⟩
      · exact .inr ⟨b, h1, .sub h2 hl⟩
  · rintro (rfl | ⟨b, h1, h2⟩)
    · exact .anchor
    · induction h2 with
      | anchor => exact .sub .anchor h1
      | sub _ hl ih => exact .sub ih hl

theorem below_trans {lists : ID → ID → Prop} {a b x : ID} (h : Below lists a b) (h' : Below lists b x) : Below lists a x := by
  induction h' with
  | anchor => exact h
  | sub _ hl ih => exact .sub ih hl

theorem passes_anchor {E : CollectEnv} {q : CollectReq} (hq : q.markTypes = []) {b x : ID} : Passes E { q with anchor := b } x ↔ Passes E q x := by
  constructor
  · rintro ⟨st, m, h1, h2, h3, h4, _⟩
    exact ⟨st, m, h1, h2, h3, h4, by intro t ht; rw [hq] at ht; cases ht⟩
  · rintro ⟨st, m, h1, h2, h3, h4, _⟩
    exact ⟨st, m, h1, h2, h3, h4, by intro t ht; rw [show ({ q with anchor := b } : CollectReq).markTypes = [] from hq] at ht; cases ht⟩

/-- C156 (composition): what is collected from an authority, without asking for trust marks, is what it lists and passes the criteria, together with what is
collected from those it lists. -/
theorem C156_composition (E : CollectEnv) (q : CollectReq) (hq : q.markTypes = []) (out : List ID) (h : Collects E q out) (outs : ID → List ID)
    (ho : ∀ b, Lists E q.anchor b → Collects E { q with anchor := b } (outs b)) (x : ID) :
    x ∈ out ↔ (Lists E q.anchor x ∧ Passes E q x) ∨ ∃ b, Lists E q.anchor b ∧ x ∈ outs b := by
  rw [collected_iff h]
  constructor
  · rintro ⟨⟨a, ha, hx⟩, hp⟩
    rcases below_split.mp ha with rfl | ⟨b, h1, h2⟩
    · exact .inl ⟨hx, hp⟩
    · exact .inr ⟨b, h1, (collected_iff (ho b h1) x).mpr ⟨⟨a, h2, hx⟩, (passes_anchor hq).mpr hp⟩⟩
  · rintro (⟨hx, hp⟩ | ⟨b, h1, h2⟩)
    · exact ⟨⟨_, .anchor, hx⟩, hp⟩
    · obtain ⟨⟨a, ha, hx⟩, hp⟩ := (collected_iff (ho b h1) x).mp h2
      exact ⟨⟨a, below_split.mpr (.inr ⟨b, h1, ha⟩), hx⟩, (passes_anchor hq).mp hp⟩

/-- C156 (further up): what is collected from an authority is also collected from every authority above it. -/
theorem C156_further_up (E : CollectEnv) (q : CollectReq) (hq : q.markTypes = []) (b : ID) (hb : Below (Lists E) q.anchor b) (out out' : List ID)
    (h : Collects E q out) (h' : Collects E { q with anchor := b } out') (x : ID) (hx : x ∈ out') : x ∈ out := by
  obtain ⟨⟨a, ha, hl⟩, hp⟩ := (collected_iff h' x).mp hx
  exact (collected_iff h x).mpr ⟨⟨a, below_trans hb ha, hl⟩, (passes_anchor hq).mp hp⟩

/-- in the example, every request finishes -/
theorem nestedFinishes (q : CollectReq) : ∃ out, Collects Ex.cenv2 q out := by
  have hfin : ∃ U : List ID, ∀ x, Below (Lists Ex.cenv2) q.anchor x → x ∈ U := by
    refine ⟨[q.anchor, "t", "b", "d"], fun x hx => ?_⟩
    induction hx with
    | anchor => simp
    | @sub a x _ hl _ =>
      obtain ⟨st, m, f, l, _, _, _, _, h, hm⟩ := hl
      simp only [Ex.cenv2] at h
      split at h
      · cases h; revert hm; simp; rintro (rfl | rfl) <;> simp
      · split at h
        · cases h; simp at hm; simp [hm]
        · cases h
  obtain ⟨s, r, h1, h2, h3⟩ := C76_returns Ex.cenv2 q hfin (idle_new maxCollectWorkers)
  exact ⟨r.out, _, s, r, idle_new _, h1, h2, h3, rfl⟩

/-- "b" is listed by "t" and collected from it; "t" is listed by "b" only, so it is collected from "t" because it is collected from "b" -/
example : ∃ (out : List ID) (outs : ID → List ID), Collects Ex.cenv2 (Ex.creq "t") out ∧ (∀ b, Collects Ex.cenv2 (Ex.creq b) (outs b)) ∧
    "b" ∈ out ∧ "t" ∈ outs "b" ∧ "t" ∈ out := by
  obtain ⟨out, h⟩ := nestedFinishes (Ex.creq "t")
  obtain ⟨outs, ho⟩ : ∃ outs : ID → List ID, ∀ b, Collects Ex.cenv2 (Ex.creq b) (outs b) :=
    ⟨fun b => (nestedFinishes (Ex.creq b)).choose, fun b => (nestedFinishes (Ex.creq b)).choose_spec⟩
  have hb : Lists Ex.cenv2 "t" "b" := ⟨_, _, _, _, rfl, rfl, rfl, by decide, rfl, by decide⟩
  have ht : "t" ∈ outs "b" := (collected_iff (ho "b") "t").mpr ⟨⟨"b", .anchor, _, _, _, _, rfl, rfl, rfl, by decide, rfl, by decide⟩,
    _, _, rfl, rfl, (fun _ h => by cases h), fun h => absurd rfl h, fun t ht => absurd ht List.not_mem_nil⟩
  have hc := C156_composition Ex.cenv2 (Ex.creq "t") rfl out h outs (fun b _ => ho b)
  refine ⟨out, outs, h, ho, (hc "b").mpr (.inl ⟨hb, _, _, rfl, rfl, (fun _ h => by cases h), fun h => absurd rfl h, fun t ht => absurd ht List.not_mem_nil⟩),
    ht, (hc "t").mpr (.inr ⟨"b", hb, ht⟩)⟩

end Oidfed
