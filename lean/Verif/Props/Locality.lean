import Verif.Spec.Locality
import Verif.Props.Nested
/-!
# C164: what can influence a collection
-/

namespace Oidfed
open Spec

theorem lists_same {E E' : CollectEnv} {anchor : ID} (h : SameBelow E E' anchor) {a : ID} (ha : Below (Lists E) anchor a) (x : ID) : Lists E' a x ↔ Lists E a x := by
  constructor
  · rintro ⟨st, m, f, l, h1, h2, h3, h4, h5, h6⟩
    rw [h.ec a ha] at h1
    rw [h.listAt a st m f ha h1 h2 h3] at h5
    exact ⟨st, m, f, l, h1, h2, h3, h4, h5, h6⟩
  · rintro ⟨st, m, f, l, h1, h2, h3, h4, h5, h6⟩
    exact ⟨st, m, f, l, by rw [h.ec a ha]; exact h1, h2, h3, h4, by rw [h.listAt a st m f ha h1 h2 h3]; exact h5, h6⟩

theorem below_same {E E' : CollectEnv} {anchor : ID} (h : SameBelow E E' anchor) (a : ID) : Below (Lists E') anchor a ↔ Below (Lists E) anchor a := by
  constructor
  · intro hb
    induction hb with
    | anchor => exact .anchor
    | sub _ hl ih => exact .sub ih ((lists_same h ih _).mp hl)
  · intro hb
    induction hb with
    | anchor => exact .anchor
    | sub hb hl ih => exact .sub ih ((lists_same h hb _).mpr hl)

theorem passes_same {E E' : CollectEnv} {q : CollectReq} (h : SameBelow E E' q.anchor) {x : ID} (hx : Below (Lists E) q.anchor x) : Passes E' q x ↔ Passes E q x := by
  unfold Passes
  rw [h.ec x hx]
  refine exists_congr fun st => exists_congr fun m => and_congr_right fun hst => and_congr_right fun _ => and_congr_right fun _ => ?_
  unfold NamePass MarksPass
  rw [h.fuzzy, h.ec _ .anchor, h.marks x st hx hst]
  refine and_congr_right fun _ => forall_congr' fun t => forall_congr' fun _ => ?_
  refine exists_congr fun ta => exists_congr fun pre => exists_congr fun i => exists_congr fun post => and_congr_right fun hta => and_congr_right fun hm => ?_
  rw [h.verifies ta hta x st hx hst i (by rw [hm]; simp)]

/-- **C164**: entities that are not listed by the authority or below it have no influence on what is collected. -/
theorem C164_locality (E E' : CollectEnv) (q : CollectReq) (h : SameBelow E E' q.anchor) (out out' : List ID) (ho : Collects E q out) (ho' : Collects E' q out') (x : ID) :
    x ∈ out' ↔ x ∈ out := by
  rw [collected_iff ho, collected_iff ho']
  constructor
  · rintro ⟨⟨a, ha, hl⟩, hp⟩
    have ha' := (below_same h a).mp ha
    have hl' := (lists_same h ha' x).mp hl
    exact ⟨⟨a, ha', hl'⟩, (passes_same h (.sub ha' hl')).mp hp⟩
  · rintro ⟨⟨a, ha, hl⟩, hp⟩
    exact ⟨⟨a, (below_same h a).mpr ha, (lists_same h ha x).mpr hl⟩, (passes_same h (.sub ha hl)).mpr hp⟩

/-- **C164** (termination): whether a collection ends does not depend on others either: if finitely many entities are below the authority, it does end. -/
theorem C164_ends (E E' : CollectEnv) (q : CollectReq) (h : SameBelow E E' q.anchor) (U : List ID) (hU : ∀ x, Below (Lists E) q.anchor x → x ∈ U) : ∃ out, Collects E' q out := by
  obtain ⟨s, r, h1, h2, h3⟩ := C76_returns E' q ⟨U, fun x hx => hU x ((below_same h x).mp hx)⟩ (idle_new maxCollectWorkers)
  exact ⟨r.out, _, s, r, idle_new _, h1, h2, h3, rfl⟩

/-- The example federation with a further entity "z" that nobody below "t" lists, and that lists "t" and an entity "y". -/
def Ex.cenv3 : CollectEnv :=
  { Ex.cenv2 with
    ec := fun id => if id = "z" then some (Ex.listEC "z" "z/list") else if id = "y" then some (Ex.listEC "y" "") else Ex.cenv2.ec id
    listAt := fun e => if e = "z/list" then some ["t", "y"] else Ex.cenv2.listAt e }

theorem Ex.below2 (x : ID) (hx : Below (Lists Ex.cenv2) "t" x) : x ∈ ["t", "b", "d"] := by
  induction hx with
  | anchor => simp
  | @sub a x _ hl _ =>
    obtain ⟨st, m, f, l, _, _, _, _, h, hm⟩ := hl
    simp only [Ex.cenv2] at h
    split at h
    · cases h; revert hm; simp; rintro (rfl | rfl) <;> simp
    · split at h
      · cases h; simp at hm; simp [hm]
      · cases h

theorem Ex.same23 : SameBelow Ex.cenv2 Ex.cenv3 "t" where
  ec x hx := by
    have := Ex.below2 x hx
    simp only [List.mem_cons, List.not_mem_nil, or_false] at this
    rcases this with rfl | rfl | rfl <;> rfl
  listAt x st m f hx h1 h2 h3 := by
    have := Ex.below2 x hx
    simp only [List.mem_cons, List.not_mem_nil, or_false] at this
    rcases this with rfl | rfl | rfl <;> (cases h1; cases h2; cases h3; rfl)
  marks _ _ _ _ := rfl
  verifies _ _ _ _ _ _ _ _ := rfl
  fuzzy := rfl

/-- Collected from "z" there is "y", but from "t" there is what there is without "z". -/
example : ∃ out out', Collects Ex.cenv3 (Ex.creq "t") out ∧ Collects Ex.cenv2 (Ex.creq "t") out' ∧ "b" ∈ out ∧ "y" ∉ out ∧ Lists Ex.cenv3 "z" "y" := by
  obtain ⟨out, h⟩ := C164_ends Ex.cenv2 Ex.cenv3 (Ex.creq "t") Ex.same23 _ Ex.below2
  obtain ⟨out', h'⟩ := nestedFinishes (Ex.creq "t")
  have hc := C164_locality Ex.cenv2 Ex.cenv3 (Ex.creq "t") Ex.same23 out' out h' h
  refine ⟨out, out', h, h', (hc "b").mpr ((collected_iff h' "b").mpr ⟨⟨"t", .anchor, _, _, _, _, rfl, rfl, rfl, by decide, rfl, by decide⟩,
    _, _, rfl, rfl, (fun _ h => by cases h), fun h => absurd rfl h, fun t ht => absurd ht List.not_mem_nil⟩), ?_, _, _, _, _, rfl, rfl, rfl, by decide, rfl, by decide⟩
  intro hy
  obtain ⟨⟨a, ha, hl⟩, _⟩ := (collected_iff h' "y").mp ((hc "y").mp hy)
  have := Ex.below2 "y" (.sub ha hl)
  revert this
  decide

end Oidfed
