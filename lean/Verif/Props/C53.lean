import Verif.Model.Container
import Verif.Data.Shipped
import Verif.Lemmas.Container
/-!
# C53: lookup tables built by NewContainer agree with their inputs
-/
namespace Verif.Spec

/-- `m` is the last entry of the list that satisfies `p`. -/
def LastWith (p : Metadata → Prop) (coll : List Metadata) (m : Metadata) : Prop :=
  ∃ pre post, coll = pre ++ m :: post ∧ p m ∧ ∀ x ∈ post, ¬ p x

end Verif.Spec

namespace Verif
open Spec

theorem lastWith_snoc {p : Metadata → Prop} {coll : List Metadata} {x m : Metadata} (h : LastWith p (coll ++ [x]) m) :
    (p x ∧ m = x) ∨ (¬ p x ∧ LastWith p coll m) := by
  obtain ⟨pre, post, h1, h2, h3⟩ := h
  rcases List.eq_nil_or_concat post with rfl | ⟨post', y, rfl⟩
  · have h1 := List.append_inj_right' h1 rfl
    simp at h1; subst h1; exact .inl ⟨h2, rfl⟩
  · rw [List.concat_eq_append] at h1 h3
    rw [← List.cons_append, ← List.append_assoc] at h1
    have e := List.append_inj_right' h1 rfl
    have e' := List.append_inj_left' h1 rfl
    simp at e; subst e
    exact .inr ⟨h3 _ (by simp), pre, post', e', h2, fun z hz => h3 z (by simp [hz])⟩

theorem lastWith_snoc_pos {p : Metadata → Prop} {coll : List Metadata} {x m : Metadata} (hx : p x) :
    LastWith p (coll ++ [x]) m ↔ x = m := by
  constructor
  · intro h
    rcases lastWith_snoc h with ⟨_, h⟩ | ⟨h, _⟩
    · exact h.symm
    · exact absurd hx h
  · rintro rfl; exact ⟨coll, [], by simp, hx, by simp⟩

theorem lastWith_snoc_neg {p : Metadata → Prop} {coll : List Metadata} {x m : Metadata} (hx : ¬ p x) :
    LastWith p (coll ++ [x]) m ↔ LastWith p coll m := by
  constructor
  · intro h
    rcases lastWith_snoc h with ⟨h, _⟩ | ⟨_, h⟩
    · exact absurd h hx
    · exact h
  · rintro ⟨pre, post, rfl, h2, h3⟩
    refine ⟨pre, post ++ [x], by simp, h2, fun z hz => ?_⟩
    rcases List.mem_append.1 hz with h | h
    · exact h3 z h
    · simp at h; subst h; exact hx

/-- A map filled in order holds the last binding of each key. -/
theorem maps_last (coll : List Metadata) :
    (∀ r m, mapGet (coll.foldl addMetadata ([], [])).1 r = some m ↔ LastWith (fun x => x.id ≠ nonGeoRegion ∧ x.id = r) coll m) ∧
    (∀ cc m, mapGet (coll.foldl addMetadata ([], [])).2 cc = some m ↔
      LastWith (fun x => x.id = nonGeoRegion ∧ x.countryCode = cc) coll m) := by
  suffices ∀ l : List Metadata, ∀ coll, coll = l.reverse →
      (∀ r m, mapGet (coll.foldl addMetadata ([], [])).1 r = some m ↔ LastWith (fun x => x.id ≠ nonGeoRegion ∧ x.id = r) coll m) ∧
      (∀ cc m, mapGet (coll.foldl addMetadata ([], [])).2 cc = some m ↔
        LastWith (fun x => x.id = nonGeoRegion ∧ x.countryCode = cc) coll m) from this coll.reverse coll (by simp)
  intro l
  induction l with
  | nil =>
    rintro coll rfl
    constructor <;> intro r m <;> simp [mapGet, LastWith]
  | cons x l ih =>
    rintro coll rfl
    obtain ⟨h1, h2⟩ := ih _ rfl
    rw [List.reverse_cons]
    simp only [List.foldl_append, List.foldl_cons, List.foldl_nil]
    constructor
    · intro r m
      by_cases hx : x.id = nonGeoRegion
      · simp only [addMetadata, hx, if_true]
        rw [h1, lastWith_snoc_neg (by simp [hx])]
      · simp only [addMetadata, hx, if_false, mapSet, mapGet]
        split
        · rename_i e
          rw [lastWith_snoc_pos ⟨hx, e⟩, Option.some.injEq]
        · rename_i e
          rw [h1, lastWith_snoc_neg (by simp [e])]
    · intro r m
      by_cases hx : x.id = nonGeoRegion
      · simp only [addMetadata, hx, if_true, mapSet, mapGet]
        split
        · rename_i e
          rw [lastWith_snoc_pos ⟨hx, e⟩, Option.some.injEq]
        · rename_i e
          rw [h2, lastWith_snoc_neg (by simp [e])]
      · simp only [addMetadata, hx, if_false]
        rw [h2, lastWith_snoc_neg (by simp [hx])]

end Verif

namespace Verif.Props
open Spec

/-- `NewContainer` fails exactly on an empty collection. -/
theorem C53_fails (coll : List Metadata) (ccMap : List (Int × List Str)) : newContainer coll ccMap = none ↔ coll = [] := by
  unfold newContainer; split <;> simp_all

/-- The tables of a container. -/
theorem C53_tables (coll : List Metadata) (ccMap : List (Int × List Str)) (C : Container) (h : newContainer coll ccMap = some C) :
    (∀ r, r ∈ C.supportedRegions ↔ r ≠ str!"001" ∧ ∃ cc rs, (cc, rs) ∈ ccMap ∧ r ∈ rs) ∧
    (∀ cc, cc ∈ C.supportedCodes ↔ ∃ rs, (cc, rs) ∈ ccMap) ∧
    (∀ cc, cc ∈ C.nonGeoCodes ↔ (cc, [str!"001"]) ∈ ccMap) ∧
    (∀ r m, mapGet C.regionMeta r = some m ↔ LastWith (fun x => x.id ≠ str!"001" ∧ x.id = r) coll m) ∧
    (∀ cc m, mapGet C.nonGeoMeta cc = some m ↔ LastWith (fun x => x.id = str!"001" ∧ x.countryCode = cc) coll m) ∧
    C.ccToRegion = ccMap ∧
    (∀ r, C.isNanpa r = true ↔ r ∈ (mapGet ccMap 1).getD []) := by
  unfold newContainer at h
  split at h
  · cases h
  · cases h
    refine ⟨fun r => ?_, fun cc => by simp, fun cc => ?_, (maps_last coll).1, (maps_last coll).2, rfl, fun r => ?_⟩
    · simp only [List.mem_filter, List.mem_flatMap, isNonGeoEntry, decide_eq_true_eq, Bool.not_eq_true', decide_eq_false_iff_not]
      constructor
      · rintro ⟨⟨e, ⟨h1, h2⟩, h3⟩, h4⟩; exact ⟨h4, e.1, e.2, h1, h3⟩
      · rintro ⟨h4, cc, rs, h1, h3⟩
        refine ⟨⟨(cc, rs), ⟨h1, ?_⟩, h3⟩, h4⟩
        rintro rfl
        simp at h3; exact h4 h3
    · simp only [List.mem_map, List.mem_filter, isNonGeoEntry, decide_eq_true_eq]
      constructor
      · rintro ⟨⟨a, b⟩, ⟨h1, h2⟩, rfl⟩; simp only at h2; subst h2; exact h1
      · intro h; exact ⟨_, ⟨h, rfl⟩, rfl⟩
    · exact decide_eq_true_iff

/-- The order of the entries of the region map does not matter: any reordering gives the same sets and lookups. -/
theorem C53_order (coll : List Metadata) (m1 m2 : List (Int × List Str)) (C1 C2 : Container) (hp : m1.Perm m2)
    (hn : (m1.map (·.1)).Nodup) (h1 : newContainer coll m1 = some C1) (h2 : newContainer coll m2 = some C2) :
    (∀ r, r ∈ C1.supportedRegions ↔ r ∈ C2.supportedRegions) ∧ (∀ cc, cc ∈ C1.supportedCodes ↔ cc ∈ C2.supportedCodes) ∧
    (∀ cc, cc ∈ C1.nonGeoCodes ↔ cc ∈ C2.nonGeoCodes) ∧ C1.regionMeta = C2.regionMeta ∧ C1.nonGeoMeta = C2.nonGeoMeta ∧
    (∀ cc, C1.regionsOf cc = C2.regionsOf cc) ∧ (∀ r, C1.isNanpa r = C2.isNanpa r) := by
  obtain ⟨a1, b1, c1, -, -, d1, e1⟩ := C53_tables _ _ _ h1
  obtain ⟨a2, b2, c2, -, -, d2, e2⟩ := C53_tables _ _ _ h2
  have hmem : ∀ x, x ∈ m1 ↔ x ∈ m2 := fun x => hp.mem_iff
  have hget : ∀ k, mapGet m1 k = mapGet m2 k := by
    have key : ∀ (m : List (Int × List Str)), (m.map (·.1)).Nodup → ∀ k v, mapGet m k = some v ↔ (k, v) ∈ m := by
      intro m hm k v
      refine ⟨mapGet_mem, fun hv => ?_⟩
      induction m with
      | nil => cases hv
      | cons p t ih =>
        obtain ⟨a, b⟩ := p
        simp only [List.map_cons, List.nodup_cons] at hm
        simp only [mapGet]
        rcases List.mem_cons.1 hv with h | h
        · cases h; simp
        · have : a ≠ k := by rintro rfl; exact hm.1 (List.mem_map.2 ⟨_, h, rfl⟩)
          rw [if_neg this]; exact ih hm.2 h
    have hn2 : (m2.map (·.1)).Nodup := (hp.map (·.1)).nodup_iff.1 hn
    intro k
    apply Option.ext
    intro v
    rw [key m1 hn, key m2 hn2, hmem]
  refine ⟨fun r => by simp only [a1, a2, hmem], fun cc => by simp only [b1, b2, hmem], fun cc => by simp only [c1, c2, hmem], ?_, ?_,
    fun cc => by simp only [Container.regionsOf, d1, d2, hget], fun r => by rw [Bool.eq_iff_iff, e1, e2, hget]⟩
  all_goals
    unfold newContainer at h1 h2
    split at h1 <;> split at h2 <;> simp_all
    rw [← h1, ← h2]

-- the shipped container is such a container, with more than 200 supported regions
example : ∃ coll ccMap, newContainer coll ccMap = some Data.container := ⟨_, _, Data.newContainer_eq⟩

end Verif.Props
