import Verif.Spec.WellFormed
/-!
# Lemmas on container lookups
-/
namespace Verif

theorem mapGet_mem {κ ν : Type} [DecidableEq κ] {m : List (κ × ν)} {k : κ} {v : ν} (h : mapGet m k = some v) : (k, v) ∈ m := by
  induction m with
  | nil => cases h
  | cons p t ih =>
    obtain ⟨k', v'⟩ := p
    simp only [mapGet] at h
    split at h
    · cases h; subst k'; simp
    · exact List.mem_cons_of_mem _ (ih h)

theorem mapGet_isSome_iff {κ ν : Type} [DecidableEq κ] {m : List (κ × ν)} {k : κ} :
    (mapGet m k).isSome ↔ k ∈ m.map (·.1) := by
  induction m with
  | nil => simp [mapGet]
  | cons p t ih =>
    obtain ⟨k', v'⟩ := p
    simp only [mapGet]
    split
    · rename_i h; simp [h]
    · rename_i h; rw [ih, List.map_cons, List.mem_cons]; simp only [show ¬ k = k' from fun e => h e.symm, false_or]

theorem mapGet_append {κ ν : Type} [DecidableEq κ] (a b : List (κ × ν)) (k : κ) :
    mapGet (a ++ b) k = (mapGet a k).or (mapGet b k) := by
  induction a with
  | nil => simp [mapGet]
  | cons p t ih =>
    obtain ⟨k', v'⟩ := p
    simp only [List.cons_append, mapGet]
    split <;> simp [ih]

namespace Container

theorem metaForRegion_mem {C : Container} {r : Str} {m : Metadata} (h : C.metaForRegion r = some m) : m ∈ C.allMeta := by
  unfold metaForRegion at h
  split at h
  · exact List.mem_append_left _ (List.mem_map.2 ⟨_, mapGet_mem h, rfl⟩)
  · cases h

theorem metaForNonGeo_mem {C : Container} {cc : Int} {m : Metadata} (h : C.metaForNonGeo cc = some m) : m ∈ C.allMeta := by
  unfold metaForNonGeo at h
  split at h
  · exact List.mem_append_right _ (List.mem_map.2 ⟨_, mapGet_mem h, rfl⟩)
  · cases h

theorem metaFor_mem {C : Container} {cc : Int} {r : Str} {m : Metadata} (h : C.metaFor cc r = some m) : m ∈ C.allMeta := by
  unfold metaFor at h
  split at h
  · exact metaForNonGeo_mem h
  · exact metaForRegion_mem h

end Container
end Verif
