import Verif.Data.Short1
import Verif.Data.Short2
import Verif.Model.ShortNumber
/-!
# The shipped short-number table
-/
namespace Verif.Data

/-- The collection in `/repo/data/shortnumber_metadata.xml.gz`. -/
noncomputable def shortCollection : List Metadata := short1 ++ short2

/-- The loaded table, in closed form (`shortMap_eq`). -/
noncomputable def shortMap : ShortMap := (shortCollection.map fun m => (m.id, m)).reverse

/-- What `loadShortNumberMetadataFromFile` builds. -/
theorem shortMap_eq : loadShortNumbers shortCollection = some shortMap := by
  have key : ∀ (l : List Metadata) (acc : ShortMap), l.all (fun m => !decide (m.id = nonGeoRegion)) = true →
      l.foldl (fun acc m => if m.id = nonGeoRegion then acc else mapSet acc m.id m) acc = (l.map fun m => (m.id, m)).reverse ++ acc := by
    intro l
    induction l with
    | nil => intro acc _; rfl
    | cons m t ih =>
      intro acc h
      simp only [List.all_cons, Bool.and_eq_true, Bool.not_eq_true', decide_eq_false_iff_not] at h
      simp only [List.foldl_cons, h.1, if_false, List.map_cons, List.reverse_cons]
      rw [ih _ h.2]
      simp [mapSet]
  unfold loadShortNumbers
  rw [if_neg (by unfold shortCollection; exact fun h => by cases h), key _ _ (by kernel_rfl)]
  simp [shortMap]

end Verif.Data
