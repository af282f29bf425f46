import Verif.Lemmas.Valid
/-!
# C27: validity for a region implies the region's country code
-/
namespace Verif.Props
open Spec

/-- `r` is the region of the calling code `cc` the number is checked against: the pseudo region "001" of a non-geographical
entity, or a supported region with this code. -/
def RegionHasCode (C : Container) (r : Str) (cc : Int) : Prop :=
  (r = str!"001" ∧ ∃ m, mapGet C.nonGeoMeta cc = some m) ∨ (C.validRegion r = true ∧ C.ccForRegion r = cc)

/-- Validity for a region implies that the number's country code is the region's; no assumption on the metadata. -/
theorem C27_code (C : Container) (n : PhoneNumber) (r : Str) (h : isValidForRegion C n r = .ok true) : RegionHasCode C r n.cc := by
  unfold isValidForRegion at h
  cases hm : C.metaFor n.cc r with
  | none => simp [hm] at h
  | some m =>
    simp only [hm] at h
    by_cases hr : r = nonGeoRegion
    · refine .inl ⟨hr, ?_⟩
      simp only [Container.metaFor, hr, if_true, Container.metaForNonGeo] at hm
      split at hm
      · exact ⟨m, hm⟩
      · cases hm
    · refine .inr ?_
      have hv : C.validRegion r = true := by
        simp only [Container.metaFor, hr, if_false, Container.metaForRegion] at hm
        split at hm
        · assumption
        · cases hm
      refine ⟨hv, ?_⟩
      by_cases hc : n.cc ≠ C.ccForValidRegion r
      · rw [if_pos ⟨hr, hc⟩] at h; cases h
      · simp only [ne_eq, Decidable.not_not] at hc
        simp [Container.ccForRegion, hv, hc]

/-- With consistent tables the region is also listed among the regions of the code. -/
theorem C27_listed (C : Container) (hb : Built C) (ht : tablesOk C = true) (hng : ∀ cc m, mapGet C.nonGeoMeta cc = some m →
    str!"001" ∈ C.regionCodes cc) (n : PhoneNumber) (r : Str) (h : isValidForRegion C n r = .ok true) : r ∈ C.regionCodes n.cc := by
  rcases C27_code C n r h with ⟨rfl, m, hm⟩ | ⟨hv, hc⟩
  · exact hng _ m hm
  · obtain ⟨_, m, h1, _, h2⟩ := validRegion_meta hb ht hv
    have : m.countryCode = n.cc := by simpa [Container.ccForRegion, hv, Container.ccForValidRegion, h1] using hc
    rw [← this]; exact h2

theorem nonGeo_listed_shipped : Data.container.nonGeoMeta.all (fun e => decide (Data.container.regionsOf e.1 = [str!"001"])) = true := by
  simp only [Container.regionsOf, mapGet_int, decide_strs]
  kernel_rfl

/-- For the shipped metadata: validity for `r` implies that `r` is one of the regions of the number's country code. -/
theorem C27_shipped (n : PhoneNumber) (r : Str) (h : isValidForRegion Data.container n r = .ok true) :
    RegionHasCode Data.container r n.cc ∧ r ∈ Data.container.regionCodes n.cc := by
  refine ⟨C27_code _ n r h, C27_listed _ built_shipped Data.wf_tables (fun cc m hm => ?_) n r h⟩
  have := List.all_eq_true.1 nonGeo_listed_shipped (cc, m) (mapGet_mem hm)
  simp only [decide_eq_true_eq] at this
  simp [Container.regionCodes, this]

/-- The check never panics on the shipped metadata. -/
theorem C27_total (n : PhoneNumber) (r : Str) : ∃ v, isValidForRegion Data.container n r = .ok v := by
  unfold isValidForRegion
  split
  · exact ⟨_, rfl⟩
  · rename_i m hm
    split
    · exact ⟨_, rfl⟩
    · obtain ⟨t, hty⟩ := numberTypeHelper_ok (List.all_eq_true.1 Data.wf_allDescs m (Container.metaFor_mem hm)) (nsnOf_isDig n)
      simp only [hty, bind, Except.bind]; exact ⟨_, rfl⟩

example : isValidForRegion Data.container { countryCode := some 1, nationalNumber := some 2423651234 } (str!"BS") = .ok true := by
  kernel_rfl
example : isValidForRegion Data.container { countryCode := some 800, nationalNumber := some 12345678 } (str!"001") = .ok true := by
  kernel_rfl

end Verif.Props
