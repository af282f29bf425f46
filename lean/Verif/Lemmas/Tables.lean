import Verif.Data.Wf
import Verif.Lemmas.Container
/-!
# Consequences of consistent lookup tables
-/
namespace Verif
open Spec

/-- The container was built by `NewContainer`. -/
def Built (C : Container) : Prop := ∃ coll ccMap, newContainer coll ccMap = some C

theorem built_shipped : Built Data.container := ⟨_, _, Data.newContainer_eq⟩

theorem Built.supported {C : Container} (h : Built C) (r : Str) :
    r ∈ C.supportedRegions ↔ r ≠ nonGeoRegion ∧ ∃ e ∈ C.ccToRegion, e.2 ≠ [nonGeoRegion] ∧ r ∈ e.2 := by
  obtain ⟨coll, ccMap, h⟩ := h
  unfold newContainer at h
  split at h
  · cases h
  · cases h
    simp only [List.mem_filter, List.mem_flatMap, isNonGeoEntry, decide_eq_true_eq, Bool.not_eq_true', decide_eq_false_iff_not]
    constructor
    · rintro ⟨⟨e, ⟨h1, h2⟩, h3⟩, h4⟩; exact ⟨h4, e, h1, h2, h3⟩
    · rintro ⟨h4, e, h1, h2, h3⟩; exact ⟨⟨e, ⟨h1, h2⟩, h3⟩, h4⟩

theorem regionsOf_entry {C : Container} {cc : Int} {r : Str} (hr : r ∈ C.regionsOf cc) : (cc, C.regionsOf cc) ∈ C.ccToRegion := by
  unfold Container.regionsOf at hr ⊢
  cases h : mapGet C.ccToRegion cc with
  | none => simp [h] at hr
  | some rs => simpa using mapGet_mem h

theorem hasCC_entry {C : Container} {cc : Int} (h : C.hasCC cc = true) : (cc, C.regionsOf cc) ∈ C.ccToRegion := by
  unfold Container.hasCC at h
  unfold Container.regionsOf
  cases h' : mapGet C.ccToRegion cc with
  | none => simp [h'] at h
  | some rs => simpa using mapGet_mem h'

theorem regionsOf_hasCC {C : Container} {cc : Int} {r : Str} (hr : r ∈ C.regionsOf cc) : C.hasCC cc = true := by
  unfold Container.regionsOf at hr
  unfold Container.hasCC
  cases h' : mapGet C.ccToRegion cc with
  | none => simp [h'] at hr
  | some rs => rfl

theorem tablesOk_entry {C : Container} (h : tablesOk C = true) {e : Int × List Str} (he : e ∈ C.ccToRegion) :
    C.regionsOf e.1 = e.2 ∧ e.2 ≠ [] ∧ ∀ r ∈ e.2, r ≠ [] ∧
      ((r = nonGeoRegion ∧ e.2 = [nonGeoRegion] ∧ ∃ m, mapGet C.nonGeoMeta e.1 = some m ∧ m.countryCode = e.1) ∨
       (r ≠ nonGeoRegion ∧ ∃ m, mapGet C.regionMeta r = some m ∧ m.countryCode = e.1)) := by
  simp only [tablesOk, List.all_eq_true, Bool.and_eq_true, decide_eq_true_eq, Bool.not_eq_true', List.isEmpty_eq_false_iff] at h
  obtain ⟨⟨h1, h2⟩, h3⟩ := h e he
  refine ⟨h1, h2, fun r hr => ⟨(h3 r hr).1, ?_⟩⟩
  have h4 := (h3 r hr).2
  by_cases h0 : r = nonGeoRegion
  · simp only [h0, if_true] at h4
    split at h4
    · rename_i m hm
      simp only [Bool.and_eq_true, decide_eq_true_eq] at h4
      exact .inl ⟨h0, h4.2, m, hm, h4.1⟩
    · cases h4
  · simp only [h0, if_false] at h4
    split at h4
    · rename_i m hm
      exact .inr ⟨h0, m, hm, by simpa using h4⟩
    · cases h4

/-- A region of a country code is the non-geographical one, or it is supported and its metadata names the code. -/
theorem regionsOf_meta {C : Container} (hb : Built C) (h : tablesOk C = true) {cc : Int} {r : Str} (hr : r ∈ C.regionsOf cc) :
    (r = nonGeoRegion ∧ C.regionsOf cc = [nonGeoRegion] ∧ ∃ m, C.metaForNonGeo cc = some m ∧ m.countryCode = cc) ∨
    (r ≠ nonGeoRegion ∧ C.validRegion r = true ∧ ∃ m, C.metaForRegion r = some m ∧ mapGet C.regionMeta r = some m ∧ m.countryCode = cc) := by
  have he := regionsOf_entry hr
  have hcc := regionsOf_hasCC hr
  obtain ⟨_, _, h3⟩ := tablesOk_entry h he
  obtain ⟨hne, h4 | h4⟩ := h3 r hr
  · obtain ⟨h5, h6, m, h7, h8⟩ := h4
    exact .inl ⟨h5, h6, m, by simp [Container.metaForNonGeo, hcc, h7], h8⟩
  · obtain ⟨h5, m, h6, h7⟩ := h4
    have hv : C.validRegion r = true := by
      simp only [Container.validRegion, Bool.and_eq_true, decide_eq_true_eq]
      refine ⟨hne, (hb.supported r).2 ⟨h5, _, he, ?_, hr⟩⟩
      intro h
      simp only at h
      rw [h] at hr
      simp at hr; exact h5 hr
    exact .inr ⟨h5, hv, m, by simp [Container.metaForRegion, hv, h6], h6, h7⟩

/-- A supported region has metadata, and is listed under the code its metadata names. -/
theorem validRegion_meta {C : Container} (hb : Built C) (h : tablesOk C = true) {r : Str} (hr : C.validRegion r = true) :
    r ≠ nonGeoRegion ∧ ∃ m, C.metaForRegion r = some m ∧ mapGet C.regionMeta r = some m ∧ r ∈ C.regionsOf m.countryCode := by
  simp only [Container.validRegion, Bool.and_eq_true, decide_eq_true_eq] at hr
  obtain ⟨h1, e, h2, h3, h4⟩ := (hb.supported r).1 hr.2
  obtain ⟨h5, _, h6⟩ := tablesOk_entry h h2
  have hr' : r ∈ C.regionsOf e.1 := by rw [h5]; exact h4
  rcases regionsOf_meta hb h hr' with h7 | ⟨_, _, m, h7, h8, h9⟩
  · exact absurd h7.1 h1
  · exact ⟨h1, m, h7, h8, by rw [h9]; exact hr'⟩

theorem hasCC_regions {C : Container} (h : tablesOk C = true) {cc : Int} (hcc : C.hasCC cc = true) : C.regionsOf cc ≠ [] :=
  (tablesOk_entry h (hasCC_entry hcc)).2.1

theorem mainRegion_mem {C : Container} (h : tablesOk C = true) {cc : Int} (hcc : C.hasCC cc = true) : C.mainRegion cc ∈ C.regionsOf cc := by
  have := hasCC_regions h hcc
  unfold Container.mainRegion
  cases hr : C.regionsOf cc with
  | nil => exact absurd hr this
  | cons r rs => simp

/-- The metadata of the main region of a supported code. -/
theorem main_meta {C : Container} (hb : Built C) (h : tablesOk C = true) {cc : Int} (hcc : C.hasCC cc = true) :
    ∃ m, C.metaFor cc (C.mainRegion cc) = some m ∧ m.countryCode = cc := by
  rcases regionsOf_meta hb h (mainRegion_mem h hcc) with ⟨h1, _, m, h2, h3⟩ | ⟨h1, _, m, h2, _, h3⟩
  · exact ⟨m, by simp [Container.metaFor, h1, h2], h3⟩
  · exact ⟨m, by simp [Container.metaFor, h1, h2], h3⟩

end Verif
