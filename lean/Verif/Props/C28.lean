import Verif.Lemmas.Valid
/-!
# C28: region and calling-code lookups are consistent
-/
namespace Verif.Props
open Spec

/-- Every supported region is among the regions of its own country code. -/
theorem C28_region (C : Container) (hb : Built C) (ht : tablesOk C = true) (r : Str) (hr : C.validRegion r = true) :
    r ∈ C.regionCodes (C.ccForRegion r) := by
  obtain ⟨_, m, h1, _, h2⟩ := validRegion_meta hb ht hr
  simpa [Container.regionCodes, Container.ccForRegion, hr, Container.ccForValidRegion, h1] using h2

/-- The converse: a region listed for a code is "001" or is supported and has that code. -/
theorem C28_listed (C : Container) (hb : Built C) (ht : tablesOk C = true) (cc : Int) (r : Str) (hr : r ∈ C.regionCodes cc) :
    r = str!"001" ∨ (C.validRegion r = true ∧ C.ccForRegion r = cc) := by
  rcases regionsOf_meta hb ht hr with ⟨h, _⟩ | ⟨_, h1, m, h2, _, h3⟩
  · exact .inl h
  · exact .inr ⟨h1, by simp [Container.ccForRegion, h1, Container.ccForValidRegion, h2, h3]⟩

/-- The region of a number is empty or one of the regions of its country code; the lookup never panics. -/
theorem C28_number (C : Container) (hb : Built C) (ht : tablesOk C = true) (hd : C.allMeta.all hasAllDescs = true) (n : PhoneNumber) :
    ∃ r, regionForNumber C n = .ok r ∧ (r = [] ∨ r ∈ C.regionCodes n.cc) := regionForNumber_ok hb ht hd n

/-- The main region of a supported code is "001" or has that code; for an unsupported code it is "ZZ". -/
theorem C28_main (C : Container) (hb : Built C) (ht : tablesOk C = true) (cc : Int) :
    if C.hasCC cc then C.mainRegion cc ∈ C.regionCodes cc ∧ (C.mainRegion cc = str!"001" ∨ C.ccForRegion (C.mainRegion cc) = cc)
    else C.mainRegion cc = str!"ZZ" := by
  split
  · rename_i h
    refine ⟨mainRegion_mem ht h, ?_⟩
    rcases C28_listed C hb ht cc _ (mainRegion_mem ht h) with h | h
    · exact .inl h
    · exact .inr h.2
  · rename_i h
    have : mapGet C.ccToRegion cc = none := by simpa [Container.hasCC] using h
    simp [Container.mainRegion, Container.regionsOf, this, unknownRegion]

/-- All of it for the shipped metadata. -/
theorem C28_shipped :
    (∀ r, Data.container.validRegion r = true → r ∈ Data.container.regionCodes (Data.container.ccForRegion r)) ∧
    (∀ n, ∃ r, regionForNumber Data.container n = .ok r ∧ (r = [] ∨ r ∈ Data.container.regionCodes n.cc)) ∧
    (∀ cc, Data.container.hasCC cc = true →
      Data.container.mainRegion cc = str!"001" ∨ Data.container.ccForRegion (Data.container.mainRegion cc) = cc) := by
  refine ⟨C28_region _ built_shipped Data.wf_tables, C28_number _ built_shipped Data.wf_tables Data.wf_allDescs, fun cc h => ?_⟩
  have := C28_main _ built_shipped Data.wf_tables cc
  rw [if_pos h] at this
  exact this.2

example : Data.container.validRegion (str!"BS") = true ∧ Data.container.ccForRegion (str!"BS") = 1 := by constructor <;> kernel_rfl

end Verif.Props
