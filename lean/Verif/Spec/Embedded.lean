import Verif.Model.Container
/-!
# Specification: containers with the same content

A container is made of Go maps and sets; the order of an association list does not matter.
-/
namespace Verif.Spec
open Verif

/-- The same maps and sets. -/
structure SameContainer (C D : Container) : Prop where
  regions : ∀ r, mapGet C.regionMeta r = mapGet D.regionMeta r
  nonGeo : ∀ cc, mapGet C.nonGeoMeta cc = mapGet D.nonGeoMeta cc
  codes : ∀ cc, mapGet C.ccToRegion cc = mapGet D.ccToRegion cc
  nanpa : ∀ r, r ∈ C.nanpaRegions ↔ r ∈ D.nanpaRegions
  supportedRegions : ∀ r, r ∈ C.supportedRegions ↔ r ∈ D.supportedRegions
  supportedCodes : ∀ cc, cc ∈ C.supportedCodes ↔ cc ∈ D.supportedCodes
  nonGeoCodes : ∀ cc, cc ∈ C.nonGeoCodes ↔ cc ∈ D.nonGeoCodes

end Verif.Spec
