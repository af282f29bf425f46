import Verif.Model.Container
/-!
# Two sets of metadata that say the same about one calling code

A program may replace the metadata of the library.  Two containers say the same about a calling code if they list the same
regions for it and hold the same metadata for these regions; whatever they hold for other countries is left open.
-/
namespace Verif

/-- `C` and `D` support the calling code `cc`, with the same regions and the same metadata for each of them. -/
structure SameCountry (C D : Container) (cc : Int) : Prop where
  supported : C.hasCC cc = true ∧ D.hasCC cc = true
  known : C.regionsOf cc ≠ []
  codes : C.regionsOf cc = D.regionsOf cc
  regions : ∀ r ∈ C.regionsOf cc, C.metaForRegion r = D.metaForRegion r
  entity : C.metaForNonGeo cc = D.metaForNonGeo cc

/-- The container with new metadata for one region. -/
def Container.withRegion (C : Container) (r : Str) (m : Metadata) : Container :=
  { C with regionMeta := mapSet C.regionMeta r m, supportedRegions := r :: C.supportedRegions }

end Verif
