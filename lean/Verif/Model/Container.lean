import Verif.Model.Types
/-!
# The metadata container (metadata/source.go)

Go maps are association lists, with the newest binding first.
-/
namespace Verif

/-- Map lookup: `v, ok := m[k]`. -/
def mapGet {κ ν : Type} [DecidableEq κ] (m : List (κ × ν)) (k : κ) : Option ν :=
  match m with
  | [] => none
  | (k', v) :: t => if k' = k then some v else mapGet t k

/-- Map update: `m[k] = v`. -/
def mapSet {κ ν : Type} (m : List (κ × ν)) (k : κ) (v : ν) : List (κ × ν) := (k, v) :: m

/-- metadata/source.go 30-58: `Container`. Sets are lists (only membership is observed). -/
structure Container where
  /-- `regionToMetadataMap` -/
  regionMeta : List (Str × Metadata)
  /-- `countryCodeToNonGeographicalMetadataMap` -/
  nonGeoMeta : List (Int × Metadata)
  /-- `countryCodeToRegion` -/
  ccToRegion : List (Int × List Str)
  /-- `nanpaRegions` -/
  nanpaRegions : List Str
  /-- `supportedRegions` -/
  supportedRegions : List Str
  /-- `supportedCallingCodes` -/
  supportedCodes : List Int
  /-- `countryCodesForNonGeographicalRegion` -/
  nonGeoCodes : List Int

/-- metadata/source.go 116-125: the first loop of `NewContainer`, one entry. -/
def addMetadata (acc : List (Str × Metadata) × List (Int × Metadata)) (m : Metadata) :
    List (Str × Metadata) × List (Int × Metadata) :=
  if m.id = nonGeoRegion then (acc.1, mapSet acc.2 m.countryCode m) else (mapSet acc.1 m.id m, acc.2)

/-- metadata/source.go 127-145: is this code one of the non-geographical entities? -/
def isNonGeoEntry (regions : List Str) : Bool := regions = [nonGeoRegion]

/-- metadata/source.go 96-157: `NewContainer`; `none` models `ErrEmptyMetadata`.  The Go map `countryCodeToRegion` is given as an
association list without duplicate keys; iteration order is irrelevant because only sets are built. -/
def newContainer (coll : List Metadata) (ccMap : List (Int × List Str)) : Option Container :=
  if coll = [] then none else
  let maps := coll.foldl addMetadata ([], [])
  let nonGeo := ccMap.filter (fun e => isNonGeoEntry e.2)
  let geo := ccMap.filter (fun e => !isNonGeoEntry e.2)
  some {
    regionMeta := maps.1
    nonGeoMeta := maps.2
    ccToRegion := ccMap
    nanpaRegions := (mapGet ccMap nanpaCountryCode).getD []
    supportedRegions := (geo.flatMap (·.2)).filter (· ≠ nonGeoRegion)
    supportedCodes := ccMap.map (·.1)
    nonGeoCodes := nonGeo.map (·.1) }

/-- The first loop of `newContainer` in closed form: the two maps are the two halves of the collection, last entry first. -/
theorem foldl_addMetadata (coll : List Metadata) (a : List (Str × Metadata)) (b : List (Int × Metadata)) :
    coll.foldl addMetadata (a, b) =
      (((coll.filter (fun m => decide (m.id ≠ nonGeoRegion))).map (fun m => (m.id, m))).reverse ++ a,
       ((coll.filter (fun m => decide (m.id = nonGeoRegion))).map (fun m => (m.countryCode, m))).reverse ++ b) := by
  induction coll generalizing a b with
  | nil => rfl
  | cons m t ih =>
    by_cases h : m.id = nonGeoRegion <;> simp [addMetadata, h, mapSet, ih]

namespace Container

/-- metadata/source.go 208: `CountryCodeToRegion()[cc]` (nil slice when absent, which `len` sees as empty). -/
def regionsOf (C : Container) (cc : Int) : List Str := (mapGet C.ccToRegion cc).getD []

/-- phonenumberutil.go 816-819: `hasValidCountryCallingCode`. -/
def hasCC (C : Container) (cc : Int) : Bool := (mapGet C.ccToRegion cc).isSome

/-- phonenumberutil.go 810-813: `isValidRegionCode`. -/
def validRegion (C : Container) (r : Str) : Bool := r ≠ [] && r ∈ C.supportedRegions

/-- phonenumberutil.go 1891-1897: `getMetadataForRegion`. -/
def metaForRegion (C : Container) (r : Str) : Option Metadata :=
  if C.validRegion r then mapGet C.regionMeta r else none

/-- phonenumberutil.go 1899-1906: `getMetadataForNonGeographicalRegion`. -/
def metaForNonGeo (C : Container) (cc : Int) : Option Metadata :=
  if C.hasCC cc then mapGet C.nonGeoMeta cc else none

/-- phonenumberutil.go 992-997: `getMetadataForRegionOrCallingCode`. -/
def metaFor (C : Container) (cc : Int) (r : Str) : Option Metadata :=
  if r = nonGeoRegion then C.metaForNonGeo cc else C.metaForRegion r

/-- phonenumberutil.go 2015-2021: `GetRegionCodeForCountryCode`. -/
def mainRegion (C : Container) (cc : Int) : Str :=
  match C.regionsOf cc with
  | [] => unknownRegion
  | r :: _ => r

/-- phonenumberutil.go 2027-2030: `GetRegionCodesForCountryCode`. -/
def regionCodes (C : Container) (cc : Int) : List Str := C.regionsOf cc

/-- phonenumberutil.go 2044-2047: `getCountryCodeForValidRegion` (0 when there is no metadata, by the nil-safe getter). -/
def ccForValidRegion (C : Container) (r : Str) : Int :=
  match C.metaForRegion r with
  | some m => m.countryCode
  | none => 0

/-- phonenumberutil.go 2034-2039: `GetCountryCodeForRegion`. -/
def ccForRegion (C : Container) (r : Str) : Int := if C.validRegion r then C.ccForValidRegion r else 0

/-- phonenumberutil.go 2079-2081: `IsNANPACountry`. -/
def isNanpa (C : Container) (r : Str) : Bool := r ∈ C.nanpaRegions

/-- phonenumberutil.go 3135-3141: `IsMobileNumberPortableRegion`. -/
def isMobilePortable (C : Container) (r : Str) : Bool :=
  match C.metaForRegion r with
  | some m => m.mobilePortable
  | none => false

/-- phonenumberutil.go 2059-2075: `GetNddPrefixForRegion`. -/
def nddPrefix (C : Container) (r : Str) (strip : Bool) : Str :=
  match C.metaForRegion r with
  | none => []
  | some m => if strip then m.nationalPrefix.filter (· ≠ 126) else m.nationalPrefix

end Container
end Verif
