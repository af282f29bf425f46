import Verif.Model.Parse
/-!
# Collections handed out to callers

`GetSupportedRegions`, `GetSupportedCallingCodes`, `GetSupportedGlobalNetworkCallingCodes` (phonenumberutil.go 704-719) and
`GetRegionCodesForCountryCode` (phonenumberutil.go 2027-2030) return maps and slices.  In Go these are references: the accessors in
metadata/source.go 184-198 return the tables the library uses itself, not copies, so what a caller writes into a returned collection is
written into the library's tables.
-/
namespace Verif

/-- What a caller can write into a collection it was given. -/
inductive TableWrite where
  /-- `GetSupportedRegions()[r] = b`, and `delete` for `false` (phonenumberutil.go 811 reads the value, so that is the same) -/
  | region (r : Str) (b : Bool)
  /-- `GetSupportedCallingCodes()[cc] = b`, or `delete` -/
  | code (cc : Int) (b : Bool)
  /-- `GetSupportedGlobalNetworkCallingCodes()[cc] = b`, or `delete` -/
  | globalCode (cc : Int) (b : Bool)
  /-- `GetRegionCodesForCountryCode(cc)[i] = r`, for an index inside the slice -/
  | regionOf (cc : Int) (i : Nat) (r : Str)

/-- A write into a set given as a list. -/
def setWrite {α : Type} [DecidableEq α] (l : List α) (a : α) (b : Bool) : List α := if b then a :: l else l.filter (· ≠ a)

/-- metadata/source.go 184-198: a write of a caller changes the tables of the container.  `IsNANPACountry` has a table of its own
(metadata/source.go 146-148), filled when the container is built, so writes into the slices do not change it. -/
def TableWrite.run (C : Container) : TableWrite → Container
  | .region r b => { C with supportedRegions := setWrite C.supportedRegions r b }
  | .code cc b => { C with supportedCodes := setWrite C.supportedCodes cc b }
  | .globalCode cc b => { C with nonGeoCodes := setWrite C.nonGeoCodes cc b }
  | .regionOf cc i r => { C with ccToRegion := C.ccToRegion.map fun e => if e.1 = cc then (e.1, e.2.set i r) else e }

/-- Writes one after the other. -/
def runWrites (C : Container) (ws : List TableWrite) : Container := ws.foldl TableWrite.run C

end Verif
