import Verif.Model.Container
/-!
# Well-formed metadata

Decidable conditions on metadata used as hypotheses of property theorems.  `Verif/Data/Wf.lean` checks each of them, in the
kernel, for the whole shipped metadata.
-/
namespace Verif

/-- All metadata entries of a container. -/
def Container.allMeta (C : Container) : List Metadata := C.regionMeta.map (·.2) ++ C.nonGeoMeta.map (·.2)

namespace Spec

/-- The general description exists and lists at least one length. -/
def hasGeneralLengths (m : Metadata) : Bool :=
  match m.general with
  | some d => !d.lengths.isEmpty
  | none => false

/-- The eleven descriptions a number type can refer to. -/
def typeDescs (m : Metadata) : List (Option Desc) :=
  [m.fixedLine, m.mobile, m.tollFree, m.premium, m.sharedCost, m.voip, m.personal, m.pager, m.uan, m.voicemail, m.general]

/-- Every description that a number type can refer to, and the one for numbers that cannot be dialled internationally,
is present. -/
def hasAllDescs (m : Metadata) : Bool := (typeDescs m).all (·.isSome) && m.noInternational.isSome

/-- Strictly increasing. -/
def increasing : List Int → Bool
  | a :: b :: t => decide (a < b) && increasing (b :: t)
  | _ => true

/-- A list of lengths is either the marker `[-1]` ("no numbers of this type") or a strictly increasing list of positive
numbers. -/
def lengthsOk (ls : List Int) : Bool := decide (ls = [-1]) || (increasing ls && ls.all (fun l => decide (0 < l)))

/-- All length lists of a metadata entry are in order; the general one is a proper non-empty list. -/
def lengthTablesOk (m : Metadata) : Bool :=
  ((typeDescs m).all fun d => match d with
    | some d => lengthsOk d.lengths && increasing d.localLengths && d.localLengths.all (fun l => decide (0 < l))
    | none => false) &&
  (match m.general with
   | some g => !g.lengths.isEmpty && decide (g.lengths ≠ [-1])
   | none => false)

/-- Every supported region has metadata, whose country code is a supported calling code; 0 is not a calling code. -/
def regionsOk (C : Container) : Bool :=
  !C.hasCC 0 && C.supportedRegions.all fun r => match mapGet C.regionMeta r with
    | some m => C.hasCC m.countryCode
    | none => false

/-- The literal text of a replacement template: what is left when every variable is empty. -/
def templateLiterals (t : Str) : Str := expand ⟨0, 0, []⟩ [] t

/-- The transform rule of the national prefix adds digits only. -/
def transformOk (m : Metadata) : Bool := (templateLiterals m.npTransform).all isDig

/-- "ZZ" and "001" are not regions, and non-geographical entities have no national prefix. -/
def nonGeoOk (C : Container) : Bool :=
  !C.validRegion unknownRegion && !C.validRegion nonGeoRegion && C.nonGeoMeta.all fun e => decide (e.2.npParsing.src = [])

/-- The lookup tables agree with each other: no country code is listed twice, every code has a region, and every listed region
is a non-empty string and has metadata that names this code (for "001" it is the non-geographical entry of the code). -/
def tablesOk (C : Container) : Bool :=
  C.ccToRegion.all fun e =>
    decide (C.regionsOf e.1 = e.2) && !e.2.isEmpty && e.2.all fun r => !r.isEmpty &&
      (if decide (r = nonGeoRegion) then
        match mapGet C.nonGeoMeta e.1 with
        | some m => decide (m.countryCode = e.1) && decide (e.2 = [nonGeoRegion])
        | none => false
      else
        match mapGet C.regionMeta r with
        | some m => decide (m.countryCode = e.1)
        | none => false)

/-- `m` has a number pattern and its lengths or local-only lengths include the general lengths of `m'`. -/
def nestedIn (m m' : Metadata) : Bool :=
  match m.general, m'.general with
  | some g, some g' =>
    (match g.pattern with | some p => !p.src.isEmpty | none => false) && !g'.lengths.isEmpty &&
      g'.lengths.all (fun l => decide (l ∈ g.lengths) || decide (l ∈ g.localLengths))
  | _, _ => false

/-- The general lengths of every region are lengths, or local-only lengths, of the main region of its country code. -/
def lengthsNested (C : Container) : Bool :=
  (C.regionMeta.all fun e => match mapGet C.regionMeta (C.mainRegion e.2.countryCode) with
    | some m => nestedIn m e.2
    | none => false) &&
  C.nonGeoMeta.all fun e => nestedIn e.2 e.2

end Spec
end Verif
