import Verif.Model.Nsn
/-!
# Short numbers (shortnumberinfo.go)

The table of short-number metadata is loaded once, by `init`, and never changes afterwards; the model passes it as an argument.
-/
namespace Verif

/-- shortnumberinfo.go 12-14: `shortNumberRegionToMetadataMap`. -/
abbrev ShortMap := List (Str × Metadata)

/-- shortnumberinfo.go 53-75: the loop of `loadShortNumberMetadataFromFile` over the decoded collection; `none` models
`ErrEmptyMetadata`.  The entry with id "001" is skipped. -/
def loadShortNumbers (coll : List Metadata) : Option ShortMap :=
  if coll = [] then none
  else some (coll.foldl (fun acc m => if m.id = nonGeoRegion then acc else mapSet acc m.id m) [])

/-- shortnumberinfo.go 77-87: `ShortNumberCost`. -/
inductive Cost where
  | tollFree | standardRate | premiumRate | unknown
  deriving DecidableEq, Repr

/-- shortnumberinfo.go 248-251: `getShortNumberMetadataForRegion`. -/
def shortMeta (S : ShortMap) (r : Str) : Option Metadata := mapGet S r

/-- metadata/metadata_util.go 31-39: `HasPossibleLength`; the receiver is dereferenced. -/
def hasPossibleLength (d : Option Desc) (len : Nat) : Go Bool :=
  match d with
  | none => .error .nilDeref
  | some d => .ok ((len : Int) ∈ d.lengths)

/-- internal/regexbasedmatcher/regexbasedmatcher.go 15-35: `MatchNationalNumber` and `match`. -/
def matchNational (number : Str) (d : Option Desc) (allowPrefix : Bool) : Bool :=
  let p := descPat d
  if p.src = [] then false
  else match p.re.find number with
    | none => false
    | some x => if x.start ≠ 0 then false else p.re.full.isMatch number || allowPrefix

/-- shortnumberinfo.go 320-328: `matchesPossibleNumberAndNationalNumber`. -/
def matchesPossibleAndNational (number : Str) (d : Option Desc) : Bool :=
  match d with
  | none => false
  | some x => if x.lengths ≠ [] ∧ (blen number : Int) ∉ x.lengths then false else matchNational number (some x) false

/-- shortnumberinfo.go 308-316: `regionDialingFromMatchesNumber`. -/
def dialingFromMatches (C : Container) (n : PhoneNumber) (r : Str) : Bool := r ∈ C.regionCodes n.cc

/-- shortnumberinfo.go 109-118: the loop of `IsPossibleShortNumber`. -/
def possibleShortLoop (S : ShortMap) (len : Nat) : List Str → Go Bool
  | [] => .ok false
  | r :: rs =>
    match shortMeta S r with
    | none => possibleShortLoop S len rs
    | some m => do
      if ← hasPossibleLength m.general len then return true
      possibleShortLoop S len rs

/-- shortnumberinfo.go 106-119: `IsPossibleShortNumber`. -/
def isPossibleShort (C : Container) (S : ShortMap) (n : PhoneNumber) : Go Bool :=
  possibleShortLoop S (blen (nsnOf n)) (C.regionCodes n.cc)

/-- shortnumberinfo.go 123-133: `IsPossibleShortNumberForRegion`. -/
def isPossibleShortForRegion (C : Container) (S : ShortMap) (n : PhoneNumber) (r : Str) : Go Bool :=
  if !dialingFromMatches C n r then .ok false
  else match shortMeta S r with
    | none => .ok false
    | some m => hasPossibleLength m.general (blen (nsnOf n))

/-- shortnumberinfo.go 152-167: `IsValidShortNumberForRegion`. -/
def isValidShortForRegion (C : Container) (S : ShortMap) (n : PhoneNumber) (r : Str) : Bool :=
  if !dialingFromMatches C n r then false
  else match shortMeta S r with
    | none => false
    | some m =>
      if !matchesPossibleAndNational (nsnOf n) m.general then false
      else matchesPossibleAndNational (nsnOf n) m.shortCode

/-- shortnumberinfo.go 261-268: the loop of `getRegionCodeForShortNumberFromRegionList`. -/
def shortRegionLoop (S : ShortMap) (nsn : Str) : List Str → Str
  | [] => []
  | r :: rs =>
    match shortMeta S r with
    | none => shortRegionLoop S nsn rs
    | some m => if matchesPossibleAndNational nsn m.shortCode then r else shortRegionLoop S nsn rs

/-- shortnumberinfo.go 253-269: `getRegionCodeForShortNumberFromRegionList`. -/
def shortRegionFromList (S : ShortMap) (n : PhoneNumber) (rs : List Str) : Str :=
  match rs with
  | [] => []
  | [r] => r
  | rs => shortRegionLoop S (nsnOf n) rs

/-- shortnumberinfo.go 139-148: `IsValidShortNumber`. -/
def isValidShort (C : Container) (S : ShortMap) (n : PhoneNumber) : Bool :=
  let rs := C.regionCodes n.cc
  let r := shortRegionFromList S n rs
  if rs.length > 1 ∧ r ≠ [] then true else isValidShortForRegion C S n r

/-- shortnumberinfo.go 332: `regionsWhereEmergencyNumbersMustBeExact`. -/
def exactEmergencyRegions : List Str := [str!"BR", str!"CL", str!"NI"]

/-- shortnumberinfo.go 334-352: `matchesEmergencyNumber`. -/
def matchesEmergency (S : ShortMap) (number r : Str) (allowPrefix : Bool) : Bool :=
  let possible := extractPossibleNumber number
  if plusCharsPattern.isMatch possible then false
  else match shortMeta S r with
    | none => false
    | some m =>
      match m.emergency with
      | none => false
      | some d => matchNational (normalizeDigitsOnly possible) (some d) (allowPrefix && !(r ∈ exactEmergencyRegions))

/-- shortnumberinfo.go 364-366: `IsEmergencyNumber`. -/
def isEmergency (S : ShortMap) (number r : Str) : Bool := matchesEmergency S number r false

/-- shortnumberinfo.go 380-382: `ConnectsToEmergencyNumber`. -/
def connectsToEmergency (S : ShortMap) (number r : Str) : Bool := matchesEmergency S number r true

/-- shortnumberinfo.go 174-209: `GetExpectedCostForRegion`. -/
def expectedCostForRegion (C : Container) (S : ShortMap) (n : PhoneNumber) (r : Str) : Go Cost :=
  if !dialingFromMatches C n r then .ok .unknown
  else match shortMeta S r with
    | none => .ok .unknown
    | some m => do
      let nsn := nsnOf n
      if !(← hasPossibleLength m.general (blen nsn)) then return .unknown
      if matchesPossibleAndNational nsn m.premium then return .premiumRate
      if matchesPossibleAndNational nsn m.standardRate then return .standardRate
      if matchesPossibleAndNational nsn m.tollFree then return .tollFree
      if isEmergency S nsn r then return .tollFree
      return .unknown

/-- shortnumberinfo.go 229-245: the loop of `GetExpectedCost`. -/
def costLoop (C : Container) (S : ShortMap) (n : PhoneNumber) : List Str → Cost → Go Cost
  | [], c => .ok c
  | r :: rs, c => do
    match ← expectedCostForRegion C S n r with
    | .premiumRate => return .premiumRate
    | .unknown => costLoop C S n rs .unknown
    | .standardRate => costLoop C S n rs (if c ≠ .unknown then .standardRate else c)
    | .tollFree => costLoop C S n rs c

/-- shortnumberinfo.go 221-246: `GetExpectedCost`. -/
def expectedCost (C : Container) (S : ShortMap) (n : PhoneNumber) : Go Cost :=
  match C.regionCodes n.cc with
  | [] => .ok .unknown
  | [r] => expectedCostForRegion C S n r
  | rs => costLoop C S n rs .tollFree

/-- shortnumberinfo.go 273-279: `getExampleShortNumber`. -/
def exampleShort (S : ShortMap) (r : Str) : Str :=
  match shortMeta S r with
  | none => []
  | some m => descEx m.shortCode

/-- shortnumberinfo.go 283-304: `getExampleShortNumberForCost`. -/
def exampleShortForCost (S : ShortMap) (r : Str) (c : Cost) : Str :=
  match shortMeta S r with
  | none => []
  | some m => match c with
    | .tollFree => descEx m.tollFree
    | .standardRate => descEx m.standardRate
    | .premiumRate => descEx m.premium
    | .unknown => []

/-- shortnumberinfo.go 389-396: `IsCarrierSpecific`. -/
def isCarrierSpecific (C : Container) (S : ShortMap) (n : PhoneNumber) : Bool :=
  match shortMeta S (shortRegionFromList S n (C.regionCodes n.cc)) with
  | none => false
  | some m => matchesPossibleAndNational (nsnOf n) m.carrierSpecific

/-- shortnumberinfo.go 401-409: `IsCarrierSpecificForRegion`. -/
def isCarrierSpecificForRegion (C : Container) (S : ShortMap) (n : PhoneNumber) (r : Str) : Bool :=
  if !dialingFromMatches C n r then false
  else match shortMeta S r with
    | none => false
    | some m => matchesPossibleAndNational (nsnOf n) m.carrierSpecific

/-- shortnumberinfo.go 416-423: `IsSmsServiceForRegion`. -/
def isSmsServiceForRegion (C : Container) (S : ShortMap) (n : PhoneNumber) (r : Str) : Bool :=
  if !dialingFromMatches C n r then false
  else match shortMeta S r with
    | none => false
    | some m => matchesPossibleAndNational (nsnOf n) m.smsServices

end Verif
