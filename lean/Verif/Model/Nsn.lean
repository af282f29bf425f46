import Verif.Model.Normalize
/-!
# National significant numbers, lengths, number types and regions (phonenumberutil.go)
-/
namespace Verif

/-- phonenumberutil.go 1461-1487: `GetNationalSignificantNumber`. `make([]byte, n)` panics for negative `n`; the guard
`> 0` excludes that, so the number of zeros is a natural number here. -/
def nsnOf (n : PhoneNumber) : Str :=
  (if n.ilz && n.nlz > 0 then List.replicate (if n.nlz > (maxLengthForNSN : Int) then maxLengthForNSN else n.nlz.toNat) 48 else [])
    ++ dec n.nn

/-- phonenumberutil.go 2705-2709: the loop counting leading zeros, starting at index 1 (`numLeadZeros < len-1 && s[numLeadZeros]=='0'`). -/
def countZeros (s : Str) : Nat → Nat → Nat
  | 0, k => k
  | f + 1, k => if k < s.length - 1 ∧ s[k]? = some 48 then countZeros s f (k + 1) else k

/-- phonenumberutil.go 2696-2713: `setItalianLeadingZerosForPhoneNumber`.  Lengths and indices are in bytes in Go; the
argument is always ASCII digits here. `NumberOfLeadingZeros` is only ever set, never cleared. -/
def setItalianLeadingZeros (s : Str) (n : PhoneNumber) : PhoneNumber :=
  if s.length < 2 ∨ s.head? ≠ some 48 then { n with italianLeadingZero := none }
  else
    let k := countZeros s s.length 1
    let n := { n with italianLeadingZero := some true }
    if k ≠ 1 then { n with numberOfLeadingZeros := some (k : Int) } else n

/-- `strconv.ParseUint(s, 10, 64)` with the error ignored: 0 on a syntax error, the maximum on overflow. -/
def parseUint (s : Str) : Nat :=
  if s = [] || !s.all isDig then 0 else min (digVal s) (2 ^ 64 - 1)

/-! ## Descriptions -/

/-- metadata/phonemetadata.pb.go: `GetNationalNumberPattern` on a possibly nil description. -/
def descPat (d : Option Desc) : Pat := (d.bind (·.pattern)).getD .empty

/-- metadata/phonemetadata.pb.go: `GetExampleNumber` on a possibly nil description. -/
def descEx (d : Option Desc) : Str := match d with | some d => d.ex | none => []

/-- phonenumberutil.go 1795-1825: `getNumberDescByType` (nil-safe getters on nil metadata). -/
def descByType (m : Option Metadata) (t : NumType) : Option Desc :=
  match m with
  | none => none
  | some m => match t with
    | .premiumRate => m.premium
    | .tollFree => m.tollFree
    | .mobile => m.mobile
    | .fixedLine => m.fixedLine
    | .fixedLineOrMobile => m.fixedLine
    | .sharedCost => m.sharedCost
    | .voip => m.voip
    | .personalNumber => m.personal
    | .pager => m.pager
    | .uan => m.uan
    | .voicemail => m.voicemail
    | .unknown => m.general

/-- phonenumberutil.go 1908-1928: `isNumberPossibleForDesc`; a nil description is dereferenced. -/
def isPossibleForDesc (nsn : Str) (d : Option Desc) : Go Bool :=
  match d with
  | none => .error .nilDeref
  | some x =>
    if x.lengths ≠ [] ∧ (blen nsn : Int) ∉ x.lengths then .ok false
    else .ok ((descPat d).re.full.isMatch nsn)

/-- phonenumberutil.go 1930-1936: `isNumberMatchingDesc`. -/
def isMatchingDesc (nsn : Str) (d : Option Desc) : Go Bool := do
  let p ← isPossibleForDesc nsn d
  return p && (descPat d).re.full.isMatch nsn

/-- phonenumberutil.go 1839-1887: `getNumberTypeHelper`. -/
def numberTypeHelper (nsn : Str) (m : Option Metadata) : Go NumType := do
  if !(← isMatchingDesc nsn (m.bind (·.general))) then return .unknown
  if ← isMatchingDesc nsn (m.bind (·.premium)) then return .premiumRate
  if ← isMatchingDesc nsn (m.bind (·.tollFree)) then return .tollFree
  if ← isMatchingDesc nsn (m.bind (·.sharedCost)) then return .sharedCost
  if ← isMatchingDesc nsn (m.bind (·.voip)) then return .voip
  if ← isMatchingDesc nsn (m.bind (·.personal)) then return .personalNumber
  if ← isMatchingDesc nsn (m.bind (·.pager)) then return .pager
  if ← isMatchingDesc nsn (m.bind (·.uan)) then return .uan
  if ← isMatchingDesc nsn (m.bind (·.voicemail)) then return .voicemail
  let same := match m with | some m => m.sameMobileFixed | none => false
  if ← isMatchingDesc nsn (m.bind (·.fixedLine)) then
    if same then return .fixedLineOrMobile
    else if ← isMatchingDesc nsn (m.bind (·.mobile)) then return .fixedLineOrMobile
    else return .fixedLine
  if same then return .unknown
  if ← isMatchingDesc nsn (m.bind (·.mobile)) then return .mobile
  return .unknown

/-- phonenumberutil.go 1984-2005: `getRegionCodeForNumberFromRegionList`. -/
def regionFromList (C : Container) (nsn : Str) : List Str → Go Str
  | [] => .ok []
  | r :: rs => do
    let m := C.metaForRegion r
    let ld := match m with | some m => m.leadingDigits | none => .empty
    if ld.src ≠ [] then
      if ld.re.atStart.isMatch nsn then return r else regionFromList C nsn rs
    else if (← numberTypeHelper nsn m) ≠ .unknown then return r
    else regionFromList C nsn rs

/-- phonenumberutil.go 1972-1982: `GetRegionCodeForNumber`. -/
def regionForNumber (C : Container) (n : PhoneNumber) : Go Str :=
  match C.regionsOf n.cc with
  | [] => .ok []
  | [r] => .ok r
  | rs => regionFromList C (nsnOf n) rs

/-- phonenumberutil.go 1828-1837: `GetNumberType`. -/
def numberType (C : Container) (n : PhoneNumber) : Go NumType := do
  let r ← regionForNumber C n
  match C.metaFor n.cc r with
  | none => return .unknown
  | some m => numberTypeHelper (nsnOf n) (some m)

/-- phonenumberutil.go 1958-1968: `IsValidNumberForRegion`. -/
def isValidForRegion (C : Container) (n : PhoneNumber) (r : Str) : Go Bool :=
  match C.metaFor n.cc r with
  | none => .ok false
  | some m =>
    if r ≠ nonGeoRegion ∧ n.cc ≠ C.ccForValidRegion r then .ok false
    else do return (← numberTypeHelper (nsnOf n) (some m)) ≠ .unknown

/-- phonenumberutil.go 1941-1944: `IsValidNumber`. -/
def isValidNumber (C : Container) (n : PhoneNumber) : Go Bool := do
  isValidForRegion C n (← regionForNumber C n)

/-! ## Lengths -/

/-- phonenumberutil.go 2132-2134: `descHasPossibleNumberData` (dereferences the description). -/
def descHasPossible (d : Option Desc) : Go Bool :=
  match d with
  | none => .error .nilDeref
  | some d => .ok (d.lengths ≠ [-1])

/-- phonenumberutil.go 731-740: `descHasData`. -/
def descHasData (d : Option Desc) : Bool :=
  match d with
  | none => false
  | some d => d.ex ≠ [] || d.lengths ≠ [-1] || d.pattern.isSome

/-- phonenumberutil.go 2136-2161: `mergeLengths` (the classic merge of two sorted lists, keeping duplicates). -/
def mergeLengths : List Int → List Int → List Int
  | [], l2 => l2
  | l1, [] => l1
  | a :: l1, b :: l2 => if a ≤ b then a :: mergeLengths l1 (b :: l2) else b :: mergeLengths (a :: l1) l2
termination_by l1 l2 => l1.length + l2.length

/-- phonenumberutil.go 2209-2241: the second half of `testNumberLength`, on the length lists in force.
`possibleLengths[0]` panics on an empty list. -/
def testLengths (possible localLens : List Int) (len : Int) : Go ValidationResult :=
  match possible with
  | [] => .error .index
  | mn :: rest =>
    if mn = -1 then .ok .invalidLength
    else if len ∈ localLens then .ok .isPossibleLocalOnly
    else if mn = len then .ok .isPossible
    else if mn > len then .ok .tooShort
    else if (mn :: rest).getLast (by simp) < len then .ok .tooLong
    else if len ∈ rest then .ok .isPossible
    else .ok .invalidLength

/-- phonenumberutil.go 2165-2180: lengths of a description with fallback to the general description. -/
def lengthsOf (m : Option Metadata) (d : Option Desc) : Go (List Int) :=
  match d with
  | none => .error .nilDeref
  | some d =>
    if d.lengths = [] then
      match m.bind (·.general) with
      | none => .error .nilDeref
      | some g => .ok g.lengths
    else .ok d.lengths

/-- phonenumberutil.go 2165-2237: `testNumberLength` for a type other than FIXED_LINE_OR_MOBILE. -/
def testNumberLengthSimple (number : Str) (m : Option Metadata) (t : NumType) : Go ValidationResult := do
  let ls ← lengthsOf m (descByType m t)
  testLengths ls (match descByType m t with | some d => d.localLengths | none => []) (blen number)

/-- phonenumberutil.go 2165-2237: `testNumberLength`.  The recursive call on MOBILE does not recurse further, so it is the
simple variant. -/
def testNumberLength (number : Str) (m : Option Metadata) (t : NumType) : Go ValidationResult :=
  if t = .fixedLineOrMobile then do
    let d := descByType m t
    let ls ← lengthsOf m d
    let loc := match d with | some d => d.localLengths | none => []
    if !(← descHasPossible (descByType m .fixedLine)) then testNumberLengthSimple number m .mobile
    else
      let md := descByType m .mobile
      if ← descHasPossible md then
        let ml ← lengthsOf m md
        let mloc := match md with | some d => d.localLengths | none => []
        testLengths (mergeLengths ls ml) (if loc = [] then mloc else mergeLengths loc mloc) (blen number)
      else testLengths ls loc (blen number)
  else testNumberLengthSimple number m t

/-- phonenumberutil.go 2257-2285: `IsPossibleNumberWithReason`. -/
def possibleWithReason (C : Container) (n : PhoneNumber) : Go ValidationResult :=
  if !C.hasCC n.cc then .ok .invalidCountryCode
  else
    let m := C.metaFor n.cc (C.mainRegion n.cc)
    if (descPat (m.bind (·.general))).src = [] then
      let l := blen (nsnOf n)
      if l < minLengthForNSN then .ok .tooShort
      else if l > maxLengthForNSN then .ok .tooLong
      else .ok .isPossible
    else testNumberLength (nsnOf n) m .unknown

/-- phonenumberutil.go 2290-2303: `IsPossibleNumberForTypeWithReason`. -/
def possibleForTypeWithReason (C : Container) (n : PhoneNumber) (t : NumType) : Go ValidationResult :=
  if !C.hasCC n.cc then .ok .invalidCountryCode
  else testNumberLength (nsnOf n) (C.metaFor n.cc (C.mainRegion n.cc)) t

/-- phonenumberutil.go 2102-2105: `IsPossibleNumber`. -/
def isPossibleNumber (C : Container) (n : PhoneNumber) : Go Bool := do
  let r ← possibleWithReason C n
  return r = .isPossible || r = .isPossibleLocalOnly

/-- phonenumberutil.go 2307-2310: `IsPossibleNumberForType`. -/
def isPossibleForType (C : Container) (n : PhoneNumber) (t : NumType) : Go Bool := do
  let r ← possibleForTypeWithReason C n t
  return r = .isPossible || r = .isPossibleLocalOnly

/-- phonenumberutil.go 2328-2337: the loop of `TruncateTooLongNumber`: `copy` holds national number `nn`.  Each round divides
by ten, so the 20 digits of a 64-bit number bound the rounds; fuel `nn + 1` is more than enough. -/
def truncateLoop (C : Container) (n : PhoneNumber) : Nat → Nat → Go (Option Nat)
  | 0, _ => .ok none
  | f + 1, nn => do
    if ← isValidNumber C { n with nationalNumber := some nn } then return some nn
    let nn := nn / 10
    if (← possibleWithReason C { n with nationalNumber := some nn }) = .tooShort ∨ nn = 0 then return none
    truncateLoop C n f nn

/-- phonenumberutil.go 2316-2339: `TruncateTooLongNumber`; returns the boolean and the (possibly modified) number. -/
def truncateTooLong (C : Container) (n : PhoneNumber) : Go (Bool × PhoneNumber) := do
  if ← isValidNumber C n then return (true, n)
  let nn := n.nn / 10
  if (← possibleWithReason C { n with nationalNumber := some nn }) = .tooShort ∨ nn = 0 then return (false, n)
  match ← truncateLoop C n (nn + 1) nn with
  | some v => return (true, { n with nationalNumber := some v })
  | none => return (false, n)

/-- phonenumberutil.go 3119-3130: `CanBeInternationallyDialled`. -/
def canBeInternationallyDialled (C : Container) (n : PhoneNumber) : Go Bool := do
  match C.metaForRegion (← regionForNumber C n) with
  | none => return true
  | some m => return !(← isMatchingDesc (nsnOf n) m.noInternational)

/-- phonenumberutil.go 432-438: `geoMobileCountries`. -/
def geoMobileCountries : List Int := [52, 54, 55, 62, 86]
/-- phonenumberutil.go 418-420. -/
def geoMobileWithoutAreaCodes : List Int := [86]
/-- phonenumberutil.go 423-425. -/
def noNationalPrefixWithAreaCodes : List Int := [52]

/-- phonenumberutil.go 803-807: `IsNumberGeographicalForType`. -/
def isGeographicalForType (t : NumType) (cc : Int) : Bool :=
  t = .fixedLine || t = .fixedLineOrMobile || (cc ∈ geoMobileCountries && t = .mobile)

/-- phonenumberutil.go 796-798: `IsNumberGeographical`. -/
def isGeographical (C : Container) (n : PhoneNumber) : Go Bool := do
  return isGeographicalForType (← numberType C n) n.cc

/-- phonenumberutil.go 722-725: `allPhoneNumberTypes`. -/
def allTypes : List NumType :=
  [.fixedLine, .mobile, .fixedLineOrMobile, .tollFree, .premiumRate, .sharedCost, .voip, .personalNumber, .pager, .uan,
   .voicemail, .unknown]

/-- phonenumberutil.go 744-756: `getSupportedTypesForMetadata` (a set, as a list). -/
def supportedTypes (m : Option Metadata) : List NumType :=
  allTypes.filter fun t => t ≠ .fixedLineOrMobile && t ≠ .unknown && descHasData (descByType m t)

/-- phonenumberutil.go 761-766: `GetSupportedTypesForRegion`. -/
def supportedTypesForRegion (C : Container) (r : Str) : List NumType :=
  if C.validRegion r then supportedTypes (C.metaForRegion r) else []

/-- phonenumberutil.go 772-778: `GetSupportedTypesForNonGeoEntity`. -/
def supportedTypesForNonGeo (C : Container) (cc : Int) : List NumType :=
  match C.metaForNonGeo cc with
  | none => []
  | some m => supportedTypes (some m)

/-- phonenumberutil.go 72-74, 676-681: `GetCountryMobileToken`. -/
def countryMobileToken (cc : Int) : Str := if cc = 54 then str!"9" else []

end Verif
