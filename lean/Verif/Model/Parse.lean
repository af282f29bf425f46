import Verif.Model.Format
/-!
# Parsing (phonenumberutil.go)
-/
namespace Verif

/-- phonenumberutil.go 43-46. -/
def rfcPrefix : Str := str!"tel:"
def rfcPhoneContext : Str := str!";phone-context="
def rfcIsub : Str := str!";isub="

/-- phonenumberutil.go 2851-2875: `extractPhoneContext` (`none` models the index -1). -/
def extractPhoneContext (s : Str) (idx : Option Nat) : Str :=
  match idx with
  | none => []
  | some i =>
    let start := i + rfcPhoneContext.length
    if start ≥ s.length then []
    else (s.drop start).takeWhile (· ≠ 59)

/-- phonenumberutil.go 2878-2885: `isPhoneContextValid`. -/
def isPhoneContextValid (ctx : Str) : Bool :=
  if ctx = [] then false
  else rfc3966GlobalNumberDigitsPattern.isMatch ctx || rfc3966DomainnamePattern.isMatch ctx

/-- A slice expression `s[a:b]` that panics when the bounds are wrong. -/
def goSlice (s : Str) (a b : Nat) : Go Str :=
  if a ≤ b ∧ b ≤ s.length then .ok (slice s a b) else .error .index

/-- phonenumberutil.go 2935-2941: drop `;isub=` and what follows, if it is not at the start. -/
def dropIsub (s : Str) : Str :=
  match indexOf s rfcIsub with
  | some i => if i > 0 then s.take i else s
  | none => s

/-- phonenumberutil.go 2890-2945: `buildNationalNumberForParsing`. -/
def buildNationalNumber (s : Str) : Go (Except ParseErr Str) :=
  let idx := indexOf s rfcPhoneContext
  let ctx := extractPhoneContext s idx
  if idx.isSome ∧ !isPhoneContextValid ctx then .ok (.error .notANumber)
  else
    match idx with
    | some (i + 1) => do
      let c0 ← (match ctx with | [] => .error .index | u :: _ => .ok u : Go Nat)
      let start := match indexOf s rfcPrefix with
        | some j => if j < i + 1 then j + rfcPrefix.length else 0
        | none => 0
      let body ← goSlice s start (i + 1)
      return .ok (dropIsub ((if c0 = 43 then ctx else []) ++ body))
    | _ => .ok (.ok (dropIsub (extractPossibleNumber s)))

/-- phonenumberutil.go 2616-2625: `checkRegionForParsing`. -/
def checkRegion (C : Container) (s region : Str) : Bool :=
  C.validRegion region || (s ≠ [] && plusCharsPattern.isMatch s)

/-- phonenumberutil.go 2470-2489: `parsePrefixAsIdd`; `none` is the result false (number unchanged). -/
def parsePrefixAsIdd (idd : Re) (number : Str) : Option Str :=
  match idd.find number with
  | none => none
  | some x =>
    if x.start ≠ 0 then none
    else
      let rest := number.drop x.stop
      match capturingDigitPattern.findAll rest with
      | y :: _ => if normalizeDigitsOnly (slice rest y.start y.stop) = [48] then none else some rest
      | [] => some rest

/-- phonenumberutil.go 2494-2519: `maybeStripInternationalPrefixAndNormalize`. -/
def stripIntlPrefix (number : Str) (idd : Re) : Str × CCSource :=
  if number = [] then (number, .defaultCountry)
  else
    match plusCharsPattern.find number with
    | some ⟨0, stop, _⟩ => (normalize (number.drop stop), .withPlusSign)
    | _ =>
      let norm := normalize number
      match parsePrefixAsIdd idd norm with
      | some rest => (rest, .withIdd)
      | none => (norm, .defaultCountry)

/-- phonenumberutil.go 2523-2584: `maybeStripNationalPrefixAndCarrierCode`; returns the remaining number and the carrier code
written, with the boolean result as the first component (only `nationalPrefixPresent` of the text search reads it). -/
def stripNationalPrefix (number : Str) (m : Metadata) : Bool × Str × Str :=
  if number = [] ∨ m.npParsing.src = [] then (false, number, [])
  else
    match m.npParsing.re.atStart.find number with
    | none => (false, number, [])
    | some x =>
      let rule := (descPat m.general).re.full
      let viable := rule.isMatch number
      let groups := m.npParsing.re.groups
      let group1 := x.group number 1
      if m.npTransform = [] ∨ (groups > 0 ∧ (x.span groups).isNone) then
        if viable ∧ !rule.isMatch (number.drop x.stop) then (false, number, [])
        else (true, number.drop x.stop, if groups > 0 then group1 else [])
      else
        let transformed := m.npParsing.re.atStart.replaceAll number m.npTransform
        if viable ∧ !rule.isMatch transformed then (false, number, [])
        else (true, transformed, if groups > 1 then group1 else [])

/-- phonenumberutil.go 2357-2368: the loop of `extractCountryCode`, for prefix lengths `i, i+1, …` (`k` remaining).
`strconv.Atoi` of something that is not a digit string is 0 with an ignored error. -/
def extractCCLoop (C : Container) (full : Str) : Nat → Nat → Option (Int × Str)
  | 0, _ => none
  | k + 1, i =>
    if i ≤ full.length then
      let p := full.take i
      let code : Int := if p.all isDig then (digVal p : Int) else 0
      if C.hasCC code then some (code, full.drop i) else extractCCLoop C full k (i + 1)
    else none

/-- phonenumberutil.go 2349-2367: `extractCountryCode`: the code (0 if none) and the text written to `nationalNumber`. -/
def extractCC (C : Container) (full : Str) : Int × Str :=
  match full with
  | [] => (0, [])
  | 48 :: _ => (0, [])
  | _ => match extractCCLoop C full maxLengthCountryCode 1 with
    | some r => r
    | none => (0, [])

/-- The international prefix used when there is no metadata: phonenumberutil.go 2401 ("NonMatch"). -/
def nonMatchIdd : Re := re! "NonMatch"

/-- Result of `maybeExtractCountryCode`: error or code, the text appended to `nationalNumber`, the message. -/
structure ExtractResult where
  code : Except ParseErr Int
  national : Str
  number : PhoneNumber

/-- phonenumberutil.go 2388-2466: `maybeExtractCountryCode`. -/
def maybeExtractCC (C : Container) (number : Str) (m : Option Metadata) (keepRaw : Bool) (pn : PhoneNumber) :
    Go ExtractResult :=
  if number = [] then .ok ⟨.ok 0, [], pn⟩
  else
    let idd := match m with | some m => m.internationalPrefix.re | none => nonMatchIdd
    let (full, source) := stripIntlPrefix number idd
    let pn := if keepRaw then { pn with countryCodeSource := some source } else pn
    if source ≠ .defaultCountry then
      if blen full ≤ minLengthForNSN then .ok ⟨.error .tooShortAfterIdd, [], pn⟩
      else
        let (code, rest) := extractCC C full
        if code ≠ 0 then .ok ⟨.ok code, rest, { pn with countryCode := some code }⟩
        else .ok ⟨.error .invalidCountryCode, rest, pn⟩
    else
      match m with
      | none => .ok ⟨.ok 0, [], { pn with countryCode := some 0 }⟩
      | some md =>
        let ccStr := decInt md.countryCode
        if hasPrefix full ccStr then do
          let potential := (stripNationalPrefix (full.drop ccStr.length) md).2.1
          let rule := (descPat md.general).re.full
          let fullValid := rule.isMatch full
          let nationalValid := rule.isMatch potential
          let lengthValid ← testNumberLength full (some md) .unknown
          if (!fullValid ∧ nationalValid) ∨ lengthValid = .tooLong then
            let pn := if keepRaw then { pn with countryCodeSource := some .withoutPlusSign } else pn
            return ⟨.ok md.countryCode, potential, { pn with countryCode := some md.countryCode }⟩
          else return ⟨.ok 0, [], { pn with countryCode := some 0 }⟩
        else .ok ⟨.ok 0, [], { pn with countryCode := some 0 }⟩

/-- phonenumberutil.go 2816-2834: removal of the national prefix in `parseHelper`: the text to use from here on and the carrier
code found with it (empty when the removal is not accepted). -/
def stripStage (national : Str) (m : Option Metadata) : Go (Str × Str) :=
  match m with
  | none => .ok (national, [])
  | some md => do
    let (_, potential, carrier) := stripNationalPrefix national md
    let v ← testNumberLength potential (some md) .unknown
    return (if v ≠ .tooShort ∧ v ≠ .isPossibleLocalOnly ∧ v ≠ .invalidLength then (potential, carrier) else (national, []))

/-- phonenumberutil.go 2813-2846: the last part of `parseHelper`, from the length check on. -/
def parseFinish (national : Str) (m : Option Metadata) (keepRaw : Bool) (pn : PhoneNumber) :
    Go (Option ParseErr × PhoneNumber) :=
  if blen national < minLengthForNSN then .ok (some .tooShortNsn, pn)
  else do
    let (national, carrier) ← stripStage national m
    let pn := if keepRaw ∧ carrier ≠ [] then { pn with preferredCarrier := some carrier } else pn
    if blen national < minLengthForNSN then return (some .tooShortNsn, pn)
    if blen national > maxLengthForNSN then return (some .tooLong, pn)
    return (none, { setItalianLeadingZeros national pn with nationalNumber := some (parseUint national) })

/-- phonenumberutil.go 2761-2791: country code extraction in `parseHelper`, with the retry after a plus sign. -/
def parseExtract (C : Container) (s : Str) (m : Option Metadata) (keepRaw : Bool) (pn : PhoneNumber) :
    Go ExtractResult := do
  let r ← maybeExtractCC C s m keepRaw pn
  match r.code with
  | .ok _ => return r
  | .error e =>
    match plusCharsPattern.find s with
    | some x =>
      if e = .invalidCountryCode then
        let r2 ← maybeExtractCC C (s.drop x.stop) m keepRaw r.number
        match r2.code with
        | .ok 0 => return { r2 with code := .error .invalidCountryCode }
        | _ => return r2
      else return r
    | none => return r

/-- phonenumberutil.go 2726-2846: `parseHelper`; returns the error (if any) and the final state of the message. -/
def parseHelper (C : Container) (s region : Str) (keepRaw check : Bool) (pn : PhoneNumber) :
    Go (Option ParseErr × PhoneNumber) :=
  if s = [] then .ok (some .notANumber, pn)
  else if blen s > maxInputStringLength then .ok (some .tooLong, pn)
  else do
    match ← buildNationalNumber s with
    | .error e => return (some e, pn)
    | .ok national =>
      if !isViable national then return (some .notANumber, pn)
      if check && !checkRegion C national region then return (some .invalidCountryCode, pn)
      let pn := if keepRaw then { pn with rawInput := some s } else pn
      let (ext, national) := stripExtension national
      let pn := if ext ≠ [] then { pn with extension := some ext } else pn
      let m := C.metaForRegion region
      let r ← parseExtract C national m keepRaw pn
      match r.code with
      | .error e => return (some e, r.number)
      | .ok code =>
        if code ≠ 0 then
          let main := C.mainRegion code
          parseFinish r.national (if main ≠ region then C.metaFor code main else m) keepRaw r.number
        else
          let pn := if region ≠ [] then
              { r.number with countryCode := some (match m with | some m => m.countryCode | none => 0) }
            else if keepRaw then { r.number with countryCodeSource := none } else r.number
          parseFinish (r.national ++ normalize national) m keepRaw pn

/-- phonenumberutil.go 2640-2642: `ParseToNumber`. -/
def parseToNumber (C : Container) (s region : Str) (pn : PhoneNumber) : Go (Option ParseErr × PhoneNumber) :=
  parseHelper C s region false true pn

/-- phonenumberutil.go 2632-2636: `Parse`. -/
def parse (C : Container) (s region : Str) : Go (Option ParseErr × PhoneNumber) := parseToNumber C s region {}

/-- phonenumberutil.go 2658-2662: `ParseAndKeepRawInputToNumber`. -/
def parseKeepRawToNumber (C : Container) (s region : Str) (pn : PhoneNumber) : Go (Option ParseErr × PhoneNumber) :=
  parseHelper C s region true true pn

/-- phonenumberutil.go 2648-2653: `ParseAndKeepRawInput`. -/
def parseKeepRaw (C : Container) (s region : Str) : Go (Option ParseErr × PhoneNumber) := parseKeepRawToNumber C s region {}

/-- phonenumberutil.go 2120-2126: `IsPossibleNumberFromRegion`. -/
def isPossibleFromRegion (C : Container) (s region : Str) : Go Bool := do
  match ← parse C s region with
  | (some _, _) => return false
  | (none, n) => isPossibleNumber C n

/-! ## Example numbers -/

/-- phonenumberutil.go 1705-1721: `GetExampleNumberForTypeInRegion`. -/
def exampleForTypeInRegion (C : Container) (r : Str) (t : NumType) : Go (Option PhoneNumber) :=
  if !C.validRegion r then .ok none
  else
    let ex := descEx (descByType (C.metaForRegion r) t)
    if ex ≠ [] then do
      match ← parse C ex r with
      | (some _, _) => return none
      | (none, n) => return some n
    else .ok none

/-- phonenumberutil.go 1669-1671: `GetExampleNumber`. -/
def exampleNumber (C : Container) (r : Str) : Go (Option PhoneNumber) := exampleForTypeInRegion C r .fixedLine

/-- phonenumberutil.go 1690-1698: the loop of `GetInvalidExampleNumber`, for lengths `l, l-1, …, 2`. -/
def invalidExampleLoop (C : Container) (ex r : Str) : Nat → Go (Option PhoneNumber)
  | 0 => .ok none
  | l + 1 =>
    if l + 1 < minLengthForNSN then .ok none
    else do
      match ← parse C (ex.take (l + 1)) r with
      | (none, n) => if !(← isValidNumber C n) then return some n else invalidExampleLoop C ex r l
      | (some _, _) => invalidExampleLoop C ex r l

/-- phonenumberutil.go 1677-1699: `GetInvalidExampleNumber`. -/
def invalidExample (C : Container) (r : Str) : Go (Option PhoneNumber) :=
  if !C.validRegion r then .ok none
  else
    let ex := descEx (descByType (C.metaForRegion r) .fixedLine)
    if ex = [] then .ok none else invalidExampleLoop C ex r (ex.length - 1)

/-- phonenumberutil.go 1747-1769: `GetExampleNumberForNonGeoEntity`. -/
def exampleForNonGeo (C : Container) (cc : Int) : Go (Option PhoneNumber) :=
  match C.metaForNonGeo cc with
  | none => .ok none
  | some m =>
    match [m.mobile, m.tollFree, m.sharedCost, m.voip, m.voicemail, m.uan, m.premium].find? (fun d => descEx d ≠ []) with
    | none => .ok none
    | some d => do
      match ← parse C (43 :: (decInt cc ++ descEx d)) unknownRegion with
      | (some _, _) => return none
      | (none, n) => return some n

/-! ## Original format -/

/-- phonenumberutil.go 1308-1324: `rawInputContainsNationalPrefix`. -/
def rawContainsNationalPrefix (C : Container) (raw np region : Str) : Go Bool :=
  let norm := normalizeDigitsOnly raw
  if hasPrefix norm np then do
    match ← parse C (norm.drop np.length) region with
    | (some _, _) => return false
    | (none, n) => isValidNumber C n
  else .ok false

/-- UTF-8 bytes of a unit. -/
def unitBytes (u : Nat) : List Nat :=
  if u < 0x80 then [u]
  else if u < 0x800 then [0xC0 + u / 64, 0x80 + u % 64]
  else if u < 0x10000 then [0xE0 + u / 4096, 0x80 + u / 64 % 64, 0x80 + u % 64]
  else if u < badBase then [0xF0 + u / 262144, 0x80 + u / 4096 % 64, 0x80 + u / 64 % 64, 0x80 + u % 64]
  else [u - badBase]

/-- The slice expression `s[1:]`, on bytes: it panics on the empty string, and cutting a multi-byte rune leaves its
continuation bytes as invalid bytes. -/
def dropByte : Str → Go Str
  | [] => .error .index
  | u :: t => .ok ((unitBytes u).tail.map (· + badBase) ++ t)

/-- phonenumberutil.go 1229-1290: the `default` branch of the switch in `FormatInOriginalFormat`. -/
def originalNational (C : Container) (n : PhoneNumber) : Go Str := do
  let region := C.mainRegion n.cc
  let np := C.nddPrefix region true
  let nat := format C n .national
  if np = [] then return nat
  if ← rawContainsNationalPrefix C n.raw np region then return nat
  match chooseFormat (match C.metaForRegion region with | some m => m.formats | none => []) (nsnOf n) with
  | none => return nat
  | some p =>
    match indexOf p.npRule (str!"$1") with
    | some (i + 1) =>
      if normalizeDigitsOnly (p.npRule.take (i + 1)) = [] then return nat
      return formatByPattern C n .national [{ p with npRule := [] }]
    | _ => return nat

/-- phonenumberutil.go 1217-1290: the switch over the country code source in `FormatInOriginalFormat`. -/
def originalBody (C : Container) (n : PhoneNumber) (from_ : Str) : Go Str :=
  match n.src with
  | .withPlusSign => .ok (format C n .international)
  | .withIdd => .ok (formatOutOfCountry C n from_)
  | .withoutPlusSign => dropByte (format C n .international)
  | _ => originalNational C n

/-- phonenumberutil.go 1207-1303: `FormatInOriginalFormat`. -/
def formatInOriginal (C : Container) (n : PhoneNumber) (from_ : Str) : Go Str :=
  if n.raw ≠ [] ∧ !hasFormattingPattern C n then .ok n.raw
  else if n.src = .unspecified then .ok (format C n .national)
  else do
    let out ← originalBody C n from_
    if out ≠ [] ∧ n.raw ≠ [] then
      if normalizeDiallable out ≠ normalizeDiallable n.raw then return n.raw
    return out

/-! ## Matching two numbers -/

/-- phonenumberutil.go 3010-3024: `copyCoreFieldsOnly`. -/
def coreFields (n : PhoneNumber) : PhoneNumber :=
  { countryCode := some n.cc
    nationalNumber := some n.nn
    extension := if n.ext ≠ [] then some n.ext else none
    italianLeadingZero := if n.ilz then some true else none
    numberOfLeadingZeros := if n.ilz then some n.nlz else none }

/-- phonenumberutil.go 3028-3038: `isNationalNumberSuffixOfTheOther`. -/
def nnSuffix (a b : PhoneNumber) : Bool := hasSuffix (dec a.nn) (dec b.nn) || hasSuffix (dec b.nn) (dec a.nn)

/-- phonenumberutil.go 2960-3002: `IsNumberMatchWithNumbers`. -/
def numberMatch (aIn bIn : PhoneNumber) : MatchType :=
  let a := coreFields aIn
  let b := coreFields bIn
  if a.ext ≠ [] ∧ b.ext ≠ [] ∧ a.ext ≠ b.ext then .noMatch
  else if a.cc ≠ 0 ∧ b.cc ≠ 0 then
    if a = b then .exactMatch
    else if a.cc = b.cc ∧ nnSuffix a b then .shortNsnMatch
    else .noMatch
  else
    let a := { a with countryCode := some b.cc }
    if a = b then .nsnMatch
    else if nnSuffix a b then .shortNsnMatch
    else .noMatch

/-- phonenumberutil.go 3073-3112: `IsNumberMatchWithOneNumber`. -/
def numberMatchOne (C : Container) (a : PhoneNumber) (s : Str) : Go MatchType := do
  match ← parse C s unknownRegion with
  | (none, b) => return numberMatch a b
  | (some .invalidCountryCode, _) =>
    let r := C.mainRegion a.cc
    if r ≠ unknownRegion then
      match ← parse C s r with
      | (some _, _) => return .notANumber
      | (none, b) =>
        let m := numberMatch a b
        return if m = .exactMatch then .nsnMatch else m
    else
      match ← parseHelper C s [] false false {} with
      | (some _, _) => return .notANumber
      | (none, b) => return numberMatch a b
  | (some _, _) => return .notANumber

/-- phonenumberutil.go 3043-3068: `IsNumberMatch`. -/
def numberMatchStrings (C : Container) (s1 s2 : Str) : Go MatchType := do
  match ← parse C s1 unknownRegion with
  | (none, a) => numberMatchOne C a s2
  | (some .invalidCountryCode, _) =>
    match ← parse C s2 unknownRegion with
    | (none, b) => numberMatchOne C b s1
    | (some .invalidCountryCode, _) =>
      match ← parseHelper C s1 [] false false {} with
      | (some _, _) => return .notANumber
      | (none, a) =>
        match ← parseHelper C s2 [] false false {} with
        | (some _, _) => return .notANumber
        | (none, b) => return numberMatch a b
    | (some _, _) => return .notANumber
  | (some _, _) => return .notANumber

end Verif
