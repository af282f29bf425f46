import Verif.Model.Nsn
/-!
# Formatting (phonenumberutil.go)

`PhoneNumberFormat` is an `int` in Go; the model covers its four declared values.
-/
namespace Verif

/-- phonenumberutil.go 1490-1518: `prefixNumberWithCountryCallingCode`. -/
def prefixWithCC (cc : Int) (f : Fmt) (s : Str) : Str :=
  match f with
  | .e164 => 43 :: (decInt cc ++ s)
  | .international => 43 :: (decInt cc ++ 32 :: s)
  | .rfc3966 => str!"tel:+" ++ decInt cc ++ 45 :: s
  | .national => s

/-- phonenumberutil.go 1549-1579: `chooseFormattingPatternForNumber`.  (`FindString` of an anchored pattern that matches
is the whole text, so the extra length comparison at 1564 is the match test itself.) -/
def chooseFormat : List NumberFormat → Str → Option NumberFormat
  | [], _ => none
  | f :: fs, nsn =>
    match f.leadingDigits.getLast? with
    | none =>
      if f.pattern.re.full.isMatch nsn ∧ blen (f.pattern.re.full.findString nsn) = blen nsn then some f
      else chooseFormat fs nsn
    | some ld =>
      if ld.re.matchesAtStart nsn ∧ f.pattern.re.full.isMatch nsn then some f else chooseFormat fs nsn

/-- phonenumberutil.go 1622-1627 and 1644-1649: replace the first `$n` token of the format by the rule, in which `$1` stands for
the token itself. -/
def replaceFirstToken (format rule : Str) : Str :=
  match firstGroupPattern.find format with
  | none => format
  | some x => format.take x.start ++ expand x format rule ++ format.drop x.stop

/-- phonenumberutil.go 1607-1616: `ReplaceAllStringFunc` on `$CC` replacing the first occurrence only. -/
def replaceFirstCC (rule carrier : Str) : Str :=
  match ccPattern.find rule with
  | none => rule
  | some x => rule.take x.start ++ carrier ++ rule.drop x.stop

/-- phonenumberutil.go 1656-1664: the RFC 3966 clean-up. -/
def rfc3966Clean (s : Str) : Str :=
  let s := match separatorPattern.find s with
    | some x => if x.start = 0 then s.drop x.stop else s
    | none => s
  List.intercalate [45] ((notSeparatorPattern.findAll s).map fun x => slice s x.start x.stop)

/-- phonenumberutil.go 1592-1666: `formatNsnUsingPatternWithCarrier`. -/
def formatNsnUsingPattern (nsn : Str) (p : NumberFormat) (f : Fmt) (carrier : Str) : Str :=
  let out :=
    if f = .national ∧ carrier ≠ [] ∧ p.ccRule ≠ [] then
      p.pattern.re.replaceAll nsn (replaceFirstToken p.format (replaceFirstCC p.ccRule carrier))
    else if f = .national ∧ p.npRule ≠ [] then
      p.pattern.re.replaceAll nsn (replaceFirstToken p.format p.npRule)
    else p.pattern.re.replaceAll nsn p.format
  if f = .rfc3966 then rfc3966Clean out else out

/-- phonenumberutil.go 1532-1547: `formatNsnWithCarrier` (nil-safe getters on nil metadata). -/
def formatNsn (nsn : Str) (m : Option Metadata) (f : Fmt) (carrier : Str) : Str :=
  let intl := match m with | some m => m.intlFormats | none => []
  let formats := match m with | some m => m.formats | none => []
  let available := if intl = [] ∨ f = .national then formats else intl
  match chooseFormat available nsn with
  | none => nsn
  | some p => formatNsnUsingPattern nsn p f carrier

/-- phonenumberutil.go 1773-1793: `maybeAppendFormattedExtension` (306: `defaultExtnPrefix`, 43: `rfc3966ExtnPrefix`). -/
def appendExtension (n : PhoneNumber) (m : Option Metadata) (f : Fmt) (s : Str) : Str :=
  if n.ext = [] then s
  else
    let pref := match m with | some m => m.preferredExtnPrefix | none => []
    s ++ (if f = .rfc3966 then str!";ext=" else if pref ≠ [] then pref else str!" ext. ") ++ n.ext

/-- phonenumberutil.go 854-885: `formatWithBuf`. -/
def formatCore (C : Container) (n : PhoneNumber) (f : Fmt) : Str :=
  if f = .e164 then prefixWithCC n.cc .e164 (nsnOf n)
  else if !C.hasCC n.cc then nsnOf n
  else
    let m := C.metaFor n.cc (C.mainRegion n.cc)
    prefixWithCC n.cc f (appendExtension n m f (formatNsn (nsnOf n) m f []))

/-- phonenumberutil.go 831-847: `Format`. -/
def format (C : Container) (n : PhoneNumber) (f : Fmt) : Str :=
  if n.nn = 0 ∧ n.raw ≠ [] then n.raw else formatCore C n f

/-- phonenumberutil.go 893-956: `FormatByPattern`.  The user formats are given with compiled patterns. -/
def formatByPattern (C : Container) (n : PhoneNumber) (f : Fmt) (user : List NumberFormat) : Str :=
  if !C.hasCC n.cc then nsnOf n
  else
    let m := C.metaFor n.cc (C.mainRegion n.cc)
    let np := match m with | some m => m.nationalPrefix | none => []
    let body := match chooseFormat user (nsnOf n) with
      | none => nsnOf n
      | some p =>
        let p' := if p.npRule ≠ [] then
            if np ≠ [] then { p with npRule := fgPattern.replaceAllLit (npPattern.replaceAll p.npRule np) (str!"$1") }
            else { p with npRule := [] }
          else p
        formatNsnUsingPattern (nsnOf n) p' f []
    prefixWithCC n.cc f (appendExtension n m f body)

/-- phonenumberutil.go 963-990: `FormatNationalNumberWithCarrierCode`. -/
def formatWithCarrier (C : Container) (n : PhoneNumber) (carrier : Str) : Str :=
  if !C.hasCC n.cc then nsnOf n
  else
    let m := C.metaFor n.cc (C.mainRegion n.cc)
    prefixWithCC n.cc .national (appendExtension n m .national (formatNsn (nsnOf n) m .national carrier))

/-- phonenumberutil.go 1009-1018: `FormatNationalNumberWithPreferredCarrierCode`. -/
def formatWithPreferredCarrier (C : Container) (n : PhoneNumber) (fallback : Str) : Str :=
  formatWithCarrier C n (if n.carrier = [] then fallback else n.carrier)

/-- phonenumberutil.go 1024-1115: `FormatNumberForMobileDialing`. -/
def formatForMobile (C : Container) (n : PhoneNumber) (from_ : Str) (withFormatting : Bool) : Go Str :=
  if !C.hasCC n.cc then .ok n.raw
  else do
    let ne := { n with extension := none }
    let region := C.mainRegion n.cc
    let t ← numberType C ne
    let valid := t ≠ .unknown
    let fom := t = .fixedLine ∨ t = .mobile ∨ t = .fixedLineOrMobile
    let finish := fun (s : Str) => if withFormatting then s else normalizeDiallable s
    if from_ = region then
      if region = str!"BR" ∧ fom then
        return finish (if ne.carrier ≠ [] then formatWithPreferredCarrier C ne [] else [])
      else if n.cc = nanpaCountryCode then
        let intl : Bool ← (do
          if ← canBeInternationallyDialled C ne then
            return (← testNumberLength (nsnOf ne) (C.metaForRegion from_) .unknown) ≠ .tooShort
          else return false)
        return finish (format C ne (if intl then .international else .national))
      else
        let intl : Bool ← (do
          if region = nonGeoRegion ∨ ((region = str!"MX" ∨ region = str!"CL" ∨ region = str!"UZ") ∧ fom) then
            canBeInternationallyDialled C ne
          else return false)
        return finish (format C ne (if intl then .international else .national))
    else
      let dial : Bool ← (if valid then canBeInternationallyDialled C ne else return false)
      if dial then
        return (if withFormatting then format C ne .international else format C ne .e164)
      return finish []

/-- phonenumberutil.go 1132-1195: `FormatOutOfCountryCallingNumber`. -/
def formatOutOfCountry (C : Container) (n : PhoneNumber) (from_ : Str) : Str :=
  if !C.validRegion from_ then format C n .international
  else if !C.hasCC n.cc then nsnOf n
  else if n.cc = nanpaCountryCode ∧ C.isNanpa from_ then decInt n.cc ++ 32 :: format C n .national
  else if n.cc ≠ nanpaCountryCode ∧ n.cc = C.ccForValidRegion from_ then format C n .national
  else
    let mf := C.metaForRegion from_
    let idd := match mf with | some m => m.internationalPrefix.src | none => []
    let pref := match mf with | some m => m.preferredInternationalPrefix | none => []
    let p := if pref ≠ [] then pref else if uniqueInternationalPrefix.isMatch idd then idd else []
    let m := C.metaFor n.cc (C.mainRegion n.cc)
    let body := appendExtension n m .international (formatNsn (nsnOf n) m .international [])
    if p ≠ [] then p ++ 32 :: (decInt n.cc ++ 32 :: body) else prefixWithCC n.cc .international body

/-- The pattern `(\d+)(.*)` of phonenumberutil.go 1415. -/
def anyDigitsPattern : Pat := ⟨str!"(\\d+)(.*)", re! "(\\d+)(.*)"⟩

/-- phonenumberutil.go 1360-1456: `FormatOutOfCountryKeepingAlphaChars`. -/
def formatKeepingAlpha (C : Container) (n : PhoneNumber) (from_ : Str) : Str :=
  if n.raw = [] then formatOutOfCountry C n from_
  else if !C.hasCC n.cc then n.raw
  else
    let raw := normalizeHelper groupingMap true n.raw
    let nsn := nsnOf n
    let raw := if nsn.length > 3 then
        match indexOf raw (nsn.take 3) with
        | some i => raw.drop i
        | none => raw
      else raw
    let mf := C.metaForRegion from_
    if n.cc = nanpaCountryCode ∧ C.isNanpa from_ then decInt n.cc ++ 32 :: raw
    else if n.cc ≠ nanpaCountryCode ∧ mf.isSome ∧ n.cc = C.ccForValidRegion from_ then
      match chooseFormat (match mf with | some m => m.formats | none => []) nsn with
      | none => raw
      | some p => formatNsnUsingPattern raw { p with pattern := anyDigitsPattern, format := str!"$1$2" } .national []
    else
      let p := match mf with
        | none => []
        | some m => if uniqueInternationalPrefix.isMatch m.internationalPrefix.src then m.internationalPrefix.src
            else m.preferredInternationalPrefix
      let m := C.metaFor n.cc (C.mainRegion n.cc)
      let body := appendExtension n m .international (stripExtension raw).2
      if p ≠ [] then p ++ 32 :: (decInt n.cc ++ 32 :: body) else prefixWithCC n.cc .international body

/-- phonenumberutil.go 1326-1338: `hasFormattingPatternForNumber`. -/
def hasFormattingPattern (C : Container) (n : PhoneNumber) : Bool :=
  match C.metaFor n.cc (C.mainRegion n.cc) with
  | none => false
  | some m => (chooseFormat m.formats (nsnOf n)).isSome

/-- phonenumberutil.go 782-785: `formattingRuleHasFirstGroupOnly`. -/
def ruleHasFirstGroupOnly (rule : Str) : Bool := rule = [] || firstGroupOnlyPrefixPattern.isMatch rule

/-- phonenumberutil.go 633-670: `GetLengthOfNationalDestinationCode`.  `numberGroups[i]` is in range because of the guard. -/
def lengthOfNdc (C : Container) (n : PhoneNumber) : Go Nat :=
  let copied := if n.ext ≠ [] then { n with extension := none } else n
  match nonDigitsPattern.split (format C copied .international) with
  | _ :: _ :: g2 :: g3 :: _ => do
    if (← numberType C n) = .mobile then
      if countryMobileToken n.cc ≠ [] then return blen g2 + blen g3
    return blen g2
  | _ => .ok 0

/-- phonenumberutil.go 578-607: `GetLengthOfGeographicalAreaCode`. -/
def lengthOfAreaCode (C : Container) (n : PhoneNumber) : Go Nat := do
  match C.metaForRegion (← regionForNumber C n) with
  | none => return 0
  | some m =>
    let t ← numberType C n
    if m.nationalPrefix = [] ∧ !n.ilz ∧ n.cc ∉ noNationalPrefixWithAreaCodes then return 0
    if t = .mobile ∧ n.cc ∈ geoMobileWithoutAreaCodes then return 0
    if !(← isGeographical C n) then return 0
    lengthOfNdc C n

end Verif
