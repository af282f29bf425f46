import Verif.Model.Format
/-!
# Formats and types as the integers they are

`PhoneNumberFormat` and `PhoneNumberType` are integers in Go, so a caller can pass a value that is none of the named constants.  The
rest of the model has enumerations of the named constants.  Here the functions that take such a value from a caller are written down
once more on integers.
-/
namespace Verif

/-- enums.go 20-23: the value of a named format. -/
def Fmt.code : Fmt → Int
  | .e164 => 0
  | .international => 1
  | .national => 2
  | .rfc3966 => 3

/-- enums.go 56-67: the value of a named type. -/
def NumType.code : NumType → Int
  | .fixedLine => 0
  | .mobile => 1
  | .fixedLineOrMobile => 2
  | .tollFree => 3
  | .premiumRate => 4
  | .sharedCost => 5
  | .voip => 6
  | .personalNumber => 7
  | .pager => 8
  | .uan => 9
  | .voicemail => 10
  | .unknown => 11

/-- phonenumberutil.go 1490-1518: `prefixNumberWithCountryCallingCode`. -/
def prefixWithCCInt (cc : Int) (k : Int) (s : Str) : Str :=
  if k = 0 then 43 :: (decInt cc ++ s)
  else if k = 1 then 43 :: (decInt cc ++ 32 :: s)
  else if k = 3 then str!"tel:+" ++ decInt cc ++ 45 :: s
  else s

/-- phonenumberutil.go 1592-1666: `formatNsnUsingPatternWithCarrier`. -/
def formatNsnUsingPatternInt (nsn : Str) (p : NumberFormat) (k : Int) (carrier : Str) : Str :=
  let out :=
    if k = 2 ∧ carrier ≠ [] ∧ p.ccRule ≠ [] then
      p.pattern.re.replaceAll nsn (replaceFirstToken p.format (replaceFirstCC p.ccRule carrier))
    else if k = 2 ∧ p.npRule ≠ [] then
      p.pattern.re.replaceAll nsn (replaceFirstToken p.format p.npRule)
    else p.pattern.re.replaceAll nsn p.format
  if k = 3 then rfc3966Clean out else out

/-- phonenumberutil.go 1532-1547: `formatNsnWithCarrier`. -/
def formatNsnInt (nsn : Str) (m : Option Metadata) (k : Int) (carrier : Str) : Str :=
  let intl := match m with | some m => m.intlFormats | none => []
  let formats := match m with | some m => m.formats | none => []
  let available := if intl = [] ∨ k = 2 then formats else intl
  match chooseFormat available nsn with
  | none => nsn
  | some p => formatNsnUsingPatternInt nsn p k carrier

/-- phonenumberutil.go 1773-1793: `maybeAppendFormattedExtension`. -/
def appendExtensionInt (n : PhoneNumber) (m : Option Metadata) (k : Int) (s : Str) : Str :=
  if n.ext = [] then s
  else
    let pref := match m with | some m => m.preferredExtnPrefix | none => []
    s ++ (if k = 3 then str!";ext=" else if pref ≠ [] then pref else str!" ext. ") ++ n.ext

/-- phonenumberutil.go 831-885: `Format` and `formatWithBuf`. -/
def formatInt (C : Container) (n : PhoneNumber) (k : Int) : Str :=
  if n.nn = 0 ∧ n.raw ≠ [] then n.raw
  else if k = 0 then prefixWithCCInt n.cc 0 (nsnOf n)
  else if !C.hasCC n.cc then nsnOf n
  else
    let m := C.metaFor n.cc (C.mainRegion n.cc)
    prefixWithCCInt n.cc k (appendExtensionInt n m k (formatNsnInt (nsnOf n) m k []))

/-- phonenumberutil.go 893-956: `FormatByPattern`.  The user formats are given with compiled patterns. -/
def formatByPatternInt (C : Container) (n : PhoneNumber) (k : Int) (user : List NumberFormat) : Str :=
  if !C.hasCC n.cc then nsnOf n
  else
    let m := C.metaFor n.cc (C.mainRegion n.cc)
    let np := match m with | some m => m.nationalPrefix | none => []
    let body := match chooseFormat user (nsnOf n) with
      | none => nsnOf n
      | some p =>
        let p' := if p.npRule ≠ [] then
            if np ≠ [] then { p with npRule := fgPattern.replaceAllLit (npPattern.replaceAll p.npRule np) (str!"$1") }
            else { p with npRule := [] }
          else p
        formatNsnUsingPatternInt (nsnOf n) p' k []
    prefixWithCCInt n.cc k (appendExtensionInt n m k body)

/-- phonenumberutil.go 1795-1825: `getNumberDescByType` (nil-safe getters on nil metadata). -/
def descByTypeInt (m : Option Metadata) (k : Int) : Option Desc :=
  match m with
  | none => none
  | some m =>
    if k = 4 then m.premium
    else if k = 3 then m.tollFree
    else if k = 1 then m.mobile
    else if k = 0 then m.fixedLine
    else if k = 2 then m.fixedLine
    else if k = 5 then m.sharedCost
    else if k = 6 then m.voip
    else if k = 7 then m.personal
    else if k = 8 then m.pager
    else if k = 9 then m.uan
    else if k = 10 then m.voicemail
    else m.general

/-- phonenumberutil.go 2165-2237: `testNumberLength`.  The branch for FIXED_LINE_OR_MOBILE is that of `testNumberLength` above. -/
def testNumberLengthInt (number : Str) (m : Option Metadata) (k : Int) : Go ValidationResult :=
  if k = 2 then testNumberLength number m .fixedLineOrMobile
  else do
    let ls ← lengthsOf m (descByTypeInt m k)
    testLengths ls (match descByTypeInt m k with | some d => d.localLengths | none => []) (blen number)

/-- phonenumberutil.go 2290-2303: `IsPossibleNumberForTypeWithReason`. -/
def possibleForTypeInt (C : Container) (n : PhoneNumber) (k : Int) : Go ValidationResult :=
  if !C.hasCC n.cc then .ok .invalidCountryCode
  else testNumberLengthInt (nsnOf n) (C.metaFor n.cc (C.mainRegion n.cc)) k

end Verif
