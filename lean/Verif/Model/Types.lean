import Verif.Regex.Sem
/-!
# Data types of the library

Protobuf messages as structures with optional fields.  A getter on a nil pointer or unset field returns the zero value
(`phonenumber.pb.go`, `metadata/phonemetadata.pb.go`), so the model keeps the presence of a field only where the
code of `/repo` looks at presence.
-/
namespace Verif

/-- A run-time panic of the Go program, as a value. -/
inductive Panic where
  /-- nil pointer dereference -/
  | nilDeref
  /-- index or slice bounds out of range -/
  | index
  /-- explicit `panic(...)`, including `regexp.MustCompile` on a bad pattern -/
  | explicit
  deriving DecidableEq, Repr

/-- Result of a Go function that may panic. -/
abbrev Go (α : Type) := Except Panic α

/-- phonenumber.pb.go 27-60: `PhoneNumber_CountryCodeSource` (UNSPECIFIED is 0). -/
inductive CCSource where
  | unspecified
  | withPlusSign      -- FROM_NUMBER_WITH_PLUS_SIGN
  | withIdd           -- FROM_NUMBER_WITH_IDD
  | withoutPlusSign   -- FROM_NUMBER_WITHOUT_PLUS_SIGN
  | defaultCountry    -- FROM_DEFAULT_COUNTRY
  deriving DecidableEq, Repr

/-- phonenumber.pb.go: message `PhoneNumber`.  `none` is an unset (nil) field.  `int32` fields are integers, the
`uint64` national number is a natural number. -/
structure PhoneNumber where
  countryCode : Option Int := none
  nationalNumber : Option Nat := none
  extension : Option Str := none
  italianLeadingZero : Option Bool := none
  numberOfLeadingZeros : Option Int := none
  rawInput : Option Str := none
  countryCodeSource : Option CCSource := none
  preferredCarrier : Option Str := none
  deriving DecidableEq, Repr

namespace PhoneNumber
/-- phonenumber.pb.go: `GetCountryCode`. -/
def cc (n : PhoneNumber) : Int := n.countryCode.getD 0
/-- phonenumber.pb.go: `GetNationalNumber`. -/
def nn (n : PhoneNumber) : Nat := n.nationalNumber.getD 0
/-- phonenumber.pb.go: `GetExtension`. -/
def ext (n : PhoneNumber) : Str := n.extension.getD []
/-- phonenumber.pb.go: `GetItalianLeadingZero`. -/
def ilz (n : PhoneNumber) : Bool := n.italianLeadingZero.getD false
/-- phonenumber.pb.go: `GetNumberOfLeadingZeros`; the proto default of this field is 1. -/
def nlz (n : PhoneNumber) : Int := n.numberOfLeadingZeros.getD 1
/-- phonenumber.pb.go: `GetRawInput`. -/
def raw (n : PhoneNumber) : Str := n.rawInput.getD []
/-- phonenumber.pb.go: `GetCountryCodeSource`. -/
def src (n : PhoneNumber) : CCSource := n.countryCodeSource.getD .unspecified
/-- phonenumber.pb.go: `GetPreferredDomesticCarrierCode`. -/
def carrier (n : PhoneNumber) : Str := n.preferredCarrier.getD []
end PhoneNumber

/-- A pattern of the metadata: the source text and its syntax tree.  `regexcache.For` compiles the text; patterns that
do not compile make it panic, and such metadata is outside the model (a `Pat` always carries a tree). -/
structure Pat where
  src : Str
  re : Re
  deriving DecidableEq, Repr, Lean.ToExpr

/-- The empty pattern, i.e. the value of a getter of an unset pattern field. -/
def Pat.empty : Pat := ⟨[], .eps⟩

/-- metadata/phonemetadata.pb.go: message `NumberFormat` (unset string fields as empty strings). -/
structure NumberFormat where
  pattern : Pat
  format : Str
  leadingDigits : List Pat := []
  /-- `national_prefix_formatting_rule` -/
  npRule : Str := []
  /-- `national_prefix_optional_when_formatting` -/
  npOptional : Bool := false
  /-- `domestic_carrier_code_formatting_rule` -/
  ccRule : Str := []
  deriving DecidableEq, Repr

/-- metadata/phonemetadata.pb.go: message `PhoneNumberDesc`. -/
structure Desc where
  pattern : Option Pat := none
  lengths : List Int := []
  localLengths : List Int := []
  ex : Str := []
  deriving DecidableEq, Repr

/-- metadata/phonemetadata.pb.go: message `PhoneMetadata`.  Descriptions are optional because a nil description makes
some functions panic; other unset fields are zero values. -/
structure Metadata where
  id : Str
  countryCode : Int
  internationalPrefix : Pat := .empty
  preferredInternationalPrefix : Str := []
  nationalPrefix : Str := []
  preferredExtnPrefix : Str := []
  npParsing : Pat := .empty
  npTransform : Str := []
  sameMobileFixed : Bool := false
  formats : List NumberFormat := []
  intlFormats : List NumberFormat := []
  mainCountry : Bool := false
  leadingDigits : Pat := .empty
  mobilePortable : Bool := false
  general : Option Desc := none
  fixedLine : Option Desc := none
  mobile : Option Desc := none
  tollFree : Option Desc := none
  premium : Option Desc := none
  sharedCost : Option Desc := none
  personal : Option Desc := none
  voip : Option Desc := none
  pager : Option Desc := none
  uan : Option Desc := none
  emergency : Option Desc := none
  voicemail : Option Desc := none
  shortCode : Option Desc := none
  standardRate : Option Desc := none
  carrierSpecific : Option Desc := none
  smsServices : Option Desc := none
  noInternational : Option Desc := none
  deriving DecidableEq, Repr

/-- enums.go: `PhoneNumberFormat`. -/
inductive Fmt where
  | e164 | international | national | rfc3966
  deriving DecidableEq, Repr

/-- enums.go: `PhoneNumberType`. -/
inductive NumType where
  | fixedLine | mobile | fixedLineOrMobile | tollFree | premiumRate | sharedCost | voip | personalNumber | pager | uan
  | voicemail | unknown
  deriving DecidableEq, Repr

/-- enums.go: `MatchType`. -/
inductive MatchType where
  | notANumber | noMatch | shortNsnMatch | nsnMatch | exactMatch
  deriving DecidableEq, Repr

/-- enums.go: `ValidationResult`. -/
inductive ValidationResult where
  | isPossible | isPossibleLocalOnly | invalidCountryCode | tooShort | invalidLength | tooLong
  deriving DecidableEq, Repr

/-- errors.go and phonenumberutil.go 2715-2719: the errors of parsing. -/
inductive ParseErr where
  | notANumber | invalidCountryCode | tooShortNsn | tooShortAfterIdd | tooLong
  deriving DecidableEq, Repr

/-- phonenumberutil.go 34: `unknownRegion`. -/
def unknownRegion : Str := str!"ZZ"
/-- phonenumberutil.go 397: `REGION_CODE_FOR_NON_GEO_ENTITY`. -/
def nonGeoRegion : Str := str!"001"
/-- phonenumberutil.go 22. -/
def minLengthForNSN : Nat := 2
/-- phonenumberutil.go 25. -/
def maxLengthForNSN : Nat := 17
/-- phonenumberutil.go 27. -/
def maxLengthCountryCode : Nat := 3
/-- phonenumberutil.go 31. -/
def maxInputStringLength : Nat := 250
/-- phonenumberutil.go 36. -/
def nanpaCountryCode : Int := 1

end Verif
