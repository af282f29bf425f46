import Verif.Model.Container
import Verif.Regex.Parser
/-!
# Character-level normalisation (phonenumberutil.go, internal/character/character.go)
-/
namespace Verif

/-- internal/character/character.go 8-27: `Digit`.  `unicode.Nd.R16` and `R32` together are `ndTable` (all strides are 1); the
value is the offset in its range modulo ten. -/
def charDigit (c : Nat) : Option Nat :=
  if 48 ≤ c ∧ c ≤ 57 then some c else go ndTable c
where
  go : List (Nat × Nat) → Nat → Option Nat
    | [], _ => none
    | (lo, hi) :: t, c =>
      if c < lo then none
      else if c ≤ hi then some (48 + (c - lo) % 10)
      else go t c

/-- phonenumberutil.go 518-529: `normalizeDigits`. -/
def normalizeDigits (keepNonDigits : Bool) (s : Str) : Str :=
  s.flatMap fun u =>
    match charDigit (rune u) with
    | some v => [v]
    | none => if keepNonDigits then [rune u] else []

/-- phonenumberutil.go 514-516: `NormalizeDigitsOnly`. -/
def normalizeDigitsOnly (s : Str) : Str := normalizeDigits false s

/-- `unicode.ToUpper` as far as `normalizeHelper` can observe it: all keys of the three maps are ASCII or caseless; the
only non-ASCII code points with an ASCII upper case are U+0131 (I) and U+017F (S); no caseless key is changed. Other
letters keep their code point here, which (like their true upper case) is not a key. -/
def toUpperKey (c : Nat) : Nat :=
  if 97 ≤ c ∧ c ≤ 122 then c - 32 else if c = 0x131 then 73 else if c = 0x17F then 83 else c

/-- phonenumberutil.go 80-94: `diallableCharMappings`. -/
def diallableMap (c : Nat) : Option Nat :=
  if isDig c ∨ c = 43 ∨ c = 42 ∨ c = 35 then some c else none

/-- Keypad digits of A..Z, phonenumberutil.go 109-134. -/
def keypad : List Nat := str!"22233344455566677778889999"

/-- phonenumberutil.go 98-135: `alphaPhoneMappings`. -/
def alphaMap (c : Nat) : Option Nat :=
  if isDig c then some c else if 65 ≤ c ∧ c ≤ 90 then keypad[c - 65]? else none

/-- phonenumberutil.go 140-221: `allPlusNumberGroupingSymbols`. -/
def groupingMap (c : Nat) : Option Nat :=
  if isDig c ∨ c = 43 ∨ c = 42 ∨ (65 ≤ c ∧ c ≤ 90) then some c
  else if 97 ≤ c ∧ c ≤ 122 then some (c - 32)
  else if c = 45 ∨ c = 0xFF0D ∨ (0x2010 ≤ c ∧ c ≤ 0x2015) ∨ c = 0x2212 then some 45
  else if c = 47 ∨ c = 0xFF0F then some 47
  else if c = 32 ∨ c = 0x3000 ∨ c = 0x2060 then some 32
  else if c = 46 ∨ c = 0xFF0E then some 46
  else none

/-- phonenumberutil.go 686-701: `normalizeHelper`. -/
def normalizeHelper (map : Nat → Option Nat) (removeNonMatches : Bool) (s : Str) : Str :=
  s.flatMap fun u =>
    match map (toUpperKey (rune u)) with
    | some v => [v]
    | none => if removeNonMatches then [] else [rune u]

/-- phonenumberutil.go 534-537: `NormalizeDiallableCharsOnly`. -/
def normalizeDiallable (s : Str) : Str := normalizeHelper diallableMap true s

/-- phonenumberutil.go 541-543: `ConvertAlphaCharactersInNumber`. -/
def convertAlpha (s : Str) : Str := normalizeHelper alphaMap false s

/-! ## Regular expressions of the code -/

/-- phonenumberutil.go 55-57: `validPunctuation` (as text inside a character class). -/
def validPunctuation : Str := str!"-x\u2010-\u2015\u2212\u30fc\uff0d-\uff0f " ++
  str!"\u00a0\u00ad\u200b\u2060\u3000()\uff08\uff09\uff3b\uff3d." ++
  str!"\\[\\]/~\u2053\u223c\uff5e"
/-- phonenumberutil.go 59: `digitsClass`. -/
def digitsClass : Str := str!"\\p{Nd}"
/-- phonenumberutil.go 63: `validAlpha`. -/
def validAlpha : Str := str!"abcdefghijklmnopqrstuvwxyzABCDEFGHIJKLMNOPQRSTUVWXYZ"
/-- phonenumberutil.go 64: `plusChars`. -/
def plusChars : Str := str!"+\uff0b"

/-- phonenumberutil.go 235: `uniqueInternationalPrefix`. -/
def uniqueInternationalPrefix : Re := re! "^(?:[\\d]+(?:[~\u2053\u223c\uff5e][\\d]+)?)$"
/-- phonenumberutil.go 237: `plusCharsPattern`. -/
def plusCharsPattern : Re := re_of% (str!"[" ++ plusChars ++ str!"]+")
/-- phonenumberutil.go 238: `separatorPattern`. -/
def separatorPattern : Re := re_of% (str!"[" ++ validPunctuation ++ str!"]+")
/-- phonenumberutil.go 239: `notSeparatorPattern`. -/
def notSeparatorPattern : Re := re_of% (str!"[^" ++ validPunctuation ++ str!"]+")
/-- phonenumberutil.go 240: `capturingDigitPattern`. -/
def capturingDigitPattern : Re := re_of% (str!"(" ++ digitsClass ++ str!")")
/-- phonenumberutil.go 250-251: `validStartCharPattern`. -/
def validStartCharPattern : Re := re_of% (str!"[" ++ plusChars ++ digitsClass ++ str!"]")
/-- phonenumberutil.go 260-261: `secondNumberStartPattern`. -/
def secondNumberStartPattern : Re := re! "[\\\\/] *x"
/-- phonenumberutil.go 267-268: `unwantedEndCharPattern`. -/
def unwantedEndCharPattern : Re := re! "[^\\p{N}\\p{L}#]+$"
/-- phonenumberutil.go 273: `validAlphaPhonePattern`. -/
def validAlphaPhonePattern : Re := re! "^(?:.*?[A-Za-z]){3}.*$"

/-- phonenumberutil.go 295-298: `validPhoneNumber`. -/
def validPhoneNumberSrc : Str :=
  digitsClass ++ str!"{2}|[" ++ plusChars ++ str!"]*(?:[" ++ validPunctuation ++ str!"*]*" ++ digitsClass ++ str!"){3,}[" ++
  validPunctuation ++ str!"*" ++ validAlpha ++ digitsClass ++ str!"]*"

/-- phonenumberutil.go 314: `possibleSeparatorsBetweenNumberAndExtLabel`. -/
def possibleSeparators : Str := str!"[ \u00a0\\t,]*"
/-- phonenumberutil.go 316: `possibleCharsAfterExtLabel`. -/
def possibleCharsAfterExtLabel : Str := str!"[:\\.\uff0e]?[ \u00a0\\t,-]*"
/-- phonenumberutil.go 325-326: `explicitExtLabels`. -/
def explicitExtLabels : Str := str!"(?:e?xt(?:ensi(?:o\u0301?|\u00f3))?n?|" ++
  str!"\uff45?\uff58\uff54\uff4e?|\u0434\u043e\u0431|anexo)"
/-- phonenumberutil.go 329: `ambiguousExtLabels`. -/
def ambiguousExtLabels : Str := str!"(?:[x\uff58#\uff03~\uff5e]|int|\uff49\uff4e\uff54)"

/-- phonenumberutil.go 349-354: `extnPatternsForMatching`. -/
def extnPatternsForMatching : Str :=
  str!";ext=(" ++ digitsClass ++ str!"{1,20})|" ++
  possibleSeparators ++ explicitExtLabels ++ possibleCharsAfterExtLabel ++ str!"(" ++ digitsClass ++ str!"{1,20})#?|" ++
  possibleSeparators ++ ambiguousExtLabels ++ possibleCharsAfterExtLabel ++ str!"(" ++ digitsClass ++ str!"{1,9})#?|" ++
  str!"[- ]+(" ++ digitsClass ++ str!"{1,6})#"

/-- phonenumberutil.go 360-367: `extnPatternsForParsing`. -/
def extnPatternsForParsing : Str :=
  extnPatternsForMatching ++ str!"|" ++
  str!"[ \u00a0\\t]*(?:,{2}|;)" ++ possibleCharsAfterExtLabel ++ str!"(" ++ digitsClass ++ str!"{1,15})#?|" ++
  str!"[ \u00a0\\t]*(?:,)+" ++ possibleCharsAfterExtLabel ++ str!"(" ++ digitsClass ++ str!"{1,9})#?"

/-- phonenumberutil.go 371: source of `extnPattern`. -/
def extnPatternSrc : Str := str!"(?i)(?:" ++ extnPatternsForParsing ++ str!")$"
/-- phonenumberutil.go 371: `extnPattern`. -/
def extnPattern : Re := re_of% extnPatternSrc
/-- phonenumberutil.go 376-377: source of `validPhoneNumberPattern`. -/
def validPhoneNumberPatternSrc : Str :=
  str!"(?i)^(" ++ validPhoneNumberSrc ++ str!"(?:" ++ extnPatternsForParsing ++ str!")?)$"
/-- phonenumberutil.go 376-377: `validPhoneNumberPattern`. -/
def validPhoneNumberPattern : Re := re_of% validPhoneNumberPatternSrc

/-- phonenumberutil.go 379: `nonDigitsPattern`. -/
def nonDigitsPattern : Re := re! "(\\D+)"
/-- phonenumberutil.go 386: `firstGroupPattern`. -/
def firstGroupPattern : Re := re! "(\\$\\d)"
/-- phonenumberutil.go 387: `npPattern`. -/
def npPattern : Re := re! "\\$NP"
/-- phonenumberutil.go 388: `fgPattern`. -/
def fgPattern : Re := re! "\\$FG"
/-- phonenumberutil.go 389: `ccPattern`. -/
def ccPattern : Re := re! "\\$CC"
/-- phonenumberutil.go 395: `firstGroupOnlyPrefixPattern`. -/
def firstGroupOnlyPrefixPattern : Re := re! "^\\(?\\$1\\)?$"
/-- phonenumberutil.go 401-404: `rfc3966GlobalNumberDigitsPattern`. -/
def rfc3966GlobalNumberDigitsPattern : Re :=
  re! "^\\+(\\p{Nd}|[\\-\\.\\(\\)]?)*\\p{Nd}(\\p{Nd}|[\\-\\.\\(\\)]?)*$"
/-- phonenumberutil.go 408: `alphanum`. -/
def alphanumSrc : Str := validAlpha ++ digitsClass
/-- phonenumberutil.go 409-412: `rfc3966DomainnamePattern`. -/
def rfc3966DomainnamePattern : Re :=
  re_of% (str!"^([" ++ alphanumSrc ++ str!"]+((\\-)*[" ++ alphanumSrc ++ str!"])*\\.)*[" ++ validAlpha ++ str!"]+((\\-)*[" ++
    alphanumSrc ++ str!"])*\\.?$")

/-! ## Functions using them -/

/-- phonenumberutil.go 451-468: `extractPossibleNumber`. -/
def extractPossibleNumber (number : Str) : Str :=
  match validStartCharPattern.find number with
  | none => []
  | some x =>
    let number := number.drop x.start
    let number := match unwantedEndCharPattern.find number with
      | some y => number.take y.start
      | none => number
    match secondNumberStartPattern.find number with
    | some z => number.take z.start
    | none => number

/-- phonenumberutil.go 477-483: `isViablePhoneNumber`. -/
def isViable (number : Str) : Bool :=
  if blen number < minLengthForNSN then false else validPhoneNumberPattern.isMatch number

/-- phonenumberutil.go 504-509: `normalize`. -/
def normalize (number : Str) : Str :=
  if validAlphaPhonePattern.isMatch number then normalizeHelper alphaMap true number else normalizeDigitsOnly number

/-- phonenumberutil.go 2590-2610: `maybeStripExtension`; returns the extension and the remaining number.  The six capture groups
are examined in order. -/
def stripExtension (number : Str) : Str × Str :=
  match extnPattern.find number with
  | none => ([], number)
  | some x =>
    if isViable (number.take x.start) then
      match (List.range extnPattern.groups).findSome? (fun i =>
          let e := x.group number (i + 1)
          if e = [] then none else some e) with
      | some e => (e, number.take x.start)
      | none => ([], number)
    else ([], number)

/-- phonenumberutil.go 2089-2098: `IsAlphaNumber`. -/
def isAlphaNumber (number : Str) : Bool :=
  if !isViable number then false else validAlphaPhonePattern.isMatch (stripExtension number).2

end Verif
