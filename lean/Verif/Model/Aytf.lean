import Verif.Model.Parse
/-!
# The as-you-type formatter (asyoutypeformatter.go)

The mutable struct is a value that every method takes and returns.  `stringbuilder.Builder` fields are strings; they only ever
hold what `WriteRune` and `WriteByte` put there, i.e. valid runes, so cutting them at the offsets used here never splits a
rune.  Where the code counts or reads bytes (`Len`, `CharAt`) the model does too.
-/
namespace Verif

/-- asyoutypeformatter.go 27-76: `AsYouTypeFormatter`.  The two metadata pointers are values; a nil pointer is `nilMetadata`.
Lists share no storage, so `x[:0]` and in-place deletion are ordinary updates. -/
structure Aytf where
  currentOutput : Str
  /-- `formattingTemplate`, runes -/
  template : List Nat
  /-- `currentFormattingPattern` -/
  currentPattern : Str
  /-- `accruedInput` -/
  accrued : Str
  /-- `accruedInputWithoutFormatting` -/
  plain : Str
  /-- `ableToFormat` -/
  able : Bool
  /-- `inputHasFormatting` -/
  hasFmt : Bool
  /-- `isCompleteNumber` -/
  complete : Bool
  /-- `isExpectingCountryCallingCode` -/
  expecting : Bool
  defaultCountry : Str
  defaultMeta : Metadata
  currentMeta : Metadata
  /-- `lastMatchPosition` -/
  lastMatch : Nat
  /-- `originalPosition` -/
  originalPos : Nat
  /-- `positionToRemember` -/
  rememberPos : Nat
  /-- `prefixBeforeNationalNumber` -/
  pre : Str
  /-- `shouldAddSpaceAfterNationalPrefix` -/
  addSpace : Bool
  /-- `extractedNationalPrefix` -/
  ndd : Str
  /-- `nationalNumber` -/
  nn : Str
  /-- `possibleFormats` -/
  formats : List NumberFormat

/-- What the nil-safe getters of a nil `*PhoneMetadata` return. -/
def nilMetadata : Metadata := { id := [], countryCode := 0 }

/-- asyoutypeformatter.go 99-102: `emptyMetadata`. -/
def emptyMetadata : Metadata :=
  { id := str!"<ignored>", countryCode := 0, internationalPrefix := ⟨str!"NA", re! "NA"⟩ }

/-- asyoutypeformatter.go 87: `minLeadingDigitsLength`. -/
def minLeadingDigits : Nat := 3

/-- asyoutypeformatter.go 91-93: `digitPlaceholder` (U+2008). -/
def placeholder : Nat := 0x2008

/-- asyoutypeformatter.go 113-114: `eligibleFormatPattern`. -/
def eligibleFormatPattern : Re :=
  re_of% (str!"^(?:[" ++ validPunctuation ++ str!"]*\\$1[" ++ validPunctuation ++ str!"]*(?:\\$\\d[" ++ validPunctuation ++
    str!"]*)*)$")

/-- asyoutypeformatter.go 119: `nationalPrefixSeparatorsPattern`. -/
def nationalPrefixSeparators : Re := re! "[- ]"

/-- `utf8.AppendRune` and `string(r)`: an `int32` that is not a Unicode scalar value is written as U+FFFD. -/
def runeOf (c : Int) : Nat :=
  if 0 ≤ c ∧ (c < 0xD800 ∨ (0xDFFF < c ∧ c < 0x110000)) then c.toNat else 0xFFFD

/-- `unicode.IsDigit`. -/
def isUniDigit (c : Nat) : Bool := inRanges ndTable c

/-- The bytes of a Go string. -/
def bytesOf (s : Str) : List Nat := s.flatMap unitBytes

namespace Aytf

/-- asyoutypeformatter.go 145-153: `getMetadataForRegion` (the method). -/
def metaFor (C : Container) (r : Str) : Metadata :=
  (C.metaForRegion (C.mainRegion (C.ccForRegion r))).getD emptyMetadata

/-- asyoutypeformatter.go 123-140: `GetAsYouTypeFormatter`, `newAsYouTypeFormatter`. -/
def new (C : Container) (r : Str) : Aytf :=
  { currentOutput := [], template := [], currentPattern := [], accrued := [], plain := [], able := true, hasFmt := false,
    complete := false, expecting := false, defaultCountry := r, defaultMeta := metaFor C r, currentMeta := metaFor C r,
    lastMatch := 0, originalPos := 0, rememberPos := 0, pre := [], addSpace := false, ndd := [], nn := [], formats := [] }

/-- asyoutypeformatter.go 255-271: `getFormattingTemplate`. -/
def getTemplate (nn : Str) (f : NumberFormat) : List Nat :=
  let a := f.pattern.re.findString (List.replicate 15 57)
  if blen a < blen nn then []
  else (f.pattern.re.replaceAll a f.format).map fun u => if u = 57 then placeholder else u

/-- asyoutypeformatter.go 157-181: `maybeCreateNewTemplate`, with `createFormattingTemplate` (242-251); walks the
possible formats from the front, dropping those without a template. -/
def createLoop (a : Aytf) : List NumberFormat → Aytf × Bool
  | [] => ({ a with formats := [], able := false }, false)
  | f :: fs =>
    if a.currentPattern = f.pattern.src then ({ a with formats := f :: fs }, false)
    else
      let t := getTemplate a.nn f
      if t ≠ [] then
        ({ a with template := t, currentPattern := f.pattern.src, addSpace := nationalPrefixSeparators.isMatch f.npRule,
                  lastMatch := 0, formats := f :: fs }, true)
      else createLoop { a with template := [] } fs

/-- asyoutypeformatter.go 157-181: `maybeCreateNewTemplate`. -/
def createTemplate (a : Aytf) : Aytf × Bool := createLoop a a.formats

/-- asyoutypeformatter.go 222-236: the test of one format in `narrowDownPossibleFormats`; the index into the leading digits
patterns is negative, a panic, for fewer than three digits. -/
def keepFormat (digits : Str) (f : NumberFormat) : Go Bool :=
  match f.leadingDigits with
  | [] => .ok true
  | ld :: lds =>
    if blen digits < minLeadingDigits then .error .index
    else match (ld :: lds)[min (blen digits - minLeadingDigits) lds.length]? with
      | some p => .ok (p.re.atStart.isMatch digits)
      | none => .error .index

/-- asyoutypeformatter.go 219-240: `narrowDownPossibleFormats`. -/
def narrow (digits : Str) : List NumberFormat → Go (List NumberFormat)
  | [] => .ok []
  | f :: fs => do
    let k ← keepFormat digits f
    let r ← narrow digits fs
    return if k then f :: r else r

/-- asyoutypeformatter.go 192-215: is this format taken over by `getAvailableFormats`? -/
def available (a : Aytf) (f : NumberFormat) : Bool :=
  if a.ndd ≠ [] ∧ ruleHasFirstGroupOnly f.npRule ∧ !f.npOptional ∧ f.ccRule = [] then false
  else if a.ndd = [] ∧ !a.complete ∧ !ruleHasFirstGroupOnly f.npRule ∧ !f.npOptional then false
  else eligibleFormatPattern.isMatch f.format

/-- asyoutypeformatter.go 183-217: `getAvailableFormats`. -/
def getAvailable (a : Aytf) (digits : Str) : Go Aytf := do
  let list := if a.complete ∧ a.ndd = [] ∧ a.currentMeta.intlFormats ≠ [] then a.currentMeta.intlFormats
    else a.currentMeta.formats
  let fs ← narrow digits (a.formats ++ list.filter a.available)
  return { a with formats := fs }

/-- asyoutypeformatter.go 274-295: `Clear`.  The pointers are compared in Go; equal pointers are equal values. -/
def clear (C : Container) (a : Aytf) : Aytf :=
  { a with
    currentOutput := [], accrued := [], plain := [], template := [], lastMatch := 0, currentPattern := [], pre := [],
    ndd := [], nn := [], able := true, hasFmt := false, rememberPos := 0, originalPos := 0, complete := false,
    expecting := false, formats := [], addSpace := false,
    currentMeta := if a.currentMeta ≠ a.defaultMeta then metaFor C a.defaultCountry else a.currentMeta }

/-- asyoutypeformatter.go 427-431: `isDigitOrLeadingPlusSign` (after the character was appended to `accruedInput`). -/
def isDigitOrLeadingPlus (a : Aytf) (c : Nat) : Bool :=
  isUniDigit c || (a.accrued.length = 1 && plusCharsPattern.isMatch [c])

/-- asyoutypeformatter.go 635-653: `normalizeAndAccrueDigitsAndPlusSign`. -/
def accrue (a : Aytf) (c : Nat) (remember : Bool) : Aytf × Nat :=
  let (a, v) :=
    if c = 43 then ({ a with plain := a.plain ++ [c] }, c)
    else
      let v := (charDigit c).getD c
      ({ a with plain := a.plain ++ [v], nn := a.nn ++ [v] }, v)
  (if remember then { a with rememberPos := a.plain.length } else a, v)

/-- asyoutypeformatter.go 655-680: `inputDigitHelper`. -/
def digitHelper (a : Aytf) (c : Nat) : Aytf × Str :=
  match (a.template.drop a.lastMatch).findIdx? (· = placeholder) with
  | some k =>
    let i := a.lastMatch + k
    let t := a.template.set i c
    ({ a with template := t, lastMatch := i }, t.take (i + 1))
  | none =>
    ({ a with able := if a.formats.length = 1 then false else a.able, currentPattern := [] }, a.accrued)

/-- asyoutypeformatter.go 485-495: `appendNationalNumber`. -/
def append (a : Aytf) (s : Str) : Str :=
  if a.addSpace ∧ a.pre ≠ [] ∧ a.pre.getLast? ≠ some 32 then a.pre ++ 32 :: s else a.pre ++ s

/-- asyoutypeformatter.go 437-456: the loop of `attemptToFormatAccruedDigits`. -/
def formatAccruedLoop (a : Aytf) : List NumberFormat → Aytf × Str
  | [] => (a, [])
  | f :: fs =>
    if f.pattern.re.full.isMatch a.nn then
      let a' := { a with addSpace := nationalPrefixSeparators.isMatch f.npRule }
      let out := a'.append (f.pattern.re.full.replaceAll a'.nn f.format)
      if normalizeDiallable out = a'.plain then (a', out) else formatAccruedLoop a' fs
    else formatAccruedLoop a fs

/-- asyoutypeformatter.go 436-458: `attemptToFormatAccruedDigits`. -/
def formatAccrued (a : Aytf) : Aytf × Str := formatAccruedLoop a a.formats

/-- asyoutypeformatter.go 523-526: the loop of `inputAccruedNationalNumber`; `rune(CharAt(i))` is one byte of the number. -/
def inputBytes (a : Aytf) : List Nat → Str → Aytf × Str
  | [], out => (a, out)
  | b :: bs, _ => let r := digitHelper a b; inputBytes r.1 bs r.2

/-- asyoutypeformatter.go 520-533: `inputAccruedNationalNumber`. -/
def inputAccrued (a : Aytf) : Aytf × Str :=
  if a.nn = [] then (a, a.pre)
  else
    let r := inputBytes a (bytesOf a.nn) []
    (r.1, if r.1.able then r.1.append r.2 else r.1.accrued)

/-- asyoutypeformatter.go 500-516: `attemptToChooseFormattingPattern`. -/
def choosePattern (a : Aytf) : Go (Aytf × Str) :=
  if blen a.nn ≥ minLeadingDigits then do
    let a ← a.getAvailable a.nn
    let r := a.formatAccrued
    if r.2 ≠ [] then return r
    let t := r.1.createTemplate
    if t.2 then return t.1.inputAccrued
    return (t.1, t.1.accrued)
  else .ok (a, a.append a.nn)

/-- asyoutypeformatter.go 395-403: `attemptToChoosePatternWithPrefixExtracted`. -/
def choosePatternWithPrefix (a : Aytf) : Go (Aytf × Str) :=
  choosePattern { a with able := true, expecting := false, formats := [], lastMatch := 0, template := [], currentPattern := [] }

/-- asyoutypeformatter.go 537-545: `isNanpaNumberWithNationalPrefix`. -/
def isNanpaWithPrefix (a : Aytf) : Bool :=
  match bytesOf a.nn with
  | b0 :: b1 :: _ => a.currentMeta.countryCode = 1 && b0 = 49 && b1 ≠ 48 && b1 ≠ 49
  | _ => false

/-- asyoutypeformatter.go 549-573: `removeNationalPrefixFromNationalNumber`; the second component is the prefix. -/
def removeNationalPrefix (a : Aytf) : Aytf × Str :=
  if a.isNanpaWithPrefix then
    ({ a with pre := a.pre ++ [49, 32], complete := true, nn := a.nn.drop 1 }, a.nn.take 1)
  else if a.currentMeta.npParsing.src ≠ [] then
    match a.currentMeta.npParsing.re.atStart.find a.nn with
    | some x =>
      if x.stop > 0 then
        ({ a with complete := true, pre := a.pre ++ a.nn.take x.stop, nn := a.nn.drop x.stop }, a.nn.take x.stop)
      else (a, [])
    | none => (a, [])
  else (a, [])

/-- Index of the last occurrence of `p` in `s` (`bytes.LastIndex`; `none` for -1). -/
def lastIndexOf (s p : Str) : Option Nat :=
  match s with
  | [] => if p = [] then some 0 else none
  | u :: t =>
    match lastIndexOf t p with
    | some i => some (i + 1)
    | none => if p.isPrefixOf (u :: t) then some 0 else none

/-- asyoutypeformatter.go 413-425: `ableToExtractLongerNdd`; `SetLength(-1)` panics. -/
def longerNdd (a : Aytf) : Go (Aytf × Bool) := do
  let a ← (if a.ndd ≠ [] then
      match lastIndexOf a.pre a.ndd with
      | some i => .ok { a with nn := a.ndd ++ a.nn, pre := a.pre.take i }
      | none => .error .index
    else .ok a : Go Aytf)
  let r := a.removeNationalPrefix
  return (r.1, decide (a.ndd ≠ r.2))

/-- asyoutypeformatter.go 579-597: `attemptToExtractIdd`. -/
def extractIdd (a : Aytf) : Go (Aytf × Bool) :=
  match (Re.atStart (.alt (re! "\\+") a.currentMeta.internationalPrefix.re)).find a.plain with
  | none => .ok (a, false)
  | some x =>
    match a.plain with
    | [] => .error .index
    | u :: _ =>
      .ok ({ a with complete := true, nn := a.plain.drop x.stop,
                    pre := a.plain.take x.stop ++ (if u ≠ 43 then [32] else []) }, true)

/-- asyoutypeformatter.go 603-627: `attemptToExtractCountryCallingCode`. -/
def extractCallingCode (C : Container) (a : Aytf) : Aytf × Bool :=
  if a.nn = [] then (a, false)
  else
    let r := extractCC C a.nn
    if r.1 = 0 then (a, false)
    else
      let region := C.mainRegion r.1
      ({ a with
          nn := r.2
          currentMeta :=
            if region = nonGeoRegion then (C.metaForNonGeo r.1).getD nilMetadata
            else if region ≠ a.defaultCountry then metaFor C region else a.currentMeta
          pre := a.pre ++ decInt r.1 ++ [32]
          ndd := [] }, true)

/-- asyoutypeformatter.go 332-351: the part of `inputDigitWithOptionToRememberPosition` taken when formatting is off. -/
def unableStep (C : Container) (a : Aytf) : Go (Aytf × Str) :=
  if a.hasFmt then .ok (a, a.accrued)
  else do
    let r ← a.extractIdd
    if r.2 then
      let q := r.1.extractCallingCode C
      if q.2 then q.1.choosePatternWithPrefix else return (q.1, q.1.accrued)
    else
      let q ← r.1.longerNdd
      if q.2 then choosePatternWithPrefix { q.1 with pre := q.1.pre ++ [32] } else return (q.1, q.1.accrued)

/-- asyoutypeformatter.go 366-392: the `default` case of the switch in `inputDigitWithOptionToRememberPosition`. -/
def laterStep (C : Container) (a : Aytf) (c : Nat) : Go (Aytf × Str) :=
  if a.expecting then
    let q := a.extractCallingCode C
    let a := if q.2 then { q.1 with expecting := false } else q.1
    .ok (a, a.pre ++ a.nn)
  else if a.formats ≠ [] then do
    let h := a.digitHelper c
    let r := h.1.formatAccrued
    if r.2 ≠ [] then return r
    let fs ← narrow r.1.nn r.1.formats
    let t := { r.1 with formats := fs }.createTemplate
    if t.2 then return t.1.inputAccrued
    return (t.1, if t.1.able then t.1.append h.2 else t.1.accrued)
  else a.choosePattern

/-- asyoutypeformatter.go 353-392: the part of `inputDigitWithOptionToRememberPosition` taken when formatting is on. -/
def ableStep (C : Container) (a : Aytf) (c : Nat) : Go (Aytf × Str) :=
  if blen a.plain < 3 then .ok (a, a.accrued)
  else if blen a.plain = 3 then do
    let r ← a.extractIdd
    if r.2 then laterStep C { r.1 with expecting := true } c
    else
      let q := r.1.removeNationalPrefix
      choosePattern { q.1 with ndd := q.2 }
  else laterStep C a c

/-- asyoutypeformatter.go 319-393: `inputDigitWithOptionToRememberPosition`. -/
def inputCore (C : Container) (a : Aytf) (c : Nat) (remember : Bool) : Go (Aytf × Str) :=
  let a := { a with accrued := a.accrued ++ [c] }
  let a := if remember then { a with originalPos := a.accrued.length } else a
  if !a.isDigitOrLeadingPlus c then unableStep C { a with able := false, hasFmt := true }
  else
    let r := a.accrue c remember
    if !r.1.able then unableStep C r.1 else ableStep C r.1 r.2

/-- asyoutypeformatter.go 304-307: `InputDigit`, and 314-317: `InputDigitAndRememberPosition` for `remember = true`.  The argument
is an `int32`; one that is not a Unicode scalar value is seen as U+FFFD by everything the code does with it
(it is neither a digit nor a plus sign either way). -/
def input (C : Container) (a : Aytf) (c : Int) (remember : Bool) : Go (Aytf × Str) := do
  let r ← inputCore C a (runeOf c) remember
  return ({ r.1 with currentOutput := r.2 }, r.2)

/-- asyoutypeformatter.go 473-478: the loop of `GetRememberedPosition`, on the runes not passed yet. -/
def positionLoop : Nat → List Nat → List Nat → Nat → Go Nat
  | 0, _, _, j => .ok j
  | _ + 1, _, [], j => .ok j
  | _ + 1, [], _ :: _, _ => .error .index
  | k + 1, u :: us, v :: vs, j => if u = v then positionLoop k us vs (j + 1) else positionLoop (k + 1) (u :: us) vs (j + 1)

/-- asyoutypeformatter.go 463-480: `GetRememberedPosition`. -/
def position (a : Aytf) : Go Nat :=
  if !a.able then .ok a.originalPos else positionLoop a.rememberPos a.plain a.currentOutput 0

end Aytf
end Verif
