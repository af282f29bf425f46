import Verif.Model.Parse
import Verif.Model.Aytf
/-!
# Finding numbers in text (phonenumbermatcher.go, phonenumbermatch.go, alternateformats.go, enums.go)

Positions inside the searched text are counted in units (see `Verif/Str.lean`) where the code counts bytes; the byte
offsets a caller sees are `FoundNumber.start` and `FoundNumber.stop`.  All slices the code takes are at unit boundaries: they come from
regular expression matches and searches for ASCII text.  The one exception (`normalizedCandidate[fromIndex:]` after a failed search)
is modelled on bytes.
-/
namespace Verif

/-! ## Patterns -/

/-- phonenumbermatcher.go 26: `pubPages`. -/
def pubPages : Re := re! "\\d{1,5}-+\\d{1,5}\\s{0,4}\\(\\d{1,4}"
/-- phonenumbermatcher.go 30: `slashSeparatedDates`. -/
def slashSeparatedDates : Re := re! "(?:(?:[0-3]?\\d/[01]?\\d)|(?:[01]?\\d/[0-3]?\\d))/(?:[12]\\d)?\\d{2}"
/-- phonenumbermatcher.go 34: `timeStamps`. -/
def timeStamps : Re := re! "[12]\\d{3}[-/]?[01]\\d[-/]?[0-3]\\d +[0-2]\\d$"
/-- phonenumbermatcher.go 35: `timeStampsSuffix`. -/
def timeStampsSuffix : Re := re! ":[0-5]\\d"
/-- phonenumbermatcher.go 52-67: `innerMatches`. -/
def innerMatches : List Re :=
  [re! "/+(.*)",
   re! "(\\([^(]*)",
   re! "(?:\\p{Z}-|-\\p{Z})\\p{Z}*(.+)",
   re! "[\u2012-\u2015\uff0d]\\p{Z}*(.+)",
   re! "\\.+\\p{Z}*([^.]+)",
   re! "\\p{Z}+(\\P{Z}+)"]

/-- phonenumbermatcher.go 73: `openingParens`. -/
def openingParens : Str := str!"(\\[\uff08\uff3b"
/-- phonenumbermatcher.go 74: `closingParens`. -/
def closingParens : Str := str!")\\]\uff09\uff3d"
/-- phonenumbermatcher.go 75: `nonParens`. -/
def nonParens : Str := str!"[^" ++ openingParens ++ closingParens ++ str!"]"
/-- phonenumbermatcher.go 82-86: `matchingBrackets`. -/
def matchingBrackets : Re :=
  re_of% (str!"^(?:[" ++ openingParens ++ str!"])?(?:" ++ nonParens ++ str!"+[" ++ closingParens ++ str!"])?" ++
    nonParens ++ str!"+(?:[" ++ openingParens ++ str!"]" ++ nonParens ++ str!"+[" ++ closingParens ++ str!"]){0,3}" ++
    nonParens ++ str!"*$")

/-- phonenumbermatcher.go 104-105: `leadClass`. -/
def leadClass : Str := str!"[" ++ openingParens ++ plusChars ++ str!"]"
/-- phonenumbermatcher.go 106: `leadClassPattern`. -/
def leadClassPattern : Re := re_of% (str!"^(?:" ++ leadClass ++ str!")")
/-- phonenumbermatcher.go 100: `punctuation` (with the limit of line 91). -/
def matcherPunctuation : Str := str!"[" ++ validPunctuation ++ str!"]{0,4}"
/-- phonenumbermatcher.go 102: `digitSequence`; the limit is `maxLengthForNSN + maxLengthCountryCode` = 20 (line 95). -/
def matcherDigits : Str := digitsClass ++ str!"{1,20}"
/-- phonenumbermatcher.go 112-115: source of `phoneNumberMatcherPattern`. -/
def matcherPatternSrc : Str :=
  str!"(?i)(?:" ++ leadClass ++ matcherPunctuation ++ str!"){0,2}" ++ matcherDigits ++ str!"(?:" ++ matcherPunctuation ++ matcherDigits ++
    str!"){0,20}(?:" ++ extnPatternsForMatching ++ str!")?"
/-- phonenumbermatcher.go 112-115: `phoneNumberMatcherPattern`. -/
def matcherPattern : Re := re_of% matcherPatternSrc

/-! ## Helpers -/

/-- enums.go 91-115: `Leniency`. (An `int` in Go; the model covers its four declared values.) -/
inductive Leniency where
  | possible | valid | strictGrouping | exactGrouping
  deriving DecidableEq, Repr

/-- alternateformats.go 28-48: `loadAlternateFormatsMetadata` and `getAlternateFormatsForCountryCallingCode`: the last entry of the
collection with the code. -/
def alternateFormats (alt : List Metadata) (cc : Int) : Option Metadata := alt.reverse.find? fun m => m.countryCode = cc

/-- phonenumbermatcher.go 188-193: `trimAfterFirstMatch`. -/
def trimAfterFirstMatch (r : Re) (candidate : Str) : Str :=
  match r.find candidate with
  | some x => candidate.take x.start
  | none => candidate

/-- phonenumbermatcher.go 198-207: `isLatinLetter`. -/
def isLatinLetter (c : Nat) : Bool :=
  if !inRanges lTable c && !inRanges mnTable c then false
  else inRanges latinTable c || (0x0300 ≤ c && c ≤ 0x036F)

/-- phonenumbermatcher.go 209-212: `isInvalidPunctuationSymbol`. -/
def isInvalidPunctuation (c : Nat) : Bool := c == 37 || inRanges scTable c

/-- Go's `strings.Split(s, "-")`. -/
def splitHyphens : Str → List Str
  | [] => [[]]
  | u :: s => if u = 45 then [] :: splitHyphens s else
    match splitHyphens s with
    | [] => [[u]]
    | g :: gs => (u :: g) :: gs

/-- phonenumbermatcher.go 315-326: `getNationalNumberGroups`. -/
def nationalGroups (C : Container) (n : PhoneNumber) : Go (List Str) := do
  let f := format C n .rfc3966
  let stop := (indexOf f [59]).getD f.length
  let start := ((indexOf f [45]).map (· + 1)).getD 0
  return splitHyphens (← goSlice f start stop)

/-- phonenumbermatcher.go 330-333: `getNationalNumberGroupsWithPattern`. -/
def nationalGroupsWith (n : PhoneNumber) (f : NumberFormat) : List Str :=
  splitHyphens (formatNsnUsingPattern (nsnOf n) f .rfc3966 [])

/-- phonenumbermatcher.go 352-365: the loop over the alternate formats in `checkNumberGroupingIsValid`. -/
def alternateGroupings (n : PhoneNumber) (checker : List Str → Go Bool) : List NumberFormat → Go Bool
  | [] => .ok false
  | f :: fs =>
    if f.leadingDigits.head?.all fun ld => ld.re.matchesAtStart (nsnOf n) then do
      if ← checker (nationalGroupsWith n f) then return true
      alternateGroupings n checker fs
    else alternateGroupings n checker fs

/-- phonenumbermatcher.go 338-368: `checkNumberGroupingIsValid`. -/
def checkGrouping (C : Container) (alt : List Metadata) (n : PhoneNumber) (candidate : Str)
    (checker : PhoneNumber → Str → List Str → Go Bool) : Go Bool := do
  let norm := normalizeDigits true candidate
  if ← checker n norm (← nationalGroups C n) then return true
  match alternateFormats alt n.cc with
  | none => return false
  | some m => alternateGroupings n (checker n norm) m.formats

/-- The slice expression `s[k:]` on bytes. -/
def dropBytes : Nat → Str → Go Str
  | 0, s => .ok s
  | k + 1, s => do dropBytes k (← dropByte s)

/-- phonenumbermatcher.go 386-412: the loop of `allNumberGroupsRemainGrouped`; `rest` is `normalizedCandidate[fromIndex:]` and `first`
tells whether `i == 0`. -/
def groupedLoop (C : Container) (n : PhoneNumber) : Bool → List Str → Str → Bool
  | _, [], rest => contains rest n.ext
  | first, g :: gs, rest =>
    match indexOf rest g with
    | none => false
    | some i =>
      let after := rest.drop (i + g.length)
      if first ∧ C.nddPrefix (C.mainRegion n.cc) true ≠ [] ∧ after.head?.any (fun u => isUniDigit (rune u)) = true then
        hasPrefix (rest.drop i) (nsnOf n)
      else groupedLoop C n false gs after

/-- phonenumbermatcher.go 373-416: `allNumberGroupsRemainGrouped`. -/
def groupsRemainGrouped (C : Container) (n : PhoneNumber) (norm : Str) (groups : List Str) : Go Bool := do
  let rest ← if n.src ≠ .defaultCountry then
      match indexOf norm (decInt n.cc) with
      | some i => .ok (norm.drop (i + (decInt n.cc).length))
      | none => dropBytes ((decInt n.cc).length - 1) norm
    else .ok norm
  return groupedLoop C n true groups rest

/-- phonenumbermatcher.go 458-468: `splitNonDigits`. -/
def splitNonDigits (s : Str) : List Str :=
  match ((nonDigitsPattern.split s).reverse.dropWhile (· = [])).reverse with
  | [] => [[]]
  | gs => gs

/-- phonenumbermatcher.go 443-452: the loop of `allNumberGroupsAreExactlyPresent` and the check of the first group; both lists are
given from the end, the formatted groups without the first one. -/
def exactLoop (first : Str) : List Str → List Str → Bool
  | [], _ => false
  | c :: _, [] => hasSuffix c first
  | c :: cs, g :: gs => if c ≠ g then false else exactLoop first cs gs

/-- phonenumbermatcher.go 421-453: `allNumberGroupsAreExactlyPresent`.  Indexing the candidate groups with -1 panics. -/
def groupsExactlyPresent (n : PhoneNumber) (norm : Str) (groups : List Str) : Go Bool :=
  let cands := splitNonDigits norm
  let rev := if n.ext ≠ [] then cands.reverse.tail else cands.reverse
  if cands.length = 1 then .ok true
  else match rev with
    | [] => .error .index
    | c :: _ =>
      if contains c (nsnOf n) then .ok true
      else match groups with
        | [] => .error .index
        | g :: gs => .ok (exactLoop g rev gs.reverse)

/-- phonenumbermatcher.go 472-495: `containsMoreThanOneSlashInNationalNumber`. -/
def moreThanOneSlash (n : PhoneNumber) (candidate : Str) : Bool :=
  match indexOf candidate [47] with
  | none => false
  | some i =>
    match indexOf (candidate.drop (i + 1)) [47] with
    | none => false
    | some j =>
      if (n.src = .withPlusSign ∨ n.src = .withoutPlusSign) ∧ normalizeDigitsOnly (candidate.take i) = decInt n.cc then
        contains (candidate.drop (i + 1 + j + 1)) [47]
      else true

/-- `x` or `X`. -/
def isX (u : Nat) : Bool := u == 120 || u == 88

/-- phonenumbermatcher.go 499-525: `containsOnlyValidXChars`, on `candidate[index:]`. -/
def onlyValidX (C : Container) (n : PhoneNumber) : Str → Go Bool
  | u :: v :: t =>
    if isX u then
      if isX v then do
        if (← numberMatchOne C n (v :: t)) ≠ .nsnMatch then return false
        onlyValidX C n t
      else if normalizeDigitsOnly (u :: v :: t) ≠ n.ext then .ok false
      else onlyValidX C n (v :: t)
    else onlyValidX C n (v :: t)
  | _ => .ok true

/-- phonenumbermatcher.go 529-563: `isNationalPrefixPresentIfRequired`. -/
def nationalPrefixPresent (C : Container) (n : PhoneNumber) : Bool :=
  if n.src ≠ .defaultCountry then true
  else match C.metaForRegion (C.mainRegion n.cc) with
    | none => true
    | some m =>
      match chooseFormat m.formats (nsnOf n) with
      | none => true
      | some f =>
        if f.npRule ≠ [] then
          if f.npOptional then true
          else if ruleHasFirstGroupOnly f.npRule then true
          else (stripNationalPrefix (normalizeDigitsOnly n.raw) m).1
        else true

/-- enums.go 117-158: the checks that `STRICT_GROUPING` and `EXACT_GROUPING` share. -/
def verifyCommon (C : Container) (n : PhoneNumber) (candidate : Str) : Go Bool := do
  if !(← isValidNumber C n) then return false
  if !(← onlyValidX C n candidate) then return false
  if moreThanOneSlash n candidate then return false
  return nationalPrefixPresent C n

/-- enums.go 117-158: `Leniency.Verify`. -/
def Leniency.verify (l : Leniency) (C : Container) (alt : List Metadata) (n : PhoneNumber) (candidate : Str) : Go Bool :=
  match l with
  | .possible => isPossibleNumber C n
  | .valid => do
    if !(← isValidNumber C n) then return false
    if !(← onlyValidX C n candidate) then return false
    return nationalPrefixPresent C n
  | .strictGrouping => do
    if !(← verifyCommon C n candidate) then return false
    checkGrouping C alt n candidate (groupsRemainGrouped C)
  | .exactGrouping => do
    if !(← verifyCommon C n candidate) then return false
    checkGrouping C alt n candidate groupsExactlyPresent

/-! ## The search -/

/-- phonenumbermatch.go 14-18: `PhoneNumberMatch`; `at_` is the position in units. -/
structure FoundNumber where
  at_ : Nat
  raw : Str
  number : PhoneNumber
  deriving DecidableEq, Repr

/-- phonenumbermatch.go 30: `Start`, in bytes of the searched text. -/
def FoundNumber.start (text : Str) (m : FoundNumber) : Nat := blen (text.take m.at_)

/-- phonenumbermatch.go 33: `End`, in bytes of the searched text. -/
def FoundNumber.stop (text : Str) (m : FoundNumber) : Nat := m.start text + blen m.raw

/-- The fields of `phoneNumberMatcher` that do not change (phonenumbermatcher.go 130-137), and the data the search uses. -/
structure Finder where
  C : Container
  alt : List Metadata
  text : Str
  region : Str
  leniency : Leniency

/-- The counter `maxTries` of the search, which goes below zero (phonenumbermatcher.go 139).  `rejected` and `passed` are ghosts: they
count the pieces of text given to `parseAndVerify` in vain and the candidates `find` gave up; nothing depends on them. -/
structure Tries where
  left : Int
  rejected : Nat := 0
  passed : Nat := 0
  deriving DecidableEq, Repr

/-- `m.maxTries--` after a rejected piece of text. -/
def Tries.reject (t : Tries) : Tries := { t with left := t.left - 1, rejected := t.rejected + 1 }

namespace Finder

/-- phonenumbermatcher.go 277-293: may the candidate have these neighbours? -/
def neighboursOk (F : Finder) (candidate : Str) (offset : Nat) : Bool :=
  let bad := fun (u : Nat) => isInvalidPunctuation (rune u) || isLatinLetter (rune u)
  if offset > 0 ∧ (leadClassPattern.find candidate).isNone ∧ (F.text.take offset).getLast?.any bad then false
  else !(F.text.drop (offset + candidate.length)).head?.any bad

/-- phonenumbermatcher.go 268-310: `parseAndVerify`. -/
def parseAndVerify (F : Finder) (candidate : Str) (offset : Nat) : Go (Option FoundNumber) :=
  if !matchingBrackets.isMatch candidate || pubPages.isMatch candidate then .ok none
  else if F.leniency ≠ .possible ∧ !F.neighboursOk candidate offset then .ok none
  else do
    match ← parseKeepRawToNumber F.C candidate F.region {} with
    | (some _, _) => return none
    | (none, n) =>
      if ← F.leniency.verify F.C F.alt n candidate then
        return some ⟨offset, candidate, { n with countryCodeSource := none, rawInput := none, preferredCarrier := none }⟩
      return none

/-- phonenumbermatcher.go 247-254: "Handle any group before this one too". -/
def firstPiece (F : Finder) (candidate : Str) (offset start : Nat) (first : Bool) : Go (Option FoundNumber) :=
  if first then F.parseAndVerify (trimAfterFirstMatch unwantedEndCharPattern (candidate.take start)) offset else .ok none

/-- phonenumbermatcher.go 242-262: the loop over the matches of one inner pattern in `extractInnerMatch`; `first` is
`isFirstMatch`. -/
def innerLoop (F : Finder) (candidate : Str) (offset : Nat) : Bool → List Match → Tries → Go (Option FoundNumber × Tries)
  | _, [], t => .ok (none, t)
  | first, g :: gs, t =>
    if t.left ≤ 0 then .ok (none, t)
    else do
      match ← F.firstPiece candidate offset g.start first with
      | some m => return (some m, t)
      | none =>
        let t := if first then t.reject else t
        match g.span 1 with
        | none => .error .index
        | some (a, b) =>
          match ← F.parseAndVerify (trimAfterFirstMatch unwantedEndCharPattern (slice candidate a b)) (offset + a) with
          | some m => return (some m, t)
          | none => F.innerLoop candidate offset false gs t.reject

/-- phonenumbermatcher.go 240-264: `extractInnerMatch`, over the patterns not tried yet. -/
def extractInner (F : Finder) (candidate : Str) (offset : Nat) : List Re → Tries → Go (Option FoundNumber × Tries)
  | [], t => .ok (none, t)
  | r :: rs, t => do
    match ← F.innerLoop candidate offset true (r.findAll candidate) t with
    | (some m, t) => return (some m, t)
    | (none, t) => F.extractInner candidate offset rs t

/-- phonenumbermatcher.go 216-227: candidates that look like a date or a time stamp. -/
def looksLikeDate (F : Finder) (candidate : Str) (offset : Nat) : Bool :=
  slashSeparatedDates.isMatch candidate ||
    (timeStamps.isMatch candidate && timeStampsSuffix.matchesAtStart (F.text.drop (offset + candidate.length)))

/-- phonenumbermatcher.go 215-236: `extractMatch`. -/
def extractMatch (F : Finder) (candidate : Str) (offset : Nat) (t : Tries) : Go (Option FoundNumber × Tries) :=
  if F.looksLikeDate candidate offset then .ok (none, t)
  else do
    match ← F.parseAndVerify candidate offset with
    | some m => return (some m, t)
    | none => F.extractInner candidate offset innerMatches { t with rejected := t.rejected + 1 }

/-- phonenumbermatcher.go 165-183: the loop of `find`.  The fuel is only there to make the definition structurally recursive;
`Verif/Props/C43.lean` shows that the search ends before it runs out. -/
def findLoop (F : Finder) : Nat → Nat → Tries → Go (Option FoundNumber × Tries)
  | 0, _, t => .ok (none, t)
  | fuel + 1, index, t =>
    if t.left ≤ 0 then .ok (none, t)
    else match matcherPattern.find (F.text.drop index) with
      | none => .ok (none, t)
      | some x => do
        let candidate := trimAfterFirstMatch secondNumberStartPattern (slice (F.text.drop index) x.start x.stop)
        match ← F.extractMatch candidate (index + x.start) t with
        | (some m, t) => return (some m, t)
        | (none, t) =>
          F.findLoop fuel (index + x.start + candidate.length) { t with left := t.left - 1, passed := t.passed + 1 }

/-- phonenumbermatcher.go 164-184: `find`. -/
def find (F : Finder) (index : Nat) (t : Tries) : Go (Option FoundNumber × Tries) := F.findLoop (F.text.length + 1) index t

end Finder

/-- phonenumbermatcher.go 119-125: `matcherState` together with `lastMatch`, which is set exactly in the state `matcherReady`. -/
inductive FinderState where
  | notReady
  | ready (m : FoundNumber)
  | done
  deriving DecidableEq, Repr

/-- The mutable fields of `phoneNumberMatcher` (phonenumbermatcher.go 138-144). -/
structure Cursor where
  state : FinderState
  searchIndex : Nat
  tries : Tries
  deriving DecidableEq, Repr

namespace Finder

/-- phonenumbermatcher.go 149-160: `newPhoneNumberMatcher`. -/
def new (maxTries : Int) : Cursor := ⟨.notReady, 0, ⟨if maxTries < 0 then 0 else maxTries, 0, 0⟩⟩

/-- phonenumbermatcher.go 566-577: `hasNext`. -/
def hasNext (F : Finder) (c : Cursor) : Go (Bool × Cursor) :=
  match c.state with
  | .ready _ => .ok (true, c)
  | .done => .ok (false, c)
  | .notReady => do
    match ← F.find c.searchIndex c.tries with
    | (none, t) => return (false, { c with state := .done, tries := t })
    | (some m, t) => return (true, ⟨.ready m, m.at_ + m.raw.length, t⟩)

/-- phonenumbermatcher.go 581-589: `next`. -/
def next (F : Finder) (c : Cursor) : Go (Option FoundNumber × Cursor) := do
  match ← F.hasNext c with
  | (false, c) => return (none, c)
  | (true, c) =>
    match c.state with
    | .ready m => return (some m, { c with state := .notReady })
    | _ => return (none, c)

/-- phonenumberutil.go 2683-2692: the loop of the iterator of `FindNumbersWithLeniency`, run to its end, and the matcher at that
point.  A consumer that stops early has seen a prefix of this list. The fuel is dealt with in `Verif/Props/C43.lean`. -/
def iterate (F : Finder) : Nat → Cursor → Go (List FoundNumber × Cursor)
  | 0, c => .ok ([], c)
  | fuel + 1, c => do
    match ← F.hasNext c with
    | (false, c) => return ([], c)
    | (true, c) =>
      match ← F.next c with
      | (none, c) => return ([], c)
      | (some m, c) =>
        let r ← F.iterate fuel c
        return (m :: r.1, r.2)

/-- phonenumberutil.go 2683-2692: `FindNumbersWithLeniency`. -/
def findNumbers (F : Finder) (maxTries : Int) : Go (List FoundNumber × Cursor) := F.iterate (F.text.length + 1) (new maxTries)

end Finder
end Verif
