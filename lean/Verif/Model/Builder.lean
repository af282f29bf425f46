import Verif.Model.Mapper
/-!
# The metadata builder (internal/metadatabuilder/metadatabuilder.go)

The model starts from the unmarshalled XML elements.  Decoding of XML is not modelled.  `compile` is `regexp.Compile`.  A Go map
used as a set of lengths is a list without repetition.  A `range` loop over a map visits the keys in an order chosen by an `Order`:
an arbitrary function that gets the position of the loop in the execution and returns some permutation of the keys (`Order.Fair`).
-/
namespace Verif
namespace Builder

/-! ## XML elements -/

/-- internal/metadatabuilder/metadatabuilder.go 741-747: `PossibleLengthE`. -/
structure PossibleLengthE where
  national : Str := []
  localOnly : Str := []

/-- internal/metadatabuilder/metadatabuilder.go 749-758: `PhoneNumberDescE`. -/
structure DescE where
  pattern : Str := []
  lengths : Option PossibleLengthE := none
  ex : Str := []

/-- internal/metadatabuilder/metadatabuilder.go 718-739: `NumberFormatE`. -/
structure FormatE where
  leadingDigits : List Str := []
  format : Str := []
  intl : List Str := []
  npRule : Str := []
  npOptional : Option Bool := none
  ccRule : Str := []
  pattern : Str := []

/-- internal/metadatabuilder/metadatabuilder.go 615-715: `TerritoryE` (the references are not used). -/
structure TerritoryE where
  id : Str
  mainCountry : Bool := false
  leadingDigits : Str := []
  countryCode : Int := 0
  nationalPrefix : Str := []
  internationalPrefix : Str := []
  preferredInternationalPrefix : Str := []
  npRule : Str := []
  mobilePortable : Bool := false
  npParsing : Str := []
  npTransform : Str := []
  preferredExtnPrefix : Str := []
  npOptional : Bool := false
  ccRule : Str := []
  formats : List FormatE := []
  general : Option DescE := none
  noInternational : Option DescE := none
  fixedLine : Option DescE := none
  mobile : Option DescE := none
  pager : Option DescE := none
  tollFree : Option DescE := none
  premium : Option DescE := none
  sharedCost : Option DescE := none
  personal : Option DescE := none
  voip : Option DescE := none
  uan : Option DescE := none
  voicemail : Option DescE := none
  standardRate : Option DescE := none
  shortCode : Option DescE := none
  emergency : Option DescE := none
  carrierSpecific : Option DescE := none
  smsServices : Option DescE := none

/-! ## Strings and patterns -/

/-- `strings.Split(s, c)` for a single character `c`. -/
def splitCh (c : Nat) : Str → List Str
  | [] => [[]]
  | u :: t =>
    if u = c then [] :: splitCh c t
    else match splitCh c t with
      | v :: vs => (u :: v) :: vs
      | [] => [[u]]

/-- `strings.Replace(s, old, new, 1)`. -/
def replaceOnce (s old new : Str) : Str :=
  match indexOf s old with
  | some i => s.take i ++ new ++ s.drop (i + old.length)
  | none => s

/-- The sign of the argument of `strconv.Atoi`, and the rest. -/
def splitSign : Str → Bool × Str
  | 43 :: t => (false, t)
  | 45 :: t => (true, t)
  | t => (false, t)

/-- `strconv.Atoi` with its error ignored: 0 for bad syntax, the nearest bound of `int` for a number that does not fit. -/
def atoiLax (s : Str) : Int :=
  let ds := (splitSign s).2
  if ds = [] ∨ !ds.all isDig then 0
  else if (splitSign s).1 then -(min (digVal ds) (2 ^ 63) : Nat) else (min (digVal ds) (2 ^ 63 - 1) : Nat)

/-- The conversion `int32(j)`. -/
def wrap32 (x : Int) : Int := (x + 2 ^ 31) % 2 ^ 32 - 2 ^ 31

/-- The characters matched by `\s`. -/
def isSpaceRe (u : Nat) : Bool := u = 9 || u = 10 || u = 12 || u = 13 || u = 32

/-- internal/metadatabuilder/metadatabuilder.go 113-124: `validateRE`. -/
def validateRE (compile : Str → Option Re) (s : Str) (removeSpace : Bool) : Go Pat :=
  let s := if removeSpace then s.filter (fun u => !isSpaceRe u) else s
  match compile s with
  | none => .error .explicit
  | some re => .ok ⟨s, re⟩

/-- A pattern field set through `sp` (24-29): the empty text leaves the field unset. -/
def setPat (p : Pat) : Pat := if p.src = [] then .empty else p

/-- An optional attribute: nothing is done for the empty text. -/
def optPat (compile : Str → Option Re) (s : Str) (removeSpace : Bool) : Go Pat :=
  if s = [] then .ok .empty else do return setPat (← validateRE compile s removeSpace)

/-! ## Country codes -/

/-- internal/metadatabuilder/metadatabuilder.go 90-108: one round of the loop of `BuildCountryCodeToRegionMap`. -/
def addRegion (acc : List (Int × List Str)) (m : Metadata) : List (Int × List Str) :=
  match mapGet acc m.countryCode with
  | some l => mapSet acc m.countryCode (if m.mainCountry then m.id :: l else l ++ [m.id])
  | none => mapSet acc m.countryCode (if m.id ≠ [] then [m.id] else [])

/-- internal/metadatabuilder/metadatabuilder.go 87-111: `BuildCountryCodeToRegionMap`. -/
def regionMap (coll : List Metadata) : List (Int × List Str) := coll.foldl addRegion []

/-! ## Possible lengths -/

/-- The order in which the `range` loops over maps visit the keys. -/
abbrev Order := List Nat → List Int → List Int

/-- A loop visits every key exactly once. -/
def Order.Fair (o : Order) : Prop := ∀ p ks, (o p ks).Perm ks

/-- The order for the part of the execution at position `k`. -/
def Order.sub (o : Order) (k : Nat) : Order := fun p ks => o (k :: p) ks

/-- `s[k] = true`. -/
def addKey (s : List Int) (k : Int) : List Int := if k ∈ s then s else s ++ [k]

/-- `for j := min; j <= max; j++`, the values of `int32(j)`.  (For `max` the largest `int` the Go loop does not end.) -/
def rangeKeys (lo hi : Int) : List Int := (List.range (hi + 1 - lo).toNat).map (fun i : Nat => wrap32 (lo + i))

/-- internal/metadatabuilder/metadatabuilder.go 325-352: one round of the loop of `parsePossibleLengthStringToSet`. -/
def addLengthItem (s : List Int) (item : Str) : Go (List Int) :=
  match item with
  | [] => .error .explicit
  | 91 :: r =>
    if item.getLast? ≠ some 93 then .error .explicit
    else match splitCh 45 r.dropLast with
      | [a, b] =>
        let lo := atoiLax a
        let hi := atoiLax b
        if hi - lo < 2 then .error .explicit else .ok ((rangeKeys lo hi).foldl addKey s)
      | _ => .error .explicit
  | _ => .ok (addKey s (wrap32 (atoiLax item)))

/-- The loop over the items. -/
def addLengthItems : List Int → List Str → Go (List Int)
  | s, [] => .ok s
  | s, i :: is => do addLengthItems (← addLengthItem s i) is

/-- internal/metadatabuilder/metadatabuilder.go 317-355: `parsePossibleLengthStringToSet`. -/
def parseLengths (s : Str) : Go (List Int) :=
  if s = [] then .error .explicit else addLengthItems [] (splitCh 44 s)

/-- internal/metadatabuilder/metadatabuilder.go 368-408: one round of the loop of `populatePossibleLengthSets`. -/
def addDescLengths (o : Order) (acc : List Int × List Int) (d : Option DescE) : Go (List Int × List Int) :=
  match d.bind (·.lengths) with
  | none => .ok acc
  | some e => do
    let mine ← parseLengths e.national
    let loc ← (if e.localOnly ≠ [] then do
        let mineLoc ← parseLengths e.localOnly
        let inter := ((o.sub 0) [] mine).filter (· ∈ mineLoc)
        if inter ≠ [] then .error .explicit else return ((o.sub 1) [] mineLoc).foldl addKey acc.2
      else .ok acc.2 : Go (List Int))
    return (((o.sub 2) [] mine).foldl addKey acc.1, loc)

/-- internal/metadatabuilder/metadatabuilder.go 366-410: `populatePossibleLengthSets`. -/
def populateLengths : Order → Nat → List Int × List Int → List (Option DescE) → Go (List Int × List Int)
  | _, _, acc, [] => .ok acc
  | o, k, acc, d :: ds => do populateLengths o (k + 1) (← addDescLengths (o.sub k) acc d) ds

/-- internal/metadatabuilder/metadatabuilder.go 294-307: `arePossibleLengthsEqual`. -/
def lengthsEqual (ls : List Int) (d : Desc) : Bool := ls.length = d.lengths.length && d.lengths.all (· ∈ ls)

/-- internal/metadatabuilder/metadatabuilder.go 480-492: the first loop of `setPossibleLengths`. -/
def checkLengths (parent : Option Desc) : List Int → Go (List Int)
  | [] => .ok []
  | l :: ls =>
    if (match parent with | none => true | some p => l ∈ p.lengths) then do return l :: (← checkLengths parent ls) else .error .explicit

/-- internal/metadatabuilder/metadatabuilder.go 496-508: the second loop of `setPossibleLengths`. -/
def checkLocal (parent : Option Desc) (lengths : List Int) : List Int → Go (List Int)
  | [] => .ok []
  | l :: ls =>
    if l ∈ lengths then checkLocal parent lengths ls
    else if (match parent with | none => true | some p => decide (l ∈ p.lengths) || decide (l ∈ p.localLengths)) then do
      return l :: (← checkLocal parent lengths ls)
    else .error .explicit

/-- `sort.Slice(s, func(i, j int) bool { return s[i] < s[j] })`. -/
def sortInts (l : List Int) : List Int := l.mergeSort (fun a b => decide (a ≤ b))

/-- internal/metadatabuilder/metadatabuilder.go 472-513: `setPossibleLengths`. -/
def setLengths (o : Order) (lengths loc : List Int) (parent : Option Desc) (d : Desc) : Go Desc := do
  let ls ← (if (match parent with | none => true | some p => !lengthsEqual lengths p) then checkLengths parent ((o.sub 0) [] lengths)
    else .ok [] : Go (List Int))
  let lo ← checkLocal parent lengths ((o.sub 1) [] loc)
  return { d with lengths := sortInts ls, localLengths := sortInts lo }

/-- internal/metadatabuilder/metadatabuilder.go 431-462: `processPhoneNumberDescElement`. -/
def processDesc (compile : Str → Option Re) (o : Order) (parent : Option Desc) (e : Option DescE) : Go Desc :=
  match e with
  | none => .ok { lengths := [-1] }
  | some el => do
    let d ← (match parent with
      | none => .ok {}
      | some p => do
        let (ls, loc) ← populateLengths (o.sub 0) 0 ([], []) [some el]
        setLengths (o.sub 1) ls loc (some p) {} : Go Desc)
    let d ← (if el.pattern ≠ [] then do
        let p ← validateRE compile el.pattern true
        return { d with pattern := if p.src = [] then none else some p }
      else .ok d : Go Desc)
    return { d with ex := el.ex }

/-- The elements whose lengths make up the general ones: internal/metadatabuilder/metadatabuilder.go 536-542. -/
def lengthSources (t : TerritoryE) (short : Bool) : List (Option DescE) :=
  if short then [t.shortCode]
  else [t.general, t.fixedLine, t.mobile, t.pager, t.tollFree, t.premium, t.sharedCost, t.personal, t.voip, t.uan, t.voicemail,
    t.standardRate, t.shortCode, t.emergency, t.carrierSpecific]

/-- internal/metadatabuilder/metadatabuilder.go 518-549: `setPossibleLengthsGeneralDesc`. -/
def setGeneralLengths (o : Order) (t : TerritoryE) (short : Bool) (g : Desc) : Go Desc := do
  let acc ← populateLengths (o.sub 0) 0 ([], []) [t.general]
  if acc.1 ≠ [] ∨ acc.2 ≠ [] then .error .explicit
  else
    let (ls, loc) ← populateLengths (o.sub 1) 0 acc (lengthSources t short)
    if short ∧ loc ≠ [] then .error .explicit
    else setLengths (o.sub 2) ls loc none g

/-- internal/metadatabuilder/metadatabuilder.go 564-604: `setRelevantDescPatterns`. -/
def setDescs (compile : Str → Option Re) (o : Order) (t : TerritoryE) (short : Bool) (m : Metadata) : Go Metadata := do
  let g ← processDesc compile (o.sub 0) none t.general
  let g ← setGeneralLengths (o.sub 1) t short g
  let child := fun (k : Nat) (e : Option DescE) => processDesc compile (o.sub k) (some g) e
  if !short then
    let fixedLine ← child 2 t.fixedLine
    let mobile ← child 3 t.mobile
    let sharedCost ← child 4 t.sharedCost
    let voip ← child 5 t.voip
    let personal ← child 6 t.personal
    let pager ← child 7 t.pager
    let uan ← child 8 t.uan
    let voicemail ← child 9 t.voicemail
    let noInternational ← child 10 t.noInternational
    let same := decide ((match mobile.pattern with | some p => p.src | none => []) = (match fixedLine.pattern with | some p => p.src | none => []))
    let tollFree ← child 11 t.tollFree
    let premium ← child 12 t.premium
    return { m with
      general := some g, fixedLine := some fixedLine, mobile := some mobile, sharedCost := some sharedCost, voip := some voip,
      personal := some personal, pager := some pager, uan := some uan, voicemail := some voicemail,
      noInternational := some noInternational, sameMobileFixed := same, tollFree := some tollFree, premium := some premium }
  else
    let standardRate ← child 2 t.standardRate
    let shortCode ← child 3 t.shortCode
    let carrierSpecific ← child 4 t.carrierSpecific
    let emergency ← child 5 t.emergency
    let tollFree ← child 6 t.tollFree
    let premium ← child 7 t.premium
    let smsServices ← child 8 t.smsServices
    return { m with
      general := some g, standardRate := some standardRate, shortCode := some shortCode, carrierSpecific := some carrierSpecific,
      emergency := some emergency, tollFree := some tollFree, premium := some premium, smsServices := some smsServices }

/-! ## Formats -/

/-- internal/metadatabuilder/metadatabuilder.go 220-225: `getDomesticCarrierCodeFormattingRule`. -/
def carrierRule (rule np : Str) : Str := replaceOnce (replaceOnce rule (str!"$FG") (str!"$1")) (str!"$NP") np

/-- internal/metadatabuilder/metadatabuilder.go 227-232: `getNationalPrefixFormattingRule`. -/
def prefixRule (rule np : Str) : Str := replaceOnce (replaceOnce rule (str!"$NP") np) (str!"$FG") (str!"$1")

/-- internal/metadatabuilder/metadatabuilder.go 166-172: `setLeadingDigitsPatterns`. -/
def leadingPatterns (compile : Str → Option Re) : List Str → Go (List Pat)
  | [] => .ok []
  | s :: ss => do
    let p ← validateRE compile s true
    return p :: (← leadingPatterns compile ss)

/-- internal/metadatabuilder/metadatabuilder.go 252-273 and 214-218: the national format made from one element (`loadNationalFormat` and
the part of the loop of `loadAvailableFormats` before it). -/
def nationalFormat (compile : Str → Option Re) (np npRule : Str) (npOptional : Bool) (ccRule : Str) (e : FormatE) : Go NumberFormat := do
  let cc ← (if e.ccRule ≠ [] then do return (← validateRE compile (carrierRule e.ccRule np) false).src else .ok ccRule : Go Str)
  let ld ← leadingPatterns compile e.leadingDigits
  let p ← validateRE compile e.pattern false
  return { pattern := setPat p, format := e.format, leadingDigits := ld,
           npRule := if e.npRule ≠ [] then prefixRule e.npRule np else npRule,
           npOptional := match e.npOptional with | some b => b | none => npOptional, ccRule := cc }

/-- internal/metadatabuilder/metadatabuilder.go 181-206: `loadInternationalFormat`: the international format to add, if any, and whether
there is an explicit one.  The leading digits and the pattern have been compiled for the national format. -/
def internationalFormat (e : FormatE) (nat : NumberFormat) : Go (List NumberFormat × Bool) :=
  match e.intl with
  | [] => .ok (if nat.format ≠ [] then [nat] else [], false)
  | [f] =>
    .ok (if f ≠ str!"NA" ∧ f ≠ [] then [{ pattern := nat.pattern, format := f, leadingDigits := nat.leadingDigits }] else [], true)
  | _ => .error .explicit

/-- internal/metadatabuilder/metadatabuilder.go 250-278: the loop of `loadAvailableFormats`: national formats, international formats, whether
an explicit international format was seen. -/
def loadFormats (compile : Str → Option Re) (np npRule : Str) (npOptional : Bool) (ccRule : Str) :
    List FormatE → Go (List NumberFormat × List NumberFormat × Bool)
  | [] => .ok ([], [], false)
  | e :: es => do
    let nat ← nationalFormat compile np npRule npOptional ccRule e
    let (intl, explicit) ← internationalFormat e nat
    let (ns, is, ex) ← loadFormats compile np npRule npOptional ccRule es
    return (nat :: ns, intl ++ is, explicit || ex)

/-- internal/metadatabuilder/metadatabuilder.go 241-287: `loadAvailableFormats`. -/
def availableFormats (compile : Str → Option Re) (t : TerritoryE) (np npRule : Str) : Go (List NumberFormat × List NumberFormat) := do
  let cc ← (if t.ccRule ≠ [] then do return (← validateRE compile (carrierRule t.ccRule np) false).src else .ok [] : Go Str)
  let (ns, is, ex) ← loadFormats compile np npRule t.npOptional cc t.formats
  return (ns, if ex then is else [])

/-- internal/metadatabuilder/metadatabuilder.go 126-164: `loadTerritoryTagMetadata`. -/
def territoryTags (compile : Str → Option Re) (t : TerritoryE) : Go Metadata := do
  let ld ← optPat compile t.leadingDigits false
  let ip ← optPat compile t.internationalPrefix false
  let npp ← optPat compile t.npParsing true
  let tr ← (if t.npParsing ≠ [] ∧ t.npTransform ≠ [] then do return (← validateRE compile t.npTransform false).src else .ok [] : Go Str)
  -- A national prefix is used for parsing as it stands.  Simplification: Go compiles it only when it is first used, so that a prefix
  -- that is no pattern is not rejected here.
  let npp ← (if t.nationalPrefix ≠ [] ∧ npp.src = [] then validateRE compile t.nationalPrefix false else .ok npp : Go Pat)
  return { id := t.id, countryCode := t.countryCode, leadingDigits := ld, internationalPrefix := ip,
           preferredInternationalPrefix := t.preferredInternationalPrefix, npParsing := npp, npTransform := tr,
           nationalPrefix := t.nationalPrefix, preferredExtnPrefix := t.preferredExtnPrefix, mainCountry := t.mainCountry,
           mobilePortable := t.mobilePortable }

/-- internal/metadatabuilder/metadatabuilder.go 551-562: `loadCountryMetadata`. -/
def loadCountry (compile : Str → Option Re) (o : Order) (t : TerritoryE) (short alternate : Bool) : Go Metadata := do
  let m ← territoryTags compile t
  let (ns, is) ← availableFormats compile t t.nationalPrefix (prefixRule t.npRule t.nationalPrefix)
  let m := { m with formats := ns, intlFormats := is }
  if alternate then return m else setDescs compile o t short m

/-- internal/metadatabuilder/metadatabuilder.go 63-81: `buildPhoneMetadataFromElement`. -/
def buildCollection (compile : Str → Option Re) (o : Order) (short alternate : Bool) : Nat → List TerritoryE → Go (List Metadata)
  | _, [] => .ok []
  | k, t :: ts => do
    let m ← loadCountry compile (o.sub k) t short alternate
    return m :: (← buildCollection compile o short alternate (k + 1) ts)

end Builder
end Verif
