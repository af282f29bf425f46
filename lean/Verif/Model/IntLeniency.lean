import Verif.Model.Matcher
/-!
# The search with a level given as an integer

`Leniency` is an integer type, so a caller can pass any integer (enums.go 93-115).  These are the functions of `Model/Matcher.lean` that
depend on the level, over integers; `Finder` supplies the other fields, and its own level is not looked at.
-/
namespace Verif

/-- enums.go 95-115: the values of the named levels. -/
def Leniency.code : Leniency → Int
  | .possible => 0
  | .valid => 1
  | .strictGrouping => 2
  | .exactGrouping => 3

/-- enums.go 117-158: `Leniency.Verify`. -/
def verifyInt (k : Int) (C : Container) (alt : List Metadata) (n : PhoneNumber) (candidate : Str) : Go Bool :=
  if k = 0 then isPossibleNumber C n
  else if k = 1 then do
    if !(← isValidNumber C n) then return false
    if !(← onlyValidX C n candidate) then return false
    return nationalPrefixPresent C n
  else if k = 2 then do
    if !(← verifyCommon C n candidate) then return false
    checkGrouping C alt n candidate (groupsRemainGrouped C)
  else if k = 3 then do
    if !(← verifyCommon C n candidate) then return false
    checkGrouping C alt n candidate groupsExactlyPresent
  else return false

namespace Finder

/-- phonenumbermatcher.go 268-310: `parseAndVerify`. -/
def parseAndVerifyInt (F : Finder) (k : Int) (candidate : Str) (offset : Nat) : Go (Option FoundNumber) :=
  if !matchingBrackets.isMatch candidate || pubPages.isMatch candidate then .ok none
  else if k ≥ 1 ∧ !F.neighboursOk candidate offset then .ok none
  else do
    match ← parseKeepRawToNumber F.C candidate F.region {} with
    | (some _, _) => return none
    | (none, n) =>
      if ← verifyInt k F.C F.alt n candidate then
        return some ⟨offset, candidate, { n with countryCodeSource := none, rawInput := none, preferredCarrier := none }⟩
      return none

/-- phonenumbermatcher.go 247-254. -/
def firstPieceInt (F : Finder) (k : Int) (candidate : Str) (offset start : Nat) (first : Bool) : Go (Option FoundNumber) :=
  if first then F.parseAndVerifyInt k (trimAfterFirstMatch unwantedEndCharPattern (candidate.take start)) offset else .ok none

/-- phonenumbermatcher.go 242-262: the loop over the matches of one inner pattern in `extractInnerMatch`. -/
def innerLoopInt (F : Finder) (k : Int) (candidate : Str) (offset : Nat) : Bool → List Match → Tries → Go (Option FoundNumber × Tries)
  | _, [], t => .ok (none, t)
  | first, g :: gs, t =>
    if t.left ≤ 0 then .ok (none, t)
    else do
      match ← F.firstPieceInt k candidate offset g.start first with
      | some m => return (some m, t)
      | none =>
        let t := if first then t.reject else t
        match g.span 1 with
        | none => .error .index
        | some (a, b) =>
          match ← F.parseAndVerifyInt k (trimAfterFirstMatch unwantedEndCharPattern (slice candidate a b)) (offset + a) with
          | some m => return (some m, t)
          | none => F.innerLoopInt k candidate offset false gs t.reject

/-- phonenumbermatcher.go 240-264: `extractInnerMatch`, over the patterns not tried yet. -/
def extractInnerInt (F : Finder) (k : Int) (candidate : Str) (offset : Nat) : List Re → Tries → Go (Option FoundNumber × Tries)
  | [], t => .ok (none, t)
  | r :: rs, t => do
    match ← F.innerLoopInt k candidate offset true (r.findAll candidate) t with
    | (some m, t) => return (some m, t)
    | (none, t) => F.extractInnerInt k candidate offset rs t

/-- phonenumbermatcher.go 215-236: `extractMatch`. -/
def extractMatchInt (F : Finder) (k : Int) (candidate : Str) (offset : Nat) (t : Tries) : Go (Option FoundNumber × Tries) :=
  if F.looksLikeDate candidate offset then .ok (none, t)
  else do
    match ← F.parseAndVerifyInt k candidate offset with
    | some m => return (some m, t)
    | none => F.extractInnerInt k candidate offset innerMatches { t with rejected := t.rejected + 1 }

/-- phonenumbermatcher.go 165-183: the loop of `find`, with fuel as in `findLoop`. -/
def findLoopInt (F : Finder) (k : Int) : Nat → Nat → Tries → Go (Option FoundNumber × Tries)
  | 0, _, t => .ok (none, t)
  | fuel + 1, index, t =>
    if t.left ≤ 0 then .ok (none, t)
    else match matcherPattern.find (F.text.drop index) with
      | none => .ok (none, t)
      | some x => do
        let candidate := trimAfterFirstMatch secondNumberStartPattern (slice (F.text.drop index) x.start x.stop)
        match ← F.extractMatchInt k candidate (index + x.start) t with
        | (some m, t) => return (some m, t)
        | (none, t) =>
          F.findLoopInt k fuel (index + x.start + candidate.length) { t with left := t.left - 1, passed := t.passed + 1 }

/-- phonenumbermatcher.go 164-184: `find`. -/
def findInt (F : Finder) (k : Int) (index : Nat) (t : Tries) : Go (Option FoundNumber × Tries) := F.findLoopInt k (F.text.length + 1) index t

/-- phonenumbermatcher.go 566-577: `hasNext`. -/
def hasNextInt (F : Finder) (k : Int) (c : Cursor) : Go (Bool × Cursor) :=
  match c.state with
  | .ready _ => .ok (true, c)
  | .done => .ok (false, c)
  | .notReady => do
    match ← F.findInt k c.searchIndex c.tries with
    | (none, t) => return (false, { c with state := .done, tries := t })
    | (some m, t) => return (true, ⟨.ready m, m.at_ + m.raw.length, t⟩)

/-- phonenumbermatcher.go 581-589: `next`. -/
def nextInt (F : Finder) (k : Int) (c : Cursor) : Go (Option FoundNumber × Cursor) := do
  match ← F.hasNextInt k c with
  | (false, c) => return (none, c)
  | (true, c) =>
    match c.state with
    | .ready m => return (some m, { c with state := .notReady })
    | _ => return (none, c)

/-- phonenumberutil.go 2683-2692: the loop of the iterator of `FindNumbersWithLeniency`, with fuel as in `iterate`. -/
def iterateInt (F : Finder) (k : Int) : Nat → Cursor → Go (List FoundNumber × Cursor)
  | 0, c => .ok ([], c)
  | fuel + 1, c => do
    match ← F.hasNextInt k c with
    | (false, c) => return ([], c)
    | (true, c) =>
      match ← F.nextInt k c with
      | (none, c) => return ([], c)
      | (some m, c) =>
        let r ← F.iterateInt k fuel c
        return (m :: r.1, r.2)

/-- phonenumberutil.go 2683-2692: `FindNumbersWithLeniency`. -/
def findNumbersInt (F : Finder) (k : Int) (maxTries : Int) : Go (List FoundNumber × Cursor) :=
  F.iterateInt k (F.text.length + 1) (new maxTries)

end Finder
end Verif
