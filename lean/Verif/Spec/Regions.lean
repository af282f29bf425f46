import Verif.Regex.Excl
import Verif.Props.C30
import Verif.Spec.Short
/-!
# Specification vocabulary for the region of a number
-/
namespace Verif.Spec

/-- The descriptions that make a number valid, given that the general description matches. -/
def validKinds (m : Metadata) : List (Option Desc) :=
  (specialKinds m).map (·.1) ++ [m.fixedLine] ++ (match m.sameMobileFixed with | true => [] | false => [m.mobile])

/-- The number is valid under a metadata entry. -/
def ValidUnder (nsn : Str) (m : Metadata) : Prop := Matches nsn m.general ∧ ∃ d ∈ validKinds m, Matches nsn d

/-- The entry of a region claims a number: the number begins with the leading digits of the region or, if the region has none, is valid
under the entry. -/
def Claims (nsn : Str) (m : Metadata) : Prop :=
  (m.leadingDigits.src ≠ [] ∧ ∃ w e, nsn = w ++ e ∧ m.leadingDigits.re.Acc 0 w e) ∨ (m.leadingDigits.src = [] ∧ ValidUnder nsn m)

/-- The region of a number, given the regions of its country code: the only one, or the first that claims it. -/
inductive RegionOf (C : Container) (nsn : Str) : List Str → Str → Prop
  | none : RegionOf C nsn [] []
  | only {r : Str} : RegionOf C nsn [r] r
  | first {pre post : List Str} {r : Str} {m : Metadata} (hl : 1 < (pre ++ r :: post).length) (hm : C.metaForRegion r = some m)
      (hc : Claims nsn m) (hpre : ∀ q ∈ pre, ∀ m, C.metaForRegion q = some m → ¬ Claims nsn m) : RegionOf C nsn (pre ++ r :: post) r
  | unclaimed {rs : List Str} (hl : 1 < rs.length) (h : ∀ q ∈ rs, ∀ m, C.metaForRegion q = some m → ¬ Claims nsn m) : RegionOf C nsn rs []

/-- The pattern of a description, if it has one. -/
def descRe (d : Option Desc) : List Re := match d with
  | some d => match d.lengths with
    | [.negSucc _] => []
    | _ => [(d.pattern.getD ⟨[], .eps⟩).re]
  | none => []

/-- Does the pattern of the description accept only texts of the lengths listed? -/
def lengthsImplied (d : Desc) : Bool :=
  match d.lengths with
  | [] => true
  | l => match (d.pattern.getD ⟨[], .eps⟩).re.lens with
    | some k => k.all fun x => memInt x l
    | none => false

/-- Digit strings of the given lengths. -/
def ofLengths (l : List Int) : List Re := l.flatMap fun x => match x with
  | .ofNat n => [.rep (.cls ⟨false, [(48, 57)], []⟩) n (some n) true]
  | .negSucc _ => []

/-- Lists of patterns such that what is accepted by a pattern of each is valid. -/
def validPats (m : Metadata) : List (List Re) :=
  (match m.general with
    | none => [[]]
    | some d => [(d.pattern.getD ⟨[], .eps⟩).re] :: (if lengthsImplied d then [] else [ofLengths d.lengths])) ++
  [(validKinds m).flatMap fun d => match d with
    | none => []
    | some d => if lengthsImplied d then [(d.pattern.getD ⟨[], .eps⟩).re] else []]

/-- Longer than any number. -/
def fuel : Nat := 18

/-- The texts of `pos` are not lost on the way through the regions: the first region that claims one has it valid. -/
def claimedOk (pos : List (List Re)) : List (List Re) → List Metadata → Bool
  | neg, [] => excl fuel pos neg
  | neg, m :: ms =>
    match m.leadingDigits.src with
    | _ :: _ =>
      match excl fuel ([m.leadingDigits.re.andMore] :: pos) [] with
      | true => claimedOk pos neg ms
      | false =>
        (validPats m).all (fun N => excl fuel ([m.leadingDigits.re.andMore] :: pos) (N :: neg)) &&
        (excl fuel pos [[m.leadingDigits.re.andMore]] || claimedOk pos ([m.leadingDigits.re.andMore] :: neg) ms)
    | [] => (validPats m).all fun N => excl fuel pos [N] || claimedOk pos (N :: neg) ms

/-- The patterns of the entry have no anchors. -/
def noAnchors (m : Metadata) : Bool :=
  m.leadingDigits.re.noAnchor && (descRe m.general).all (·.noAnchor) && (validPats m).all (·.all (·.noAnchor)) &&
  (validKinds m).all fun d => (descRe d).all (·.noAnchor)

/-- The regions of a shared country code, in order. -/
def sharedOk (ms : List Metadata) : Bool :=
  ms.all noAnchors && ms.all fun m => (validKinds m).all fun d => claimedOk [descRe m.general, descRe d] [] ms

/-- A country code is not shared, or its regions are in order. -/
def sharedCodesOk (C : Container) : Bool :=
  C.ccToRegion.all fun e => match e.2 with
    | [] => true
    | [_] => true
    | rs => sharedOk (rs.filterMap fun r => mapGet C.regionMeta r)

end Verif.Spec
