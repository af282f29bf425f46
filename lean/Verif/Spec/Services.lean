import Verif.Spec.Short
import Verif.Regex.Incl
/-!
# Specification vocabulary for the services of short numbers
-/
namespace Verif.Spec

/-- The lengths a text accepted by the pattern of the description can have are all lengths of the description `g`.  With
`filtered` only the lengths that the description itself lists count. -/
def lengthsWithin (filtered : Bool) (d g : Option Desc) : Bool :=
  match d, g with
  | some d, some g =>
    match (d.pattern.getD ⟨[], .eps⟩).re.lens with
    | some l => l.all fun x => memInt x g.lengths ||
        (match filtered, d.lengths with | true, _ :: _ => !memInt x d.lengths | _, _ => false)
    | none => false
  | _, _ => true

/-- Every digit string of the pattern of `d` is one of the numbers `g` describes. -/
def descWithin (d g : Option Desc) : Bool :=
  match d with
  | none => true
  | some x => match x.pattern with
    | none => true
    | some p => match p.src with
      | [] => true
      | _ :: _ => match g with
        | none => false
        | some y => match y.pattern with
          | none => false
          | some q => (match q.src with | [] => false | _ :: _ => true) && p.re.noAnchor && q.re.noAnchor &&
              (match y.lengths with | [] => true | _ :: _ => lengthsWithin false d g) && incl 12 [p.re] [q.re]

/-- No digit string is described by both. -/
def descApart (a b : Option Desc) : Bool :=
  match a.bind (·.pattern), b.bind (·.pattern) with
  | some p, some q => p.src.isEmpty || q.src.isEmpty || (p.re.noAnchor && q.re.noAnchor && noCommon 12 [[p.re], [q.re]])
  | _, _ => true

/-- What the theorems of C73 need of an entry. -/
def servicesOk (m : Metadata) : Bool :=
  lengthsWithin true m.carrierSpecific m.general && lengthsWithin true m.smsServices m.general &&
  lengthsWithin true m.premium m.general && lengthsWithin true m.standardRate m.general && lengthsWithin true m.tollFree m.general &&
  descWithin m.emergency m.general && descWithin m.emergency m.shortCode &&
  descApart m.premium m.standardRate && descApart m.premium m.tollFree && descApart m.standardRate m.tollFree &&
  descApart m.emergency m.premium && descApart m.emergency m.standardRate

/-- The region in which the number is looked up when no region is given: the only region of the country code, or the first of
several of which the number is a short code. -/
inductive HomeOf (S : ShortMap) (nsn : Str) : List Str → Str → Prop
  | only {r : Str} : HomeOf S nsn [r] r
  | first {pre post : List Str} {r : Str} {m : Metadata} (hl : 1 < (pre ++ r :: post).length) (hm : mapGet S r = some m)
      (hs : ShortMatches nsn m.shortCode)
      (hpre : ∀ q ∈ pre, ∀ m, mapGet S q = some m → ¬ ShortMatches nsn m.shortCode) : HomeOf S nsn (pre ++ r :: post) r

end Verif.Spec
