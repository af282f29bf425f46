import Verif.Model.Parse
/-!
# Example numbers of a type, from any country

The two loops of `GetExampleNumberForType` range over Go maps, whose order is not specified: the orders are arguments of the model.
-/
namespace Verif

/-- phonenumberutil.go 1726-1731: the loop over the regions, in the order given. -/
def exampleAmongRegions (C : Container) (t : NumType) : List Str → Go (Option PhoneNumber)
  | [] => .ok none
  | r :: rs => do
    match ← exampleForTypeInRegion C r t with
    | some n => return some n
    | none => exampleAmongRegions C t rs

/-- phonenumberutil.go 1733-1741: the loop over the global calling codes, in the order given. -/
def exampleAmongCodes (C : Container) (t : NumType) : List Int → Go (Option PhoneNumber)
  | [] => .ok none
  | cc :: ccs =>
    let ex := descEx (descByType (C.metaForNonGeo cc) t)
    if ex ≠ [] then do
      match ← parse C (43 :: (decInt cc ++ ex)) unknownRegion with
      | (none, n) => return some n
      | (some _, _) => exampleAmongCodes C t ccs
    else exampleAmongCodes C t ccs

/-- phonenumberutil.go 1725-1744: `GetExampleNumberForType`, with the orders in which the two maps are gone through. -/
def exampleForType (C : Container) (regions : List Str) (codes : List Int) (t : NumType) : Go (Option PhoneNumber) := do
  match ← exampleAmongRegions C t regions with
  | some n => return some n
  | none => exampleAmongCodes C t codes

end Verif
