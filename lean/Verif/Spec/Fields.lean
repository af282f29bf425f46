import Verif.Str
/-!
# Specification: the maximal runs of a string

`fields P s` lists the maximal non-empty runs of characters satisfying `P`, in order.
-/
namespace Verif.Spec

/-- `cur` is the run read so far. -/
def fieldsAux (P : Nat → Bool) : Str → Str → List Str
  | [], cur => if cur = [] then [] else [cur]
  | u :: t, cur => if P u then fieldsAux P t (cur ++ [u]) else (if cur = [] then [] else [cur]) ++ fieldsAux P t []

/-- The maximal runs of characters satisfying `P`. -/
def fields (P : Nat → Bool) (s : Str) : List Str := fieldsAux P s []

/-- `sep` tells whether a separator is being read, `cur` is the piece read so far. -/
def piecesAux (P : Nat → Bool) : Str → Bool → Str → List Str
  | [], _, cur => [cur]
  | u :: t, true, cur => if P u then piecesAux P t true cur else piecesAux P t false (cur ++ [u])
  | u :: t, false, cur => if P u then cur :: piecesAux P t true [] else piecesAux P t false (cur ++ [u])

/-- The pieces of `s` between the maximal runs of characters satisfying `P` (empty pieces at the ends included). -/
def pieces (P : Nat → Bool) (s : Str) : List Str := piecesAux P s false []

end Verif.Spec
