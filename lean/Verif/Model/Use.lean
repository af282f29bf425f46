import Verif.Model.Container
/-!
# The process-global metadata container (metadata/source.go)
-/
namespace Verif

/-- The package variable `current` (metadata/source.go 63) and the restore functions handed out so far, oldest first.  A restore
function is a closure over `prev`, so it is represented by that container. -/
structure UseState where
  current : Container
  restores : List Container

/-- The steps of a program using the package: `Use`, a call of the `i`-th restore function, and a lookup, which reads `current`. -/
inductive UseOp where
  | use (c : Container)
  | restore (i : Nat)
  | lookup

/-- metadata/source.go 159-163: `Use` and the function it returns.  Any lookup (lines 165-208) reads `current` once; what it
observes is the container itself.  A call of a restore function that was not handed out cannot happen in Go; here it does
nothing. -/
def UseState.step (s : UseState) : UseOp → UseState × List Container
  | .use c => ({ current := c, restores := s.restores ++ [s.current] }, [])
  | .restore i => match s.restores[i]? with
    | some c => ({ s with current := c }, [])
    | none => (s, [])
  | .lookup => (s, [s.current])

/-- A whole run: the final state and the containers observed by the lookups, in order. -/
def UseState.run (s : UseState) : List UseOp → UseState × List Container
  | [] => (s, [])
  | o :: os =>
    let (s1, l1) := s.step o
    let (s2, l2) := s1.run os
    (s2, l1 ++ l2)

end Verif
