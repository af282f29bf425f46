import Verif.Spec.Conc
/-!
# Counting calls in an execution
-/
namespace Verif.Spec

/-- The number of calls made, by all goroutines together. -/
def callsMade {α β : Type} (tr : List (Nat × Op α β)) : Nat :=
  tr.countP (fun e => match e.2 with | .call _ => true | .ret _ => false)

/-- The number of calls that have ended with a result of this kind. -/
def ended {α β : Type} (kind : β → Bool) (tr : List (Nat × Op α β)) : Nat :=
  tr.countP (fun e => match e.2 with | .call _ => false | .ret b => kind b)

end Verif.Spec
