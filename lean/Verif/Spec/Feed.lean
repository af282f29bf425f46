/-!
# Giving a list to a consumer
-/
namespace Verif.Spec

/-- A consumer with state `κ` is given the elements of a list one after the other until it refuses to go on: its state afterwards.  The
consumer answers each element with whether it wants more and its new state. -/
def feed {κ α : Type} (yield : κ → α → Bool × κ) : κ → List α → κ
  | k, [] => k
  | k, m :: ms => if (yield k m).1 then feed yield (yield k m).2 ms else (yield k m).2

end Verif.Spec
