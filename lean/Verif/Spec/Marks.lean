import Verif.Spec.Aytf
/-!
# Which character of the input was last typed with `InputDigitAndRememberPosition`
-/
namespace Verif.Spec

/-- The number of characters up to the last one typed with `InputDigitAndRememberPosition`: `n` is the number of characters typed
since the last `Clear`, `m` the mark so far. -/
def markFrom : Nat → Nat → List Call → Nat
  | _, m, [] => m
  | n, m, .input _ :: ks => markFrom (n + 1) m ks
  | n, _, .remember _ :: ks => markFrom (n + 1) (n + 1) ks
  | _, _, .clear :: ks => markFrom 0 0 ks

/-- The number of characters typed since the last `Clear`, up to and including the last one that was typed with
`InputDigitAndRememberPosition`; 0 if there is none. -/
def mark (ks : List Call) : Nat := markFrom 0 0 ks

end Verif.Spec
