import Verif.Str
/-!
# Specification vocabulary shared by the property theorems

Nothing here refers to a function of the model other than the string type.
-/
namespace Verif.Spec

/-- Lean's own decimal representation of a natural number, as ASCII codes. -/
def decimal (n : Nat) : Str := (Nat.repr n).toList.map Char.toNat

/-- An ASCII digit. -/
def IsDigit (u : Nat) : Prop := '0'.toNat ≤ u ∧ u ≤ '9'.toNat

instance : DecidablePred IsDigit := fun u => by unfold IsDigit; infer_instance

/-- A string consisting of ASCII digits only. -/
def AllDigits (s : Str) : Prop := ∀ u ∈ s, IsDigit u

instance : DecidablePred AllDigits := fun s => by unfold AllDigits; infer_instance

/-- The ASCII digits of a string, in order. -/
def digitsOf (s : Str) : Str := s.filter (fun u => decide (IsDigit u))

/-- The characters a phone can dial: digits, plus, star, hash. -/
def IsDiallable (u : Nat) : Prop := IsDigit u ∨ u = '+'.toNat ∨ u = '*'.toNat ∨ u = '#'.toNat

instance : DecidablePred IsDiallable := fun u => by unfold IsDiallable; infer_instance

/-- The diallable characters of a string, in order. -/
def diallableOf (s : Str) : Str := s.filter (fun u => decide (IsDiallable u))

end Verif.Spec
