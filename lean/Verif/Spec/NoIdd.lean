import Verif.Model.Aytf
/-!
# Characters typed without an international prefix
-/
namespace Verif.Spec

/-- A typed character as the formatter keeps it: the plus sign, or the ASCII form of a digit. -/
def asciiKey (c : Nat) : Nat := if c = 43 then 43 else (charDigit c).getD c

/-- Neither a plus sign nor an international prefix of these metadata stands at the start of any part of the text typed so far. -/
def NoIdd (m : Metadata) (x : Str) : Prop :=
  ∀ t, t <+: x → (Re.atStart (.alt (re! "\\+") m.internationalPrefix.re)).find (t.map asciiKey) = none

end Verif.Spec
