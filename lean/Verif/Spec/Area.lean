import Verif.Spec.Layout
import Verif.Spec.Regions
/-!
# Specification vocabulary: area codes, geographical numbers
-/
namespace Verif.Spec

/-- The types of numbers that belong to a place: fixed lines and, in Mexico, Argentina, Brazil, Indonesia and China, mobile numbers. -/
def Geographical (t : NumType) (cc : Int) : Prop :=
  t = .fixedLine ∨ t = .fixedLineOrMobile ∨ (t = .mobile ∧ (cc = 52 ∨ cc = 54 ∨ cc = 55 ∨ cc = 62 ∨ cc = 86))

/-- The groups of digits of a text. -/
def digitGroups (s : Str) : List Str := fields isDig s

/-- The length of the national destination code of a number written in these groups: the first group, if others follow, with the
second one if the first is the mobile token of the country. -/
def ndcLength (token : Bool) : List Str → Nat
  | a :: b :: _ => if token then a.length + b.length else a.length
  | _ => 0

/-- The numbers with a geographical area code: geographical numbers, not Chinese mobile numbers, of regions with a national prefix
(Mexico needs none, nor does a number with leading zero). -/
def HasAreaCode (m : Metadata) (t : NumType) (cc : Int) (leadingZero : Bool) : Prop :=
  (m.nationalPrefix ≠ [] ∨ leadingZero = true ∨ cc = 52) ∧ Geographical t cc ∧ ¬ (t = .mobile ∧ cc = 86)

instance (t : NumType) (cc : Int) : Decidable (Geographical t cc) := inferInstanceAs (Decidable (_ ∨ _))
instance (m : Metadata) (t : NumType) (cc : Int) (z : Bool) : Decidable (HasAreaCode m t cc z) := inferInstanceAs (Decidable (_ ∧ _))

end Verif.Spec
