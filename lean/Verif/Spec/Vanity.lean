import Verif.Spec.Context
/-!
# Specification: numbers written with letters
-/
namespace Verif.Spec

/-- A space, hyphen, dot or bracket. -/
def IsSeparator (u : Nat) : Prop := u ∈ str!" -.()"

/-- A number written with letters, such as `+1 (800) FLOWERS` or `1-800-MICROSOFT`: perhaps a plus sign; digits and separators that begin
and end with a digit and have three digits or more; then digits, separators and ASCII letters, the last of which is a letter.  At most
250 characters. -/
inductive LetterNumber : Str → Prop
  | mk (sign head tail : Str) (hsign : sign = [] ∨ sign = str!"+")
      (hhead : ∀ u ∈ head, isDig u = true ∨ IsSeparator u)
      (hfirst : ∃ d rest, head = d :: rest ∧ isDig d = true) (hlast : ∃ rest d, head = rest ++ [d] ∧ isDig d = true)
      (hthree : 3 ≤ (head.filter isDig).length)
      (htail : ∀ u ∈ tail, isDig u = true ∨ IsSeparator u ∨ isLetter u = true)
      (hend : ∃ rest l, tail = rest ++ [l] ∧ isLetter l = true)
      (hlen : (sign ++ (head ++ tail)).length ≤ 250) : LetterNumber (sign ++ (head ++ tail))

/-- How many ASCII letters a text has. -/
def letterCount (s : Str) : Nat := (s.filter isLetter).length

end Verif.Spec
