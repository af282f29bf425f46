import Verif.Spec.Chars
/-!
# Specification: the candidate number inside a text

What `extractPossibleNumber` is documented to do (phonenumberutil.go 440-450): skip everything before the first plus sign or
decimal digit, drop trailing characters that are neither letters, numbers nor `#`, and cut off a second number introduced by a slash
and an `x`.
-/
namespace Verif.Spec

/-- The part of `s` before the first position from which the rest of the text satisfies `P`. -/
def before (P : Str → Bool) : Str → Str
  | [] => []
  | u :: t => if P (u :: t) then [] else u :: before P t

/-- A plus sign, ASCII or full-width. -/
def isPlus (u : Nat) : Bool := decide (rune u = '+'.toNat) || decide (rune u = 0xFF0B)

/-- A character a number may start with: a plus sign or a decimal digit of any script. -/
def isStart (u : Nat) : Bool := isPlus u || inRanges ndTable (rune u)

/-- A character a number may end with: a letter, a number or `#`. -/
def isEnd (u : Nat) : Bool := decide (rune u = '#'.toNat) || inRanges nTable (rune u) || inRanges lTable (rune u)

/-- The text begins with `/` or `\`, spaces and an `x`. -/
def secondNumber : Str → Bool
  | [] => false
  | u :: t => (decide (u = '/'.toNat) || decide (u = '\\'.toNat)) && (t.dropWhile (fun v => v == ' '.toNat)).head? == some 'x'.toNat

/-- The candidate number in a text. -/
def candidate (s : Str) : Str :=
  before secondNumber (before (fun t => t.all (fun u => !isEnd u)) (s.dropWhile (fun u => !isStart u)))

end Verif.Spec
