import Verif.Spec.Extract
/-!
# Specification: a number in a text, with separators
-/
namespace Verif.Spec

/-- What may stand between the digits of a number: the punctuation of phone numbers, other than the letter x and the tildes that
may announce an extension, and the star. -/
def isSeparator (u : Nat) : Bool := (isPunct (rune u) && !decide (rune u ∈ [0x78, 0x7E, 0xFF5E])) || decide (rune u = '*'.toNat)

/-- A decimal digit of any script. -/
def isDecimal (u : Nat) : Bool := inRanges ndTable (rune u)

/-- The text `s` says one number, with the digits `ds` (as ASCII digits), after a plus sign if `plus`: words or signs before it, any
plus signs, digits with separators between them, and marks behind it.  There are three digits at least, and at most 250 bytes. -/
structure NumberText (s : Str) (plus : Bool) (ds : Str) : Prop where
  parts : ∃ front signs body back, s = front ++ (signs ++ (body ++ back)) ∧
    (∀ u ∈ front, isStart u = false ∧ u ≠ ';'.toNat) ∧
    (∀ u ∈ signs, isPlus u = true) ∧ (plus = true ↔ signs ≠ []) ∧
    (∀ u ∈ body, isDecimal u = true ∨ isSeparator u = true) ∧
    (signs = [] → ∃ u t, body = u :: t ∧ isDecimal u = true) ∧ (∃ t u, body = t ++ [u] ∧ isDecimal u = true) ∧
    DigitTranscript body ds ∧
    (∀ u ∈ back, isEnd u = false ∧ u ≠ ';'.toNat)
  three : 3 ≤ ds.length
  short : blen s ≤ 250

end Verif.Spec
