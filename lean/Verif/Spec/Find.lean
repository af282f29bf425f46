import Verif.Model.Matcher
/-!
# What a caller of `FindNumbers` sees
-/
namespace Verif.Spec

/-- Go's `text[a:b] == raw` for byte offsets `a` and `b` inside the text. -/
def SubText (text : Str) (a b : Nat) (raw : Str) : Prop := ∃ x y, text = x ++ raw ++ y ∧ blen x = a ∧ blen (x ++ raw) = b

/-- The character just before byte offset `a`. -/
def CharBefore (text : Str) (a u : Nat) : Prop := ∃ x y, text = x ++ u :: y ∧ blen (x ++ [u]) = a

/-- The character just after byte offset `b`. -/
def CharAfter (text : Str) (b u : Nat) : Prop := ∃ x y, text = x ++ u :: y ∧ blen x = b

/-- A number without what it remembers of how it was written. -/
def Plain (n : PhoneNumber) : PhoneNumber := { n with countryCodeSource := none, rawInput := none, preferredCarrier := none }

/-- Opening brackets: ( and [ and their wide forms. -/
def openings : List Nat := [40, 91, 0xFF08, 0xFF3B]

/-- Closing brackets: ) and ] and their wide forms. -/
def closings : List Nat := [41, 93, 0xFF09, 0xFF3D]

/-- The brackets of a text in order; `true` for an opening one. -/
def brackets (s : Str) : List Bool :=
  s.filterMap fun u => if u ∈ openings then some true else if u ∈ closings then some false else none

/-- `k` bracket pairs in a row. -/
def bracketPairs : Nat → List Bool
  | 0 => []
  | k + 1 => true :: false :: bracketPairs k

/-- A character that shows that a number next to it is part of something else: the percent sign, a currency sign (Unicode category
Sc), or a letter or mark (categories L and Mn) of the Latin script or of the block of combining diacritical marks.  Bytes that are
not valid UTF-8 count as U+FFFD, which is neither. -/
def Sticky (u : Nat) : Prop :=
  u < badBase ∧ (u = 37 ∨ inRanges scTable u = true ∨
    ((inRanges lTable u = true ∨ inRanges mnTable u = true) ∧ (inRanges latinTable u = true ∨ 0x0300 ≤ u ∧ u ≤ 0x036F)))

/-- One to twenty digits. -/
def Block (d : Str) : Prop := 1 ≤ d.length ∧ d.length ≤ 20 ∧ ∀ u ∈ d, isDig u = true

/-- One to four spaces, hyphens or dots. -/
def Gap (p : Str) : Prop := 1 ≤ p.length ∧ p.length ≤ 4 ∧ ∀ u ∈ p, u = 32 ∨ u = 45 ∨ u = 46

/-- A number as people write it: blocks of digits with gaps between them, after a plus sign or not. -/
def WrittenNumber (plus : Bool) (s : Str) : Prop :=
  ∃ (d : Str) (l : List (Str × Str)), s = (if plus then [43] else []) ++ (d ++ l.flatMap fun x => x.1 ++ x.2) ∧ Block d ∧ l.length ≤ 20 ∧
    ∀ x ∈ l, Gap x.1 ∧ Block x.2

/-- A text without digits, of any script. -/
def NoDigit (s : Str) : Prop := ∀ u ∈ s, inRanges ndTable (rune u) = false

/-- A text without digits, opening brackets and plus signs. -/
def NoStart (s : Str) : Prop := NoDigit s ∧ ∀ u ∈ s, u ∉ openings ∧ u ≠ 43 ∧ u ≠ 0xFF0B

end Verif.Spec
