import Verif.Unicode
import Verif.Spec.Basic
/-!
# Specification of character-level properties
-/
namespace Verif.Spec

/-- `v` is the decimal value of the Unicode decimal digit (category Nd) `c`: `Nd` is a union of ranges made of whole blocks
`0…9`, so the value is the offset in the range modulo ten. -/
def UnicodeDigit (c v : Nat) : Prop := ∃ r ∈ ndTable, r.1 ≤ c ∧ c ≤ r.2 ∧ v = (c - r.1) % 10

/-- `DigitTranscript s t`: `t` lists, in order, the values (as ASCII digits) of the decimal digits of `s`, and nothing else. -/
inductive DigitTranscript : Str → Str → Prop
  | nil : DigitTranscript [] []
  | digit {u v : Nat} {s t : Str} (h : UnicodeDigit (rune u) v) (r : DigitTranscript s t) :
      DigitTranscript (u :: s) (('0'.toNat + v) :: t)
  | other {u : Nat} {s t : Str} (h : ∀ v, ¬ UnicodeDigit (rune u) v) (r : DigitTranscript s t) :
      DigitTranscript (u :: s) t

/-- The letters on the keys 2 to 9 of a telephone keypad. -/
def keys : List String := ["ABC", "DEF", "GHI", "JKL", "MNO", "PQRS", "TUV", "WXYZ"]

/-- The keypad digit (ASCII) of an upper-case letter. -/
def keypadDigit (c : Char) : Option Nat := (keys.findIdx? (fun k => k.toList.contains c)).map (fun i => '2'.toNat + i)

/-- The upper-case ASCII letter a code point is mapped to by Unicode upper-casing, if it is mapped to one: `A`–`Z`, `a`–`z`,
dotless i and long s. -/
def upperLetter (c : Nat) : Option Char :=
  if 'A'.toNat ≤ c ∧ c ≤ 'Z'.toNat then some (Char.ofNat c)
  else if 'a'.toNat ≤ c ∧ c ≤ 'z'.toNat then some (Char.ofNat c).toUpper
  else if c = 'ı'.toNat then some 'I'
  else if c = 'ſ'.toNat then some 'S'
  else none

/-- A string that is valid UTF-8 (no invalid byte). -/
def ValidUtf8 (s : Str) : Prop := ∀ u ∈ s, u < 0x110000

/-- The punctuation that may separate the digits of a phone number: hyphens and dashes, the letter x, spaces, parentheses, square
brackets, slash, full stop and tildes, in ASCII and in the typographic and full-width forms. -/
def isPunct (c : Nat) : Bool :=
  decide (c ∈ [0x2D, 0x78, 0x2010, 0x2011, 0x2012, 0x2013, 0x2014, 0x2015, 0x2212, 0x30FC, 0xFF0D, 0xFF0E, 0xFF0F, 0x20, 0xA0, 0xAD,
    0x200B, 0x2060, 0x3000, 0x28, 0x29, 0xFF08, 0xFF09, 0xFF3B, 0xFF3D, 0x2E, 0x5B, 0x5D, 0x2F, 0x7E, 0x2053, 0x223C, 0xFF5E])

end Verif.Spec
