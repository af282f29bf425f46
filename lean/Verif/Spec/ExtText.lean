import Verif.Spec.Separators
/-!
# Specification: a number and its extension in a text
-/
namespace Verif.Spec

/-- The small letter of a capital one, for the letters of the labels: Latin (also full-width and with an acute accent on the o) and
Cyrillic. -/
def lower (u : Nat) : Nat :=
  if (65 ≤ u ∧ u ≤ 90) ∨ u = 0xD3 ∨ (0x410 ≤ u ∧ u ≤ 0x42F) ∨ (0xFF21 ≤ u ∧ u ≤ 0xFF3A) then u + 32 else u

/-- The words that announce an extension. -/
def explicitWords : List Str :=
  [(str!"xt"), (str!"ext"), (str!"xtn"), (str!"extn"),
   (str!"xtensio"), (str!"extensio"), (str!"xtension"), (str!"extension"),
   (str!"xtensio\u0301"), (str!"extensio\u0301"), (str!"xtensio\u0301n"), (str!"extensio\u0301n"),
   (str!"xtensi\u00f3"), (str!"extensi\u00f3"), (str!"xtensi\u00f3n"), (str!"extensi\u00f3n"),
   (str!"\uff58\uff54"), (str!"\uff45\uff58\uff54"), (str!"\uff58\uff54\uff4e"), (str!"\uff45\uff58\uff54\uff4e"),
   (str!"\u0434\u043e\u0431"), (str!"anexo")]

/-- The shorter and more ambiguous ones. -/
def ambiguousWords : List Str :=
  [(str!"x"), (str!"\uff58"), (str!"#"), (str!"\uff03"), (str!"~"), (str!"\uff5e"), (str!"int"), (str!"\uff49\uff4e\uff54")]

/-- A space, a no-break space or a tab. -/
def isBlank (u : Nat) : Prop := u = ' '.toNat ∨ u = 0xA0 ∨ u = 9

/-- What may stand behind a label: a colon or a full stop, then blanks, commas and hyphens. -/
def AfterLabel (t : Str) : Prop :=
  ∃ m h, t = m ++ h ∧ (m = [] ∨ m = [':'.toNat] ∨ m = ['.'.toNat] ∨ m = [0xFF0E]) ∧
    ∀ u ∈ h, isBlank u ∨ u = ','.toNat ∨ u = '-'.toNat

/-- `ExtLabel x n ends`: the text `x` announces an extension of at most `n` digits, behind which one of `ends` may stand. -/
inductive ExtLabel : Str → Nat → List Str → Prop
  /-- `;ext=`, as in RFC 3966. -/
  | rfc {x : Str} (hx : x.map lower = str!";ext=") : ExtLabel x 20 [[]]
  /-- A word such as "ext." or "extension", after blanks and commas. -/
  | explicit {g w a : Str} (hg : ∀ u ∈ g, isBlank u ∨ u = ','.toNat) (hw : w.map lower ∈ explicitWords) (ha : AfterLabel a) :
      ExtLabel (g ++ (w ++ a)) 20 [[], (str!"#")]
  /-- An `x` or the like. -/
  | ambiguous {g w a : Str} (hg : ∀ u ∈ g, isBlank u ∨ u = ','.toNat) (hw : w.map lower ∈ ambiguousWords) (ha : AfterLabel a) :
      ExtLabel (g ++ (w ++ a)) 9 [[], (str!"#")]
  /-- Two commas or a semicolon, as for automatic dialling. -/
  | auto {g w a : Str} (hg : ∀ u ∈ g, isBlank u) (hw : w = (str!",,") ∨ w = str!";") (ha : AfterLabel a) :
      ExtLabel (g ++ (w ++ a)) 15 [[], (str!"#")]
  /-- Commas. -/
  | commas {g w a : Str} (hg : ∀ u ∈ g, isBlank u) (h1 : 1 ≤ w.length) (hw : ∀ u ∈ w, u = ','.toNat) (ha : AfterLabel a) :
      ExtLabel (g ++ (w ++ a)) 9 [[], (str!"#")]
  /-- Hyphens and spaces, with a number sign behind the digits. -/
  | hash {x : Str} (h1 : 1 ≤ x.length) (hx : ∀ u ∈ x, u = '-'.toNat ∨ u = ' '.toNat) : ExtLabel x 6 [(str!"#")]

/-- The text `t` says an extension with the digits `d`. -/
def ExtText (t d : Str) : Prop :=
  ∃ x n ends e, ExtLabel x n ends ∧ t = x ++ (d ++ e) ∧ 1 ≤ d.length ∧ d.length ≤ n ∧ (∀ u ∈ d, isDecimal u = true) ∧ e ∈ ends

/-- The text `s` says one number, as in `NumberText`, and behind its last digit an extension with the digits `d`. -/
structure NumberExtText (s : Str) (plus : Bool) (ds d : Str) : Prop where
  parts : ∃ number ext back, s = number ++ (ext ++ back) ∧ NumberText number plus ds ∧ (∃ t u, number = t ++ [u] ∧ isDecimal u = true) ∧
    ExtText ext d ∧ (∀ u ∈ back, isEnd u = false ∧ u ≠ ';'.toNat)
  short : blen s ≤ 250

end Verif.Spec
