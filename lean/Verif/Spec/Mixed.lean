import Verif.Spec.FindExt
import Verif.Spec.Local
import Verif.Spec.Mentions
/-!
# Numbers written in different ways in one text
-/
namespace Verif.Spec

/-- A number as it is written within a country, a label and the digits of an extension. -/
def LocalExtension (lead : Bool) (s ext : Str) : Prop :=
  ∃ (w : Str) (x : Str × Nat), s = w ++ (x.1 ++ ext) ∧ WrittenLocally lead w ∧ x ∈ extensionLabels ∧ 1 ≤ ext.length ∧ ext.length ≤ x.2 ∧
    ∀ u ∈ ext, isDig u = true

/-- A number as people write it: as in C64, or as within a country, without or with an extension.  `lead` says that it starts with a
plus sign or an opening parenthesis. -/
def Writes (lead : Bool) (s : Str) : Prop :=
  WrittenNumber lead s ∨ (∃ ext, WithExtension lead s ext) ∨ WrittenLocally lead s ∨ ∃ ext, LocalExtension lead s ext

/-- Signs that stand between two numbers: tab, comma and semicolon. -/
def splitSigns : List Nat := [9, ','.toNat, ';'.toNat]

/-- Signs and letters one of which every word for an extension has: `x`, `n`, `д`, `#` and `~`, also as capitals and in their wide
forms. -/
def labelSigns : List Nat :=
  ['x'.toNat, 'X'.toNat, 'n'.toNat, 'N'.toNat, 'д'.toNat, 'Д'.toNat, '#'.toNat, '~'.toNat, 'ｘ'.toNat, 'Ｘ'.toNat, 'ｎ'.toNat, 'Ｎ'.toNat, '＃'.toNat, '～'.toNat]

/-- The text keeps the numbers around it apart: it has a character that ends a number, or it has a tab, comma or semicolon and nothing
that a word for an extension has. -/
def Splits (t : Str) : Prop :=
  (∃ u ∈ t, Wall u) ∨ ((∃ u ∈ t, u ∈ splitSigns) ∧ ∀ u ∈ t, rune u ∉ labelSigns)

/-- Each number is written in one of these ways and stands apart from the one before it: it starts with a plus sign or the text between
them keeps them apart. -/
def Separate (l : List Mention) : Prop :=
  (∀ x ∈ l, NoStart x.before ∧ Writes x.plus x.raw) ∧ ∀ x ∈ l.tail, x.raw.head? = some '+'.toNat ∨ Splits x.before

/-- No number is followed by a `#`, which could be the end of an extension. -/
def NoHash (l : List Mention) (rest : Str) : Prop :=
  (∀ x ∈ l.tail, x.before.head? ≠ some '#'.toNat) ∧ rest.head? ≠ some '#'.toNat

/-- For each of the numbers: the byte offset of its start, its text, its country code, its national significant number and its
extension, which the E164 form does not have. -/
def placesExt (C : Container) : Nat → Entries → List (Nat × Str × Int × Str × Str)
  | _, [] => []
  | i, x :: l => (i + blen x.1, format C x.2.1 x.2.2, x.2.1.cc, nsnOf x.2.1, if x.2.2 = .e164 then [] else x.2.1.ext) ::
      placesExt C (i + blen (x.1 ++ format C x.2.1 x.2.2)) l

end Verif.Spec
