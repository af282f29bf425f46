import Verif.Spec.Vanity
import Verif.Spec.Layout
import Verif.Model.Nsn
/-!
# Specification: what is kept of a typed number when its letters are to be kept
-/
namespace Verif.Spec

/-- What a typed character is kept as: ASCII digits, plus signs and stars as they are, letters in upper case, hyphens and dashes, slashes,
spaces and dots in their plain form.  Nothing is kept of other characters. -/
def keptChar (c : Nat) : Option Nat :=
  if ('0'.toNat ≤ c ∧ c ≤ '9'.toNat) ∨ c = '+'.toNat ∨ c = '*'.toNat then some c
  else match upperLetter c with
    | some l => some l.toNat
    | none =>
      if c = '-'.toNat ∨ c = 0xFF0D ∨ (0x2010 ≤ c ∧ c ≤ 0x2015) ∨ c = 0x2212 then some '-'.toNat
      else if c = '/'.toNat ∨ c = 0xFF0F then some '/'.toNat
      else if c = ' '.toNat ∨ c = 0x3000 ∨ c = 0x2060 then some ' '.toNat
      else if c = '.'.toNat ∨ c = 0xFF0E then some '.'.toNat
      else none

/-- What is kept of a text (an invalid byte is U+FFFD). -/
def kept (s : Str) : Str := s.filterMap fun u => keptChar (rune u)

/-- `t` is the part of `text` from the first place on where `word` stands; all of `text` if it stands nowhere. -/
inductive From (word text : Str) : Str → Prop
  | found (before t : Str) : text = before ++ t → word <+: t →
      (∀ b t', text = b ++ t' → word <+: t' → before.length ≤ b.length) → From word text t
  | absent : (∀ b t', text = b ++ t' → ¬ word <+: t') → From word text text

/-- The part of the text typed that is taken for the national number: from the first three digits of the number on, if it has more than
three. -/
def NumberPart (n : PhoneNumber) (t : Str) : Prop :=
  if (nsnOf n).length ≤ 3 then t = kept n.raw else From ((nsnOf n).take 3) (kept n.raw) t

/-- A rule such as `0$1` put to the first digits that stand together in the text. -/
inductive RuleOnDigits (rule : Str) : Str → Str → Prop
  | noRule (t : Str) : rule = [] → RuleOnDigits rule t t
  | noDigit (t : Str) : (∀ u ∈ t, isDig u = false) → RuleOnDigits rule t t
  | digits (a d e : Str) : rule ≠ [] → (∀ u ∈ a, isDig u = false) → d ≠ [] → (∀ u ∈ d, isDig u = true) →
      (∀ u, e.head? = some u → isDig u = false) → RuleOnDigits rule (a ++ (d ++ e)) (a ++ (fill [d] rule ++ e))

end Verif.Spec
